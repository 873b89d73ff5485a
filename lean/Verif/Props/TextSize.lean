import Verif.Proofs.TextSize
import Verif.Proofs.ReferenceModule
import Verif.Props.Listing
/-! C73: the size of the disassembly. -/

namespace Magma.Props
open Spec
variable {X : Type}

/-! ### C73 -/

/-- C73: the disassembly of a module has at most 31/4 times as many bytes as the module (without the magic number),
if the instructions of the extended sets are printed shortly enough. -/
theorem C73_bound [Display X] {ext : ExtText} {known : List (ExtInstSet X)} (hx : ShowsSets ext known)
    (hs : ShortText ext) {bytes : List UInt8} {m : RawModule X} (h : readModule bytes known = .ok m) :
    4 * (String.ofList m.fmt).utf8ByteSize ≤ 31 * (bytes.length - 4) := by
  rw [C66_text hx h]
  refine disassembly_size hs (known := known) ?_
  rw [← readModule_reference, h]
  rfl

/-- C73: with the set of the crate there is no condition. -/
theorem C73_glsl {bytes : List UInt8} {m : RawModule Glsl.Inst} (h : readModule bytes [Glsl.instSet] = .ok m) :
    4 * (String.ofList m.fmt).utf8ByteSize ≤ 31 * (bytes.length - 4) := by
  have hr : reference [Glsl.instSet] bytes = .ok () := by
    rw [← readModule_reference, h]
    rfl
  have ht : m.fmt = disassembly glslText bytes := by
    have := C66_glsl bytes
    rw [h, hr] at this
    exact Except.ok.inj this
  rw [ht]
  exact disassembly_size glslText_short hr

/-- A capability with a long name, as an instruction -/
def longCapability : List UInt8 := [17, 0, 2, 0, 28, 0, 0, 0]

/-- A module with that capability `n` times -/
def longBytes (n : Nat) : List UInt8 := Samples.header ++ (List.replicate n longCapability).flatten

theorem longBytes_length (n : Nat) : (longBytes n).length = 20 + 8 * n := by
  induction n with
  | zero => rfl
  | succ n ih =>
    rw [longBytes, List.length_append] at ih ⊢
    rw [List.replicate_succ, List.flatten_cons, List.length_append]
    have : longCapability.length = 8 := rfl
    omega

theorem longWords (n : Nat) : wordsOf true (List.replicate n longCapability).flatten =
    ((List.replicate n [0x20011, 28]).flatten, []) := by
  induction n with
  | zero => rfl
  | succ n ih =>
    rw [List.replicate_succ, List.flatten_cons, List.replicate_succ, List.flatten_cons]
    show wordsOf true (17 :: 0 :: 2 :: 0 :: 28 :: 0 :: 0 :: 0 :: (List.replicate n longCapability).flatten) = _
    rw [wordsOf, wordsOf, ih]
    rfl

theorem long_accepted (known : List (ExtInstSet X)) (n : Nat) : reference known (longBytes n) = .ok () := by
  have hb : checkBody known [] [] (List.replicate n [0x20011, 28]).flatten = .ok () := by
    induction n with
    | zero => rw [List.replicate_zero, List.flatten_nil, checkBody]; rfl
    | succ n ih =>
      rw [List.replicate_succ, List.flatten_cons]
      show checkBody known [] [] (0x20011 :: 28 :: (List.replicate n [0x20011, 28]).flatten) = _
      rw [checkBody]
      have hn : (0x20011 : UInt32).toNat / 65536 - 1 = 1 := by decide
      rw [hn, if_neg (by rw [List.length_cons]; omega)]
      exact ih
  show checkModule known (wordsOf true (0 :: 0 :: 1 :: 0 :: 1 :: 0 :: 8 :: 0 :: 20 :: 0 :: 0 :: 0 :: 0 :: 0 :: 0 :: 0 ::
    (List.replicate n longCapability).flatten)).2 (wordsOf true (0 :: 0 :: 1 :: 0 :: 1 :: 0 :: 8 :: 0 :: 20 :: 0 :: 0 ::
    0 :: 0 :: 0 :: 0 :: 0 :: (List.replicate n longCapability).flatten)).1 = _
  rw [wordsOf, wordsOf, wordsOf, wordsOf, longWords]
  exact hb

theorem long_text (ext : ExtText) (n : Nat) : 62 * n ≤ textSize (disassembly ext (longBytes n)) := by
  have hb : textSize (linesText (bodyLines ext [] (List.replicate n [0x20011, 28]).flatten)) = 62 * n := by
    induction n with
    | zero => rw [List.replicate_zero, List.flatten_nil, bodyLines]; rfl
    | succ n ih =>
      rw [List.replicate_succ, List.flatten_cons]
      show textSize (linesText (bodyLines ext [] (0x20011 :: 28 :: (List.replicate n [0x20011, 28]).flatten))) = _
      have hn : (0x20011 : UInt32).toNat / 65536 - 1 = 1 := by decide
      have hl : textSize (lineOf 17 [28]) = 61 := by decide +kernel
      rw [bodyLines, linesText_cons, hn]
      show textSize (lineOf 17 [28]) + 1 +
        textSize (linesText (bodyLines ext [] (List.replicate n [0x20011, 28]).flatten)) = _
      rw [ih, hl]
      omega
  have hd : disassembly ext (longBytes n) = linesText (moduleLines ext (wordsOf true (0 :: 0 :: 1 :: 0 :: 1 :: 0 :: 8 ::
      0 :: 20 :: 0 :: 0 :: 0 :: 0 :: 0 :: 0 :: 0 :: (List.replicate n longCapability).flatten)).1) := rfl
  rw [hd, wordsOf, wordsOf, wordsOf, wordsOf, longWords]
  simp only [moduleLines]
  rw [linesText_append, hb]
  omega

/-- C73: no smaller factor will do. For every `n` there is a module of `20 + 8 n` bytes with a disassembly of at
least `62 n` bytes. -/
theorem C73_sharp (X : Type) [Display X] (n : Nat) :
    ∃ bytes, ∃ m : RawModule X, readModule bytes [] = .ok m ∧ bytes.length = 20 + 8 * n ∧
      31 * (bytes.length - 20) ≤ 4 * (String.ofList m.fmt).utf8ByteSize := by
  have h := readModule_reference ([] : List (ExtInstSet X)) (longBytes n)
  rw [long_accepted] at h
  cases hm : readModule (longBytes n) ([] : List (ExtInstSet X)) with
  | error e => rw [hm] at h; cases h
  | ok m =>
    refine ⟨longBytes n, m, hm, longBytes_length n, ?_⟩
    rw [C66_text (ext := glslText) (fun _ h => by cases h) hm, longBytes_length]
    have := long_text glslText n
    rw [textSize] at this
    omega

/-- C73: so a factor that bounds the size of every disassembly is at least 31/4, even with something added. -/
theorem C73_least (X : Type) [Display X] (p q extra : Nat)
    (h : ∀ bytes, ∀ m : RawModule X, readModule bytes [] = .ok m →
      q * (String.ofList m.fmt).utf8ByteSize ≤ p * bytes.length + extra) : 31 * q ≤ 4 * p := by
  apply Nat.le_of_not_lt
  intro hlt
  obtain ⟨bytes, m, hm, hl, hs⟩ := C73_sharp X (40 * p + 2 * extra + 1)
  have h1 := h bytes m hm
  rw [hl] at h1 hs
  generalize (String.ofList m.fmt).utf8ByteSize = size at h1 hs
  have h2 : q * (62 * (40 * p + 2 * extra + 1)) ≤ q * size := Nat.mul_le_mul_left q (by omega)
  have h3 : (4 * p + 1) * (2 * (40 * p + 2 * extra + 1)) ≤ 31 * q * (2 * (40 * p + 2 * extra + 1)) :=
    Nat.mul_le_mul_right _ (by omega)
  have h4 : q * (62 * (40 * p + 2 * extra + 1)) = 31 * q * (2 * (40 * p + 2 * extra + 1)) := by
    rw [show 62 * (40 * p + 2 * extra + 1) = 31 * (2 * (40 * p + 2 * extra + 1)) by omega, ← Nat.mul_assoc,
      Nat.mul_comm q 31]
  have h5 : (4 * p + 1) * (2 * (40 * p + 2 * extra + 1)) =
      4 * p * (2 * (40 * p + 2 * extra + 1)) + 2 * (40 * p + 2 * extra + 1) := by
    rw [Nat.add_mul, Nat.one_mul]
  have h6 : p * (20 + 8 * (40 * p + 2 * extra + 1)) = 20 * p + 4 * p * (2 * (40 * p + 2 * extra + 1)) := by
    rw [Nat.mul_add, Nat.mul_comm p 20, show 8 * (40 * p + 2 * extra + 1) = 4 * (2 * (40 * p + 2 * extra + 1)) by omega,
      ← Nat.mul_assoc, Nat.mul_comm p 4]
  omega

/-- Non-vacuity: the module with an import and an instruction of the set. It has 68 bytes. -/
example : ∃ m, readModule sinBytes [Glsl.instSet] = .ok m ∧ sinBytes.length = 68 ∧
    4 * (String.ofList m.fmt).utf8ByteSize ≤ 31 * 64 := by
  have hr : ∃ m, readModule sinBytes [Glsl.instSet] = .ok m := ⟨_, rfl⟩
  obtain ⟨m, h⟩ := hr
  exact ⟨m, h, rfl, C73_glsl h⟩

/-- The lines of the largest ratio: 62 bytes for two words -/
example : lineOf 17 [28] = "               OpCapability UniformBufferArrayDynamicIndexing".toList := by
  decide +kernel

end Magma.Props
