import Verif.Proofs.GlslLaws
import Verif.Spec.GlslEncoding
import Verif.Props.Samples
/-! Properties of `read_module` as a whole: C01-C06, C17, C18. -/

namespace Magma.Props
open Spec

/-- C01: `read_module` accepts exactly the spellings of modules, and returns the module that is
spelled. -/
theorem C01_read_iff_spells {X : Type} (known : List (ExtInstSet X)) (bytes : List UInt8)
    (m : RawModule X) : readModule bytes known = .ok m ↔ SpellsModule known m bytes :=
  readModule_iff known bytes m

example : SpellsModule Samples.sets Samples.raw Samples.bytes :=
  (C01_read_iff_spells _ _ _).mp Samples.read_bytes

/-- C01: a byte string is a spelling of at most one module. -/
theorem C01_spelling_unique {X : Type} (known : List (ExtInstSet X)) (bytes : List UInt8)
    (m m' : RawModule X) (h : SpellsModule known m bytes) (h' : SpellsModule known m' bytes) :
    m = m' := by
  rw [← C01_read_iff_spells] at h h'
  rw [h] at h'
  cases h'
  rfl

/-- C02: reading the serialisation of a module gives the module back, in both byte orders. -/
theorem C02_read_encode {X : Type} (encX : X → UInt32 × List UInt32) (known : List (ExtInstSet X))
    (m : RawModule X) (littleEndian : Bool) (h : Serialisable encX known m) :
    readModule (encodeModule encX littleEndian m) known = .ok m :=
  (readModule_iff _ _ _).mpr (serialise_module h littleEndian)

/-- C02: different serialisable modules have different serialisations. -/
theorem C02_encode_injective {X : Type} (encX : X → UInt32 × List UInt32)
    (known : List (ExtInstSet X)) (m m' : RawModule X) (le le' : Bool)
    (h : Serialisable encX known m) (h' : Serialisable encX known m')
    (he : encodeModule encX le m = encodeModule encX le' m') : m = m' := by
  have h1 := C02_read_encode encX known m le h
  rw [he, C02_read_encode encX known m' le' h'] at h1
  cases h1
  rfl

/-- C03: the byte order does not matter, not even for malformed input. -/
theorem C03_byte_order {X : Type} (known : List (ExtInstSet X)) (bytes : List UInt8) :
    readModule (swapWords bytes) known = readModule bytes known :=
  readModule_swapWords bytes known

example : swapWords (Samples.header ++ [1, 2]) =
    [7, 0x23, 2, 3, 0, 1, 0, 0, 0, 8, 0, 1, 0, 0, 0, 20, 0, 0, 0, 0, 1, 2] := by decide

example : readModule (swapWords Samples.bytes) Samples.sets = .ok Samples.raw := by
  rw [C03_byte_order]; exact Samples.read_bytes

/-- C04: `read_module` returns a module or an error, if the instruction sets of the caller do. -/
theorem C04_total {X : Type} (known : List (ExtInstSet X))
    (hk : ∀ s ∈ known, ∀ n ws, (∃ p, s.readInstruction n ws = .ok p) ∨
      ∃ e, s.readInstruction n ws = .error (.err e)) (bytes : List UInt8) :
    (∃ m, readModule bytes known = .ok m) ∨ ∃ e, readModule bytes known = .error (.err e) :=
  readModule_safe hk bytes

/-- C04: with GLSL.std.450 as the known set, there is no panic and no infinite loop on any input. -/
theorem C04_total_glsl (bytes : List UInt8) :
    (∃ m, readModule bytes [Glsl.instSet] = .ok m) ∨
      ∃ e, readModule bytes [Glsl.instSet] = .error (.err e) := by
  refine C04_total _ ?_ bytes
  intro s hs
  simp only [List.mem_singleton] at hs
  subst hs
  exact Glsl.readInst_safe

example : readModule (X := Empty) [1, 2, 3] [] = .error (.err .UnexpectedStreamAlignment) := by rfl
example : readModule (X := Empty) (Samples.header ++ [19, 0, 2, 0]) [] =
    .error (.err .UnexpectedEndOfStream) := by rfl

/-- C05: a prefix of an accepted input is an accepted prefix of the module or an unexpected end. -/
theorem C05_prefix {X : Type} (known : List (ExtInstSet X)) (bytes : List UInt8) (m : RawModule X)
    (h : readModule bytes known = .ok m) (n : Nat) :
    (∃ m', m'.version = m.version ∧ m'.generator = m.generator ∧ m'.bound = m.bound ∧
      m'.instructions <+: m.instructions ∧ readModule (bytes.take n) known = .ok m') ∨
    readModule (bytes.take n) known = .error (.err .UnexpectedEndOfStream) ∨
    readModule (bytes.take n) known = .error (.err .UnexpectedStreamAlignment) := by
  rcases readModule_prefix h n with h | ⟨e, rfl | rfl, h⟩
  · exact .inl h
  · exact .inr (.inl h)
  · exact .inr (.inr h)

/-- C05: the prefixes that are accepted are those that end at the end of an instruction: the bytes
cut off are then the words of the instructions that are missing. -/
theorem C05_cut_on_boundary {X : Type} (known : List (ExtInstSet X)) (bytes : List UInt8)
    (m m' : RawModule X) (h : readModule bytes known = .ok m) (n : Nat)
    (h' : readModule (bytes.take n) known = .ok m') :
    ∃ le ws rest, m.instructions = m'.instructions ++ rest ∧
      bytes.drop n = bytesOf le ws ∧ SpellsBody known m'.instructions rest ws := by
  obtain ⟨ws, hw, hd⟩ := (readModule_iff _ _ _).mp h
  obtain ⟨ws', hw', hd'⟩ := (readModule_iff _ _ _).mp h'
  have hd1 : ∃ le, bytes = bytesOf le ws := by
    rcases hd with h | h
    · exact ⟨true, h⟩
    · exact ⟨false, h⟩
  have hd1' : ∃ le, bytes.take n = bytesOf le ws' := by
    rcases hd' with h | h
    · exact ⟨true, h⟩
    · exact ⟨false, h⟩
  obtain ⟨le, hb⟩ := hd1
  obtain ⟨le', hb'⟩ := hd1'
  obtain ⟨ver, gen, body, rfl, h1, h2, h3, h4⟩ := hw
  obtain ⟨ver', gen', body', rfl, h1', h2', h3', h4'⟩ := hw'
  have hall : bytes = bytes.take n ++ bytes.drop n := (List.take_append_drop n bytes).symm
  rw [hb'] at hall
  have hle : le' = le := by
    rw [hb] at hall
    cases le <;> cases le' <;> first | rfl | (exfalso; simp [bytesOf, wordBytes] at hall)
  subst hle
  generalize hr : bytes.drop n = r at hall ⊢
  rw [hb] at hall
  have hlen := congrArg List.length hall
  simp only [List.length_append, bytesOf_length] at hlen
  obtain ⟨w, hw⟩ : ∃ w, (0x07230203 :: ver :: gen :: m.bound :: 0 :: body) =
      (0x07230203 :: ver' :: gen' :: m'.bound :: 0 :: body') ++ w ∧ r = bytesOf le' w := by
    generalize (0x07230203 :: ver :: gen :: m.bound :: 0 :: body) = a at hall hlen
    generalize (0x07230203 :: ver' :: gen' :: m'.bound :: 0 :: body') = b at hall hlen
    have hs : bytesOf le' (a.take b.length) ++ bytesOf le' (a.drop b.length) = bytesOf le' b ++ r := by
      rw [← bytesOf_append, List.take_append_drop, hall]
    obtain ⟨e1, e2⟩ := List.append_inj hs (by simp only [bytesOf_length, List.length_take]; omega)
    refine ⟨a.drop b.length, ?_, e2.symm⟩
    have e3 := bytesOf_inj e1
    have e4 := List.take_append_drop b.length a
    rw [e3] at e4
    exact e4.symm
  obtain ⟨hw, rfl⟩ := hw
  simp only [List.cons_append, List.cons.injEq, true_and] at hw
  obtain ⟨rfl, rfl, hbd, rfl⟩ := hw
  obtain ⟨b', hinv, hbw⟩ := bodyW_after w [] (Inv.nil known) h4'
  have hok := (bodyW_iff (t := []) (Inv.nil known)).mpr ⟨h4, rfl⟩
  rw [hbw] at hok
  simp only [bind_ok, pure_ok] at hok
  obtain ⟨l, hl, he⟩ := hok
  refine ⟨le', w, l, he.symm, rfl, ?_⟩
  exact ((bodyW_iff hinv).mp hl).1

example : ∃ m', readModule (Samples.bytes.take 44) Samples.sets = .ok m' ∧
    m'.instructions = [.OpExtInstImport ⟨⟨1⟩, "GLSL.std.450"⟩] := ⟨_, rfl, rfl⟩
example : readModule (Samples.bytes.take 45) Samples.sets =
    .error (.err .UnexpectedStreamAlignment) := by rfl

/-- The words of one instruction: the head carries the opcode and the number of words. -/
def IsChunk {X : Type} (ws : List UInt32) (inst : Core X) : Prop :=
  ∃ head ops, ws = head :: ops ∧ head.toNat % 65536 = opcode inst ∧
    ws.length = max 1 (head.toNat / 65536)

/-- C06: the words after the header are the chunks of the instructions, one after the other. -/
theorem C06_framing {X : Type} (known : List (ExtInstSet X)) (bytes : List UInt8) (m : RawModule X)
    (h : readModule bytes known = .ok m) :
    ∃ le header, ∃ chunks : List (List UInt32), header.length = 5 ∧ bytes = bytesOf le (header ++ chunks.flatten) ∧
      chunks.length = m.instructions.length ∧
      ∀ p ∈ chunks.zip m.instructions, IsChunk p.1 p.2 := by
  obtain ⟨ws, ⟨ver, gen, body, rfl, h1, h2, h3, h4⟩, hd⟩ := (readModule_iff _ _ _).mp h
  have key : ∀ (insts : List (Core X)) (before : List (Core X)) (body : List UInt32),
      SpellsBody known before insts body → ∃ chunks : List (List UInt32), body = chunks.flatten ∧
        chunks.length = insts.length ∧ ∀ p ∈ chunks.zip insts, IsChunk p.1 p.2 := by
    intro insts
    induction insts with
    | nil => rintro before body rfl; exact ⟨[], rfl, rfl, by simp⟩
    | cons i insts ih =>
      rintro before body ⟨u, ws', rfl, ⟨_, head, ops, rfl, hh, _⟩, hb⟩
      obtain ⟨chunks, rfl, hl, hc⟩ := ih _ _ hb
      refine ⟨(head :: ops) :: chunks, by simp, by simp [hl], ?_⟩
      simp only [List.zip_cons_cons, List.mem_cons, forall_eq_or_imp]
      refine ⟨⟨head, ops, rfl, IsHead_mod hh, ?_⟩, hc⟩
      obtain ⟨wc, e1, e2, e3⟩ := hh
      simp only [List.length_cons]
      omega
  obtain ⟨chunks, rfl, hl, hc⟩ := key _ _ _ h4
  rcases hd with rfl | rfl
  · exact ⟨true, [0x07230203, ver, gen, m.bound, 0], chunks, rfl, rfl, hl, hc⟩
  · exact ⟨false, [0x07230203, ver, gen, m.bound, 0], chunks, rfl, rfl, hl, hc⟩

example : ∃ chunks : List (List UInt32), chunks.length = 4 ∧
    ∀ p ∈ chunks.zip Samples.raw.instructions, IsChunk p.1 p.2 := by
  obtain ⟨_, _, chunks, _, _, h, hc⟩ := C06_framing _ _ _ Samples.read_bytes
  exact ⟨chunks, h, hc⟩

/-- C17: an error that is not about the end of the input stays the same whatever follows. -/
theorem C17_error_local {X : Type} (known : List (ExtInstSet X)) (bytes more : List UInt8)
    (e : ReadError) (h : readModule bytes known = .error (.err e))
    (h1 : e ≠ .UnexpectedEndOfStream) (h2 : e ≠ .UnexpectedStreamAlignment) :
    readModule (bytes ++ more) known = .error (.err e) := by
  refine readModule_extend h ?_ more
  rintro (h | h)
  · cases h; exact h1 rfl
  · cases h; exact h2 rfl

example : readModule (X := Empty) (Samples.header ++ [8, 0, 1, 0]) [] =
    .error (.err (.UnimplementedOp "OpLine")) := by rfl

/-- C18: what `read_module` returns can be serialised, and reading that gives it again, if the
instruction sets can do so for their own instructions. -/
theorem C18_reserialise {X : Type} (encX : X → UInt32 × List UInt32) (known : List (ExtInstSet X))
    (henc : ∀ s ∈ known, EncodesSet encX s) (bytes : List UInt8) (m : RawModule X) (le : Bool)
    (h : readModule bytes known = .ok m) :
    Serialisable encX known m ∧ readModule (encodeModule encX le m) known = .ok m := by
  have hs := serialisable_of_spells henc ((readModule_iff _ _ _).mp h)
  exact ⟨hs, C02_read_encode encX known m le hs⟩

/-- C18: the canonical serialisation is not longer than the input. -/
theorem C18_canonical_length {X : Type} (encX : X → UInt32 × List UInt32)
    (known : List (ExtInstSet X)) (henc : ∀ s ∈ known, EncodesSet encX s) (bytes : List UInt8)
    (m : RawModule X) (le : Bool) (h : readModule bytes known = .ok m) :
    (encodeModule encX le m).length ≤ bytes.length := by
  obtain ⟨ws, ⟨ver, gen, body, rfl, h1, h2, h3, h4⟩, hd⟩ := (readModule_iff _ _ _).mp h
  have hl := encodeBody_length_le henc h4
  have : bytes.length = 4 * (body.length + 5) := by
    rcases hd with rfl | rfl
    · exact bytesOf_length true _
    · exact bytesOf_length false _
  rw [this, encodeModule, bytesOf_length, encodeWords, List.length_append]
  simp only [List.length_cons, List.length_nil]
  omega

theorem encodesSet_glsl : ∀ s ∈ [Glsl.instSet], EncodesSet glslWords s := by
  intro s hs n args x hx
  simp only [List.mem_singleton] at hs
  subst hs
  obtain ⟨w, rfl, ⟨rfl, rfl⟩ | ⟨rfl, rfl⟩⟩ := Glsl.readInst_ok.mp hx
  · exact ⟨rfl, by simp [glslWords]⟩
  · exact ⟨rfl, by simp [glslWords]⟩

/-- C18 for the GLSL.std.450 set -/
theorem C18_reserialise_glsl (bytes : List UInt8) (m : RawModule Glsl.Inst) (le : Bool)
    (h : readModule bytes [Glsl.instSet] = .ok m) :
    Serialisable glslWords [Glsl.instSet] m ∧
      readModule (encodeModule glslWords le m) [Glsl.instSet] = .ok m :=
  C18_reserialise glslWords _ encodesSet_glsl bytes m le h

/-- The hypothesis of C02 holds of the sample module. -/
example : Serialisable glslWords Samples.sets Samples.raw :=
  (C18_reserialise_glsl _ _ true Samples.read_bytes).1

example : encodeModule glslWords true Samples.raw = Samples.bytes := by rfl

/-! The theorems applied to the sample -/

example : ∃ m, m = Samples.raw ∧ SpellsModule Samples.sets m Samples.bytes :=
  have h := (C01_read_iff_spells _ _ _).mp Samples.read_bytes
  ⟨_, C01_spelling_unique _ _ _ _ h h, h⟩
example (le : Bool) : readModule (encodeModule glslWords le Samples.raw) Samples.sets = .ok Samples.raw :=
  C02_read_encode _ _ _ le (C18_reserialise_glsl _ _ true Samples.read_bytes).1
example (m : RawModule Glsl.Inst) (le : Bool) (h : Serialisable glslWords Samples.sets m)
    (he : encodeModule glslWords le m = Samples.bytes) : m = Samples.raw :=
  C02_encode_injective _ _ _ _ le true h (C18_reserialise_glsl _ _ true Samples.read_bytes).1 he
example (n : Nat) := C05_prefix _ _ _ Samples.read_bytes n
example : ∃ le ws rest, Samples.raw.instructions = [.OpExtInstImport ⟨⟨1⟩, "GLSL.std.450"⟩] ++ rest ∧
    Samples.bytes.drop 44 = bytesOf le ws ∧
    SpellsBody Samples.sets [.OpExtInstImport ⟨⟨1⟩, "GLSL.std.450"⟩] rest ws :=
  C05_cut_on_boundary _ _ _ { Samples.raw with instructions := [.OpExtInstImport ⟨⟨1⟩, "GLSL.std.450"⟩] }
    Samples.read_bytes 44 (by rfl)
example (more : List UInt8) : readModule (X := Empty) (Samples.header ++ [8, 0, 1, 0] ++ more) [] =
    .error (.err (.UnimplementedOp "OpLine")) := C17_error_local _ _ more _ (by rfl) nofun nofun
example : (encodeModule glslWords false Samples.raw).length ≤ Samples.bytes.length :=
  C18_canonical_length _ _ encodesSet_glsl _ _ false Samples.read_bytes

end Magma.Props
