import Verif.Spec.TextSize
import Verif.Proofs.Text
import Verif.Proofs.TextCore
import Verif.Proofs.ReadCost
/-! Lemmas: the size of the listing in terms of the words it is made from. -/

namespace Magma
open Spec

theorem textSize_nil : textSize [] = 0 := rfl

theorem textSize_append (a b : Text) : textSize (a ++ b) = textSize a + textSize b := by
  simp [textSize]

theorem textSize_toList (s : String) : textSize s.toList = s.utf8ByteSize := by
  simp [textSize]

theorem textSize_single (c : Char) : textSize [c] = c.utf8Size := by
  simp [textSize]

theorem textSize_cons (c : Char) (t : Text) : textSize (c :: t) = c.utf8Size + textSize t := by
  rw [show c :: t = [c] ++ t from rfl, textSize_append, textSize_single]

theorem digit_size {c : Char} (h : c.isDigit = true) : c.utf8Size = 1 := by
  simp only [Char.isDigit, Bool.and_eq_true, decide_eq_true_eq] at h
  have h2 : c.val ≤ 127 := UInt32.le_trans h.2 (by decide)
  unfold Char.utf8Size
  exact if_pos h2

theorem textSize_digits {t : Text} (h : ∀ c ∈ t, c.isDigit = true) : textSize t = t.length := by
  induction t with
  | nil => rfl
  | cons c t ih =>
    rw [textSize_cons, digit_size (h c (.head _)), ih (fun c hc => h c (.tail _ hc)), List.length_cons]
    omega

theorem decimal_size {n : Nat} (h : n < 4294967296) : textSize (decimal n) ≤ 10 ∧ (decimal n).length ≤ 10 := by
  rw [decimal_eq, textSize_digits (fun c hc => fmtNat_digit hc)]
  have : (Nat.toDigits 10 n).length ≤ 10 := (Nat.length_toDigits_le_iff (by omega) (by omega)).mpr (by omega)
  exact ⟨this, this⟩

theorem decimal_size_eq (n : Nat) : textSize (decimal n) = (decimal n).length := by
  rw [decimal_eq, textSize_digits (fun c hc => fmtNat_digit hc)]

theorem idText_size (w : UInt32) : textSize (idText w) ≤ 11 := by
  have := (decimal_size w.toNat_lt).1
  have h1 : Char.utf8Size '%' = 1 := by decide
  rw [idText, textSize_cons, h1]
  omega

theorem numberText_size (w : UInt32) : textSize (numberText w) ≤ 10 := (decimal_size w.toNat_lt).1

theorem spaces_size (n : Nat) : textSize (List.replicate n ' ') = n := by
  induction n with
  | zero => rfl
  | succ n ih =>
    have h1 : Char.utf8Size ' ' = 1 := by decide
    rw [List.replicate_succ, textSize_cons, ih, h1]
    omega

theorem leftColumn_size (r : Option UInt32) : textSize (leftColumn r) = 15 := by
  cases r with
  | none => exact spaces_size 15
  | some id =>
    have h1 : Char.utf8Size '%' = 1 := by decide
    have h3 : textSize [' ', '=', ' '] = 3 := by decide
    have := (decimal_size id.toNat_lt).2
    simp only [leftColumn, textSize_append, spaces_size, textSize_cons, h1, decimal_size_eq, List.length_cons]
    rw [textSize_nil]
    have h4 : Char.utf8Size ' ' = 1 := by decide
    have h5 : Char.utf8Size '=' = 1 := by decide
    omega

theorem inLine_nil : inLine [] = [] := rfl

theorem inLine_size_cons (t : Text) (ts : List Text) :
    textSize (inLine (t :: ts)) = 1 + textSize t + textSize (inLine ts) := by
  have h1 : Char.utf8Size ' ' = 1 := by decide
  rw [inLine, List.flatMap_cons, textSize_append, textSize_cons, h1]
  rfl

theorem inLine_size_append (a b : List Text) :
    textSize (inLine (a ++ b)) = textSize (inLine a) + textSize (inLine b) := by
  rw [inLine, List.flatMap_append, textSize_append]
  rfl

theorem nameText_size {names : Table} {k : Nat} (hk : 19 ≤ k) (h : (names.all fun p => p.2.utf8ByteSize ≤ k) = true)
    (w : UInt32) : textSize (nameText names w) ≤ k := by
  unfold nameText
  cases hl : names.lookup w with
  | none =>
    have := (decimal_size w.toNat_lt).1
    have h1 : textSize "Unknown(".toList = 8 := by decide
    have h2 : textSize ")".toList = 1 := by decide
    dsimp only
    rw [textSize_append, textSize_append, h1, h2]
    omega
  | some s =>
    dsimp only
    rw [textSize_toList]
    exact of_decide_eq_true (List.all_eq_true.mp h _ (mem_of_lookup hl))

/-- The sizes of names, each with a separator -/
def total (names : List String) : Nat := (names.map fun s => s.utf8ByteSize + 3).sum

theorem intercalate_size (names : List String) : ∀ s : String,
    (" | ".intercalate (s :: names)).utf8ByteSize = s.utf8ByteSize + total names := by
  induction names with
  | nil => intro s; rw [String.intercalate_singleton]; rfl
  | cons t names ih =>
    intro s
    have h3 : (" | " : String).utf8ByteSize = 3 := by decide
    rw [String.intercalate_cons_cons, String.utf8ByteSize_append, String.utf8ByteSize_append, ih, h3]
    simp only [total, List.map_cons, List.sum_cons]
    omega

theorem flagText_size (names : List String) : (flagText names).utf8ByteSize + 3 ≤ max 7 (total names) := by
  unfold flagText
  cases names with
  | nil => decide
  | cons s names =>
    rw [if_neg (by simp)]
    rw [intercalate_size]
    simp only [total, List.map_cons, List.sum_cons]
    omega

theorem namesOf_total (bits : List String) : ∀ (k : Nat) (f : Nat → Bool), total (namesOf bits k f) ≤ total bits := by
  induction bits with
  | nil => intro k f; exact Nat.le_refl _
  | cons s bits ih =>
    intro k f
    rw [namesOf]
    have := ih (k + 1) f
    by_cases hb : f k = true
    · rw [if_pos hb]
      simp only [total, List.singleton_append, List.map_cons, List.sum_cons] at this ⊢
      omega
    · rw [if_neg hb]
      simp only [total, List.nil_append, List.map_cons, List.sum_cons] at this ⊢
      omega

theorem maskText_size {bits : List String} {k : Nat} (hk : 4 ≤ k) (h : total bits ≤ k + 3) (w : UInt32) :
    textSize (maskText bits w) ≤ k := by
  have h1 := flagText_size (namesOf bits 0 w.toNat.testBit)
  have h2 := namesOf_total bits 0 w.toNat.testBit
  rw [maskText, textSize_toList]
  omega

/-- What is printed is at most 31 bytes for each word that is taken, apart from the slack. -/
class Within (s : Shown) (slack : outParam Nat) : Prop where
  within : ∀ ws, textSize (inLine (s ws).1) + 31 * (s ws).2.length ≤ 31 * ws.length + slack

theorem within_word {f : UInt32 → Text} {c : Nat} (h : ∀ w, textSize (f w) ≤ 30 + c) : Within (shownWord f) c where
  within ws := by
    cases ws with
    | nil => exact Nat.zero_le _
    | cons w ws =>
      have := h w
      simp only [shownWord, inLine_size_cons, inLine_nil, textSize_nil, List.length_cons]
      omega

instance : Within anId 0 := within_word fun w => by have := idText_size w; omega
instance : Within aNumber 0 := within_word fun w => by have := numberText_size w; omega

/-- Names that are short enough -/
class ShortNames (names : Table) : Prop where
  short : (names.all fun p => p.2.utf8ByteSize ≤ 30) = true

instance [h : ShortNames names] : Within (aName names) 0 :=
  within_word fun w => nameText_size (by omega) h.short w

instance : Within (aName capabilityNames) 3 :=
  within_word fun w => nameText_size (by omega) (by decide) w

theorem within_mask {bits : List String} {c : Nat} (h : total bits ≤ 33 + c) : Within (aMask bits) c :=
  within_word fun w => maskText_size (by omega) (by omega) w

theorem inLine_map_size {f : UInt32 → Text} (h : ∀ w, textSize (f w) ≤ 30) (ws : List UInt32) :
    textSize (inLine (ws.map f)) ≤ 31 * ws.length := by
  induction ws with
  | nil => exact Nat.le_refl _
  | cons w ws ih =>
    have := h w
    rw [List.map_cons, inLine_size_cons, List.length_cons]
    omega

instance : Within theIds 0 where
  within ws := inLine_map_size (fun w => by have := idText_size w; omega) ws

instance : Within theNumbers 0 where
  within ws := inLine_map_size (fun w => by have := numberText_size w; omega) ws

theorem textBytes_size (ws : List UInt32) :
    (textBytes ws).length + 4 * ((afterText ws).getD []).length ≤ 4 * ws.length := by
  induction ws with
  | nil => exact Nat.le_refl _
  | cons w ws ih =>
    rw [afterText]
    by_cases h : (wordBytes w).contains 0 = true
    · rw [if_pos h]
      have h0 : (0 : UInt8) ∈ wordBytes w := List.contains_iff_mem.mp h
      have : (textBytes (w :: ws)).length ≤ (wordBytes w).length := by
        obtain ⟨a, b, hab⟩ := List.append_of_mem h0
        rw [textBytes, List.flatMap_cons, hab, List.append_assoc, List.cons_append, List.takeWhile_append]
        split
        · simp
        · have := (List.takeWhile_sublist (l := a) (· ≠ (0 : UInt8))).length_le
          simp only [List.length_append, List.length_cons]
          simp only [ne_eq] at this ⊢
          omega
      have h4 : (wordBytes w).length = 4 := rfl
      simp only [Option.getD_some, List.length_cons]
      omega
    · rw [if_neg h]
      have : (textBytes (w :: ws)).length ≤ (wordBytes w).length + (textBytes ws).length := by
        rw [textBytes, List.flatMap_cons, List.takeWhile_append]
        split
        · rw [List.length_append]; exact Nat.le_refl _
        · have := (List.takeWhile_sublist (l := wordBytes w) (· ≠ (0 : UInt8))).length_le
          simp only [ne_eq] at this ⊢
          omega
      have h4 : (wordBytes w).length = 4 := rfl
      simp only [List.length_cons]
      omega

theorem textOf_size (ws : List UInt32) : textSize ((textOf ws).getD "").toList ≤ (textBytes ws).length := by
  rw [textSize_toList, textOf, String.fromUTF8?]
  split
  · show (String.utf8ByteSize _) ≤ _
    simp [String.fromUTF8, String.utf8ByteSize, ByteArray.size]
  · exact Nat.zero_le _

instance : Within bareString 1 where
  within ws := by
    have h1 := textBytes_size ws
    have h2 := textOf_size ws
    simp only [bareString, inLine_size_cons, inLine_nil, textSize_nil]
    omega

instance : Within aString 3 where
  within ws := by
    have h1 := textBytes_size ws
    have h2 := textOf_size ws
    have h3 : Char.utf8Size '"' = 1 := by decide
    simp only [aString, inLine_size_cons, inLine_nil, textSize_nil, textSize_cons, textSize_append, h3]
    omega

instance : Within (eachOf []) 0 where
  within ws := by
    show 0 + 31 * ws.length ≤ _
    omega

instance [h : Within s c] [hs : Within (eachOf ss) d] : Within (eachOf (s :: ss)) (c + d) where
  within ws := by
    have h1 := h.within ws
    have h2 := hs.within (s ws).2
    rw [eachOf, inLine_size_append]
    dsimp only
    omega

instance [h : Within s c] : Within (ifAny s) c where
  within ws := by
    cases ws with
    | nil => exact Nat.zero_le _
    | cons w ws => exact h.within _

theorem within_le (h : Within s c) (hd : c ≤ d) : Within s d where
  within ws := by have := h.within ws; omega

/-- Operands that belong to a number -/
class WithinEach (operands : Nat → List Shown) (slack : outParam Nat) : Prop where
  each : ∀ n, Within (eachOf (operands n)) slack

instance {operands : Nat → List Shown} [h : ShortNames names] [hs : WithinEach operands c] : Within (withOperands names operands) c where
  within ws := by
    cases ws with
    | nil => exact Nat.zero_le _
    | cons w ws =>
      have h1 := nameText_size (by omega) h.short w
      have h2 := (hs.each w.toNat).within ws
      simp only [withOperands, inLine_size_cons, List.length_cons]
      omega

instance : ShortNames printedBuiltIns := ⟨by decide⟩
instance : ShortNames functionParameterAttributeNames := ⟨by decide⟩
instance : ShortNames fpRoundingModeNames := ⟨by decide⟩
instance : ShortNames linkageTypeNames := ⟨by decide⟩
instance : ShortNames printedExecutionModels := ⟨by decide⟩
instance : ShortNames printedExecutionModes := ⟨by decide⟩
instance : ShortNames printedDecorations := ⟨by decide⟩
instance : ShortNames sourceLanguageNames := ⟨by decide⟩
instance : ShortNames addressingModelNames := ⟨by decide⟩
instance : ShortNames memoryModelNames := ⟨by decide⟩
instance : ShortNames signednessNames := ⟨by decide⟩
instance : ShortNames dimNames := ⟨by decide⟩
instance : ShortNames depthStatusNames := ⟨by decide⟩
instance : ShortNames arrayedNames := ⟨by decide⟩
instance : ShortNames mSNames := ⟨by decide⟩
instance : ShortNames sampledStatusNames := ⟨by decide⟩
instance : ShortNames imageFormatNames := ⟨by decide⟩
instance : ShortNames accessQualifierNames := ⟨by decide⟩
instance : ShortNames storageClassNames := ⟨by decide⟩
instance : Within (aMask fastMathBits) 11 := within_mask (by decide)
instance : Within (aMask functionControlBits) 11 := within_mask (by decide)
instance : Within (aMask memoryAccessBits) 2 := within_mask (by decide)
instance : Within (aMask selectionControlBits) 0 := within_mask (by decide)

instance : WithinEach shownModeOperands 0 where
  each n := by
    unfold shownModeOperands
    split <;> exact within_le inferInstance (by decide)

instance : WithinEach shownDecorationOperands 11 where
  each n := by
    unfold shownDecorationOperands
    split <;> exact within_le inferInstance (by decide)

theorem total_append (a b : List String) : total (a ++ b) = total a + total b := by
  simp [total]

instance : Within aLoopControl 32 where
  within ws := by
    cases ws with
    | nil => decide
    | cons w ws =>
      have h2 := namesOf_total loopControlBits 0 w.toNat.testBit
      have h3 : total loopControlBits = 43 := by decide
      rw [aLoopControl]
      by_cases hb : w.toNat.testBit 3 = true
      · rw [if_pos hb]
        have h1 := flagText_size (namesOf loopControlBits 0 w.toNat.testBit ++
          ["DependencyLength(" ++ toString (ws.headD 0).toNat ++ ")"])
        have h4 : total ["DependencyLength(" ++ toString (ws.headD 0).toNat ++ ")"] =
            21 + textSize (decimal (ws.headD 0).toNat) := by
          have h5 : ("DependencyLength(" : String).utf8ByteSize = 17 := by decide
          have h6 : (")" : String).utf8ByteSize = 1 := by decide
          simp only [total, List.map_cons, List.map_nil, List.sum_cons, List.sum_nil, String.utf8ByteSize_append, h5, h6]
          rw [decimal, textSize_toList]
          omega
        rw [total_append, h4] at h1
        simp only [inLine_size_cons, inLine_nil, textSize_nil, textSize_toList, List.length_cons]
        cases ws with
        | nil =>
          have h7 : textSize (decimal (([] : List UInt32).headD 0).toNat) = 1 := by decide
          rw [h7] at h1
          simp only [List.drop_nil, List.length_nil]
          omega
        | cons v ws =>
          have h7 : textSize (decimal ((v :: ws).headD 0).toNat) ≤ 10 := (decimal_size v.toNat_lt).1
          simp only [List.drop_succ_cons, List.drop_zero, List.length_cons]
          omega
      · rw [if_neg hb]
        have h1 := flagText_size (namesOf loopControlBits 0 w.toNat.testBit)
        simp only [inLine_size_cons, inLine_nil, textSize_nil, textSize_toList, List.length_cons]
        omega

theorem mnemonic_size (code : Nat) : textSize (mnemonic code) ≤ 24 := by
  rw [mnemonic, textSize_toList]
  cases hl : mnemonics.lookup code with
  | none => exact Nat.zero_le _
  | some s =>
    have h : (mnemonics.all fun p => p.2.utf8ByteSize ≤ 24) = true := by decide
    exact of_decide_eq_true (List.all_eq_true.mp h _ (mem_of_lookup hl))

/-- The bytes that may be printed beyond 31 for each word that is taken by the operands -/
def room : Form → Nat
  | .plain => 15
  | .result => 46
  | .typed => 65

theorem lineOf_within {code : Nat} {form : Form} {ss : List Shown} {c : Nat} (hs : shownOperands code = (form, ss))
    (hw : Within (eachOf ss) c) (hc : textSize (mnemonic code) + c ≤ room form) (ops : List UInt32) :
    textSize (lineOf code ops) + 1 ≤ 31 * (ops.length + 1) := by
  rw [lineOf, hs]
  dsimp only
  split
  · have := hw.within ops
    rw [textSize_append, textSize_append, leftColumn_size]
    simp only [room] at hc
    omega
  · rename_i r ws
    have := hw.within ws
    rw [textSize_append, textSize_append, leftColumn_size, List.length_cons]
    simp only [room] at hc
    omega
  · rename_i t r ws
    have := hw.within ws
    have := idText_size t
    rw [textSize_append, textSize_append, leftColumn_size, inLine_size_cons, List.length_cons, List.length_cons]
    simp only [room] at hc
    omega
  · rw [textSize_nil]
    omega

/-- With an id in front there is more room. -/
theorem lineOf_id {code : Nat} {ss : List Shown} {c : Nat} (hs : shownOperands code = (.plain, anId :: ss))
    (hw : Within (eachOf ss) c) (hc : textSize (mnemonic code) + c ≤ 34) {ops : List UInt32} (ho : ops ≠ []) :
    textSize (lineOf code ops) + 1 ≤ 31 * (ops.length + 1) := by
  match ops, ho with
  | w :: ws, _ =>
    have h1 := hw.within ws
    have h2 := idText_size w
    rw [lineOf, hs]
    show textSize (_ ++ _ ++ inLine ([idText w] ++ (eachOf ss ws).1)) + 1 ≤ _
    rw [textSize_append, textSize_append, leftColumn_size, List.singleton_append, inLine_size_cons, List.length_cons]
    omega

/-- A string that is there takes at least a word. -/
theorem lineOf_string {code : Nat} (hs : shownOperands code = (.plain, [aString]))
    (hc : textSize (mnemonic code) ≤ 24) {ops : List UInt32} (ho : ops ≠ []) :
    textSize (lineOf code ops) + 1 ≤ 31 * (ops.length + 1) := by
  have h1 := textBytes_size ops
  have h2 := textOf_size ops
  have h3 : Char.utf8Size '"' = 1 := by decide
  have h4 : 1 ≤ ops.length := List.length_pos_iff.mpr ho
  rw [lineOf, hs]
  show textSize (_ ++ _ ++ inLine ((aString ops).1 ++ [])) + 1 ≤ _
  simp only [aString, List.append_nil, inLine_size_cons, inLine_nil, textSize_nil, textSize_cons, textSize_append, h3,
    leftColumn_size]
  omega

theorem lineOf_loop {ops : List UInt32} (ho : 2 ≤ ops.length) :
    textSize (lineOf 246 ops) + 1 ≤ 31 * (ops.length + 1) := by
  match ops, ho with
  | v :: w :: ws, _ =>
    have h1 := (inferInstance : Within aLoopControl 32).within ws
    have h2 := idText_size v
    have h3 := idText_size w
    have h4 : textSize (mnemonic 246) = 11 := by decide
    show textSize (leftColumn none ++ mnemonic 246 ++ inLine (idText v :: idText w :: ((aLoopControl ws).1 ++ []))) + 1 ≤ _
    rw [textSize_append, textSize_append, leftColumn_size, inLine_size_cons, inLine_size_cons, List.append_nil, h4,
      List.length_cons, List.length_cons]
    omega

/-- The opcodes with lines that are too long when nothing follows -/
def crowded : List Nat := [2, 4, 10, 71, 72, 246, 247, 250]

theorem lineOf_roomy {code : Nat} (h : code ∉ crowded) (ops : List UInt32) :
    textSize (lineOf code ops) + 1 ≤ 31 * (ops.length + 1) := by
  have hm := mnemonic_size code
  have key : ∃ form ss c, shownOperands code = (form, ss) ∧ Within (eachOf ss) c ∧
      textSize (mnemonic code) + c ≤ room form := by
    unfold shownOperands
    split
    all_goals first
      | exact absurd (by decide) h
      | exact ⟨_, _, _, rfl, inferInstance, by decide⟩
      | exact ⟨_, _, 0, rfl, inferInstance, by simp only [room]; omega⟩
  obtain ⟨form, ss, c, hs, hw, hc⟩ := key
  exact lineOf_within hs hw hc ops

theorem lineOf_crowded {code : Nat} (h : code ∈ crowded) {ops : List UInt32} (ho : ops ≠ [])
    (hl : code = 246 → 2 ≤ ops.length) : textSize (lineOf code ops) + 1 ≤ 31 * (ops.length + 1) := by
  simp only [crowded, List.mem_cons, List.not_mem_nil, or_false] at h
  rcases h with rfl | rfl | rfl | rfl | rfl | rfl | rfl | rfl
  · exact lineOf_string rfl (by decide) ho
  · exact lineOf_string rfl (by decide) ho
  · exact lineOf_string rfl (by decide) ho
  · exact lineOf_id rfl inferInstance (by decide) ho
  · exact lineOf_id rfl inferInstance (by decide) ho
  · exact lineOf_loop (hl rfl)
  · exact lineOf_id rfl inferInstance (by decide) ho
  · exact lineOf_id rfl inferInstance (by decide) ho

/-- Words that pass the check of a crowded opcode are not too few. -/
theorem crowded_length {code : Nat} (h : code ∈ crowded) {cs : List Check} (hcs : operandsOf code = some cs)
    {ops rest : List UInt32} (hr : inTurn cs ops = .ok rest) : ops ≠ [] ∧ (code = 246 → 2 ≤ ops.length) := by
  constructor
  · rintro rfl
    simp only [crowded, List.mem_cons, List.not_mem_nil, or_false] at h
    rcases h with rfl | rfl | rfl | rfl | rfl | rfl | rfl | rfl <;> (cases hcs; cases hr)
  · rintro rfl
    cases hcs
    match ops, hr with
    | [], hr => cases hr
    | [_], hr => cases hr
    | _ :: _ :: ws, _ => simp

theorem extLine_size {ext : ExtText} (h : ShortText ext) (imports : List (UInt32 × String)) (ops : List UInt32) :
    textSize (extLine ext imports ops) + 1 ≤ 31 * (ops.length + 1) := by
  unfold extLine
  split
  · rename_i t r set number args
    have h1 := h ((imports.lookup set).getD "") number args
    have h2 := idText_size t
    have h3 := idText_size set
    have h4 : textSize (mnemonic 12) = 9 := by decide
    simp only [textSize_append, leftColumn_size, inLine_size_cons, inLine_nil, textSize_nil, List.length_cons]
    omega
  · rw [textSize_nil]
    omega

theorem instLine_size {X : Type} {ext : ExtText} (h : ShortText ext) {known : List (ExtInstSet X)} {head : UInt32}
    {ops : List UInt32} {sets after : Imports X} (hk : checkInst known sets head ops = .ok after)
    (imports : List (UInt32 × String)) :
    textSize (instLine ext imports (head.toNat % 65536) ops) + 1 ≤ 31 * (ops.length + 1) := by
  unfold instLine
  by_cases h12 : head.toNat % 65536 = 12
  · rw [if_pos h12]
    exact extLine_size h imports ops
  · rw [if_neg h12]
    by_cases hc : head.toNat % 65536 ∈ crowded
    · have h11 : head.toNat % 65536 ≠ 11 := by
        intro h11
        rw [h11] at hc
        exact absurd hc (by decide)
      rw [checkInst] at hk
      simp only [h11, h12, if_false] at hk
      cases hcs : operandsOf (head.toNat % 65536) with
      | none =>
        rw [hcs] at hk
        cases hu : unimplementedOpcodes.lookup (head.toNat % 65536) <;> rw [hu] at hk <;> cases hk
      | some cs =>
        rw [hcs] at hk
        dsimp only at hk
        cases hr : inTurn cs ops with
        | error e => rw [hr] at hk; cases hk
        | ok rest =>
          have := crowded_length hc hcs hr
          exact lineOf_crowded hc this.1 this.2
    · exact lineOf_roomy hc ops

/-- The lines, one under the other -/
def linesText (lines : List Text) : Text := lines.flatMap (· ++ ['\n'])

theorem linesText_cons (l : Text) (ls : List Text) :
    textSize (linesText (l :: ls)) = textSize l + 1 + textSize (linesText ls) := by
  have h1 : textSize ['\n'] = 1 := by decide
  rw [linesText, List.flatMap_cons, textSize_append, textSize_append, h1]
  rfl

theorem linesText_append (a b : List Text) :
    textSize (linesText (a ++ b)) = textSize (linesText a) + textSize (linesText b) := by
  rw [linesText, List.flatMap_append, textSize_append]
  rfl

theorem bodyLines_size {X : Type} {ext : ExtText} (h : ShortText ext) {known : List (ExtInstSet X)}
    {left : List UInt8} : ∀ (n : Nat) (ws : List UInt32), ws.length ≤ n → ∀ (sets : Imports X),
    checkBody known left sets ws = .ok () →
    ∀ imports, textSize (linesText (bodyLines ext imports ws)) ≤ 31 * ws.length := by
  intro n
  induction n with
  | zero =>
    intro ws hn sets _ imports
    obtain rfl := List.eq_nil_of_length_eq_zero (Nat.le_zero.mp hn)
    rw [bodyLines]
    exact Nat.le_refl _
  | succ n ih =>
    intro ws hn sets hk imports
    cases ws with
    | nil => rw [bodyLines]; exact Nat.le_refl _
    | cons head ws =>
      rw [checkBody] at hk
      by_cases hs : ws.length < head.toNat / 65536 - 1
      · simp only [hs, if_true, tooShort] at hk
        split at hk <;> cases hk
      · simp only [hs, if_false] at hk
        cases hi : checkInst known sets head (ws.take (head.toNat / 65536 - 1)) with
        | error e => rw [hi] at hk; cases hk
        | ok after =>
          rw [hi] at hk
          rw [bodyLines, linesText_cons]
          have h1 := instLine_size h hi imports
          have h2 := ih (ws.drop (head.toNat / 65536 - 1)) (by
            rw [List.length_drop]
            rw [List.length_cons] at hn
            omega) after hk (importsAfter imports (head.toNat % 65536) (ws.take (head.toNat / 65536 - 1)))
          rw [List.length_drop] at h2
          rw [List.length_take] at h1
          rw [List.length_cons]
          omega

theorem moduleLines_size {X : Type} {ext : ExtText} (h : ShortText ext) {known : List (ExtInstSet X)}
    {left : List UInt8} (ws : List UInt32) (hk : checkModule known left ws = .ok ()) :
    textSize (linesText (moduleLines ext ws)) ≤ 31 * ws.length := by
  unfold moduleLines
  split
  · rename_i v gen bound schema ws
    have hb : checkBody known left [] ws = .ok () := by
      rw [checkModule] at hk
      cases hv : checkVersion v with
      | error e => rw [hv] at hk; cases hk
      | ok u =>
        rw [hv] at hk
        by_cases hz : schema = 0
        · subst hz
          exact hk
        · simp only [hz] at hk
          cases hk
    have h1 := bodyLines_size h _ ws (Nat.le_refl _) [] hb []
    have h2 : textSize ((generatorNames.lookup (gen.toNat / 65536)).getD "Unknown").toList ≤ 35 := by
      rw [textSize_toList]
      cases hl : generatorNames.lookup (gen.toNat / 65536) with
      | none => decide
      | some s =>
        have h : (generatorNames.all fun p => p.2.utf8ByteSize ≤ 35) = true := by decide
        exact of_decide_eq_true (List.all_eq_true.mp h _ (mem_of_lookup hl))
    have h3 := (decimal_size (n := gen.toNat % 65536) (by omega)).1
    have h4 := (decimal_size bound.toNat_lt).1
    have e1 : textSize "; SPIR-V".toList = 8 := by decide
    have e2 : textSize "; Version: 1.0".toList = 14 := by decide
    have e3 : textSize "; Generator: ".toList = 13 := by decide
    have e4 : textSize "; ".toList = 2 := by decide
    have e5 : textSize "; Bound: ".toList = 9 := by decide
    have e6 : textSize "; Schema: 0".toList = 11 := by decide
    have e7 : textSize (linesText []) = 0 := rfl
    simp only [linesText_append, linesText_cons, textSize_append, e1, e2, e3, e4, e5, e6, e7, List.length_cons]
    omega
  · exact Nat.zero_le _

theorem glslText_short : ShortText glslText := by
  intro name number args
  have h := inLine_map_size (f := idText) (fun w => by have := idText_size w; omega) args
  have h1 : textSize "Sin".toList = 3 := by decide
  have h2 : textSize "Cos".toList = 3 := by decide
  rw [glslText, textSize_append]
  split
  · rw [h1]; omega
  · rw [h2]; omega

theorem disassembly_size {X : Type} {ext : ExtText} (h : ShortText ext) {known : List (ExtInstSet X)}
    {bytes : List UInt8} (hk : reference known bytes = .ok ()) :
    4 * textSize (disassembly ext bytes) ≤ 31 * (bytes.length - 4) := by
  have key : ∃ le rest, bytes.drop 4 = rest ∧ decide (bytes.head? = some 0x03) = le ∧
      checkModule known (wordsOf le rest).2 (wordsOf le rest).1 = .ok () := by
    unfold reference at hk
    split at hk
    · exact ⟨true, _, rfl, rfl, hk⟩
    · exact ⟨false, _, rfl, rfl, hk⟩
    · cases hk
    · rw [tooShort] at hk
      split at hk <;> cases hk
  obtain ⟨le, rest, hrest, hle, hk⟩ := key
  have h1 := moduleLines_size h _ hk
  have h2 := wordsOf_length le rest
  have h3 : rest.length = bytes.length - 4 := by rw [← hrest, List.length_drop]
  have h4 : disassembly ext bytes = linesText (moduleLines ext (wordsOf le rest).1) := by
    rw [disassembly, hrest, hle]
    rfl
  rw [h4]
  omega

end Magma
