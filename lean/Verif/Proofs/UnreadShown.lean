import Verif.Spec.Unread
import Verif.Proofs.TextCore
import Verif.Proofs.Listing
/-! Lemmas: the operands of instructions that are printed but not read. -/

namespace Magma
open Spec

instance : Token Line := Token.word
  (fun a b h => by cases a; cases b; exact congrArg _ (display_u32_inj h))
  (fun _ => fmtNat_space _) (fun _ => fmtNat_head _) (fun _ _ => fmtNat_plain)

instance : Token Column := Token.word
  (fun a b h => by cases a; cases b; exact congrArg _ (display_u32_inj h))
  (fun _ => fmtNat_space _) (fun _ => fmtNat_head _) (fun _ _ => fmtNat_plain)

instance : Token SamplerAddressingMode := Token.enum SamplerAddressingMode.ctorIdx SamplerAddressingMode.ofNat
  SamplerAddressingMode.ofNat_ctorIdx 5 (fun a => by cases a <;> decide) (by decide +kernel) (by decide +kernel)

instance : Token SamplerParam := Token.enum SamplerParam.ctorIdx SamplerParam.ofNat
  SamplerParam.ofNat_ctorIdx 2 (fun a => by cases a <;> decide) (by decide +kernel) (by decide +kernel)

instance : Token SamplerFilterMode := Token.enum SamplerFilterMode.ctorIdx SamplerFilterMode.ofNat
  SamplerFilterMode.ofNat_ctorIdx 2 (fun a => by cases a <;> decide) (by decide +kernel) (by decide +kernel)

/-- A word of an operand is printed by the table as the printer prints the operand, whatever follows. -/
class ShowsWord (α : Type) [Display α] [Words α] (f : outParam (UInt32 → Text)) : Prop where
  shows : ∀ a : α, ∃ w, words a = [w] ∧ f w = Display.fmt a

theorem idText_id (i : UInt32) : idText i = Display.fmt (OpId.mk i) := by
  show '%' :: decimal i.toNat = '%' :: fmtNat i.toNat
  rw [decimal_eq]

theorem numberText_number (n : UInt32) : numberText n = Display.fmt n := decimal_eq _

instance : ShowsWord OpId idText := ⟨fun _ => ⟨_, rfl, idText_id _⟩⟩
instance : ShowsWord UInt32 numberText := ⟨fun _ => ⟨_, rfl, numberText_number _⟩⟩
instance : ShowsWord MemberIndex numberText := ⟨fun _ => ⟨_, rfl, numberText_number _⟩⟩
instance : ShowsWord Line numberText := ⟨fun _ => ⟨_, rfl, numberText_number _⟩⟩
instance : ShowsWord Column numberText := ⟨fun _ => ⟨_, rfl, numberText_number _⟩⟩
instance : ShowsWord StorageClass (nameText storageClassNames) :=
  ⟨fun a => ⟨storageClassCode a, rfl, by cases a <;> decide +kernel⟩⟩
instance : ShowsWord SamplerAddressingMode (nameText samplerAddressingModeNames) :=
  ⟨fun a => by cases a <;> exact ⟨_, rfl, by decide +kernel⟩⟩
instance : ShowsWord SamplerParam numberText := ⟨fun a => by cases a <;> exact ⟨_, rfl, by decide +kernel⟩⟩
instance : ShowsWord SamplerFilterMode (nameText samplerFilterModeNames) :=
  ⟨fun a => by cases a <;> exact ⟨_, rfl, by decide +kernel⟩⟩
instance : ShowsWord MemoryAccess (maskText memoryAccessBits) := ⟨fun a => by
  obtain ⟨v, l, n⟩ := a
  exact ⟨_, rfl, by cases v <;> cases l <;> cases n <;> decide +kernel⟩⟩

/-- An operand that others follow -/
theorem shown_mid {α : Type} [Display α] [Words α] {f : UInt32 → Text} [ShowsWord α f] (a : α) (ss : List Shown)
    (ws : List UInt32) : inLine (eachOf (shownWord f :: ss) (words a ++ ws)).1 =
      FormatArg.formatArg a ++ inLine (eachOf ss ws).1 := by
  obtain ⟨w, h, e⟩ := ShowsWord.shows a
  rw [h]
  show inLine ([f w] ++ (eachOf ss ws).1) = (" ".toList ++ Display.fmt a) ++ _
  rw [inLine_append, inLine_one, e]

/-- The last operand -/
theorem shown_end {α : Type} [Display α] [Words α] {f : UInt32 → Text} [ShowsWord α f] (a : α) :
    inLine (eachOf [shownWord f] (words a)).1 = FormatArg.formatArg a := by
  have := shown_mid a [] []
  rw [List.append_nil] at this
  rw [this]
  exact List.append_nil _

/-- An operand that may be missing -/
theorem shown_any {α : Type} [Display α] [Words α] {f : UInt32 → Text} [ShowsWord α f] (a : Option α) :
    inLine (eachOf [ifAny (shownWord f)] (words a)).1 = FormatArg.formatArg a := by
  cases a with
  | none => rfl
  | some a =>
    obtain ⟨w, h, e⟩ := ShowsWord.shows a
    have h' : words (some a) = [w] := by
      show [a].flatMap words = [w]
      rw [List.flatMap_cons, h]
      rfl
    rw [h']
    show inLine ([f w] ++ []) = " ".toList ++ Display.fmt a
    rw [List.append_nil, inLine_one, e]

/-- Operands up to the end -/
theorem shown_all {α : Type} [Display α] [Words α] {f : UInt32 → Text} [ShowsWord α f] (as : List α) :
    inLine (eachOf [fun ws => (ws.map f, [])] (words as)).1 = FormatArg.formatArg as := by
  show inLine ((words as).map f ++ []) = _
  rw [List.append_nil]
  induction as with
  | nil => rfl
  | cons a as ih =>
    obtain ⟨w, h, e⟩ := ShowsWord.shows a
    have h' : words (a :: as) = w :: words as := by
      show (a :: as).flatMap words = _
      rw [List.flatMap_cons, h]
      rfl
    rw [h', formatArg_cons, ← ih]
    show inLine ([f w] ++ (words as).map f) = _
    rw [inLine_append, inLine_one, e]
    rfl

theorem shown_none : inLine (eachOf [] ([] : List UInt32)).1 = [] := rfl

theorem unread_mem {code : Nat} {name : String} (h : unreadNames.lookup code = some name) : (code, name) ∈ unreadNames := by
  generalize unreadNames = l at h
  induction l with
  | nil => cases h
  | cons p l ih =>
    obtain ⟨a, b⟩ := p
    rw [List.lookup_cons] at h
    split at h
    · rename_i e
      cases h
      rw [eq_of_beq e]
      exact List.mem_cons_self
    · exact List.mem_cons_of_mem _ (ih h)

/-- The type -/
theorem inLine_type (t : OpId) (parts : List Text) :
    inLine (idText t.val :: parts) = FormatArg.formatArg t ++ inLine parts := by
  show inLine ([idText t.val] ++ parts) = (" ".toList ++ Display.fmt t) ++ _
  rw [inLine_append, inLine_one, idText_id]

theorem line_plain (code : Nat) (name : String) {ss : List Shown} {ws : List UInt32} {args : Text}
    (h : unreadOperands code = (.plain, ss)) (hn : unreadNames.lookup code = some name)
    (ha : inLine (eachOf ss ws).1 = args) : fmtNoResult ++ (name.toList ++ args) = unreadLine code ws := by
  unfold unreadLine
  rw [h, hn, ← ha, ← List.append_assoc]
  rfl

theorem line_plain0 (code : Nat) (name : String)
    (h : unreadOperands code = (.plain, [])) (hn : unreadNames.lookup code = some name) :
    fmtNoResult ++ (name.toList ++ []) = unreadLine code [] :=
  line_plain code name h hn rfl

theorem line_result0 (code : Nat) (name : String) (r : ResultId)
    (h : unreadOperands code = (.result, [])) (hn : unreadNames.lookup code = some name) :
    fmtResult r ++ (name.toList ++ []) = unreadLine code (words r) := by
  unfold unreadLine
  rw [h, hn, leftColumn_some, ← List.append_assoc]
  rfl

theorem line_typed (code : Nat) (name : String) (t : OpId) (r : ResultId) {ss : List Shown} {ws : List UInt32}
    {args : Text} (h : unreadOperands code = (.typed, ss)) (hn : unreadNames.lookup code = some name)
    (ha : inLine (eachOf ss ws).1 = args) : fmtResult r ++ (name.toList ++ (FormatArg.formatArg t ++ args)) =
      unreadLine code (words t ++ (words r ++ ws)) := by
  unfold unreadLine
  rw [h, hn, ← ha, leftColumn_some, ← inLine_type, ← List.append_assoc]
  rfl

theorem line_typed0 (code : Nat) (name : String) (t : OpId) (r : ResultId)
    (h : unreadOperands code = (.typed, [])) (hn : unreadNames.lookup code = some name) :
    fmtResult r ++ (name.toList ++ FormatArg.formatArg t) = unreadLine code (words t ++ words r) := by
  have := line_typed code name t r (ws := []) h hn rfl
  rw [List.append_nil] at this
  rw [← List.append_nil (FormatArg.formatArg t)]
  exact this

theorem append3 {α : Type} {a b c : List α} : a ++ b ++ c = a ++ (b ++ c) := List.append_assoc _ _ _
theorem append4 {α : Type} {a b c d : List α} : a ++ b ++ c ++ d = a ++ (b ++ (c ++ d)) := by
  simp only [List.append_assoc]
theorem append5 {α : Type} {a b c d e : List α} : a ++ b ++ c ++ d ++ e = a ++ (b ++ (c ++ (d ++ e))) := by
  simp only [List.append_assoc]

theorem composite_shown (t : OpId) (r : ResultId) :
    Display.fmt (OpCompositeConstruct.mk t r []) = unreadLine 80 (words t ++ words r ++ words ([] : List MemberIndex)) :=
  assoc2.trans ((line_typed 80 "OpCompositeConstruct" t r (ss := [theIds]) (ws := words ([] : List MemberIndex))
    (args := []) rfl (by decide +kernel) rfl).trans
    (congrArg (unreadLine 80) append3.symm))

end Magma
