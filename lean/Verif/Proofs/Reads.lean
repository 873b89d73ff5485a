import Verif.Spec.Encoding
import Verif.Model.Reader
/-! Lemmas: each operand reader accepts exactly the spellings of its value. -/

namespace Magma
open Spec

theorem bind_ok {E α β : Type} {x : Except E α} {f : α → Except E β} {b : β} :
    (x >>= f) = .ok b ↔ ∃ a, x = .ok a ∧ f a = .ok b := by
  cases x <;> simp [bind, Except.bind]

theorem pure_ok {E α : Type} {a b : α} : (pure a : Except E α) = .ok b ↔ a = b := by
  simp [pure, Except.pure]

theorem ok_ok {E α : Type} {a b : α} : (Except.ok a : Except E α) = .ok b ↔ a = b := by simp

@[simp] theorem fail_ok {α : Type} {e : ReadError} {a : α} : (fail e : R α) ≠ .ok a := by simp [fail]

theorem Reads_nil {ws rest : List UInt32} : Reads [] ws rest ↔ ws = rest := Iff.rfl

theorem Reads_append {o1 o2 : List Operand} : ∀ {ws rest : List UInt32},
    Reads (o1 ++ o2) ws rest ↔ ∃ mid, Reads o1 ws mid ∧ Reads o2 mid rest := by
  induction o1 with
  | nil => simp [Reads]
  | cons o o1 ih =>
    intro ws rest
    cases o <;> simp only [List.cons_append, Reads, ih]
    · constructor
      · rintro ⟨ws', h, mid, h1, h2⟩; exact ⟨mid, ⟨ws', h, h1⟩, h2⟩
      · rintro ⟨mid, ⟨ws', h, h1⟩, h2⟩; exact ⟨ws', h, mid, h1, h2⟩
    · constructor
      · rintro ⟨w, ws', h, hm, mid, h1, h2⟩; exact ⟨mid, ⟨w, ws', h, hm, h1⟩, h2⟩
      · rintro ⟨mid, ⟨w, ws', h, hm, h1⟩, h2⟩; exact ⟨w, ws', h, hm, mid, h1, h2⟩
    · constructor
      · rintro ⟨w, ws', h, hm, mid, h1, h2⟩; exact ⟨mid, ⟨w, ws', h, hm, h1⟩, h2⟩
      · rintro ⟨mid, ⟨w, ws', h, hm, h1⟩, h2⟩; exact ⟨w, ws', h, hm, mid, h1, h2⟩
    · constructor
      · rintro ⟨h, mid, h1, h2⟩; exact ⟨mid, ⟨h, h1⟩, h2⟩
      · rintro ⟨mid, ⟨h, h1⟩, h2⟩; exact ⟨h, mid, h1, h2⟩
    · simp

/-- Reading never panics and never runs forever. -/
def Safe {E α : Type} (x : Except (Fault E) α) : Prop :=
  (∃ a, x = .ok a) ∨ ∃ e, x = .error (.err e)

theorem Safe.ok {E α : Type} (a : α) : Safe (.ok a : Except (Fault E) α) := .inl ⟨a, rfl⟩
theorem Safe.pure {E α : Type} (a : α) : Safe (pure a : Except (Fault E) α) := .inl ⟨a, rfl⟩
theorem Safe.err {E α : Type} (e : E) : Safe (.error (.err e) : Except (Fault E) α) :=
  .inr ⟨e, rfl⟩
theorem Safe.fail {α : Type} (e : ReadError) : Safe (Magma.fail e : R α) := .inr ⟨e, rfl⟩
theorem Safe.bind {E α β : Type} {x : Except (Fault E) α} {f : α → Except (Fault E) β}
    (hx : Safe x) (hf : ∀ a, x = .ok a → Safe (f a)) : Safe (x >>= f) := by
  rcases hx with ⟨a, rfl⟩ | ⟨e, rfl⟩
  · exact hf a rfl
  · exact .inr ⟨e, rfl⟩
theorem Safe.ite {E α : Type} {c : Prop} [Decidable c] {x y : Except (Fault E) α}
    (hx : Safe x) (hy : Safe y) : Safe (if c then x else y) := by
  split <;> assumption

/-- The reader of `α` accepts exactly the spellings given by the specification, and is safe. -/
class Lawful (α : Type) [MemoryBlockRead α] [Encode α] : Prop where
  iff : ∀ (ws rest : List UInt32) (a : α),
    MemoryBlockRead.read ws = .ok (rest, a) ↔ Reads (enc a) ws rest
  safe : ∀ ws : List UInt32, Safe (MemoryBlockRead.read ws : R (Block × α))

theorem readWord_ok {ws rest : List UInt32} {w : UInt32} :
    Block.readWord ws = .ok (rest, w) ↔ ws = w :: rest := by
  cases ws <;> simp [Block.readWord, fail]
  exact and_comm

theorem readWord_safe (ws : List UInt32) : Safe (Block.readWord ws) := by
  cases ws
  · exact .fail _
  · exact .ok _

instance : Lawful UInt32 where
  iff ws rest a := by simp [MemoryBlockRead.read, readWord_ok, enc, Reads]
  safe := readWord_safe

macro "newtype_lawful" : tactic => `(tactic| (
  intro ws rest a
  cases a
  simp only [MemoryBlockRead.read, readWord_ok, bind_ok, pure_ok, Prod.exists]
  simp [enc, Reads]))

macro "newtype_safe" : tactic => `(tactic|
  (intro ws; exact Safe.bind (readWord_safe ws) (fun _ _ => Safe.pure _)))

instance : Lawful OpId where
  iff := by newtype_lawful
  safe := by newtype_safe
instance : Lawful ResultId where
  iff := by newtype_lawful
  safe := by newtype_safe
instance : Lawful SourceVersion where
  iff := by newtype_lawful
  safe := by newtype_safe
instance : Lawful MemberIndex where
  iff := by newtype_lawful
  safe := by newtype_safe

theorem mem_of_lookup {α β : Type} [BEq α] [LawfulBEq α] {l : List (α × β)} {a : α} {b : β}
    (h : l.lookup a = some b) : (a, b) ∈ l := by
  induction l with
  | nil => simp at h
  | cons p l ih =>
    obtain ⟨x, y⟩ := p
    simp only [List.lookup] at h
    split at h
    · rename_i hb
      have : a = x := by simpa using hb
      simp at h; subst h; subst this; simp
    · exact List.mem_cons_of_mem _ (ih h)

/-- Table-driven enumerants -/
theorem readEnum_iff {α : Type} {table : List (UInt32 × α)} {e : UInt32 → ReadError}
    {code : α → UInt32} (h1 : ∀ a, table.lookup (code a) = some a)
    (h2 : ∀ p ∈ table, p.1 = code p.2) (ws rest : List UInt32) (a : α) :
    readEnum table e ws = .ok (rest, a) ↔ Reads [.lit (code a)] ws rest := by
  simp only [readEnum, bind_ok, Prod.exists, readWord_ok, Reads, exists_eq_right]
  constructor
  · rintro ⟨r, w, rfl, h⟩
    split at h
    · rename_i a' ha
      simp only [pure_ok, Prod.mk.injEq] at h
      obtain ⟨rfl, rfl⟩ := h
      rw [← h2 _ (mem_of_lookup ha)]
    · simp at h
  · rintro rfl
    exact ⟨rest, code a, rfl, by simp [h1, pure_ok]⟩

theorem readEnum_safe {α : Type} (table : List (UInt32 × α)) (e : UInt32 → ReadError)
    (ws : List UInt32) : Safe (readEnum table e ws) := by
  unfold readEnum
  refine Safe.bind (readWord_safe ws) fun p _ => ?_
  obtain ⟨b, w⟩ := p
  dsimp only
  split
  · exact .pure _
  · exact .fail _

macro "enum_lawful" t:ident c:ident : tactic => `(tactic|
  exact readEnum_iff (code := $c) (by intro a; cases a <;> rfl)
    (by simp only [$t:ident, List.forall_mem_cons]; simp [$c:ident]))

instance : Lawful BuiltIn where
  iff := by enum_lawful BuiltIn.table builtInCode
  safe := readEnum_safe _ _
instance : Lawful FunctionParameterAttribute where
  iff := by enum_lawful FunctionParameterAttribute.table functionParameterAttributeCode
  safe := readEnum_safe _ _
instance : Lawful FpRoundingMode where
  iff := by enum_lawful FpRoundingMode.table fpRoundingModeCode
  safe := readEnum_safe _ _
instance : Lawful LinkageType where
  iff := by enum_lawful LinkageType.table linkageTypeCode
  safe := readEnum_safe _ _
instance : Lawful AddressingModel where
  iff := by enum_lawful AddressingModel.table addressingModelCode
  safe := readEnum_safe _ _
instance : Lawful MemoryModel where
  iff := by enum_lawful MemoryModel.table memoryModelCode
  safe := readEnum_safe _ _
instance : Lawful ExecutionModel where
  iff := by enum_lawful ExecutionModel.table executionModelCode
  safe := readEnum_safe _ _
instance : Lawful Capability where
  iff := by enum_lawful Capability.table capabilityCode
  safe := readEnum_safe _ _
instance : Lawful Signedness where
  iff := by enum_lawful Signedness.table signednessCode
  safe := readEnum_safe _ _
instance : Lawful StorageClass where
  iff := by enum_lawful StorageClass.table storageClassCode
  safe := readEnum_safe _ _
instance : Lawful Dim where
  iff := by enum_lawful Dim.table dimCode
  safe := readEnum_safe _ _
instance : Lawful DepthStatus where
  iff := by enum_lawful DepthStatus.table depthStatusCode
  safe := readEnum_safe _ _
instance : Lawful Arrayed where
  iff := by enum_lawful Arrayed.table arrayedCode
  safe := readEnum_safe _ _
instance : Lawful MS where
  iff := by enum_lawful MS.table mSCode
  safe := readEnum_safe _ _
instance : Lawful SampledStatus where
  iff := by enum_lawful SampledStatus.table sampledStatusCode
  safe := readEnum_safe _ _
instance : Lawful ImageFormat where
  iff := by enum_lawful ImageFormat.table imageFormatCode
  safe := readEnum_safe _ _
instance : Lawful AccessQualifier where
  iff := by enum_lawful AccessQualifier.table accessQualifierCode
  safe := readEnum_safe _ _

end Magma
