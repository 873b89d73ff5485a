import Verif.Proofs.ReadsString
import Mathlib.Tactic.Simproc.ExistsAndEq
/-! Lemmas: optional, variadic and bit mask operands. -/

namespace Magma
open Spec

/-- The operand list starts with something that takes at least one word. -/
def takesWord : List Operand → Bool
  | .lit _ :: _ | .mask _ _ :: _ | .str _ :: _ | .never :: _ => true
  | _ => false

theorem Reads_suffix {os : List Operand} : ∀ {ws rest : List UInt32}, Reads os ws rest →
    ∃ u, ws = u ++ rest := by
  induction os with
  | nil => intro ws rest h; exact ⟨[], h⟩
  | cons o os ih =>
    intro ws rest h
    cases o <;> simp only [Reads] at h
    · obtain ⟨ws', rfl, h⟩ := h
      obtain ⟨u, rfl⟩ := ih h
      exact ⟨_ :: u, rfl⟩
    · obtain ⟨w, ws', rfl, _, h⟩ := h
      obtain ⟨u, rfl⟩ := ih h
      exact ⟨w :: u, rfl⟩
    · obtain ⟨w, ws', rfl, _, h⟩ := h
      obtain ⟨u, rfl⟩ := ih h
      exact ⟨w ++ u, by simp⟩
    · obtain ⟨rfl, h⟩ := h
      exact ih h

theorem SpellsString_ne_nil {s : String} {u : List UInt32} (h : SpellsString s u) : u ≠ [] := by
  rintro rfl
  exact StringWords_nil h

theorem Reads_lt {os : List Operand} {ws rest : List UInt32} (h : Reads os ws rest)
    (ho : takesWord os = true) : rest.length < ws.length := by
  match os, ho with
  | .lit w :: os, _ =>
    obtain ⟨ws', rfl, h⟩ := h
    obtain ⟨u, rfl⟩ := Reads_suffix h
    simp; omega
  | .mask i v :: os, _ =>
    obtain ⟨w, ws', rfl, _, h⟩ := h
    obtain ⟨u, rfl⟩ := Reads_suffix h
    simp; omega
  | .str s :: os, _ =>
    obtain ⟨u', ws', rfl, hs, h⟩ := h
    obtain ⟨u, rfl⟩ := Reads_suffix h
    have := List.length_pos_iff.mpr (SpellsString_ne_nil hs)
    simp; omega
  | .never :: os, _ => exact h.elim

/-- Every value takes at least one word. -/
class Eats (α : Type) [Encode α] : Prop where
  eats : ∀ a : α, takesWord (enc a) = true

instance : Eats OpId := ⟨fun _ => rfl⟩
instance : Eats UInt32 := ⟨fun _ => rfl⟩
instance : Eats String := ⟨fun _ => rfl⟩
instance : Eats AccessQualifier := ⟨fun _ => rfl⟩
instance : Eats MemoryAccess := ⟨fun _ => rfl⟩
instance : Eats BranchWeights := ⟨fun _ => rfl⟩
instance : Eats PhiArg := ⟨fun _ => rfl⟩

instance {α : Type} [MemoryBlockRead α] [Encode α] [Lawful α] [Eats α] : Lawful (Option α) where
  iff ws rest a := by
    simp only [MemoryBlockRead.read, Block.remaining]
    cases ws with
    | nil =>
      cases a with
      | none => simp [enc, Reads]
      | some a =>
        simp only [List.length_nil, Nat.lt_irrefl, gt_iff_lt, ite_false, ok_ok, Prod.mk.injEq,
          reduceCtorEq, and_false, false_iff]
        intro h
        have := Reads_lt (os := enc a) h (Eats.eats a)
        simp at this
    | cons w ws =>
      simp only [List.length_cons, gt_iff_lt, Nat.zero_lt_succ, ite_true, bind_ok, Prod.exists,
        Lawful.iff, pure_ok, Prod.mk.injEq]
      cases a with
      | none => simp [enc, Reads]
      | some a =>
        constructor
        · rintro ⟨r, b, h, rfl, hb⟩
          cases hb
          exact h
        · intro h
          exact ⟨rest, a, h, rfl, rfl⟩
  safe ws := by
    simp only [MemoryBlockRead.read]
    split
    · exact Safe.bind (Lawful.safe ws) fun _ _ => .pure _
    · exact .ok _

theorem readVecLoop_iff {α : Type} [MemoryBlockRead α] [Encode α] [Lawful α] [Eats α] :
    ∀ (fuel : Nat) (ws rest : List UInt32) (acc l : List α), ws.length < fuel →
    (readVecLoop fuel ws acc = .ok (rest, l) ↔
      ∃ l', l = acc.reverse ++ l' ∧ Reads (l'.flatMap enc) ws [] ∧ rest = []) := by
  intro fuel
  induction fuel with
  | zero => intro ws rest acc l h; omega
  | succ fuel ih =>
    intro ws rest acc l hf
    simp only [readVecLoop]
    by_cases hw : Block.remaining ws > 0
    · rw [if_pos hw]
      simp only [bind_ok, Prod.exists, Lawful.iff]
      constructor
      · rintro ⟨r, a, h, h2⟩
        have hlt := Reads_lt h (Eats.eats a)
        rw [ih _ _ _ _ (by omega)] at h2
        obtain ⟨l', rfl, h3, rfl⟩ := h2
        refine ⟨a :: l', by simp, ?_, rfl⟩
        rw [List.flatMap_cons, Reads_append]
        exact ⟨r, h, h3⟩
      · rintro ⟨l', rfl, h, rfl⟩
        cases l' with
        | nil => simp [Reads] at h; simp [h, Block.remaining] at hw
        | cons a l' =>
          rw [List.flatMap_cons, Reads_append] at h
          obtain ⟨r, h, h3⟩ := h
          have hlt := Reads_lt h (Eats.eats a)
          exact ⟨r, a, h, (ih _ _ _ _ (by omega)).mpr ⟨l', by simp, h3, rfl⟩⟩
    · rw [if_neg hw]
      have : ws = [] := by cases ws <;> simp_all [Block.remaining]
      subst this
      simp only [ok_ok, Prod.mk.injEq]
      constructor
      · rintro ⟨rfl, rfl⟩
        exact ⟨[], by simp, by simp [Reads], rfl⟩
      · rintro ⟨l', rfl, h, rfl⟩
        cases l' with
        | nil => simp
        | cons a l' =>
          rw [List.flatMap_cons, Reads_append] at h
          obtain ⟨r, h, h3⟩ := h
          have hlt := Reads_lt h (Eats.eats a)
          simp at hlt

theorem readVecLoop_safe {α : Type} [MemoryBlockRead α] [Encode α] [Lawful α] [Eats α] :
    ∀ (fuel : Nat) (ws : List UInt32) (acc : List α), ws.length < fuel →
    Safe (readVecLoop fuel ws acc) := by
  intro fuel
  induction fuel with
  | zero => intro ws acc h; omega
  | succ fuel ih =>
    intro ws acc hf
    simp only [readVecLoop]
    split
    · refine Safe.bind (Lawful.safe ws) fun p hp => ?_
      obtain ⟨r, a⟩ := p
      have hlt := Reads_lt ((Lawful.iff _ _ _).mp hp) (Eats.eats a)
      exact ih _ _ (by dsimp only; omega)
    · exact .ok _

/-- The element size is at least one word: the division in the `Vec` reader does not panic. -/
class WordSized (α : Type) [RustSize α] : Prop where
  sized : min 1 (RustSize.size α / 4) ≠ 0

instance : WordSized OpId := ⟨by decide⟩
instance : WordSized UInt32 := ⟨by decide⟩
instance : WordSized PhiArg := ⟨by decide⟩

instance {α : Type} [MemoryBlockRead α] [RustSize α] [Encode α] [Lawful α] [Eats α] [WordSized α] :
    Lawful (List α) where
  iff ws rest l := by
    simp only [MemoryBlockRead.read, if_neg (WordSized.sized (α := α))]
    rw [readVecLoop_iff _ _ _ _ _ (by omega)]
    simp only [enc, Reads_append, Reads]
    constructor
    · rintro ⟨l', rfl, h, rfl⟩
      exact ⟨[], h, rfl, rfl⟩
    · rintro ⟨mid, h, rfl, rfl⟩
      exact ⟨l, by simp, h, rfl⟩
  safe ws := by
    simp only [MemoryBlockRead.read, if_neg (WordSized.sized (α := α))]
    exact readVecLoop_safe _ _ _ (by omega)

instance : Lawful BranchWeights where
  iff ws rest a := by
    cases a
    simp only [MemoryBlockRead.read, readWord_ok, bind_ok, pure_ok, Prod.exists, enc, Reads,
      Prod.mk.injEq, BranchWeights.mk.injEq, ↓existsAndEq, and_true, true_and]
  safe ws :=
    Safe.bind (readWord_safe _) fun _ _ => Safe.bind (readWord_safe _) fun _ _ => .pure _

instance : Lawful PhiArg where
  iff ws rest a := by
    obtain ⟨⟨v⟩, ⟨p⟩⟩ := a
    have h : (MemoryBlockRead.read ws : R (Block × PhiArg)) =
      (MemoryBlockRead.read ws >>= fun p => MemoryBlockRead.read p.1 >>= fun q =>
        pure (q.1, ⟨p.2, q.2⟩)) := rfl
    rw [h]
    simp only [Lawful.iff, bind_ok, pure_ok, Prod.exists, enc, Reads,
      Prod.mk.injEq, PhiArg.mk.injEq, ↓existsAndEq, and_true, true_and]
  safe ws :=
    Safe.bind (Lawful.safe _) fun _ _ => Safe.bind (Lawful.safe _) fun _ _ => .pure _

end Magma
