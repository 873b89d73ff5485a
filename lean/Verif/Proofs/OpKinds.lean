import Verif.Proofs.ErrorSplit
import Verif.Spec.Opcodes
/-! Lemmas: the opcode table of the model and the opcode lists of the specification. -/

namespace Magma
open Spec

/-- What an entry of the opcode table is: the name if it is not implemented -/
def OpEntry.kind {X : Type} : OpEntry X → Option String
  | .read _ => none
  | .unimplemented name => some name

/-- The opcode table without the readers -/
def opKinds (X : Type) : List (Nat × Option String) := (opTable X).map fun p => (p.1, p.2.kind)

theorem lookup_kind {X : Type} (k : Nat) (l : List (Nat × OpEntry X)) :
    (l.map fun p => (p.1, p.2.kind)).lookup k = (l.lookup k).map OpEntry.kind := by
  induction l with
  | nil => rfl
  | cons p l ih =>
    obtain ⟨a, b⟩ := p
    simp only [List.map_cons, List.lookup]
    split <;> simp_all

/-- What the specification says about an opcode -/
def specKind (k : Nat) : Option (Option String) :=
  match unimplementedOpcodes.lookup k with
  | some name => some (some name)
  | none => if supportedOpcodes.contains k then some none else none

set_option maxRecDepth 20000 in
theorem opKinds_any (X : Type) : opKinds X = opKinds Empty := by
  rfl

theorem opKinds_small : ∀ k, k < 400 → (opKinds Empty).lookup k = specKind k := by
  decide +kernel

theorem lookup_large {α : Type} {l : List (Nat × α)} {b k : Nat}
    (h : ∀ p ∈ l, p.1 < b) (hk : b ≤ k) : l.lookup k = none := by
  induction l with
  | nil => rfl
  | cons p l ih =>
    obtain ⟨a, x⟩ := p
    have := h _ (List.mem_cons_self ..)
    dsimp only at this
    have hne : (k == a) = false := by simp; omega
    simp only [List.lookup, hne]
    exact ih fun p hp => h p (List.mem_cons_of_mem _ hp)

theorem opKinds_lookup (X : Type) (k : Nat) : ((opTable X).lookup k).map OpEntry.kind = specKind k := by
  rw [← lookup_kind]
  change (opKinds X).lookup k = _
  rw [opKinds_any]
  by_cases h : k < 400
  · exact opKinds_small k h
  · rw [lookup_large (b := 400) _ (by omega)]
    · have h1 : unimplementedOpcodes.lookup k = none :=
        lookup_large (b := 400) (by decide +kernel) (by omega)
      have h2 : supportedOpcodes.contains k = false := by
        have : ∀ x ∈ supportedOpcodes, x < 400 := by decide +kernel
        simp only [List.contains_eq_mem, decide_eq_false_iff_not]
        intro hk
        exact h (this k hk)
      simp only [specKind, h1, h2, Bool.false_eq_true, ite_false]
    · have : ((opKinds Empty).all fun p => decide (p.1 < 400)) = true := by
        decide +kernel
      simpa using this

end Magma
