import Verif.Model.PrinterWord
import Verif.Spec.Indentation
import Verif.Proofs.PrintCost
/-! Lemmas: indentation as a `u32`. -/

namespace Magma
open Spec
variable {X : Type}

theorem plusOne_ok (build : Build) {indent : UInt32} (h : indent.toNat + 1 < 4294967296) :
    build.plusOne indent = .ok (indent + 1) ∧ (indent + 1).toNat = indent.toNat + 1 := by
  refine ⟨?_, ?_⟩
  · cases build with
    | debug => rw [Build.plusOne, if_pos h]
    | release => rfl
  · rw [UInt32.toNat_add]
    exact Nat.mod_eq_of_lt h

/-- There is a number for each indentation, because the stack is short or the chain is. -/
def Fits (indent : UInt32) (d deep : Nat) : Prop :=
  indent.toNat + d < 4294967296 ∨ indent.toNat + deep < 4294967296

theorem Fits.mono {indent : UInt32} {d d' deep deep' : Nat} (h : Fits indent d deep) (hd : d' ≤ d)
    (hs : deep' ≤ deep) : Fits indent d' deep' := by
  rcases h with h | h
  · exact .inl (by omega)
  · exact .inr (by omega)

theorem Fits.step (build : Build) {indent : UInt32} {d deep deep' : Nat} (h : Fits indent d deep) (hd : d ≠ 0)
    (hs : deep' + 1 ≤ deep) : build.plusOne indent = .ok (indent + 1) ∧ (indent + 1).toNat = indent.toNat + 1 ∧
      Fits (indent + 1) (d - 1) deep' := by
  have h1 : indent.toNat + 1 < 4294967296 := by
    rcases h with h | h <;> omega
  obtain ⟨ha, hb⟩ := plusOne_ok build h1
  refine ⟨ha, hb, ?_⟩
  rcases h with h | h
  · exact .inl (by omega)
  · exact .inr (by omega)

mutual
theorem fmtIndentU_same (build : Build) : ∀ (c : ControlFlowChain) (d : Nat) (indent : UInt32),
    Fits indent d (constructsDeep c) → c.fmtIndentU build d indent = c.fmtIndentC d indent.toNat
  | .Atom id, d, indent, h => rfl
  | .Break, d, indent, h => rfl
  | .Continue, d, indent, h => rfl
  | .Block block, d, indent, h => by
    rw [ControlFlowChain.fmtIndentU, ControlFlowChain.fmtIndentC,
      fmtIndentAllU_same build block (d - 1) indent (h.mono (by omega) (by rw [constructsDeep]; exact Nat.le_refl _))]
  | .Loop id inner hint weights, d, indent, h => by
    rw [ControlFlowChain.fmtIndentU, ControlFlowChain.fmtIndentC]
    by_cases hd : d = 0
    · rw [if_pos hd, if_pos hd]
    · rw [if_neg hd, if_neg hd]
      obtain ⟨h1, h2, h3⟩ := h.step build hd (deep' := constructsDeep inner) (by rw [constructsDeep]; exact Nat.le_refl _)
      rw [h1, ← h2, ← fmtIndentU_same build inner (d - 1) (indent + 1) h3]
      rfl
  | .Selection id left right hint weights, d, indent, h => by
    rw [ControlFlowChain.fmtIndentU, ControlFlowChain.fmtIndentC]
    by_cases hd : d = 0
    · rw [if_pos hd, if_pos hd]
    · rw [if_neg hd, if_neg hd]
      obtain ⟨h1, h2, h3⟩ := h.step build hd (deep' := constructsDeep left) (by rw [constructsDeep]; omega)
      obtain ⟨_, _, h4⟩ := h.step build hd (deep' := constructsDeep right) (by rw [constructsDeep]; omega)
      rw [h1, ← h2, ← fmtIndentU_same build left (d - 1) (indent + 1) h3,
        ← fmtIndentU_same build right (d - 1) (indent + 1) h4]
      rfl
theorem fmtIndentAllU_same (build : Build) : ∀ (l : List ControlFlowChain) (d : Nat) (indent : UInt32),
    Fits indent d (constructsDeepAll l) → ControlFlowChain.fmtIndentAllU build l d indent =
      ControlFlowChain.fmtIndentAllC l d indent.toNat
  | [], d, indent, h => rfl
  | c :: l, d, indent, h => by
    rw [ControlFlowChain.fmtIndentAllU, ControlFlowChain.fmtIndentAllC,
      fmtIndentU_same build c d indent (h.mono (Nat.le_refl _) (by rw [constructsDeepAll]; omega)),
      fmtIndentAllU_same build l d indent (h.mono (Nat.le_refl _) (by rw [constructsDeepAll]; omega))]
end

mutual
theorem fmtFunctionIndentU_same [Display X] (build : Build) (f : FunctionDefinition X) :
    ∀ (c : ControlFlowChain) (d : Nat) (indent : UInt32), Fits indent d (constructsDeep c) →
      fmtFunctionIndentU build f c d indent = fmtFunctionIndentC f c d indent.toNat
  | .Atom id, d, indent, h => rfl
  | .Break, d, indent, h => rfl
  | .Continue, d, indent, h => rfl
  | .Block block, d, indent, h => by
    rw [fmtFunctionIndentU, fmtFunctionIndentC,
      fmtFunctionIndentAllU_same build f block (d - 1) indent
        (h.mono (by omega) (by rw [constructsDeep]; exact Nat.le_refl _))]
  | .Loop id inner hint weights, d, indent, h => by
    rw [fmtFunctionIndentU, fmtFunctionIndentC]
    by_cases hd : d = 0
    · rw [if_pos hd, if_pos hd]
    · rw [if_neg hd, if_neg hd]
      obtain ⟨h1, h2, h3⟩ := h.step build hd (deep' := constructsDeep inner) (by rw [constructsDeep]; exact Nat.le_refl _)
      rw [h1, ← h2, ← fmtFunctionIndentU_same build f inner (d - 1) (indent + 1) h3]
      rfl
  | .Selection id left right hint weights, d, indent, h => by
    rw [fmtFunctionIndentU, fmtFunctionIndentC]
    by_cases hd : d = 0
    · rw [if_pos hd, if_pos hd]
    · rw [if_neg hd, if_neg hd]
      obtain ⟨h1, h2, h3⟩ := h.step build hd (deep' := constructsDeep left) (by rw [constructsDeep]; omega)
      obtain ⟨_, _, h4⟩ := h.step build hd (deep' := constructsDeep right) (by rw [constructsDeep]; omega)
      rw [h1, ← h2, ← fmtFunctionIndentU_same build f left (d - 1) (indent + 1) h3,
        ← fmtFunctionIndentU_same build f right (d - 1) (indent + 1) h4]
      rfl
theorem fmtFunctionIndentAllU_same [Display X] (build : Build) (f : FunctionDefinition X) :
    ∀ (l : List ControlFlowChain) (d : Nat) (indent : UInt32), Fits indent d (constructsDeepAll l) →
      fmtFunctionIndentAllU build f l d indent = fmtFunctionIndentAllC f l d indent.toNat
  | [], d, indent, h => rfl
  | c :: l, d, indent, h => by
    rw [fmtFunctionIndentAllU, fmtFunctionIndentAllC,
      fmtFunctionIndentU_same build f c d indent (h.mono (Nat.le_refl _) (by rw [constructsDeepAll]; omega)),
      fmtFunctionIndentAllU_same build f l d indent (h.mono (Nat.le_refl _) (by rw [constructsDeepAll]; omega))]
end

/-- An overflow -/
abbrev overflow {α : Type} : P α := .error (.panic "attempt to add with overflow")

theorem plusOne_overflow {indent : UInt32} (h : ¬ indent.toNat + 1 < 4294967296) :
    Build.debug.plusOne indent = overflow := by
  rw [Build.plusOne, if_neg h]

theorem deep_empty {c : ControlFlowChain} (h : c.isEmptyBlock = true) : constructsDeep c = 0 := by
  cases c with
  | Block l =>
    cases l with
    | nil => rfl
    | cons _ _ => cases h
  | _ => cases h

theorem chain_fine {c : ControlFlowChain} {d : Nat} {indent : UInt32} (hd : chainNesting c ≤ d)
    (h : indent.toNat + constructsDeep c < 4294967296) :
    c.fmtIndentU .debug d indent = .ok (c.fmtIndent indent.toNat, chainParts c) := by
  rw [fmtIndentU_same _ c d indent (.inr h), fmtIndentC_eq, upTo, if_pos hd]

mutual
theorem fmtIndentU_overflow : ∀ (c : ControlFlowChain) (d : Nat) (indent : UInt32), chainNesting c ≤ d →
    ¬ indent.toNat + constructsDeep c < 4294967296 → c.fmtIndentU .debug d indent = overflow
  | .Atom id, d, indent, hd, h => absurd (show indent.toNat + 0 < _ from indent.toNat_lt) h
  | .Break, d, indent, hd, h => absurd (show indent.toNat + 0 < _ from indent.toNat_lt) h
  | .Continue, d, indent, hd, h => absurd (show indent.toNat + 0 < _ from indent.toNat_lt) h
  | .Block block, d, indent, hd, h => by
    rw [chainNesting] at hd
    rw [constructsDeep] at h
    rw [ControlFlowChain.fmtIndentU, if_neg (by omega), fmtIndentAllU_overflow block (d - 1) indent (by omega) h]
    rfl
  | .Loop id inner hint weights, d, indent, hd, h => by
    rw [chainNesting] at hd
    rw [constructsDeep] at h
    rw [ControlFlowChain.fmtIndentU, if_neg (by omega)]
    by_cases h1 : indent.toNat + 1 < 4294967296
    · obtain ⟨ha, hb⟩ := plusOne_ok .debug h1
      rw [ha]
      show (inner.fmtIndentU .debug (d - 1) (indent + 1) >>= _) = _
      rw [fmtIndentU_overflow inner (d - 1) (indent + 1) (by omega) (by omega)]
      rfl
    · rw [plusOne_overflow h1]; rfl
  | .Selection id left right hint weights, d, indent, hd, h => by
    rw [chainNesting_selection] at hd
    rw [constructsDeep] at h
    rw [ControlFlowChain.fmtIndentU, if_neg (by omega)]
    by_cases h1 : indent.toNat + 1 < 4294967296
    · obtain ⟨ha, hb⟩ := plusOne_ok .debug h1
      rw [ha]
      show (left.fmtIndentU .debug (d - 1) (indent + 1) >>= _) = _
      by_cases hl : (indent + 1).toNat + constructsDeep left < 4294967296
      · have hr : ¬ (indent + 1).toNat + constructsDeep right < 4294967296 := by omega
        have he : ¬ right.isEmptyBlock = true := by
          intro he
          rw [deep_empty he] at hr
          exact hr (indent + 1).toNat_lt
        rw [elseNesting, if_neg he] at hd
        rw [chain_fine (by omega) hl]
        simp only [he]
        show (right.fmtIndentU .debug (d - 1) (indent + 1) >>= _) = _
        rw [fmtIndentU_overflow right (d - 1) (indent + 1) (by omega) hr]
        rfl
      · rw [fmtIndentU_overflow left (d - 1) (indent + 1) (by omega) hl]
        rfl
    · rw [plusOne_overflow h1]; rfl
theorem fmtIndentAllU_overflow : ∀ (l : List ControlFlowChain) (d : Nat) (indent : UInt32), chainNestingAll l ≤ d →
    ¬ indent.toNat + constructsDeepAll l < 4294967296 → ControlFlowChain.fmtIndentAllU .debug l d indent = overflow
  | [], d, indent, hd, h => absurd (show indent.toNat + 0 < _ from indent.toNat_lt) h
  | c :: l, d, indent, hd, h => by
    rw [chainNestingAll] at hd
    rw [constructsDeepAll] at h
    rw [ControlFlowChain.fmtIndentAllU]
    by_cases hc : indent.toNat + constructsDeep c < 4294967296
    · rw [chain_fine (by omega) hc, fmtIndentAllU_overflow l d indent (by omega) (by omega)]
      rfl
    · rw [fmtIndentU_overflow c d indent (by omega) hc]
      rfl
end

theorem function_fine [Display X] {f : FunctionDefinition X} {c : ControlFlowChain} {d : Nat} {indent : UInt32}
    (hp : ∀ id ∈ chainIds c, Printable f ⟨id⟩) (hd : chainNesting c ≤ d)
    (h : indent.toNat + constructsDeep c < 4294967296) :
    ∃ r, fmtFunctionIndentU .debug f c d indent = .ok r := by
  obtain ⟨t, _, h2⟩ := fmtFunctionIndentC_eq f c d indent.toNat hp
  exact ⟨_, by rw [fmtFunctionIndentU_same _ f c d indent (.inr h), h2, upTo, if_pos hd]⟩

mutual
theorem fmtFunctionIndentU_overflow [Display X] (f : FunctionDefinition X) : ∀ (c : ControlFlowChain) (d : Nat)
    (indent : UInt32), (∀ id ∈ chainIds c, Printable f ⟨id⟩) → chainNesting c ≤ d →
    ¬ indent.toNat + constructsDeep c < 4294967296 → fmtFunctionIndentU .debug f c d indent = overflow
  | .Atom id, d, indent, hp, hd, h => absurd (show indent.toNat + 0 < _ from indent.toNat_lt) h
  | .Break, d, indent, hp, hd, h => absurd (show indent.toNat + 0 < _ from indent.toNat_lt) h
  | .Continue, d, indent, hp, hd, h => absurd (show indent.toNat + 0 < _ from indent.toNat_lt) h
  | .Block block, d, indent, hp, hd, h => by
    rw [chainNesting] at hd
    rw [constructsDeep] at h
    rw [chainIds] at hp
    rw [fmtFunctionIndentU, if_neg (by omega), fmtFunctionIndentAllU_overflow f block (d - 1) indent hp (by omega) h]
    rfl
  | .Loop id inner hint weights, d, indent, hp, hd, h => by
    rw [chainNesting] at hd
    rw [constructsDeep] at h
    rw [chainIds] at hp
    obtain ⟨b, hb⟩ := hp id.val (List.mem_cons_self ..) indent.toNat
    rw [fmtFunctionIndentU, if_neg (by omega), hb]
    by_cases h1 : indent.toNat + 1 < 4294967296
    · obtain ⟨ha, hs⟩ := plusOne_ok .debug h1
      rw [ha]
      show (fmtFunctionIndentU .debug f inner (d - 1) (indent + 1) >>= _) = _
      rw [fmtFunctionIndentU_overflow f inner (d - 1) (indent + 1) (fun i hi => hp i (List.mem_cons_of_mem _ hi))
        (by omega) (by omega)]
      rfl
    · rw [plusOne_overflow h1]; rfl
  | .Selection id left right hint weights, d, indent, hp, hd, h => by
    rw [chainNesting_selection] at hd
    rw [constructsDeep] at h
    rw [chainIds] at hp
    have hpl : ∀ i ∈ chainIds left, Printable f ⟨i⟩ := fun i hi =>
      hp i (List.mem_cons_of_mem _ (List.mem_append_left _ hi))
    have hpr : ∀ i ∈ chainIds right, Printable f ⟨i⟩ := fun i hi =>
      hp i (List.mem_cons_of_mem _ (List.mem_append_right _ hi))
    obtain ⟨b, hb⟩ := hp id.val (List.mem_cons_self ..) indent.toNat
    rw [fmtFunctionIndentU, if_neg (by omega), hb]
    by_cases h1 : indent.toNat + 1 < 4294967296
    · obtain ⟨ha, hs⟩ := plusOne_ok .debug h1
      rw [ha]
      show (fmtFunctionIndentU .debug f left (d - 1) (indent + 1) >>= _) = _
      by_cases hl : (indent + 1).toNat + constructsDeep left < 4294967296
      · have hr : ¬ (indent + 1).toNat + constructsDeep right < 4294967296 := by omega
        have he : ¬ right.isEmptyBlock = true := by
          intro he
          rw [deep_empty he] at hr
          exact hr (indent + 1).toNat_lt
        rw [elseNesting, if_neg he] at hd
        obtain ⟨r, hr'⟩ := function_fine hpl (by omega : chainNesting left ≤ d - 1) hl
        rw [hr']
        simp only [he]
        show (fmtFunctionIndentU .debug f right (d - 1) (indent + 1) >>= _) = _
        rw [fmtFunctionIndentU_overflow f right (d - 1) (indent + 1) hpr (by omega) hr]
        rfl
      · rw [fmtFunctionIndentU_overflow f left (d - 1) (indent + 1) hpl (by omega) hl]
        rfl
    · rw [plusOne_overflow h1]; rfl
theorem fmtFunctionIndentAllU_overflow [Display X] (f : FunctionDefinition X) : ∀ (l : List ControlFlowChain) (d : Nat)
    (indent : UInt32), (∀ id ∈ chainIdsAll l, Printable f ⟨id⟩) → chainNestingAll l ≤ d →
    ¬ indent.toNat + constructsDeepAll l < 4294967296 → fmtFunctionIndentAllU .debug f l d indent = overflow
  | [], d, indent, hp, hd, h => absurd (show indent.toNat + 0 < _ from indent.toNat_lt) h
  | c :: l, d, indent, hp, hd, h => by
    rw [chainNestingAll] at hd
    rw [constructsDeepAll] at h
    rw [chainIdsAll] at hp
    rw [fmtFunctionIndentAllU]
    by_cases hc : indent.toNat + constructsDeep c < 4294967296
    · obtain ⟨r, hr⟩ := function_fine (fun i hi => hp i (List.mem_append_left _ hi)) (by omega : chainNesting c ≤ d) hc
      rw [hr, fmtFunctionIndentAllU_overflow f l d indent (fun i hi => hp i (List.mem_append_right _ hi)) (by omega)
        (by omega)]
      rfl
    · rw [fmtFunctionIndentU_overflow f c d indent (fun i hi => hp i (List.mem_append_left _ hi)) (by omega) hc]
      rfl
end

end Magma
