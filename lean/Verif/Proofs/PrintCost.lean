import Verif.Model.PrinterCost
import Verif.Spec.PrintCost
import Verif.Proofs.SearchCost
import Verif.Spec.Flow
import Verif.Spec.Printing
/-! How deep and how often `fmt_indent` calls itself. -/

namespace Magma
open Spec
variable {X : Type}

/-- Nothing with an overflow below `p` levels -/
def upTo {α : Type} (p d : Nat) (a : α) : P α := if p ≤ d then .ok a else .error .diverge

theorem upTo_bind {α β : Type} {p q d : Nat} {a : α} {b : β} {g : α → P β} (hg : g a = upTo q d b) :
    (upTo p d a >>= g) = upTo (max p q) d b := by
  unfold upTo at *
  by_cases hp : p ≤ d
  · rw [if_pos hp]
    show g a = _
    rw [hg]
    by_cases hq : q ≤ d
    · rw [if_pos hq, if_pos (by omega)]
    · rw [if_neg hq, if_neg (by omega)]
  · rw [if_neg hp, if_neg (by omega)]
    rfl

theorem upTo_zero {α : Type} (d : Nat) (a : α) : (.ok a : P α) = upTo 0 d a := by
  rw [upTo, if_pos (Nat.zero_le d)]

theorem upTo_last {α β : Type} {p d : Nat} {a : α} {b : β} {g : α → P β} (hg : g a = .ok b) :
    (upTo p d a >>= g) = upTo p d b := by
  rw [upTo_bind (q := 0) (hg.trans (upTo_zero d b)), Nat.max_zero]

theorem upTo_level {α : Type} {p d : Nat} {a : α} {x : P α} (h : x = upTo p (d - 1) a) :
    (if d = 0 then .error .diverge else x) = upTo (p + 1) d a := by
  subst h
  unfold upTo
  by_cases hd : d = 0
  · rw [if_pos hd, if_neg (by omega)]
  · rw [if_neg hd]
    by_cases hp : p ≤ d - 1
    · rw [if_pos hp, if_pos (by omega)]
    · rw [if_neg hp, if_neg (by omega)]

/-- What the second part of a selection adds -/
def elseNesting (right : ControlFlowChain) : Nat := if right.isEmptyBlock then 0 else chainNesting right
def elseParts (right : ControlFlowChain) : Nat := if right.isEmptyBlock then 0 else chainParts right

theorem chainNesting_selection (id : BlockId) (left right : ControlFlowChain) (hint : SelectionControl)
    (weights : Option BranchWeights) : chainNesting (.Selection id left right hint weights) =
      max (chainNesting left) (elseNesting right) + 1 := by
  match right with
  | .Block [] => simp [chainNesting, elseNesting, ControlFlowChain.isEmptyBlock]
  | .Block (_ :: _) => simp [chainNesting, elseNesting, ControlFlowChain.isEmptyBlock]
  | .Atom _ => simp [chainNesting, elseNesting, ControlFlowChain.isEmptyBlock]
  | .Selection .. => simp [chainNesting, elseNesting, ControlFlowChain.isEmptyBlock]
  | .Loop .. => simp [chainNesting, elseNesting, ControlFlowChain.isEmptyBlock]
  | .Break => simp [chainNesting, elseNesting, ControlFlowChain.isEmptyBlock]
  | .Continue => simp [chainNesting, elseNesting, ControlFlowChain.isEmptyBlock]

theorem chainParts_selection (id : BlockId) (left right : ControlFlowChain) (hint : SelectionControl)
    (weights : Option BranchWeights) : chainParts (.Selection id left right hint weights) =
      chainParts left + elseParts right + 1 := by
  match right with
  | .Block [] => simp [chainParts, elseParts, ControlFlowChain.isEmptyBlock]
  | .Block (_ :: _) => simp [chainParts, elseParts, ControlFlowChain.isEmptyBlock]
  | .Atom _ => simp [chainParts, elseParts, ControlFlowChain.isEmptyBlock]
  | .Selection .. => simp [chainParts, elseParts, ControlFlowChain.isEmptyBlock]
  | .Loop .. => simp [chainParts, elseParts, ControlFlowChain.isEmptyBlock]
  | .Break => simp [chainParts, elseParts, ControlFlowChain.isEmptyBlock]
  | .Continue => simp [chainParts, elseParts, ControlFlowChain.isEmptyBlock]

mutual
theorem fmtIndentC_eq : ∀ (c : ControlFlowChain) (d indent : Nat),
    c.fmtIndentC d indent = upTo (chainNesting c) d (c.fmtIndent indent, chainParts c)
  | .Atom id, d, indent => upTo_level (p := 0) (upTo_zero _ _)
  | .Break, d, indent => upTo_level (p := 0) (upTo_zero _ _)
  | .Continue, d, indent => upTo_level (p := 0) (upTo_zero _ _)
  | .Block block, d, indent => by
    simp only [ControlFlowChain.fmtIndentC, chainNesting, ControlFlowChain.fmtIndent, chainParts]
    apply upTo_level
    rw [fmtIndentAllC_eq block]
    exact upTo_last rfl
  | .Loop id inner hint weights, d, indent => by
    simp only [ControlFlowChain.fmtIndentC, chainNesting, ControlFlowChain.fmtIndent, chainParts]
    apply upTo_level
    rw [fmtIndentC_eq inner]
    exact upTo_last rfl
  | .Selection id left right hint weights, d, indent => by
    rw [chainNesting_selection, chainParts_selection]
    simp only [ControlFlowChain.fmtIndentC, ControlFlowChain.fmtIndent]
    apply upTo_level
    rw [fmtIndentC_eq left, fmtIndentC_eq right]
    refine upTo_bind ?_
    by_cases hr : right.isEmptyBlock = true
    · simp only [hr, if_true, elseNesting, elseParts]
      exact (upTo_zero _ _)
    · simp only [hr, elseNesting, elseParts, Bool.false_eq_true, if_false]
      exact upTo_last rfl
theorem fmtIndentAllC_eq : ∀ (l : List ControlFlowChain) (d indent : Nat),
    ControlFlowChain.fmtIndentAllC l d indent =
      upTo (chainNestingAll l) d (ControlFlowChain.fmtIndentAll l indent, chainPartsAll l)
  | [], d, indent => upTo_zero _ _
  | c :: l, d, indent => by
    simp only [ControlFlowChain.fmtIndentAllC, chainNestingAll, ControlFlowChain.fmtIndentAll, chainPartsAll]
    rw [fmtIndentC_eq c, fmtIndentAllC_eq l]
    refine upTo_bind ?_
    exact upTo_last rfl
end

/-- The block can be printed -/
def Printable [Display X] (f : FunctionDefinition X) (id : BlockId) : Prop :=
  ∀ indent, ∃ text, fmtBlockIndent f indent id = .ok text

mutual
theorem fmtFunctionIndentC_eq [Display X] (f : FunctionDefinition X) : ∀ (c : ControlFlowChain) (d indent : Nat),
    (∀ id ∈ chainIds c, Printable f ⟨id⟩) → ∃ text, fmtFunctionIndent f c indent = .ok text ∧
      fmtFunctionIndentC f c d indent = upTo (chainNesting c) d (text, chainParts c)
  | .Atom id, d, indent, h => by
    obtain ⟨t, ht⟩ := h id.val (by simp [chainIds]) indent
    refine ⟨t, ht, ?_⟩
    simp only [fmtFunctionIndentC, chainNesting, chainParts]
    refine upTo_level (p := 0) ?_
    rw [ht]
    exact upTo_zero _ _
  | .Break, d, indent, _ => ⟨_, rfl, upTo_level (p := 0) (upTo_zero _ _)⟩
  | .Continue, d, indent, _ => ⟨_, rfl, upTo_level (p := 0) (upTo_zero _ _)⟩
  | .Block block, d, indent, h => by
    obtain ⟨t, ht, hc⟩ := fmtFunctionIndentAllC_eq f block (d - 1) indent (by simpa [chainIds] using h)
    refine ⟨t, by simpa [fmtFunctionIndent] using ht, ?_⟩
    simp only [fmtFunctionIndentC, chainNesting, chainParts]
    apply upTo_level
    rw [hc]
    exact upTo_last rfl
  | .Loop id inner hint weights, d, indent, h => by
    obtain ⟨b, hb⟩ := h id.val (by simp [chainIds]) indent
    obtain ⟨t, ht, hc⟩ := fmtFunctionIndentC_eq f inner (d - 1) (indent + 1)
      (fun i hi => h i (by simp [chainIds, hi]))
    refine ⟨_, by simp only [fmtFunctionIndent, hb, ht]; rfl, ?_⟩
    simp only [fmtFunctionIndentC, chainNesting, chainParts]
    apply upTo_level
    rw [hb, hc]
    exact upTo_last rfl
  | .Selection id left right hint weights, d, indent, h => by
    obtain ⟨b, hb⟩ := h id.val (by simp [chainIds]) indent
    obtain ⟨l, hl, hlc⟩ := fmtFunctionIndentC_eq f left (d - 1) (indent + 1)
      (fun i hi => h i (by simp [chainIds, hi]))
    obtain ⟨r, hr, hrc⟩ := fmtFunctionIndentC_eq f right (d - 1) (indent + 1)
      (fun i hi => h i (by simp [chainIds, hi]))
    rw [chainNesting_selection, chainParts_selection]
    by_cases he : right.isEmptyBlock = true
    · refine ⟨_, by simp only [fmtFunctionIndent, hb, hl, he, if_true]; rfl, ?_⟩
      simp only [fmtFunctionIndentC]
      apply upTo_level
      rw [hb, hlc]
      refine upTo_bind ?_
      simp only [he, if_true, elseNesting, elseParts]
      exact (upTo_zero _ _)
    · refine ⟨_, by simp only [fmtFunctionIndent, hb, hl, hr, he]; rfl, ?_⟩
      simp only [fmtFunctionIndentC]
      apply upTo_level
      rw [hb, hlc]
      refine upTo_bind ?_
      simp only [he, elseNesting, elseParts, Bool.false_eq_true, if_false, hrc]
      exact upTo_last rfl
theorem fmtFunctionIndentAllC_eq [Display X] (f : FunctionDefinition X) :
    ∀ (l : List ControlFlowChain) (d indent : Nat), (∀ id ∈ chainIdsAll l, Printable f ⟨id⟩) →
      ∃ text, fmtFunctionIndentAll f l indent = .ok text ∧
        fmtFunctionIndentAllC f l d indent = upTo (chainNestingAll l) d (text, chainPartsAll l)
  | [], d, indent, _ => ⟨[], rfl, upTo_zero _ _⟩
  | c :: l, d, indent, h => by
    obtain ⟨t, ht, htc⟩ := fmtFunctionIndentC_eq f c d indent (fun i hi => h i (by simp [chainIdsAll, hi]))
    obtain ⟨u, hu, huc⟩ := fmtFunctionIndentAllC_eq f l d indent (fun i hi => h i (by simp [chainIdsAll, hi]))
    refine ⟨_, by simp only [fmtFunctionIndentAll, ht, hu]; rfl, ?_⟩
    simp only [fmtFunctionIndentAllC, chainNestingAll, chainPartsAll]
    rw [htc, huc]
    refine upTo_bind ?_
    exact upTo_last rfl
end

mutual
/-- With enough room the outcome is that of the printer, also if it panics. -/
theorem fmtFunctionIndentC_enough [Display X] (f : FunctionDefinition X) : ∀ (c : ControlFlowChain) (d indent : Nat),
    chainNesting c ≤ d → fmtFunctionIndentC f c d indent =
      (fmtFunctionIndent f c indent).map (fun t => (t, chainParts c))
  | .Atom id, d, indent, h => by
    simp only [chainNesting] at h
    simp only [fmtFunctionIndentC, fmtFunctionIndent, chainParts, if_neg (by omega : ¬ d = 0)]
    cases fmtBlockIndent f indent id <;> rfl
  | .Break, d, indent, h => by
    simp only [chainNesting] at h
    simp only [fmtFunctionIndentC, fmtFunctionIndent, chainParts, if_neg (by omega : ¬ d = 0)]
    rfl
  | .Continue, d, indent, h => by
    simp only [chainNesting] at h
    simp only [fmtFunctionIndentC, fmtFunctionIndent, chainParts, if_neg (by omega : ¬ d = 0)]
    rfl
  | .Block block, d, indent, h => by
    simp only [chainNesting] at h
    simp only [fmtFunctionIndentC, fmtFunctionIndent, chainParts, if_neg (by omega : ¬ d = 0)]
    rw [fmtFunctionIndentAllC_enough f block (d - 1) indent (by omega)]
    cases fmtFunctionIndentAll f block indent <;> rfl
  | .Loop id inner hint weights, d, indent, h => by
    simp only [chainNesting] at h
    simp only [fmtFunctionIndentC, fmtFunctionIndent, chainParts, if_neg (by omega : ¬ d = 0)]
    rw [fmtFunctionIndentC_enough f inner (d - 1) (indent + 1) (by omega)]
    cases fmtBlockIndent f indent id
    · rfl
    · cases fmtFunctionIndent f inner (indent + 1) <;> rfl
  | .Selection id left right hint weights, d, indent, h => by
    rw [chainNesting_selection] at h
    rw [chainParts_selection]
    simp only [fmtFunctionIndentC, fmtFunctionIndent, if_neg (by omega : ¬ d = 0)]
    rw [fmtFunctionIndentC_enough f left (d - 1) (indent + 1) (by omega)]
    by_cases he : right.isEmptyBlock = true
    · simp only [he, if_true, elseParts]
      cases fmtBlockIndent f indent id
      · rfl
      · cases fmtFunctionIndent f left (indent + 1) <;> rfl
    · simp only [elseNesting, he, Bool.false_eq_true, if_false] at h
      rw [fmtFunctionIndentC_enough f right (d - 1) (indent + 1) (by omega)]
      simp only [he, Bool.false_eq_true, if_false, elseParts]
      cases fmtBlockIndent f indent id
      · rfl
      · cases fmtFunctionIndent f left (indent + 1)
        · rfl
        · cases fmtFunctionIndent f right (indent + 1) <;> rfl
theorem fmtFunctionIndentAllC_enough [Display X] (f : FunctionDefinition X) :
    ∀ (l : List ControlFlowChain) (d indent : Nat), chainNestingAll l ≤ d →
      fmtFunctionIndentAllC f l d indent =
        (fmtFunctionIndentAll f l indent).map (fun t => (t, chainPartsAll l))
  | [], d, indent, _ => rfl
  | c :: l, d, indent, h => by
    simp only [chainNestingAll] at h
    simp only [fmtFunctionIndentAllC, fmtFunctionIndentAll, chainPartsAll]
    rw [fmtFunctionIndentC_enough f c d indent (by omega), fmtFunctionIndentAllC_enough f l d indent (by omega)]
    cases fmtFunctionIndent f c indent
    · rfl
    · cases fmtFunctionIndentAll f l indent <;> rfl
end

/-! ### Against the search -/

mutual
theorem le_chainDepth : ∀ (c : ControlFlowChain) (k : Nat), k ≤ chainDepth c k
  | .Atom _, k => by simp [chainDepth]
  | .Block l, k => by simpa [chainDepth] using le_chainDepthAll l k
  | .Selection id left right hint weights, k => by
    by_cases h1 : right = .Break
    · subst h1
      have := le_chainDepth left k
      simp only [chainDepth]
      omega
    · by_cases h2 : right = .Continue
      · subst h2
        have := le_chainDepth left k
        simp only [chainDepth]
        omega
      · rw [chainDepth_selection h1 h2]
        omega
  | .Loop _ inner _ _, k => by simp only [chainDepth]; omega
  | .Break, k => by simp [chainDepth]
  | .Continue, k => by simp [chainDepth]
theorem le_chainDepthAll : ∀ (l : List ControlFlowChain) (k : Nat), k ≤ chainDepthAll l k
  | [], k => by simp [chainDepthAll]
  | c :: l, k => by
    have h1 := le_chainDepthAll l k
    have h2 := le_chainDepth c (chainDepthAll l k)
    simp only [chainDepthAll]
    omega
end

theorem elseNesting_le (right : ControlFlowChain) : elseNesting right ≤ chainNesting right := by
  unfold elseNesting
  split <;> omega

theorem elseShaped_well {b : Bool} {c : ControlFlowChain} (h : ElseShaped b c) (h1 : c ≠ .Break)
    (h2 : c ≠ .Continue) : WellShaped b c := by
  cases c <;> simp_all [ElseShaped, WellShaped]

theorem itemShaped_well {b : Bool} {c : ControlFlowChain} (h : ItemShaped b c) : WellShaped b c := by
  cases c <;> simp_all [ItemShaped, WellShaped]

theorem wellShaped_item {b : Bool} {c : ControlFlowChain} (h : WellShaped b c) (hb : ∀ l, c ≠ .Block l) :
    ItemShaped b c := by
  cases c <;> simp_all [ItemShaped, WellShaped]

mutual
theorem nesting_le (b : Bool) : ∀ (c : ControlFlowChain) (k : Nat), 1 ≤ k → WellShaped b c →
    chainNesting c + 1 ≤ 2 * chainDepth c k ∧ ((∀ l, c ≠ .Block l) → chainNesting c + 2 ≤ 2 * chainDepth c k)
  | .Atom _, k, hk, h => by simp only [chainNesting, chainDepth]; omega
  | .Block l, k, hk, h => by
    have := nestingAll_le b l k hk (by simpa [WellShaped] using h)
    exact ⟨by simp only [chainNesting, chainDepth]; omega, fun hb => absurd rfl (hb l)⟩
  | .Selection id left right hint weights, k, hk, h => by
    simp only [WellShaped] at h
    rw [chainNesting_selection]
    by_cases h1 : right = .Break
    · subst h1
      have hl := nesting_le b left k hk h.1
      have := le_chainDepth left k
      have e : elseNesting .Break = 1 := rfl
      simp only [chainDepth, e]
      omega
    · by_cases h2 : right = .Continue
      · subst h2
        have hl := nesting_le b left k hk h.1
        have := le_chainDepth left k
        have e : elseNesting .Continue = 1 := rfl
        simp only [chainDepth, e]
        omega
      · have hl := nesting_le b left 1 (Nat.le_refl 1) h.1
        have hr := nesting_le b right 1 (Nat.le_refl 1) (elseShaped_well h.2 h1 h2)
        have := elseNesting_le right
        rw [chainDepth_selection h1 h2]
        omega
  | .Loop _ inner _ _, k, hk, h => by
    have := nesting_le true inner 1 (Nat.le_refl 1) (by simpa [WellShaped] using h)
    simp only [chainNesting, chainDepth]
    omega
  | .Break, k, hk, h => by simp [WellShaped] at h
  | .Continue, k, hk, h => by simp [WellShaped] at h
theorem nestingAll_le (b : Bool) : ∀ (l : List ControlFlowChain) (k : Nat), 1 ≤ k → Items b l →
    chainNestingAll l + 2 ≤ 2 * chainDepthAll l k
  | [], k, hk, _ => by simp only [chainNestingAll, chainDepthAll]; omega
  | c :: l, k, hk, h => by
    simp only [Items] at h
    have h1 := nestingAll_le b l k hk h.2
    have h2 := (nesting_le b c (chainDepthAll l k) (by omega) (itemShaped_well h.1)).2
      (fun l e => by rw [e] at h; exact h.1.elim)
    have h3 := le_chainDepth c (chainDepthAll l k)
    simp only [chainNestingAll, chainDepthAll]
    omega
end

theorem nesting_item_top {c : ControlFlowChain} (h : ItemShaped false c) :
    chainNesting c + 1 ≤ 2 * chainDepth c 0 := by
  match c, h with
  | .Atom _, _ => simp [chainNesting, chainDepth]
  | .Loop _ inner _ _, h =>
    have := nesting_le true inner 1 (Nat.le_refl 1) (by simpa [ItemShaped] using h)
    simp only [chainNesting, chainDepth]
    omega
  | .Selection id left right hint weights, h =>
    simp only [ItemShaped] at h
    have h1 : right ≠ .Break := fun e => by rw [e] at h; simp [ElseShaped] at h
    have h2 : right ≠ .Continue := fun e => by rw [e] at h; simp [ElseShaped] at h
    have hl := nesting_le false left 1 (Nat.le_refl 1) h.1
    have hr := nesting_le false right 1 (Nat.le_refl 1) (elseShaped_well h.2 h1 h2)
    have := elseNesting_le right
    rw [chainNesting_selection, chainDepth_selection h1 h2]
    omega

theorem nestingAll_top : ∀ (l : List ControlFlowChain), Items false l → l ≠ [] →
    chainNestingAll l + 1 ≤ 2 * chainDepthAll l 0
  | [], _, h => absurd rfl h
  | [c], h, _ => by
    simp only [Items, and_true] at h
    have := nesting_item_top h
    simp only [chainNestingAll, chainDepthAll, Nat.max_zero]
    exact this
  | c :: d :: l, h, _ => by
    rw [Items] at h
    have h1 := nestingAll_top (d :: l) h.2 (by simp)
    have h2 := (nesting_le false c (chainDepthAll (d :: l) 0) (by omega) (itemShaped_well h.1)).1
    have h3 := le_chainDepth c (chainDepthAll (d :: l) 0)
    rw [chainNestingAll, chainDepthAll]
    omega

theorem nesting_top {c : ControlFlowChain} (h : WellShaped false c) (hd : 1 ≤ chainDepth c 0) :
    chainNesting c ≤ 2 * chainDepth c 0 := by
  by_cases hb : ∀ l, c ≠ .Block l
  · have := nesting_item_top (wellShaped_item h hb)
    omega
  · have ⟨l, hl⟩ := Classical.not_forall.mp hb
    have hl := Classical.not_not.mp hl
    subst hl
    have := nestingAll_top l (by simpa [WellShaped] using h)
      (fun e => by subst e; simp [chainDepth, chainDepthAll] at hd)
    simp only [chainNesting, chainDepth]
    omega

theorem elseParts_le (right : ControlFlowChain) : elseParts right ≤ chainParts right := by
  unfold elseParts
  split <;> omega

mutual
theorem parts_le (b : Bool) : ∀ (c : ControlFlowChain), WellShaped b c →
    chainParts c ≤ 3 * (chainIds c).length + 1 ∧ ((∀ l, c ≠ .Block l) → chainParts c ≤ 3 * (chainIds c).length)
  | .Atom _, _ => by simp [chainParts, chainIds]
  | .Block l, h => by
    have := partsAll_le b l (by simpa [WellShaped] using h)
    exact ⟨by simp only [chainParts, chainIds]; omega, fun hb => absurd rfl (hb l)⟩
  | .Selection id left right hint weights, h => by
    simp only [WellShaped] at h
    rw [chainParts_selection]
    have hl := (parts_le b left h.1).1
    have hr : elseParts right ≤ 3 * (chainIds right).length + 1 := by
      by_cases h1 : right = .Break
      · rw [h1]
        exact Nat.le_add_left _ _
      · by_cases h2 : right = .Continue
        · rw [h2]
          exact Nat.le_add_left _ _
        · exact Nat.le_trans (elseParts_le right) (parts_le b right (elseShaped_well h.2 h1 h2)).1
    simp only [chainIds, List.length_cons, List.length_append]
    omega
  | .Loop _ inner _ _, h => by
    have := (parts_le true inner (by simpa [WellShaped] using h)).1
    simp only [chainParts, chainIds, List.length_cons]
    omega
  | .Break, h => by simp [WellShaped] at h
  | .Continue, h => by simp [WellShaped] at h
theorem partsAll_le (b : Bool) : ∀ (l : List ControlFlowChain), Items b l →
    chainPartsAll l ≤ 3 * (chainIdsAll l).length
  | [], _ => by simp [chainPartsAll]
  | c :: l, h => by
    simp only [Items] at h
    have h1 := partsAll_le b l h.2
    have h2 := (parts_le b c (itemShaped_well h.1)).2 (fun l e => by rw [e] at h; exact h.1.elim)
    simp only [chainPartsAll, chainIdsAll, List.length_append]
    omega
end

mutual
theorem ids_le_parts : ∀ (c : ControlFlowChain), (chainIds c).length ≤ chainParts c
  | .Atom _ => by simp [chainParts, chainIds]
  | .Block l => by
    have := idsAll_le_parts l
    simp only [chainParts, chainIds]
    omega
  | .Selection id left right hint weights => by
    rw [chainParts_selection]
    have hl := ids_le_parts left
    have hr : (chainIds right).length ≤ elseParts right := by
      unfold elseParts
      split
      · rename_i he
        match right, he with
        | .Block [], _ => simp [chainIds, chainIdsAll]
      · exact ids_le_parts right
    simp only [chainIds, List.length_cons, List.length_append]
    omega
  | .Loop _ inner _ _ => by
    have := ids_le_parts inner
    simp only [chainParts, chainIds, List.length_cons]
    omega
  | .Break => by simp [chainIds]
  | .Continue => by simp [chainIds]
theorem idsAll_le_parts : ∀ (l : List ControlFlowChain), (chainIdsAll l).length ≤ chainPartsAll l
  | [] => by simp [chainIdsAll]
  | c :: l => by
    have h1 := ids_le_parts c
    have h2 := idsAll_le_parts l
    simp only [chainPartsAll, chainIdsAll, List.length_append]
    omega
end

end Magma
