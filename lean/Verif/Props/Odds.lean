import Verif.Proofs.OddsMass
import Verif.Props.Cost
/-! C109: what branch weights say about executions is read off the recovered control flow. -/

namespace Magma.Props
open Spec
open scoped ENNReal
variable {X : Type}

/-! ### C109 -/

/-- C109: let each visit of a block cost something, and let conditions be true as often as the branch weights say. What
the function costs on average is computed from the recovered control flow alone. -/
theorem C109_cost {f : FunctionDefinition X} {fuel : Nat} {chain : ControlFlowChain}
    (h : findControlFlow fuel f = .ok chain) {first : BasicBlock X} {more : List (BasicBlock X)}
    (hb : f.blocks = first :: more) (guess cost : BlockId → ℝ≥0∞) :
    ⨆ n, meanCost f.blocks guess cost n ⟨labelId first⟩ = average guess cost chain := by
  obtain ⟨s, first', more', hb', -, hs, he, -, rfl⟩ := C30_accepted_iff.mp ⟨fuel, h⟩
  cases hb.symm.trans hb'
  have hw := Odds.whole (guess := guess) (cost := cost) (T := 0) hs he
  rw [mul_zero, add_zero] at hw
  rw [← hw]
  simp only [Odds.value_cost, Odds.limit]

/-- C109: and so is how often each block is visited on average -/
theorem C109_visits {f : FunctionDefinition X} {fuel : Nat} {chain : ControlFlowChain}
    (h : findControlFlow fuel f = .ok chain) {first : BasicBlock X} {more : List (BasicBlock X)}
    (hb : f.blocks = first :: more) (guess : BlockId → ℝ≥0∞) (b : BlockId) :
    ∑' n, visitChance f.blocks guess b n ⟨labelId first⟩ = average guess (fun c => if c = b then 1 else 0) chain := by
  rw [← C109_cost h hb, ENNReal.tsum_eq_iSup_nat]
  simp only [Odds.value_cost, Odds.value_visits]

/-- C109: and how likely it is that the function returns -/
theorem C109_returns {f : FunctionDefinition X} {fuel : Nat} {chain : ControlFlowChain}
    (h : findControlFlow fuel f = .ok chain) {first : BasicBlock X} {more : List (BasicBlock X)}
    (hb : f.blocks = first :: more) (guess : BlockId → ℝ≥0∞) :
    ⨆ n, returnChance f.blocks guess n ⟨labelId first⟩ = chance guess chain .next := by
  obtain ⟨s, first', more', hb', -, hs, he, -, rfl⟩ := C30_accepted_iff.mp ⟨fuel, h⟩
  cases hb.symm.trans hb'
  have hw := Odds.whole (guess := guess) (cost := fun _ => 0) (T := 1) hs he
  rw [mul_one, Odds.average_toChain, Odds.average_zero, zero_add] at hw
  rw [← hw]
  simp only [Odds.value_returns, Odds.limit]

/-- C109: if no condition is always true or always false, a function returns almost surely exactly if every loop of the
recovered control flow has a break of its own. -/
theorem C109_certain {f : FunctionDefinition X} {fuel : Nat} {chain : ControlFlowChain}
    (h : findControlFlow fuel f = .ok chain) {first : BasicBlock X} {more : List (BasicBlock X)}
    (hb : f.blocks = first :: more) {guess : BlockId → ℝ≥0∞} (ho : Open f.blocks guess) :
    ⨆ n, returnChance f.blocks guess n ⟨labelId first⟩ = 1 ↔ LoopsExit chain := by
  rw [C109_returns h hb]
  obtain ⟨s, -, -, -, -, hs, -, -, rfl⟩ := C30_accepted_iff.mp ⟨fuel, h⟩
  exact (Odds.certain ho hs).1

/-- C109: and then the average cost is finite, if the costs are. -/
theorem C109_finite {f : FunctionDefinition X} {fuel : Nat} {chain : ControlFlowChain}
    (h : findControlFlow fuel f = .ok chain) {first : BasicBlock X} {more : List (BasicBlock X)}
    (hb : f.blocks = first :: more) {guess cost : BlockId → ℝ≥0∞} (ho : Open f.blocks guess) (hl : LoopsExit chain)
    (hc : ∀ id, cost id ≠ ⊤) : ⨆ n, meanCost f.blocks guess cost n ⟨labelId first⟩ ≠ ⊤ := by
  rw [C109_cost h hb]
  obtain ⟨s, -, -, -, -, hs, -, -, rfl⟩ := C30_accepted_iff.mp ⟨fuel, h⟩
  rw [Odds.average_toChain]
  exact Odds.finite ho hc s _ _ hs ((Odds.loopsExit_toChain s).mp hl)

/-- C109: what is computed as the chance to return is none exactly if no execution returns, and at most one. -/
theorem C109_possible {f : FunctionDefinition X} {fuel : Nat} {chain : ControlFlowChain}
    (h : findControlFlow fuel f = .ok chain) {first : BasicBlock X} {more : List (BasicBlock X)}
    (hb : f.blocks = first :: more) {guess : BlockId → ℝ≥0∞} (ho : Open f.blocks guess) :
    (chance guess chain .next = 0 ↔ ∀ ds, (runBlocks f.blocks ds ⟨labelId first⟩).2 ≠ .returned) ∧
    chance guess chain .next ≤ 1 := by
  constructor
  · rw [← C109_returns h hb, ENNReal.iSup_eq_zero]
    constructor
    · intro hz ds hr
      exact (Odds.returnChance_pos ho ds.length _).mpr ⟨ds, rfl, hr⟩ (hz _)
    · intro hn n
      by_contra hz
      obtain ⟨ds, -, hr⟩ := (Odds.returnChance_pos ho n _).mp hz
      exact hn ds hr
  · obtain ⟨s, -, -, -, -, hs, -, -, rfl⟩ := C30_accepted_iff.mp ⟨fuel, h⟩
    exact (Odds.certain ho hs).2

/-- A loop that is left once in four rounds -/
def often : FunctionDefinition Empty :=
  functionOf [emptyBlock 1 (some (.OpLoopMerge ⟨⟨4⟩, ⟨3⟩, ⟨false, false, false, none⟩⟩)) (.OpBranch ⟨⟨2⟩⟩),
    emptyBlock 2 none (.OpBranchConditional ⟨⟨9⟩, ⟨3⟩, ⟨4⟩, some ⟨3, 1⟩⟩), emptyBlock 3 none (.OpBranch ⟨⟨1⟩⟩),
    emptyBlock 4 none (.OpReturn {})]

/-- What is found for it -/
def oftenChain : ControlFlowChain :=
  .Block [.Loop ⟨1⟩ (.Selection ⟨2⟩ (.Block [.Atom ⟨3⟩]) .Break ⟨false, false⟩ (some ⟨3, 1⟩)) ⟨false, false, false, none⟩ none,
    .Atom ⟨4⟩]

theorem often_found : findControlFlow 20 often = .ok oftenChain := rfl

theorem often_odds (guess : BlockId → ℝ≥0∞) (id : BlockId) : odds guess id (some ⟨3, 1⟩) = 3 / 4 := by
  rw [odds, show UInt32.toNat 3 = 3 from rfl, show UInt32.toNat 1 = 1 from rfl]
  norm_num

theorem often_open (guess : BlockId → ℝ≥0∞) : Open often.blocks guess := by
  intro id b op hb ho
  have hm := List.mem_of_find?_eq_some hb
  simp only [often, functionOf, List.mem_cons, List.not_mem_nil, or_false] at hm
  rcases hm with rfl | rfl | rfl | rfl <;> simp only [emptyBlock, reduceCtorEq, GroupBranch.OpBranchConditional.injEq] at ho
  subst ho
  rw [often_odds]
  constructor
  · norm_num
  · refine ENNReal.div_lt_of_lt_mul' ?_
    norm_num

/-- It has four rounds on average, and returns almost surely. -/
example : ∑' n, visitChance often.blocks (fun _ => 0) ⟨1⟩ n ⟨1⟩ = 4 := by
  refine (C109_visits often_found rfl _ _).trans ?_
  have h : (1 - (3 / 4 : ℝ≥0∞)) = 4⁻¹ := by
    rw [← ENNReal.toReal_eq_toReal_iff' (by norm_num) (by norm_num)]
    rw [ENNReal.toReal_sub_of_le (ENNReal.div_le_of_le_mul' (by norm_num)) (by norm_num)]
    norm_num
  simp [oftenChain, average, averageAll, chance, chanceAll, often_odds, h, show ((2 : UInt32) = 1) = False by decide,
    show ((3 : UInt32) = 1) = False by decide, show ((4 : UInt32) = 1) = False by decide]
example : ⨆ n, returnChance often.blocks (fun _ => 0) n ⟨1⟩ = 1 :=
  (C109_certain often_found rfl (often_open _)).mpr (by simp [oftenChain, LoopsExit, LoopsExitAll, Exits])
example : ⨆ n, meanCost often.blocks (fun _ => 0) (fun _ => 7) n ⟨1⟩ ≠ ⊤ :=
  C109_finite often_found rfl (often_open _) (by simp [oftenChain, LoopsExit, LoopsExitAll, Exits]) (by simp)

end Magma.Props
