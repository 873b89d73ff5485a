import Verif.Proofs.Census
import Verif.Props.Odds
/-! C110: how many executions visit each block how often is read off the recovered control flow. -/

namespace Magma.Props
open Spec
variable {X : Type}

/-! ### C110 -/

open Classical in
/-- C110: let each way to take at a conditional branch have a weight. The weight of all executions that return and visit
each block as often as `m` says is the coefficient of `m` in the generating function that is computed from the recovered
control flow alone. -/
theorem C110_weight {R : Type} [CommRing R] {f : FunctionDefinition X} {fuel : Nat} {chain : ControlFlowChain}
    (h : findControlFlow fuel f = .ok chain) {first : BasicBlock X} {more : List (BasicBlock X)}
    (hb : f.blocks = first :: more) (yes no : BlockId → Option BranchWeights → R) (m : BlockId →₀ ℕ) :
    (((executions f.blocks yes no m.degree ⟨labelId first⟩).filter fun e => visits e.1 = m).map Prod.snd).sum =
      MvPowerSeries.coeff m (census yes no chain .next) := by
  obtain ⟨s, first', more', hb', -, hs, he, -, rfl⟩ := C30_accepted_iff.mp ⟨fuel, h⟩
  cases hb.symm.trans hb'
  rw [← Census.whole yes no hs he, MvPowerSeries.coeff_apply, Census.gen, Census.total]
  generalize executions f.blocks yes no m.degree _ = es
  induction es with
  | nil => rfl
  | cons e es ih =>
    rw [List.map_cons, List.sum_cons, ← ih, List.filter_cons]
    by_cases hm : visits e.1 = m <;> simp [hm]

/-- C110: so the executions that visit the same blocks as those of a trace, equally often, are counted by a coefficient. -/
theorem C110_count {f : FunctionDefinition X} {fuel : Nat} {chain : ControlFlowChain}
    (h : findControlFlow fuel f = .ok chain) {first : BasicBlock X} {more : List (BasicBlock X)}
    (hb : f.blocks = first :: more) (trace : List BlockId) :
    (((executions (R := Int) f.blocks (fun _ _ => 1) (fun _ _ => 1) trace.length ⟨labelId first⟩).countP
      fun e => e.1.isPerm trace : Nat) : Int) =
      MvPowerSeries.coeff (visits trace) (census (fun _ _ => 1) (fun _ _ => 1) chain .next) := by
  classical
  rw [← C110_weight h hb, Census.visits_degree]
  have hone := Census.weight_one f.blocks trace.length ⟨labelId first⟩
  revert hone
  generalize executions (R := Int) f.blocks (fun _ _ => 1) (fun _ _ => 1) trace.length _ = es
  intro hone
  induction es with
  | nil => rfl
  | cons e es ih =>
    have ih := ih fun e' he' => hone e' (List.mem_cons_of_mem _ he')
    have h1 := hone e List.mem_cons_self
    have hp : e.1.isPerm trace = true ↔ visits e.1 = visits trace := List.isPerm_iff.trans Census.visits_perm.symm
    rw [List.countP_cons, List.filter_cons]
    by_cases hv : visits e.1 = visits trace
    · simp only [hp.mpr hv, hv, if_true, decide_true, List.map_cons, List.sum_cons, h1, ← ih]
      push_cast
      ring
    · simp only [mt hp.mp hv, hv, if_false, decide_false, add_zero, Bool.false_eq_true, ← ih]

/-- C110: the executions listed are those that return. -/
theorem C110_executions {R : Type} [CommRing R] (blocks : List (BasicBlock X))
    (yes no : BlockId → Option BranchWeights → R) (id : BlockId) (trace : List BlockId) :
    trace ∈ (executions blocks yes no trace.length id).map Prod.fst ↔
      ∃ ds, runBlocks blocks ds id = (trace, .returned) :=
  Census.executions_iff blocks yes no trace id

/-- A loop with a selection in it -/
def twoWays : FunctionDefinition Empty :=
  functionOf [emptyBlock 1 (some (.OpLoopMerge ⟨⟨9⟩, ⟨8⟩, ⟨false, false, false, none⟩⟩)) (.OpBranch ⟨⟨2⟩⟩),
    emptyBlock 2 none (.OpBranchConditional ⟨⟨20⟩, ⟨3⟩, ⟨9⟩, none⟩),
    emptyBlock 3 (some (.OpSelectionMerge ⟨⟨8⟩, ⟨false, false⟩⟩)) (.OpBranchConditional ⟨⟨21⟩, ⟨4⟩, ⟨5⟩, none⟩),
    emptyBlock 4 none (.OpBranch ⟨⟨8⟩⟩), emptyBlock 5 none (.OpBranch ⟨⟨8⟩⟩), emptyBlock 8 none (.OpBranch ⟨⟨1⟩⟩),
    emptyBlock 9 none (.OpReturn {})]

/-- What is found for it -/
def twoWaysChain : ControlFlowChain :=
  .Block [.Loop ⟨1⟩ (.Selection ⟨2⟩ (.Block [.Selection ⟨3⟩ (.Block [.Atom ⟨4⟩]) (.Block [.Atom ⟨5⟩]) ⟨false, false⟩ none,
    .Atom ⟨8⟩]) .Break ⟨false, false⟩ none) ⟨false, false, false, none⟩ none, .Atom ⟨9⟩]

theorem twoWays_found : findControlFlow 40 twoWays = .ok twoWaysChain := by rfl

/-- Two executions take each side of the selection once: they differ in the order. -/
example : MvPowerSeries.coeff (visits ([1, 2, 3, 4, 8, 1, 2, 3, 5, 8, 1, 2, 9].map fun n => ⟨n⟩))
    (census (R := Int) (fun _ _ => 1) (fun _ _ => 1) twoWaysChain .next) = 2 := by
  rw [← C110_count twoWays_found rfl]
  decide
/-- The generating function: there are rounds `1 2 3 4 8` and `1 2 3 5 8`, then `1 2 9`. -/
example : census (R := Int) (fun _ _ => 1) (fun _ _ => 1) twoWaysChain .next =
    .invOfUnit (1 - .X ⟨1⟩ * (.X ⟨2⟩ * (.X ⟨3⟩ * (.X ⟨4⟩ + .X ⟨5⟩) * .X ⟨8⟩))) 1 * (.X ⟨1⟩ * .X ⟨2⟩) * .X ⟨9⟩ := by
  simp [twoWaysChain, census, censusAll]
/-- No execution visits the last block twice. -/
example : MvPowerSeries.coeff (visits [⟨1⟩, ⟨2⟩, ⟨9⟩, ⟨9⟩])
    (census (R := Int) (fun _ _ => 1) (fun _ _ => 1) twoWaysChain .next) = 0 := by
  rw [← C110_count twoWays_found rfl]
  decide

end Magma.Props
