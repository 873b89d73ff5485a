import Verif.Proofs.Monitor
import Verif.Props.Regular
/-! C105: whatever a finite automaton can find out about the executions is read off the recovered control flow. -/

namespace Magma.Props
open Spec
variable {X σ : Type} [Fintype σ] [DecidableEq σ]

/-! ### C105 -/

/-- C105: an automaton that watches the blocks an execution visits is, when the execution returns, in one of the states
computed from the recovered control flow, and there is an execution for each of them. -/
theorem C105_returned {f : FunctionDefinition X} {fuel : Nat} {chain : ControlFlowChain}
    (h : findControlFlow fuel f = .ok chain) {first : BasicBlock X} {more : List (BasicBlock X)}
    (hb : f.blocks = first :: more) (step : σ → BlockId → σ) (start state : σ) :
    (∃ ds, (runBlocks f.blocks ds ⟨labelId first⟩).2 = .returned ∧
        (runBlocks f.blocks ds ⟨labelId first⟩).1.foldl step start = state) ↔
      state ∈ after step (ways chain .next) {start} := by
  rw [Monitor.mem_after]
  constructor
  · rintro ⟨ds, hr, hs⟩
    exact ⟨start, Finset.mem_singleton_self _, _, (C102_returned h hb _).mp ⟨ds, Prod.ext rfl hr⟩, hs⟩
  · rintro ⟨p, hp, x, hx, hs⟩
    obtain ⟨ds, hr⟩ := (C102_returned h hb x).mpr hx
    rw [Finset.mem_singleton.mp hp] at hs
    exact ⟨ds, by rw [hr], by rw [hr]; exact hs⟩

/-- C105: and while executions go on, it is in the states computed likewise. -/
theorem C105_running {f : FunctionDefinition X} {fuel : Nat} {chain : ControlFlowChain}
    (h : findControlFlow fuel f = .ok chain) {first : BasicBlock X} {more : List (BasicBlock X)}
    (hb : f.blocks = first :: more) (step : σ → BlockId → σ) (start state : σ) :
    (∃ ds, (runBlocks f.blocks ds ⟨labelId first⟩).2 = .running ∧
        (runBlocks f.blocks ds ⟨labelId first⟩).1.foldl step start = state) ↔
      state ∈ after step (ways chain .running) {start} := by
  rw [Monitor.mem_after]
  constructor
  · rintro ⟨ds, hr, hs⟩
    exact ⟨start, Finset.mem_singleton_self _, _, (C102_running h hb _).mp ⟨ds, Prod.ext rfl hr⟩, hs⟩
  · rintro ⟨p, hp, x, hx, hs⟩
    obtain ⟨ds, hr⟩ := (C102_running h hb x).mpr hx
    rw [Finset.mem_singleton.mp hp] at hs
    exact ⟨ds, by rw [hr], by rw [hr]; exact hs⟩

/-- C105: so it can be decided whether all executions that return end in a good state, and whether no execution ever gets
to a bad one. -/
theorem C105_decided {f : FunctionDefinition X} {fuel : Nat} {chain : ControlFlowChain}
    (h : findControlFlow fuel f = .ok chain) {first : BasicBlock X} {more : List (BasicBlock X)}
    (hb : f.blocks = first :: more) (step : σ → BlockId → σ) (start : σ) (good : σ → Bool) :
    ((∀ ds, (runBlocks f.blocks ds ⟨labelId first⟩).2 = .returned →
        good ((runBlocks f.blocks ds ⟨labelId first⟩).1.foldl step start) = true) ↔
      ∀ state ∈ after step (ways chain .next) {start}, good state = true) ∧
    ((∀ ds, good ((runBlocks f.blocks ds ⟨labelId first⟩).1.foldl step start) = true) ↔
      ∀ state ∈ after step (ways chain .next) {start} ∪ after step (ways chain .running) {start}, good state = true) := by
  constructor
  · constructor
    · intro hg state hs
      obtain ⟨ds, hr, rfl⟩ := (C105_returned h hb step start state).mpr hs
      exact hg ds hr
    · intro hg ds hr
      exact hg _ ((C105_returned h hb step start _).mp ⟨ds, hr, rfl⟩)
  · constructor
    · intro hg state hs
      rcases Finset.mem_union.mp hs with hs | hs
      · obtain ⟨ds, -, rfl⟩ := (C105_returned h hb step start state).mpr hs
        exact hg ds
      · obtain ⟨ds, -, rfl⟩ := (C105_running h hb step start state).mpr hs
        exact hg ds
    · intro hg ds
      obtain ⟨first', more', hb', hn⟩ := C27_never_stuck h
      cases hb.symm.trans hb'
      cases hr : (runBlocks f.blocks ds ⟨labelId first⟩).2 with
      | returned => exact hg _ (Finset.mem_union_left _ ((C105_returned h hb step start _).mp ⟨ds, hr, rfl⟩))
      | running => exact hg _ (Finset.mem_union_right _ ((C105_running h hb step start _).mp ⟨ds, hr, rfl⟩))
      | stuck => exact absurd hr (hn ds)

/-- How often block 12 has been visited since block 10 was, up to two -/
def sinceHeader (count : Fin 3) (id : BlockId) : Fin 3 :=
  if id.val = 10 then 0 else if id.val = 12 then (if count = 0 then 1 else 2) else count

/-- Whether blocks 12 and 14 have been visited equally often, up to an even number -/
def evenly (odd : Bool) (id : BlockId) : Bool := if id.val = 12 ∨ id.val = 14 then !odd else odd

/-- In the loop with a selection, block 12 is visited at most once a round. -/
example : ∀ ds, decide ((runBlocks roundTrip.blocks ds ⟨1⟩).1.foldl sinceHeader 0 ≠ 2) = true :=
  (C105_decided (f := roundTrip) (fuel := 20) (chain := roundTripChain) rfl rfl sinceHeader 0 (decide <| · ≠ 2)).2.mpr
    (by decide)
/-- But not as often as block 14 -/
example : ∃ ds, (runBlocks roundTrip.blocks ds ⟨1⟩).2 = .returned ∧
    (runBlocks roundTrip.blocks ds ⟨1⟩).1.foldl evenly false = true :=
  (C105_returned (f := roundTrip) (fuel := 20) (chain := roundTripChain) rfl rfl evenly false true).mpr (by decide)

end Magma.Props
