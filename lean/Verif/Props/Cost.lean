import Verif.Proofs.Cost
import Verif.Props.Regular
import Verif.Props.Expressible
/-! C103: what executions can cost is read off the recovered control flow. -/

namespace Magma.Props
open Spec
variable {X : Type}

/-! ### C103 -/

/-- C103: let each visit of a block cost something. What is computed from the recovered control flow as the least cost
is the cost of an execution of the function that returns, and none costs less; and nothing is computed exactly if no
execution returns. -/
theorem C103_cheapest {f : FunctionDefinition X} {fuel : Nat} {chain : ControlFlowChain}
    (h : findControlFlow fuel f = .ok chain) {first : BasicBlock X} {more : List (BasicBlock X)}
    (hb : f.blocks = first :: more) (w : BlockId → Nat) :
    (∀ n, cheapest w (ways chain .next) = some n ↔
      (∃ ds trace, runBlocks f.blocks ds ⟨labelId first⟩ = (trace, .returned) ∧ cost w trace = n) ∧
      ∀ ds trace, runBlocks f.blocks ds ⟨labelId first⟩ = (trace, .returned) → n ≤ cost w trace) ∧
    (cheapest w (ways chain .next) = none ↔ ∀ ds, (runBlocks f.blocks ds ⟨labelId first⟩).2 ≠ .returned) := by
  have hr := C102_returned h hb
  have hs := Cost.cheapest_spec w (ways chain .next)
  refine ⟨fun n => ⟨fun e => ?_, fun ⟨⟨ds, tr, h1, h2⟩, h3⟩ => ?_⟩, fun e ds ho => ?_, fun e => ?_⟩
  · rw [e] at hs
    obtain ⟨⟨x, hx, hc⟩, hl⟩ := hs
    obtain ⟨ds, hd⟩ := (hr x).mpr hx
    exact ⟨⟨ds, x, hd, hc⟩, fun ds tr hd => hl tr ((hr tr).mp ⟨ds, hd⟩)⟩
  · refine hs.unique (n := some n) ⟨⟨tr, (hr tr).mp ⟨ds, h1⟩, h2⟩, fun x hx => ?_⟩
    obtain ⟨ds, hd⟩ := (hr x).mpr hx
    exact h3 ds x hd
  · rw [e] at hs
    exact hs _ ((hr _).mp ⟨ds, Prod.ext rfl ho⟩)
  · refine hs.unique (n := none) fun x hx => ?_
    obtain ⟨ds, hd⟩ := (hr x).mpr hx
    exact e ds (congrArg Prod.snd hd)

/-- C103: what is computed as the greatest cost is the cost of an execution that returns, and none costs more; it is
unbounded exactly if there are ever dearer ones, and nothing exactly if no execution returns. -/
theorem C103_dearest {f : FunctionDefinition X} {fuel : Nat} {chain : ControlFlowChain}
    (h : findControlFlow fuel f = .ok chain) {first : BasicBlock X} {more : List (BasicBlock X)}
    (hb : f.blocks = first :: more) (w : BlockId → Nat) :
    (∀ n, dearest w (ways chain .next) = .costs n ↔
      (∃ ds trace, runBlocks f.blocks ds ⟨labelId first⟩ = (trace, .returned) ∧ cost w trace = n) ∧
      ∀ ds trace, runBlocks f.blocks ds ⟨labelId first⟩ = (trace, .returned) → cost w trace ≤ n) ∧
    (dearest w (ways chain .next) = .unbounded ↔
      ∀ n, ∃ ds trace, runBlocks f.blocks ds ⟨labelId first⟩ = (trace, .returned) ∧ n ≤ cost w trace) ∧
    (dearest w (ways chain .next) = .never ↔ ∀ ds, (runBlocks f.blocks ds ⟨labelId first⟩).2 ≠ .returned) := by
  have hr := C102_returned h hb
  have hs := Cost.dearest_spec w (ways chain .next)
  refine ⟨fun n => ⟨fun e => ?_, fun ⟨⟨ds, tr, h1, h2⟩, h3⟩ => ?_⟩, ⟨fun e n => ?_, fun e => ?_⟩, fun e ds ho => ?_, fun e => ?_⟩
  · rw [e] at hs
    obtain ⟨⟨x, hx, hc⟩, hl⟩ := hs
    obtain ⟨ds, hd⟩ := (hr x).mpr hx
    exact ⟨⟨ds, x, hd, hc⟩, fun ds tr hd => hl tr ((hr tr).mp ⟨ds, hd⟩)⟩
  · refine hs.unique (n := .costs n) ⟨⟨tr, (hr tr).mp ⟨ds, h1⟩, h2⟩, fun x hx => ?_⟩
    obtain ⟨ds, hd⟩ := (hr x).mpr hx
    exact h3 ds x hd
  · rw [e] at hs
    obtain ⟨x, hx, hn⟩ := hs n
    obtain ⟨ds, hd⟩ := (hr x).mpr hx
    exact ⟨ds, x, hd, hn⟩
  · refine hs.unique (n := .unbounded) fun n => ?_
    obtain ⟨ds, tr, hd, hn⟩ := e n
    exact ⟨tr, (hr tr).mp ⟨ds, hd⟩, hn⟩
  · rw [e] at hs
    exact hs _ ((hr _).mp ⟨ds, Prod.ext rfl ho⟩)
  · refine hs.unique (n := .never) fun x hx => ?_
    obtain ⟨ds, hd⟩ := (hr x).mpr hx
    exact e ds (congrArg Prod.snd hd)

/-- C103: there is a bound on the blocks visited by executions exactly if there is no loop in the recovered control
flow. -/
theorem C103_bounded {f : FunctionDefinition X} {fuel : Nat} {chain : ControlFlowChain}
    (h : findControlFlow fuel f = .ok chain) {first : BasicBlock X} {more : List (BasicBlock X)}
    (hb : f.blocks = first :: more) :
    (∃ n, ∀ ds, (runBlocks f.blocks ds ⟨labelId first⟩).1.length ≤ n) ↔ ¬ HasLoop chain := by
  constructor
  · rintro ⟨n, hn⟩ hl
    obtain ⟨s, -, rfl⟩ := C57_only h
    obtain ⟨x, hx, hx'⟩ := Cost.runs_on (n + 1) s ((Cost.hasLoop_toChain s).mp hl)
    obtain ⟨ds, hd⟩ := (C102_running h hb x).mpr ((Cost.mem_toChain s).mpr hx)
    have := hn ds
    rw [hd] at this
    dsimp only at this
    omega
  · intro hl
    have key : ∀ s, ∃ n, ∀ x ∈ (ways chain s).matches', x.length ≤ n := fun s => by
      have hs := Cost.dearest_spec (fun _ => 1) (ways chain s)
      cases hd : dearest (fun _ => 1) (ways chain s) with
      | never => rw [hd] at hs; exact ⟨0, fun x hx => absurd hx (hs x)⟩
      | costs n => rw [hd] at hs; exact ⟨n, fun x hx => Cost.cost_one x ▸ hs.2 x hx⟩
      | unbounded => exact absurd hd (Cost.bounded _ chain s hl)
    obtain ⟨m, hm⟩ := key .next
    obtain ⟨n, hn⟩ := key .running
    refine ⟨max m n, fun ds => ?_⟩
    obtain ⟨first', more', hb', hns⟩ := C27_never_stuck h
    cases hb.symm.trans hb'
    cases ho : (runBlocks f.blocks ds ⟨labelId first⟩).2 with
    | returned => exact Nat.le_trans (hm _ ((C102_returned h hb _).mp ⟨ds, Prod.ext rfl ho⟩)) (Nat.le_max_left _ _)
    | running => exact Nat.le_trans (hn _ ((C102_running h hb _).mp ⟨ds, Prod.ext rfl ho⟩)) (Nat.le_max_right _ _)
    | stuck => exact absurd ho (hns ds)

/-- C103: and exactly then every execution has returned after some number of visits. -/
theorem C103_returns {f : FunctionDefinition X} {fuel : Nat} {chain : ControlFlowChain}
    (h : findControlFlow fuel f = .ok chain) {first : BasicBlock X} {more : List (BasicBlock X)}
    (hb : f.blocks = first :: more) :
    (∃ n, ∀ ds : List Bool, n ≤ ds.length → (runBlocks f.blocks ds ⟨labelId first⟩).2 = .returned) ↔ ¬ HasLoop chain := by
  obtain ⟨first', more', hb', hns⟩ := C27_never_stuck h
  cases hb.symm.trans hb'
  constructor
  · rintro ⟨n, hn⟩ hl
    obtain ⟨s, -, rfl⟩ := C57_only h
    obtain ⟨x, hx, hx'⟩ := Cost.runs_on n s ((Cost.hasLoop_toChain s).mp hl)
    obtain ⟨ds, hd⟩ := (C102_running h hb x).mpr ((Cost.mem_toChain s).mpr hx)
    have h1 := Cost.length_le f.blocks ds ⟨labelId first⟩
    rw [hd] at h1
    have h2 := hn ds (Nat.le_trans hx' h1)
    rw [hd] at h2
    cases h2
  · intro hl
    obtain ⟨n, hn⟩ := (C103_bounded h hb).mpr hl
    refine ⟨n + 1, fun ds hd => ?_⟩
    cases ho : (runBlocks f.blocks ds ⟨labelId first⟩).2 with
    | returned => rfl
    | running =>
      have h1 := Cost.running_length f.blocks ds ⟨labelId first⟩ ho
      have h2 := hn ds
      omega
    | stuck => exact absurd ho (hns ds)

/-- For the loop of C102: with 5 for block 12 and 1 for the others, the cheapest execution costs 5, and there is no
bound. -/
example : findControlFlow 20 roundTrip = .ok roundTripChain ∧
    cheapest (fun id => if id = ⟨12⟩ then 5 else 1) (ways roundTripChain .next) = some 5 ∧
    dearest (fun id => if id = ⟨12⟩ then 5 else 1) (ways roundTripChain .next) = .unbounded ∧ HasLoop roundTripChain :=
  ⟨by rfl, by decide, by decide, by simp [roundTripChain, HasLoop, HasLoops]⟩

/-- A selection -/
def detour : FunctionDefinition Empty :=
  functionOf [emptyBlock 1 (some (.OpSelectionMerge ⟨⟨4⟩, ⟨false, false⟩⟩)) (.OpBranchConditional ⟨⟨9⟩, ⟨2⟩, ⟨4⟩, none⟩),
    emptyBlock 2 none (.OpBranch ⟨⟨4⟩⟩), emptyBlock 4 none (.OpReturn {})]

/-- What is found for it -/
def detourChain : ControlFlowChain :=
  .Block [.Selection ⟨1⟩ (.Block [.Atom ⟨2⟩]) (.Block []) ⟨false, false⟩ none, .Atom ⟨4⟩]

example : findControlFlow 20 detour = .ok detourChain ∧
    cheapest (fun id => id.val.toNat) (ways detourChain .next) = some 5 ∧
    dearest (fun id => id.val.toNat) (ways detourChain .next) = .costs 7 ∧ ¬ HasLoop detourChain :=
  ⟨by rfl, by decide, by decide, by simp [detourChain, HasLoop, HasLoops]⟩
example : ∃ ds trace, runBlocks detour.blocks ds ⟨1⟩ = (trace, .returned) ∧ cost (fun id => id.val.toNat) trace = 7 :=
  ((C103_dearest (f := detour) (fuel := 20) (chain := detourChain) rfl rfl (fun id => id.val.toNat)).1 7 |>.mp (by decide)).1

end Magma.Props
