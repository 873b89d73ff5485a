import Verif.Proofs.LoopBound
import Verif.Props.NaturalLoops
import Verif.Props.Cost
/-! C111: with bounds on the rounds of loops, what executions cost at most is read off the recovered control flow. -/

namespace Magma.Props
open Spec
variable {X : Type}

/-! ### C111 -/

/-- C111: let there be a bound on the rounds of each loop. The executions that return and keep the bounds are those that
match an expression without repetition that is read off the recovered control flow; so are those that did not return yet. -/
theorem C111_ways {f : FunctionDefinition X} {fuel : Nat} {chain : ControlFlowChain}
    (h : findControlFlow fuel f = .ok chain) (hd : (chainIds chain).Nodup) {first : BasicBlock X}
    {more : List (BasicBlock X)} (hb : f.blocks = first :: more) (bound : BlockId → Nat) (trace : List BlockId) :
    (trace ∈ (waysWithin bound chain .next).matches' ↔
      (∃ ds, runBlocks f.blocks ds ⟨labelId first⟩ = (trace, .returned)) ∧
        Keeps bound (fun a b => WithinLoop a b chain) trace) ∧
    (trace ∈ (waysWithin bound chain .running).matches' ↔
      (∃ ds, runBlocks f.blocks ds ⟨labelId first⟩ = (trace, .running)) ∧
        Keeps bound (fun a b => WithinLoop a b chain) trace) := by
  rw [C102_returned h hb, C102_running h hb]
  exact ⟨LoopBound.within_iff chain _ trace hd, LoopBound.within_iff chain _ trace hd⟩

/-- C111: so what executions that keep the bounds and return cost at most is computed from the recovered control flow: it
is attained and not passed, and nothing is computed exactly if there is no such execution. -/
theorem C111_dearest {f : FunctionDefinition X} {fuel : Nat} {chain : ControlFlowChain}
    (h : findControlFlow fuel f = .ok chain) (hd : (chainIds chain).Nodup) {first : BasicBlock X}
    {more : List (BasicBlock X)} (hb : f.blocks = first :: more) (bound w : BlockId → Nat) :
    (∀ n, dearest w (waysWithin bound chain .next) = .costs n ↔
      (∃ ds trace, runBlocks f.blocks ds ⟨labelId first⟩ = (trace, .returned) ∧
        Keeps bound (fun a b => WithinLoop a b chain) trace ∧ cost w trace = n) ∧
      ∀ ds trace, runBlocks f.blocks ds ⟨labelId first⟩ = (trace, .returned) →
        Keeps bound (fun a b => WithinLoop a b chain) trace → cost w trace ≤ n) ∧
    (dearest w (waysWithin bound chain .next) = .never ↔ ∀ ds trace,
      runBlocks f.blocks ds ⟨labelId first⟩ = (trace, .returned) → ¬ Keeps bound (fun a b => WithinLoop a b chain) trace) ∧
    dearest w (waysWithin bound chain .next) ≠ .unbounded := by
  have hr := fun t => (C111_ways h hd hb bound t).1
  have hs := Cost.dearest_spec w (waysWithin bound chain .next)
  refine ⟨fun n => ⟨fun e => ?_, fun ⟨⟨ds, tr, h1, h2, h3⟩, h4⟩ => ?_⟩, ⟨fun e ds tr ho hk => ?_, fun e => ?_⟩,
    LoopBound.bounded w chain _⟩
  · rw [e] at hs
    obtain ⟨⟨x, hx, hc⟩, hl⟩ := hs
    obtain ⟨⟨ds, h1⟩, h2⟩ := (hr x).mp hx
    exact ⟨⟨ds, x, h1, h2, hc⟩, fun ds tr h1 h2 => hl tr ((hr tr).mpr ⟨⟨ds, h1⟩, h2⟩)⟩
  · refine hs.unique (n := .costs n) ⟨⟨tr, (hr tr).mpr ⟨⟨ds, h1⟩, h2⟩, h3⟩, fun x hx => ?_⟩
    obtain ⟨⟨ds, h1⟩, h2⟩ := (hr x).mp hx
    exact h4 ds x h1 h2
  · rw [e] at hs
    exact hs _ ((hr tr).mpr ⟨⟨ds, ho⟩, hk⟩)
  · refine hs.unique (n := .never) fun x hx => ?_
    obtain ⟨⟨ds, h1⟩, h2⟩ := (hr x).mp hx
    exact e ds x h1 h2

/-- C111: the same for executions that did not return yet, of which there is always one -/
theorem C111_running {f : FunctionDefinition X} {fuel : Nat} {chain : ControlFlowChain}
    (h : findControlFlow fuel f = .ok chain) (hd : (chainIds chain).Nodup) {first : BasicBlock X}
    {more : List (BasicBlock X)} (hb : f.blocks = first :: more) (bound w : BlockId → Nat) :
    ∃ n, dearest w (waysWithin bound chain .running) = .costs n ∧
      (∃ ds trace, runBlocks f.blocks ds ⟨labelId first⟩ = (trace, .running) ∧
        Keeps bound (fun a b => WithinLoop a b chain) trace ∧ cost w trace = n) ∧
      ∀ ds trace, runBlocks f.blocks ds ⟨labelId first⟩ = (trace, .running) →
        Keeps bound (fun a b => WithinLoop a b chain) trace → cost w trace ≤ n := by
  have hr := fun t => (C111_ways h hd hb bound t).2
  have hs := Cost.dearest_spec w (waysWithin bound chain .running)
  cases e : dearest w (waysWithin bound chain .running) with
  | never =>
    rw [e] at hs
    exact absurd ((hr []).mpr ⟨⟨[], rfl⟩, LoopBound.keeps_nil⟩) (hs [])
  | costs n =>
    rw [e] at hs
    obtain ⟨⟨x, hx, hc⟩, hl⟩ := hs
    obtain ⟨⟨ds, h1⟩, h2⟩ := (hr x).mp hx
    exact ⟨n, rfl, ⟨ds, x, h1, h2, hc⟩, fun ds tr h1 h2 => hl tr ((hr tr).mpr ⟨⟨ds, h1⟩, h2⟩)⟩
  | unbounded => exact absurd e (LoopBound.bounded w chain _)

/-- C111: if every loop has a break, the loops are the natural loops of the control flow graph, so what the bounds mean
does not depend on the recovered control flow. -/
theorem C111_natural {f : FunctionDefinition X} {fuel : Nat} {chain : ControlFlowChain}
    (h : findControlFlow fuel f = .ok chain) (hd : (chainIds chain).Nodup) (hl : LoopsEnd chain) {first : BasicBlock X}
    {more : List (BasicBlock X)} (hb : f.blocks = first :: more) (bound w : BlockId → Nat) (n : Nat) :
    dearest w (waysWithin bound chain .next) = .costs n ↔
      (∃ ds trace, runBlocks f.blocks ds ⟨labelId first⟩ = (trace, .returned) ∧
        Keeps bound (Standard.NaturalLoop f.blocks (labelId first)) trace ∧ cost w trace = n) ∧
      ∀ ds trace, runBlocks f.blocks ds ⟨labelId first⟩ = (trace, .returned) →
        Keeps bound (Standard.NaturalLoop f.blocks (labelId first)) trace → cost w trace ≤ n := by
  rw [(C111_dearest h hd hb bound w).1 n]
  have e : (fun a b => WithinLoop a b chain) = Standard.NaturalLoop f.blocks (labelId first) := by
    funext a b
    exact propext (C97_natural h hd hl hb a b)
  rw [e]

/-- A loop in a loop -/
def loopInLoop : FunctionDefinition Empty :=
  functionOf [emptyBlock 1 (some (.OpLoopMerge ⟨⟨9⟩, ⟨8⟩, ⟨false, false, false, none⟩⟩)) (.OpBranch ⟨⟨2⟩⟩),
    emptyBlock 2 none (.OpBranchConditional ⟨⟨20⟩, ⟨3⟩, ⟨9⟩, none⟩),
    emptyBlock 3 (some (.OpLoopMerge ⟨⟨7⟩, ⟨6⟩, ⟨false, false, false, none⟩⟩)) (.OpBranch ⟨⟨4⟩⟩),
    emptyBlock 4 none (.OpBranchConditional ⟨⟨21⟩, ⟨5⟩, ⟨7⟩, none⟩), emptyBlock 5 none (.OpBranch ⟨⟨6⟩⟩),
    emptyBlock 6 none (.OpBranch ⟨⟨3⟩⟩), emptyBlock 7 none (.OpBranch ⟨⟨8⟩⟩), emptyBlock 8 none (.OpBranch ⟨⟨1⟩⟩),
    emptyBlock 9 none (.OpReturn {})]

/-- What is found for it -/
def loopInLoopChain : ControlFlowChain :=
  .Block [.Loop ⟨1⟩ (.Selection ⟨2⟩ (.Block [.Loop ⟨3⟩ (.Selection ⟨4⟩ (.Block [.Atom ⟨5⟩, .Atom ⟨6⟩]) .Break
    ⟨false, false⟩ none) ⟨false, false, false, none⟩ none, .Atom ⟨7⟩, .Atom ⟨8⟩]) .Break ⟨false, false⟩ none)
    ⟨false, false, false, none⟩ none, .Atom ⟨9⟩]

theorem loopInLoop_found : findControlFlow 40 loopInLoop = .ok loopInLoopChain := by rfl

/-- At most two rounds of the outer loop and three of the inner one -/
def loopInLoopBound (id : BlockId) : Nat := if id.val = 1 then 2 else 3

/-- If each block costs one, an execution that keeps the bounds costs 17 at most: `1 2`, twice `3 4 5 6`, then `3 4 7 8`,
`1 2`, and `9`. -/
example : (∃ ds trace, runBlocks loopInLoop.blocks ds ⟨1⟩ = (trace, .returned) ∧
      Keeps loopInLoopBound (Standard.NaturalLoop loopInLoop.blocks 1) trace ∧ cost (fun _ => 1) trace = 17) ∧
    ∀ ds trace, runBlocks loopInLoop.blocks ds ⟨1⟩ = (trace, .returned) →
      Keeps loopInLoopBound (Standard.NaturalLoop loopInLoop.blocks 1) trace → cost (fun _ => 1) trace ≤ 17 :=
  (C111_natural loopInLoop_found (by decide) (by simp [loopInLoopChain, LoopsEnd, LoopsEndAll, canBreak, canBreakAny]) rfl
    loopInLoopBound (fun _ => 1) 17).mp (by decide)
/-- Without rounds of the outer loop no execution returns. -/
example : ∀ ds trace, runBlocks loopInLoop.blocks ds ⟨1⟩ = (trace, .returned) →
    ¬ Keeps (fun _ => 0) (fun a b => WithinLoop a b loopInLoopChain) trace :=
  (C111_dearest loopInLoop_found (by decide) rfl (fun _ => 0) (fun _ => 1)).2.1.mp (by decide)
/-- If the inner loop may have no rounds, an execution that did not return yet visited two blocks at most. -/
example : dearest (fun _ => 1) (waysWithin (fun id => if id.val = 3 then 0 else 1) loopInLoopChain .running) = .costs 2 := by
  decide

end Magma.Props
