import Verif.Proofs.Regular
import Verif.Props.ControlFlow
/-! C102: the recovered control flow is a regular expression for the executions. -/

namespace Magma.Props
open Spec
variable {X : Type}

/-! ### C102 -/

/-- C102: the executions of the function that return visit exactly the sequences of blocks that match the regular
expression read off the recovered control flow. -/
theorem C102_returned {f : FunctionDefinition X} {fuel : Nat} {chain : ControlFlowChain}
    (h : findControlFlow fuel f = .ok chain) {first : BasicBlock X} {more : List (BasicBlock X)}
    (hb : f.blocks = first :: more) (trace : List BlockId) :
    (∃ ds, runBlocks f.blocks ds ⟨labelId first⟩ = (trace, .returned)) ↔ trace ∈ (ways chain .next).matches' := by
  obtain ⟨first', more', hb', hr⟩ := C27_executions h
  cases hb.symm.trans hb'
  simp only [← hr]
  exact (Regular.run_iff chain trace).1

/-- C102: the executions that have not returned yet have visited exactly the sequences of blocks that match another. -/
theorem C102_running {f : FunctionDefinition X} {fuel : Nat} {chain : ControlFlowChain}
    (h : findControlFlow fuel f = .ok chain) {first : BasicBlock X} {more : List (BasicBlock X)}
    (hb : f.blocks = first :: more) (trace : List BlockId) :
    (∃ ds, runBlocks f.blocks ds ⟨labelId first⟩ = (trace, .running)) ↔ trace ∈ (ways chain .running).matches' := by
  obtain ⟨first', more', hb', hr⟩ := C27_executions h
  cases hb.symm.trans hb'
  simp only [← hr]
  exact (Regular.run_iff chain trace).2

/-- C102: so one can compute from the recovered control flow whether there is an execution that visits these blocks and
returns. -/
theorem C102_decided {f : FunctionDefinition X} {fuel : Nat} {chain : ControlFlowChain}
    (h : findControlFlow fuel f = .ok chain) {first : BasicBlock X} {more : List (BasicBlock X)}
    (hb : f.blocks = first :: more) (trace : List BlockId) :
    (∃ ds, runBlocks f.blocks ds ⟨labelId first⟩ = (trace, .returned)) ↔ (ways chain .next).rmatch trace = true := by
  rw [C102_returned h hb, RegularExpression.rmatch_iff_matches']

/-- A loop that one can leave, with a selection inside -/
def roundTrip : FunctionDefinition Empty :=
  functionOf [emptyBlock 1 none (.OpBranch ⟨⟨10⟩⟩),
    emptyBlock 10 (some (.OpLoopMerge ⟨⟨15⟩, ⟨14⟩, ⟨false, false, false, none⟩⟩)) (.OpBranch ⟨⟨11⟩⟩),
    emptyBlock 11 (some (.OpSelectionMerge ⟨⟨14⟩, ⟨false, false⟩⟩)) (.OpBranchConditional ⟨⟨9⟩, ⟨12⟩, ⟨14⟩, none⟩),
    emptyBlock 12 none (.OpBranch ⟨⟨14⟩⟩),
    emptyBlock 14 none (.OpBranchConditional ⟨⟨9⟩, ⟨10⟩, ⟨15⟩, none⟩),
    emptyBlock 15 none (.OpReturn {})]

/-- What is found for it -/
def roundTripChain : ControlFlowChain :=
  .Block [.Atom ⟨1⟩, .Loop ⟨10⟩ (.Block [.Selection ⟨11⟩ (.Block [.Atom ⟨12⟩]) (.Block []) ⟨false, false⟩ none,
    .Selection ⟨14⟩ (.Block []) .Break ⟨false, false⟩ none]) ⟨false, false, false, none⟩ none, .Atom ⟨15⟩]

example : findControlFlow 20 roundTrip = .ok roundTripChain := by rfl
theorem roundTrip_decided (trace : List BlockId) : (∃ ds, runBlocks roundTrip.blocks ds ⟨1⟩ = (trace, .returned)) ↔
    (ways roundTripChain .next).rmatch trace = true :=
  C102_decided (f := roundTrip) (fuel := 20) rfl rfl trace

example : ∃ ds, runBlocks roundTrip.blocks ds ⟨1⟩ =
    ([⟨1⟩, ⟨10⟩, ⟨11⟩, ⟨12⟩, ⟨14⟩, ⟨10⟩, ⟨11⟩, ⟨14⟩, ⟨15⟩], .returned) := (roundTrip_decided _).mpr (by rfl)
example : ¬ ∃ ds, runBlocks roundTrip.blocks ds ⟨1⟩ = ([⟨1⟩, ⟨10⟩, ⟨12⟩, ⟨14⟩, ⟨15⟩], .returned) := fun h =>
  Bool.noConfusion (show false = true from (roundTrip_decided _).mp h)

end Magma.Props
