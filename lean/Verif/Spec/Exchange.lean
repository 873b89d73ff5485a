import Verif.Spec.Rename
import Verif.Spec.Execution
/-! Conditional branches with their targets exchanged. -/

namespace Magma.Spec

/-- The weights of the targets the other way round -/
def turnWeights (w : BranchWeights) : BranchWeights :=
  { true_weight := w.false_weight, false_weight := w.true_weight }

/-- A conditional branch with its targets, and their weights, exchanged -/
def BlockEnd.turn : BlockEnd → BlockEnd
  | choose t f w => choose f t (w.map turnWeights)
  | chooseLoop t f w m h => chooseLoop f t (w.map turnWeights) m h
  | chooseSelection t f w m h => chooseSelection f t (w.map turnWeights) m h
  | e => e

/-- A block with the targets, and the weights, of its conditional branch exchanged -/
def turnBlock {X : Type} (b : BasicBlock X) : BasicBlock X :=
  { b with branch := match b.branch with
      | .OpBranchConditional op => .OpBranchConditional { op with
          true_label := op.false_label, false_label := op.true_label, weights := op.weights.map turnWeights }
      | branch => branch }

/-- A function with the targets of the conditional branches of the blocks of `S` exchanged -/
def turnFunction {X : Type} (S : UInt32 → Bool) (f : FunctionDefinition X) : FunctionDefinition X :=
  { f with blocks := f.blocks.map fun b => if S (labelId b) then turnBlock b else b }

/-- A selection header -/
def IsSelection (e : BlockEnd) : Prop := ∃ t f w m h, e = .chooseSelection t f w m h

/-- The end of block `id`, exchanged if the block is one of `S` -/
def turnAt (S : UInt32 → Bool) (id : UInt32) (e : BlockEnd) : BlockEnd := if S id then e.turn else e

mutual
/-- A chain with the branches of the selections of `S`, and their weights, exchanged -/
def turnChain (S : UInt32 → Bool) : ControlFlowChain → ControlFlowChain
  | .Atom id => .Atom id
  | .Block chains => .Block (turnChains S chains)
  | .Selection id left right hint weights =>
    if S id.val then .Selection id (turnChain S right) (turnChain S left) hint (weights.map turnWeights)
    else .Selection id (turnChain S left) (turnChain S right) hint weights
  | .Loop id inner hint weights => .Loop id (turnChain S inner) hint weights
  | .Break => .Break
  | .Continue => .Continue
/-- The same for each of the chains -/
def turnChains (S : UInt32 → Bool) : List ControlFlowChain → List ControlFlowChain
  | [] => []
  | chain :: chains => turnChain S chain :: turnChains S chains
end

/-- The decisions of an execution that visits the blocks `trace`, the other way round at the blocks of
`S` -/
def turnDecisions (S : UInt32 → Bool) : List BlockId → List Bool → List Bool
  | id :: trace, d :: ds => (if S id.val then !d else d) :: turnDecisions S trace ds
  | _, ds => ds

end Magma.Spec
