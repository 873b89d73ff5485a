import Verif.Spec.Flow
/-! What becomes of control flow when a block is split in two. -/

namespace Magma.Spec

/-- The items of a chain that stands in a block -/
def itemsOf : ControlFlowChain → List ControlFlowChain
  | .Block chains => chains
  | chain => [chain]

mutual
/-- Block `x` is split: its first half keeps the label, what it does at its end is done by block `n`. -/
def splitChain (x n : UInt32) : ControlFlowChain → ControlFlowChain
  | .Atom id => if id.val = x then .Block [.Atom id, .Atom ⟨n⟩] else .Atom id
  | .Block chains => .Block (splitItems x n chains)
  | .Selection id left right hint weights =>
    if id.val = x then .Block [.Atom id, .Selection ⟨n⟩ (splitChain x n left) (splitChain x n right) hint weights]
    else .Selection id (splitChain x n left) (splitChain x n right) hint weights
  | .Loop id inner hint weights => .Loop id (splitChain x n inner) hint weights
  | .Break => .Break
  | .Continue => .Continue
/-- The same for the items of a block -/
def splitItems (x n : UInt32) : List ControlFlowChain → List ControlFlowChain
  | [] => []
  | chain :: chains => itemsOf (splitChain x n chain) ++ splitItems x n chains
end

/-- Errors about the end of block `x` are about block `n` then. -/
def splitError (x n : UInt32) : ControlFlowError → ControlFlowError
  | .CouldNotPredictConverge id => .CouldNotPredictConverge (if id.val = x then ⟨n⟩ else id)
  | .InvalidConvergePrediction ty id => .InvalidConvergePrediction ty (if id.val = x then ⟨n⟩ else id)
  | e => e

/-- What becomes of a fault -/
def splitFault (x n : UInt32) : Fault ControlFlowError → Fault ControlFlowError
  | .err e => .err (splitError x n e)
  | .panic msg => .panic msg
  | .diverge => .diverge

/-- What becomes of the outcome of `find_control_flow` -/
def splitOutcome (x n : UInt32) : CF ControlFlowChain → CF ControlFlowChain
  | .ok chain => .ok (splitChain x n chain)
  | .error e => .error (splitFault x n e)

variable {X : Type}

/-- The first half of a block that is split after `k` instructions: it goes on with block `n`. -/
def firstHalf (b : BasicBlock X) (k : Nat) (n : UInt32) : BasicBlock X :=
  { b with code := b.code.take k, merge := none, branch := .OpBranch ⟨⟨n⟩⟩ }

/-- The second half, which gets the label `n` -/
def secondHalf (b : BasicBlock X) (k : Nat) (n : UInt32) : BasicBlock X :=
  { b with label := ⟨⟨n⟩⟩, code := b.code.drop k }

/-- The function `g` is the function `f` with block `b` split after `k` instructions, where nothing in `f` is
called `n`. -/
structure IsSplit (f g : FunctionDefinition X) (b : BasicBlock X) (k : Nat) (n : UInt32) : Prop where
  blocks : ∃ pre post, f.blocks = pre ++ b :: post ∧
    g.blocks = pre ++ firstHalf b k n :: secondHalf b k n :: post
  fresh : ∀ c ∈ f.blocks, labelId c ≠ n ∧ n ∉ (endOf c).names

end Magma.Spec
