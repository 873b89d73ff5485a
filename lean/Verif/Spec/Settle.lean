import Verif.Spec.Split
import Verif.Spec.Meaning
import Verif.Spec.DeadCode
/-! Conditional branches that always go the same way. -/

namespace Magma.Spec
variable {X S : Type}

/-- The block, with a plain branch for a conditional branch of which it is known where it goes -/
def settleBlock (known : UInt32 → Option Bool) (b : BasicBlock X) : BasicBlock X :=
  match known (labelId b), b.branch with
  | some d, .OpBranchConditional op =>
    { b with merge := none, branch := .OpBranch ⟨if d then op.true_label else op.false_label⟩ }
  | _, _ => b

/-- The function, with plain branches for the conditional branches of which it is known where they go -/
def settleFunction (known : UInt32 → Option Bool) (f : FunctionDefinition X) : FunctionDefinition X :=
  { f with blocks := f.blocks.map (settleBlock known) }

/-- The items of an arm that has been taken. To continue the loop is to go on with nothing where it comes last. -/
def armItems : ControlFlowChain → List ControlFlowChain
  | .Continue => []
  | chain => itemsOf chain

mutual
/-- The chain, with just one arm of each selection of which it is known where it goes -/
def settle (known : UInt32 → Option Bool) : ControlFlowChain → ControlFlowChain
  | .Atom id => .Atom id
  | .Block chains => .Block (settleItems known chains)
  | .Selection id left right hint w =>
    match known id.val with
    | none => .Selection id (settle known left) (settle known right) hint w
    | some true => .Block (.Atom id :: armItems (settle known left))
    | some false => .Block (.Atom id :: armItems (settle known right))
  | .Loop id inner hint w => .Loop id (settle known inner) hint w
  | .Break => .Break
  | .Continue => .Continue
/-- The same for chains one after the other -/
def settleItems (known : UInt32 → Option Bool) : List ControlFlowChain → List ControlFlowChain
  | [] => []
  | chain :: chains => itemsOf (settle known chain) ++ settleItems known chains
end

/-- Where the execution from block `id` comes to the end of a block of which it is known where it goes, it goes there. -/
def Machine.Heeds (M : Machine X S) (blocks : List (BasicBlock X)) (known : UInt32 → Option Bool) (id : BlockId)
    (c : Config S) : Prop :=
  ∀ n trace x c' o d, runMachine M blocks n id c = (trace ++ [x], c', o) → known x.val = some d →
    (∃ b op, blockOf blocks x = some b ∧ b.branch = .OpBranchConditional op) → M.decides blocks x c' = d

/-- No instruction of the blocks writes what a condition reads. -/
def Access.fixed {V : Type} [DecidableEq V] (A : Access X V) (blocks : List (BasicBlock X)) (cond : OpId) : Bool :=
  (A.tests cond).all fun v => blocks.all fun b => b.code.all fun i => !(A.writes i).contains v

/-- A loop is left by going there. -/
def isLoopMerge (blocks : List (BasicBlock X)) (id : UInt32) : Bool :=
  blocks.any fun b =>
    match b.merge with
    | some (.OpLoopMerge op) => op.merge_block.val == id
    | _ => false

/-- Where conditional branches go whose conditions nothing in the function changes, by what holds at the start; but not
for branches without a merge instruction that leave a loop -/
def Access.specialise {V : Type} [DecidableEq V] (A : Access X V) (blocks : List (BasicBlock X)) (holds : OpId → Bool)
    (x : UInt32) : Option Bool :=
  match blockOf blocks ⟨x⟩ with
  | none => none
  | some b =>
    match b.branch, b.merge with
    | .OpBranchConditional op, some _ => if A.fixed blocks op.condition then some (holds op.condition) else none
    | .OpBranchConditional op, none =>
      if A.fixed blocks op.condition && (holds op.condition || !isLoopMerge blocks op.false_label.val) then
        some (holds op.condition)
      else none
    | _, _ => none

end Magma.Spec
