import Verif.Spec.Execution
/-! What the control flow of a block is, which blocks it names, and the shape of recovered chains. -/

namespace Magma.Spec
variable {X : Type}

/-- How a block ends: where it merges and with which hint, where it goes and with which weights.
Conditions and continue targets are left out. -/
inductive BlockEnd where
  | goto (target : UInt32)
  | gotoLoop (target merge : UInt32) (hint : LoopControl)
  | gotoSelection (target merge : UInt32) (hint : SelectionControl)
  | choose (ifTrue ifFalse : UInt32) (weights : Option BranchWeights)
  | chooseLoop (ifTrue ifFalse : UInt32) (weights : Option BranchWeights) (merge : UInt32)
      (hint : LoopControl)
  | chooseSelection (ifTrue ifFalse : UInt32) (weights : Option BranchWeights) (merge : UInt32)
      (hint : SelectionControl)
  | returns

/-- How a block ends -/
def endOf (b : BasicBlock X) : BlockEnd :=
  match b.branch, b.merge with
  | .OpBranch op, none => .goto op.target_label.val
  | .OpBranch op, some (.OpLoopMerge m) => .gotoLoop op.target_label.val m.merge_block.val m.loop_control
  | .OpBranch op, some (.OpSelectionMerge m) =>
    .gotoSelection op.target_label.val m.merge_block.val m.selection_control
  | .OpBranchConditional op, none => .choose op.true_label.val op.false_label.val op.weights
  | .OpBranchConditional op, some (.OpLoopMerge m) =>
    .chooseLoop op.true_label.val op.false_label.val op.weights m.merge_block.val m.loop_control
  | .OpBranchConditional op, some (.OpSelectionMerge m) =>
    .chooseSelection op.true_label.val op.false_label.val op.weights m.merge_block.val m.selection_control
  | .OpReturn _, _ => .returns

/-- The blocks a block names as the target of its branch or as the block where its construct merges -/
def BlockEnd.names : BlockEnd → List UInt32
  | goto t => [t]
  | gotoLoop t m _ | gotoSelection t m _ => [t, m]
  | choose t f _ => [t, f]
  | chooseLoop t f _ m _ | chooseSelection t f _ m _ => [t, f, m]
  | returns => []

/-- The label of a block -/
def labelId (b : BasicBlock X) : UInt32 := b.label.result_id.val

mutual
/-- A chain that is a statement: not itself a break or continue, blocks are not nested directly, and
breaks and continues are the else branch of a selection inside a loop. -/
def WellShaped (inLoop : Bool) : ControlFlowChain → Prop
  | .Atom _ => True
  | .Block chains => Items inLoop chains
  | .Selection _ left right _ _ => WellShaped inLoop left ∧ ElseShaped inLoop right
  | .Loop _ inner _ _ => WellShaped true inner
  | .Break => False
  | .Continue => False
/-- The else branch of a selection -/
def ElseShaped (inLoop : Bool) : ControlFlowChain → Prop
  | .Break => inLoop = true
  | .Continue => inLoop = true
  | .Atom _ => True
  | .Block chains => Items inLoop chains
  | .Selection _ left right _ _ => WellShaped inLoop left ∧ ElseShaped inLoop right
  | .Loop _ inner _ _ => WellShaped true inner
/-- The items of a block -/
def Items (inLoop : Bool) : List ControlFlowChain → Prop
  | [] => True
  | chain :: chains => ItemShaped inLoop chain ∧ Items inLoop chains
/-- An item of a block -/
def ItemShaped (inLoop : Bool) : ControlFlowChain → Prop
  | .Block _ => False
  | .Atom _ => True
  | .Selection _ left right _ _ => WellShaped inLoop left ∧ ElseShaped inLoop right
  | .Loop _ inner _ _ => WellShaped true inner
  | .Break => False
  | .Continue => False
end

mutual
/-- Every node of a chain describes a block of the function. -/
def Describes (blocks : List (BasicBlock X)) : ControlFlowChain → Prop
  | .Atom id => ∃ b ∈ blocks, labelId b = id.val ∧
      ((∃ t, endOf b = .goto t) ∨ endOf b = .returns)
  | .Block chains => DescribesAll blocks chains
  | .Selection id left right hint weights =>
      (∃ b ∈ blocks, labelId b = id.val ∧
        ((∃ t f m, endOf b = .chooseSelection t f weights m hint) ∨
         (∃ t f, endOf b = .choose t f weights ∧ hint = { flatten := false, dont_flatten := false } ∧
           (right = .Break ∨ right = .Continue)))) ∧
      Describes blocks left ∧ Describes blocks right
  | .Loop id inner hint weights =>
      (∃ b ∈ blocks, labelId b = id.val ∧ weights = none ∧ ∃ t m, endOf b = .gotoLoop t m hint) ∧
      Describes blocks inner
  | .Break => True
  | .Continue => True
/-- Every node of every chain describes a block of the function. -/
def DescribesAll (blocks : List (BasicBlock X)) : List ControlFlowChain → Prop
  | [] => True
  | chain :: chains => Describes blocks chain ∧ DescribesAll blocks chains
end

/-- A step from `s` to `t` that stays within the constructs with loop headers and merge blocks
`around` -/
def Forward (rank : UInt32 → Nat) (scope : UInt32 → List UInt32) (s t : UInt32)
    (around : List UInt32) : Prop :=
  t ∈ around ∨ (rank t < rank s ∧ ∀ x ∈ scope t, x ∈ around)

/-- The blocks of a function are properly nested: `scope id` are the loop headers and selection merge
blocks of the constructs around block `id`. Every step the blocks of the function can make goes either
to such a block, or strictly forward as measured by `rank`, to a block with no further constructs
around it than the ones it is in. -/
structure ProperlyNested (blocks : List (BasicBlock X)) (rank : UInt32 → Nat)
    (scope : UInt32 → List UInt32) : Prop where
  goto : ∀ b ∈ blocks, ∀ t, endOf b = .goto t → Forward rank scope (labelId b) t (scope (labelId b))
  loop : ∀ b ∈ blocks, ∀ t m h, endOf b = .gotoLoop t m h →
    Forward rank scope (labelId b) t (labelId b :: scope (labelId b)) ∧ Forward rank scope (labelId b) m (scope (labelId b))
  selection : ∀ b ∈ blocks, ∀ t f w m h, endOf b = .chooseSelection t f w m h →
    Forward rank scope (labelId b) t (m :: scope (labelId b)) ∧ Forward rank scope (labelId b) f (m :: scope (labelId b)) ∧
    Forward rank scope (labelId b) m (scope (labelId b))
  exit : ∀ b ∈ blocks, ∀ t f w, endOf b = .choose t f w → Forward rank scope (labelId b) t (scope (labelId b))

/-- One block leads to another: there is a branch to it, or the other is where the construct of the one
merges. The step from a loop header into the body of the loop and the second target of a branch
without a merge (a break or continue) do not count. -/
inductive Leads (blocks : List (BasicBlock X)) : UInt32 → UInt32 → Prop where
  | goto {b t} : b ∈ blocks → endOf b = .goto t → Leads blocks (labelId b) t
  | afterLoop {b t m h} : b ∈ blocks → endOf b = .gotoLoop t m h → Leads blocks (labelId b) m
  | left {b t f w m h} : b ∈ blocks → endOf b = .chooseSelection t f w m h → Leads blocks (labelId b) t
  | right {b t f w m h} : b ∈ blocks → endOf b = .chooseSelection t f w m h → Leads blocks (labelId b) f
  | join {b t f w m h} : b ∈ blocks → endOf b = .chooseSelection t f w m h → Leads blocks (labelId b) m
  | stay {b t f w} : b ∈ blocks → endOf b = .choose t f w → Leads blocks (labelId b) t

/-- How many blocks start a construct -/
def constructs (blocks : List (BasicBlock X)) : Nat := (blocks.filter (fun b => b.merge.isSome)).length

end Magma.Spec
