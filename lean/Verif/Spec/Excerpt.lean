import Verif.Spec.Split
import Verif.Spec.Printing
/-! Constructs taken out of a function. -/

namespace Magma.Spec

/-- One chain is the other or is inside of it. -/
inductive PartOf (c : ControlFlowChain) : ControlFlowChain → Prop where
  | whole : PartOf c c
  | item {chain : ControlFlowChain} {chains : List ControlFlowChain} : chain ∈ chains → PartOf c chain →
      PartOf c (.Block chains)
  | left {id : BlockId} {left right : ControlFlowChain} {hint : SelectionControl} {w : Option BranchWeights} :
      PartOf c left → PartOf c (.Selection id left right hint w)
  | right {id : BlockId} {left right : ControlFlowChain} {hint : SelectionControl} {w : Option BranchWeights} :
      PartOf c right → PartOf c (.Selection id left right hint w)
  | inner {id : BlockId} {inner : ControlFlowChain} {hint : LoopControl} {w : Option BranchWeights} :
      PartOf c inner → PartOf c (.Loop id inner hint w)

mutual
/-- Nothing in the chain leaves a loop around it or goes on with the next round of one. -/
def SelfContained : ControlFlowChain → Prop
  | .Atom _ => True
  | .Block chains => SelfContainedAll chains
  | .Selection _ left right _ _ => SelfContained left ∧ SelfContained right
  | .Loop _ _ _ _ => True
  | .Break => False
  | .Continue => False
/-- The same for chains one after the other -/
def SelfContainedAll : List ControlFlowChain → Prop
  | [] => True
  | chain :: chains => SelfContained chain ∧ SelfContainedAll chains
end

/-- The chain, and then a block -/
def followedBy (chain : ControlFlowChain) (m : UInt32) : ControlFlowChain :=
  match itemsOf chain with
  | [] => .Atom ⟨m⟩
  | items => .Block (items ++ [.Atom ⟨m⟩])

variable {X Y : Type}

/-- The function `g` is what `f` does in the blocks of a chain from block `start` on, up to block `m`: it starts with
block `start`, the blocks of the chain end as in `f`, and block `m` returns. It may have more blocks. -/
structure IsExcerpt (f : FunctionDefinition X) (g : FunctionDefinition Y) (chain : ControlFlowChain)
    (start m : UInt32) : Prop where
  first : ∃ b more, g.blocks = b :: more ∧ labelId b = start
  labels : (g.blocks.map labelId).Nodup
  ends : ∀ b ∈ f.blocks, labelId b ∈ chainIds chain →
    ∃ b' ∈ g.blocks, labelId b' = labelId b ∧ endOf b' = endOf b
  last : ∃ b ∈ g.blocks, labelId b = m ∧ endOf b = .returns

end Magma.Spec
