import Verif.Spec.Printing
/-! Which blocks a chain puts before and after which. -/

namespace Magma.Spec

/-- Every visit of `b` comes after a visit of `h`. -/
def Preceded (h b : BlockId) (trace : List BlockId) : Prop :=
  ∀ pre post, trace = pre ++ b :: post → h ∈ pre

/-- Every visit of `b` comes before a visit of `h`. -/
def Followed (h b : BlockId) (trace : List BlockId) : Prop :=
  ∀ pre post, trace = pre ++ b :: post → h ∈ post

mutual
/-- The blocks of a chain that are not inside of a selection or loop, with the blocks that start those -/
def spine : ControlFlowChain → List BlockId
  | .Atom id => [id]
  | .Block chains => spineAll chains
  | .Selection id _ _ _ _ => [id]
  | .Loop id _ _ _ => [id]
  | .Break => []
  | .Continue => []
/-- The same for chains one after the other -/
def spineAll : List ControlFlowChain → List BlockId
  | [] => []
  | chain :: chains => spine chain ++ spineAll chains
end

mutual
/-- `b` is inside of the selection or loop that `h` starts, or comes after `h` or the construct that `h` starts. -/
def Guards (h b : BlockId) : ControlFlowChain → Prop
  | .Atom _ => False
  | .Block chains => GuardsAny h b chains
  | .Selection id left right _ _ =>
    (h = id ∧ (b.val ∈ chainIds left ∨ b.val ∈ chainIds right)) ∨ Guards h b left ∨ Guards h b right
  | .Loop id inner _ _ => (h = id ∧ b.val ∈ chainIds inner) ∨ Guards h b inner
  | .Break => False
  | .Continue => False
/-- The same for chains one after the other -/
def GuardsAny (h b : BlockId) : List ControlFlowChain → Prop
  | [] => False
  | chain :: chains => (h ∈ spine chain ∧ b.val ∈ chainIdsAll chains) ∨ Guards h b chain ∨ GuardsAny h b chains
end

mutual
/-- `h` comes after `b`, or after a construct that `b` is inside of. -/
def Awaits (h b : BlockId) : ControlFlowChain → Prop
  | .Atom _ => False
  | .Block chains => AwaitsAny h b chains
  | .Selection _ left right _ _ => Awaits h b left ∨ Awaits h b right
  | .Loop _ inner _ _ => Awaits h b inner
  | .Break => False
  | .Continue => False
/-- The same for chains one after the other -/
def AwaitsAny (h b : BlockId) : List ControlFlowChain → Prop
  | [] => False
  | chain :: chains => (b.val ∈ chainIds chain ∧ h ∈ spineAll chains) ∨ Awaits h b chain ∨ AwaitsAny h b chains
end

end Magma.Spec
