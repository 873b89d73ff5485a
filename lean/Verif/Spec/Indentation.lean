import Verif.Model.ControlFlow
/-! How far a chain is indented. -/

namespace Magma.Spec

mutual
/-- The number of constructs one inside the other -/
def constructsDeep : ControlFlowChain → Nat
  | .Block chains => constructsDeepAll chains
  | .Selection _ left right _ _ => max (constructsDeep left) (constructsDeep right) + 1
  | .Loop _ inner _ _ => constructsDeep inner + 1
  | _ => 0
def constructsDeepAll : List ControlFlowChain → Nat
  | [] => 0
  | chain :: chains => max (constructsDeep chain) (constructsDeepAll chains)
end

end Magma.Spec
