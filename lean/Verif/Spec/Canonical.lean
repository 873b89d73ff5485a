import Verif.Model.ControlFlow
/-! What of a chain its executions cannot show, taken away. -/

namespace Magma.Spec

/-- One chain out of several: one alone stands for itself. -/
def bundle : List ControlFlowChain → ControlFlowChain
  | [chain] => chain
  | chains => .Block chains

/-- A selection with nothing on either side is just its block. -/
def choice (id : BlockId) : ControlFlowChain → ControlFlowChain → ControlFlowChain
  | .Block [], .Block [] => .Atom id
  | left, right => .Selection id left right { flatten := false, dont_flatten := false } none

mutual
/-- A chain without hints and weights, where to go on with the loop is to do nothing -/
def bare : ControlFlowChain → ControlFlowChain
  | .Atom id => .Atom id
  | .Block chains => bundle (bareAll chains)
  | .Selection id left right _ _ => choice id (bare left) (bare right)
  | .Loop id inner _ _ => .Loop id (bare inner) 
      { unroll := false, dont_unroll := false, dependency_infinite := false, dependency_length := none } none
  | .Break => .Break
  | .Continue => .Block []
/-- The same, of each of the chains -/
def bareAll : List ControlFlowChain → List ControlFlowChain
  | [] => []
  | chain :: chains => bare chain :: bareAll chains
end

end Magma.Spec
