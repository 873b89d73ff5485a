import Verif.Model.ControlFlow
/-! The cost of printing control flow: how deep it is nested and how many parts it has. -/

namespace Magma.Spec

mutual
/-- Levels of a chain. The second part of a selection counts unless there is nothing in it. -/
def chainNesting : ControlFlowChain → Nat
  | .Block chains => chainNestingAll chains + 1
  | .Selection _ left (.Block []) _ _ => chainNesting left + 1
  | .Selection _ left right _ _ => max (chainNesting left) (chainNesting right) + 1
  | .Loop _ inner _ _ => chainNesting inner + 1
  | _ => 1
def chainNestingAll : List ControlFlowChain → Nat
  | [] => 0
  | chain :: chains => max (chainNesting chain) (chainNestingAll chains)
end

mutual
/-- Parts of a chain, itself included. The second part of a selection counts unless there is nothing
in it. -/
def chainParts : ControlFlowChain → Nat
  | .Block chains => chainPartsAll chains + 1
  | .Selection _ left (.Block []) _ _ => chainParts left + 1
  | .Selection _ left right _ _ => chainParts left + chainParts right + 1
  | .Loop _ inner _ _ => chainParts inner + 1
  | _ => 1
def chainPartsAll : List ControlFlowChain → Nat
  | [] => 0
  | chain :: chains => chainParts chain + chainPartsAll chains
end

end Magma.Spec
