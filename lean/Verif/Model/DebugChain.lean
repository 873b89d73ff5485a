import Verif.Model.DebugModules
/-! Debug output of control flow. -/

namespace Magma

mutual
/-- src/spv/logical/control_flow.rs:19-31; a box writes what is in it. -/
def ControlFlowChain.debug (shown : Char → Bool) : ControlFlowChain → Text
  | .Atom id => debugTuple "Atom" [Debug.debug shown id]
  | .Block chains => debugTuple "Block" [debugList (debugChains shown chains)]
  | .Selection id left right hint weights =>
    debugTuple "Selection"
      [Debug.debug shown id, left.debug shown, right.debug shown, Debug.debug shown hint, Debug.debug shown weights]
  | .Loop id inner hint weights =>
    debugTuple "Loop" [Debug.debug shown id, inner.debug shown, Debug.debug shown hint, Debug.debug shown weights]
  | .Break => debugTuple "Break" []
  | .Continue => debugTuple "Continue" []
/-- Each of the chains of a vector -/
def debugChains (shown : Char → Bool) : List ControlFlowChain → List Text
  | [] => []
  | chain :: chains => chain.debug shown :: debugChains shown chains
end

/-- src/spv/logical/control_flow.rs:19-31 -/
instance : Debug ControlFlowChain := ⟨ControlFlowChain.debug⟩

end Magma
