import Verif.Model.ControlFlow
/-! The cost of finding control flow, in terms of the control flow that is found: what is found first
stays on the stack while the rest of the body is found. -/

namespace Magma.Spec

mutual
/-- Frames for a chain, when what follows takes `k`. The body of a construct ends with a call that
finds that it ends. A conditional break or continue is followed by what is on its other side. -/
def chainDepth : ControlFlowChain → Nat → Nat
  | .Atom _, k => k + 1
  | .Block chains, k => chainDepthAll chains k
  | .Selection _ left .Break _ _, k => chainDepth left k + 1
  | .Selection _ left .Continue _ _, k => chainDepth left k + 1
  | .Selection _ left right _ _, k => max (max (chainDepth left 1) (chainDepth right 1)) k + 1
  | .Loop _ inner _ _, k => max (chainDepth inner 1) k + 1
  | .Break, k => k
  | .Continue, k => k
def chainDepthAll : List ControlFlowChain → Nat → Nat
  | [], k => k
  | chain :: chains, k => chainDepth chain (chainDepthAll chains k)
end

mutual
/-- Calls for a chain, when what follows takes `k`: one for each block, and one for the end of each
body -/
def chainCalls : ControlFlowChain → Nat → Nat
  | .Atom _, k => k + 1
  | .Block chains, k => chainCallsAll chains k
  | .Selection _ left .Break _ _, k => chainCalls left k + 1
  | .Selection _ left .Continue _ _, k => chainCalls left k + 1
  | .Selection _ left right _ _, k => chainCalls left 1 + chainCalls right 1 + k + 1
  | .Loop _ inner _ _, k => chainCalls inner 1 + k + 1
  | .Break, k => k
  | .Continue, k => k
def chainCallsAll : List ControlFlowChain → Nat → Nat
  | [], k => k
  | chain :: chains, k => chainCalls chain (chainCallsAll chains k)
end

end Magma.Spec
