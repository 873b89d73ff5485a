import Verif.Spec.Live
/-! Which blocks of a chain can be passed by: whether a chain can end without a visit of a block, whether control can come
to a block without a visit of another before, and whether a chain can end with no visit of a block after that of another. -/

namespace Magma.Spec

mutual
/-- Can the chain end this way without a visit of `a`? -/
def passes (a : BlockId) : Signal → ControlFlowChain → Bool
  | s, .Atom id => s == .next && id != a
  | s, .Block chains => passesAll a s chains
  | s, .Selection id left right _ _ => id != a && (passes a s left || passes a s right)
  | s, .Loop id inner _ _ => s == .next && id != a && passes a .breaks inner
  | s, .Break => s == .breaks
  | s, .Continue => s == .continues
/-- The same for chains one after the other -/
def passesAll (a : BlockId) : Signal → List ControlFlowChain → Bool
  | s, [] => s == .next
  | s, chain :: chains => (passes a .next chain && passesAll a s chains) || (s != .next && passes a s chain)
end

mutual
/-- Can control come to `b` without a visit of `a` before? -/
def comes (a b : BlockId) : ControlFlowChain → Bool
  | .Atom id => id == b
  | .Block chains => comesAny a b chains
  | .Selection id left right _ _ => id == b || (id != a && (comes a b left || comes a b right))
  | .Loop id inner _ _ => id == b || (id != a && comes a b inner)
  | .Break => false
  | .Continue => false
/-- The same for chains one after the other -/
def comesAny (a b : BlockId) : List ControlFlowChain → Bool
  | [] => false
  | chain :: chains => comes a b chain || (passes a .next chain && comesAny a b chains)
end

mutual
/-- Can the chain end this way, so that after some visit of `b` there is none of `a`? -/
def leaves (a b : BlockId) : Signal → ControlFlowChain → Bool
  | s, .Atom id => s == .next && id == b
  | s, .Block chains => leavesAny a b s chains
  | s, .Selection id left right _ _ =>
    (id == b && (passes a s left || passes a s right)) || leaves a b s left || leaves a b s right
  | s, .Loop id inner _ _ =>
    s == .next && ((id == b && passes a .breaks inner) || leaves a b .breaks inner ||
      ((leaves a b .next inner || leaves a b .continues inner) && (id != a && passes a .breaks inner)))
  | _, .Break => false
  | _, .Continue => false
/-- The same for chains one after the other -/
def leavesAny (a b : BlockId) : Signal → List ControlFlowChain → Bool
  | _, [] => false
  | s, chain :: chains => (leaves a b .next chain && passesAll a s chains) ||
    (mayEnd .next chain && leavesAny a b s chains) || (s != .next && leaves a b s chain)
end

end Magma.Spec
