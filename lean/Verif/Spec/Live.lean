import Verif.Spec.Execution
/-! Which loops of a chain can be left, how a chain can end, and which of its blocks can be visited. -/

namespace Magma.Spec

mutual
/-- Is there a break for the loop around the chain? -/
def canBreak : ControlFlowChain → Bool
  | .Atom _ => false
  | .Block chains => canBreakAny chains
  | .Selection _ left right _ _ => canBreak left || canBreak right
  | .Loop _ _ _ _ => false
  | .Break => true
  | .Continue => false
/-- Is there a break for the loop around the chains? -/
def canBreakAny : List ControlFlowChain → Bool
  | [] => false
  | chain :: chains => canBreak chain || canBreakAny chains
end

mutual
/-- Every loop of the chain has a break. -/
def LoopsEnd : ControlFlowChain → Prop
  | .Atom _ => True
  | .Block chains => LoopsEndAll chains
  | .Selection _ left right _ _ => LoopsEnd left ∧ LoopsEnd right
  | .Loop _ inner _ _ => canBreak inner = true ∧ LoopsEnd inner
  | .Break => True
  | .Continue => True
/-- Every loop of the chains has a break. -/
def LoopsEndAll : List ControlFlowChain → Prop
  | [] => True
  | chain :: chains => LoopsEnd chain ∧ LoopsEndAll chains
end

mutual
/-- Can the chain end this way, for some decisions? A loop ends normally if its body can break, a sequence ends
like its first chain that does not end normally. -/
def mayEnd : Signal → ControlFlowChain → Bool
  | s, .Atom _ => s == .next
  | s, .Block chains => mayEndAll s chains
  | s, .Selection _ left right _ _ => mayEnd s left || mayEnd s right
  | s, .Loop _ inner _ _ => s == .next && mayEnd .breaks inner
  | s, .Break => s == .breaks
  | s, .Continue => s == .continues
/-- Can the chains, one after the other, end this way? -/
def mayEndAll : Signal → List ControlFlowChain → Bool
  | s, [] => s == .next
  | s, chain :: chains => (mayEnd .next chain && mayEndAll s chains) || (s != .next && mayEnd s chain)
end

mutual
/-- The blocks of a chain that control can come to: what follows a chain that cannot end normally is dead -/
def reached : ControlFlowChain → List BlockId
  | .Atom id => [id]
  | .Block chains => reachedAll chains
  | .Selection id left right _ _ => id :: (reached left ++ reached right)
  | .Loop id inner _ _ => id :: reached inner
  | .Break => []
  | .Continue => []
/-- The blocks of chains in sequence that control can come to -/
def reachedAll : List ControlFlowChain → List BlockId
  | [] => []
  | chain :: chains => reached chain ++ (if mayEnd .next chain then reachedAll chains else [])
end

end Magma.Spec
