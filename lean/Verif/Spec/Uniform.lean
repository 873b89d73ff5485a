import Verif.Spec.DeadCode
import Verif.Spec.Values
import Verif.Spec.Live
import Verif.Spec.Printing
/-! Uniform control flow: blocks that all invocations of a shader visit together, although invocations may part in
between, and variables on which they agree. -/

namespace Magma.Spec
variable {V W X : Type}

/-- What an instruction does depends on the block from which control came only if `asks` says so. -/
def Machine.AsksLast {S : Type} (M : Machine X S) (asks : GroupCode X → Bool) : Prop :=
  ∀ i, asks i = false → ∀ last last' st, M.run last i st = M.run last' i st

/-- Does the instruction ask for the block from which control came? By the standard only `OpPhi` does. -/
def asksLast : GroupCode Glsl.Inst → Bool
  | .OpPhi _ => true
  | _ => false

/-- May the condition at the end of a block differ, if variables that are `same` agree? -/
def Access.varies (A : Access X V) (same : V → Bool) (blocks : List (BasicBlock X)) (id : BlockId) : Bool :=
  match blockOf blocks id with
  | none => false
  | some b =>
    match b.branch with
    | .OpBranchConditional op => (A.tests op.condition).any fun v => !same v
    | _ => false

/-- The block writes nothing that is `same`. -/
def Access.quiet (A : Access X V) (same : V → Bool) (blocks : List (BasicBlock X)) (id : BlockId) : Bool :=
  match blockOf blocks id with
  | none => true
  | some b => b.code.all fun i => (A.writes i).all fun v => !same v

/-- What the block writes that is `same` is computed from what is `same`; and, where control may have come from different
blocks (`stray`), without asking where it came from. -/
def Access.steady (A : Access X V) (asks : GroupCode X → Bool) (same : V → Bool) (blocks : List (BasicBlock X)) (id : BlockId)
    (stray : Bool) : Bool :=
  match blockOf blocks id with
  | none => true
  | some b => b.code.all fun i =>
    ((A.writes i).all fun v => !same v) || ((A.reads i).all same && !(stray && asks i))

mutual
/-- Is there a continue for the loop around the chain? -/
def canContinue : ControlFlowChain → Bool
  | .Atom _ => false
  | .Block chains => canContinueAny chains
  | .Selection _ left right _ _ => canContinue left || canContinue right
  | .Loop _ _ _ _ => false
  | .Break => false
  | .Continue => true
/-- Is there a continue for the loop around the chains? -/
def canContinueAny : List ControlFlowChain → Bool
  | [] => false
  | chain :: chains => canContinue chain || canContinueAny chains
end

section
variable (varies : BlockId → Bool)

mutual
/-- May one invocation end the chain with a continue and another without? -/
def mayPart : ControlFlowChain → Bool
  | .Atom _ => false
  | .Block chains => mayPartAny chains
  | .Selection id left right _ _ =>
    if varies id then canContinue left || canContinue right else mayPart left || mayPart right
  | .Loop _ _ _ _ => false
  | .Break => false
  | .Continue => false
/-- The same for chains one after the other -/
def mayPartAny : List ControlFlowChain → Bool
  | [] => false
  | chain :: chains => mayPart chain || mayPartAny chains
end

mutual
/-- May one invocation leave the loop around the chain and another stay (or miss what comes after a continue)? -/
def mayLeave : ControlFlowChain → Bool
  | .Atom _ => false
  | .Block chains => mayLeaveAny chains
  | .Selection id left right _ _ =>
    (varies id && (canBreak left || canBreak right)) || mayLeave left || mayLeave right
  | .Loop _ _ _ _ => false
  | .Break => false
  | .Continue => false
/-- The same for chains one after the other -/
def mayLeaveAny : List ControlFlowChain → Bool
  | [] => false
  | chain :: chains => mayLeave chain || (mayPart varies chain && !chains.isEmpty) || mayLeaveAny chains
end

mutual
/-- The blocks that invocations may visit apart: what is in a selection whose condition may differ, and in a loop that one
may leave before another -/
def visitedApart : ControlFlowChain → List UInt32
  | .Atom _ => []
  | .Block chains => visitedApartAll chains
  | .Selection id left right _ _ =>
    if varies id then chainIds left ++ chainIds right else visitedApart left ++ visitedApart right
  | .Loop id inner _ _ => if mayLeave varies inner then id.val :: chainIds inner else visitedApart inner
  | .Break => []
  | .Continue => []
/-- The same for chains one after the other -/
def visitedApartAll : List ControlFlowChain → List UInt32
  | [] => []
  | chain :: chains => visitedApart chain ++ visitedApartAll chains
end

mutual
/-- May invocations come from different blocks after the chain? `before`: may they before it? -/
def mayStray : Bool → ControlFlowChain → Bool
  | _, .Atom _ => false
  | before, .Block chains => mayStrayAll before chains
  | _, .Selection id left right _ _ => varies id || mayStray false left || mayStray false right
  | _, .Loop _ inner _ _ => mayLeave varies inner || mayStray false inner
  | before, .Break => before
  | before, .Continue => before
/-- The same for chains one after the other -/
def mayStrayAll : Bool → List ControlFlowChain → Bool
  | before, [] => before
  | before, chain :: chains =>
    mayStrayAll (mayStray before chain) chains || ((canBreak chain || canContinue chain) && mayStray before chain)
end

mutual
/-- The blocks that invocations visit together, each with whether they may come from different blocks -/
def visitedTogether : Bool → ControlFlowChain → List (BlockId × Bool)
  | before, .Atom id => [(id, before)]
  | before, .Block chains => visitedTogetherAll before chains
  | before, .Selection id left right _ _ =>
    (id, before) :: if varies id then [] else visitedTogether false left ++ visitedTogether false right
  | before, .Loop id inner _ _ =>
    if mayLeave varies inner then [] else (id, before || mayStray varies false inner) :: visitedTogether false inner
  | _, .Break => []
  | _, .Continue => []
/-- The same for chains one after the other -/
def visitedTogetherAll : Bool → List ControlFlowChain → List (BlockId × Bool)
  | _, [] => []
  | before, chain :: chains => visitedTogether before chain ++ visitedTogetherAll (mayStray varies before chain) chains
end
end

/-- The blocks that invocations may visit apart, by the recovered control flow, if they agree on variables that are `same` -/
def Access.apartIn (A : Access X V) (same : V → Bool) (chain : ControlFlowChain) (blocks : List (BasicBlock X)) : List UInt32 :=
  visitedApart (A.varies same blocks) chain

/-- The check: invocations that agree at the start on variables that are `same` go on to. -/
def Access.uniform (A : Access X V) (asks : GroupCode X → Bool) (same : V → Bool) (chain : ControlFlowChain)
    (blocks : List (BasicBlock X)) : Bool :=
  (A.apartIn same chain blocks).all (fun id => A.quiet same blocks ⟨id⟩) &&
  (visitedTogether (A.varies same blocks) false chain).all (fun p => A.steady asks same blocks p.1 p.2)

/-- The visits of blocks that are not in a list -/
def visitsBut (apart : List UInt32) (trace : List BlockId) : List BlockId := trace.filter fun id => !apart.contains id.val

/-- Two configurations agree on the variables that are `same`. -/
def AgreeOn (same : V → Bool) (c c' : Config (V → W)) : Prop := ∀ v, same v = true → c.state v = c'.state v

end Magma.Spec
