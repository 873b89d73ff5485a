import Verif.Spec.Uniform
/-! The largest set of variables on which all invocations of a shader agree, as far as the check for it can tell. -/

namespace Magma.Spec
variable {V X : Type}

/-- What a block writes -/
def Access.written (A : Access X V) (blocks : List (BasicBlock X)) (id : BlockId) : List V :=
  match blockOf blocks id with
  | none => []
  | some b => b.code.flatMap A.writes

/-- What a block that invocations visit together writes that need not agree -/
def Access.mixed (A : Access X V) (asks : GroupCode X → Bool) (same : V → Bool) (blocks : List (BasicBlock X)) (id : BlockId)
    (stray : Bool) : List V :=
  match blockOf blocks id with
  | none => []
  | some b => b.code.flatMap fun i => if (A.reads i).all same && !(stray && asks i) then [] else A.writes i

/-- The variables that need not agree, if invocations agree on the variables that are `same` -/
def Access.spoilt (A : Access X V) (asks : GroupCode X → Bool) (same : V → Bool) (chain : ControlFlowChain)
    (blocks : List (BasicBlock X)) : List V :=
  (A.apartIn same chain blocks).flatMap (fun id => A.written blocks ⟨id⟩) ++
  (visitedTogether (A.varies same blocks) false chain).flatMap (fun p => A.mixed asks same blocks p.1 p.2)

section
variable [DecidableEq V]

/-- Take away what need not agree, as often as asked for -/
def Access.settle (A : Access X V) (asks : GroupCode X → Bool) (chain : ControlFlowChain) (blocks : List (BasicBlock X)) :
    Nat → (V → Bool) → V → Bool
  | 0, same => same
  | n + 1, same => A.settle asks chain blocks n fun v => same v && !(A.spoilt asks same chain blocks).contains v

/-- The variables on which all invocations agree, by the recovered control flow, if they agree on `start` at the start:
each round takes away something that is written, or nothing is left to do. -/
def Access.shared (A : Access X V) (asks : GroupCode X → Bool) (chain : ControlFlowChain) (blocks : List (BasicBlock X))
    (start : V → Bool) : V → Bool :=
  A.settle asks chain blocks (blocks.flatMap fun b => b.code.flatMap A.writes).length start
end

end Magma.Spec
