import Verif.Spec.Regular
/-! What executions can cost, by a regular expression for them. -/

namespace Magma.Spec

/-- What a visit of each of the blocks costs, taken together -/
def cost (w : BlockId → Nat) (trace : List BlockId) : Nat := (trace.map w).sum

/-- The cost of the cheapest, if there is one -/
def cheapest (w : BlockId → Nat) : RegularExpression BlockId → Option Nat
  | .zero => none
  | .epsilon => some 0
  | .char id => some (w id)
  | .plus a b =>
    match cheapest w a, cheapest w b with
    | none, n => n
    | m, none => m
    | some m, some n => some (min m n)
  | .comp a b =>
    match cheapest w a, cheapest w b with
    | some m, some n => some (m + n)
    | _, _ => none
  | .star _ => some 0

/-- What the dearest costs -/
inductive Dearest where
  /-- There is none at all. -/
  | never
  | costs (n : Nat)
  /-- There are ever dearer ones. -/
  | unbounded
  deriving DecidableEq

/-- What the dearest costs -/
def dearest (w : BlockId → Nat) : RegularExpression BlockId → Dearest
  | .zero => .never
  | .epsilon => .costs 0
  | .char id => .costs (w id)
  | .plus a b =>
    match dearest w a, dearest w b with
    | .never, n => n
    | m, .never => m
    | .costs m, .costs n => .costs (max m n)
    | _, _ => .unbounded
  | .comp a b =>
    match dearest w a, dearest w b with
    | .never, _ => .never
    | _, .never => .never
    | .costs m, .costs n => .costs (m + n)
    | _, _ => .unbounded
  | .star a =>
    match dearest w a with
    | .never => .costs 0
    | .costs 0 => .costs 0
    | _ => .unbounded

mutual
/-- There is a loop in a chain. -/
def HasLoop : ControlFlowChain → Prop
  | .Loop _ _ _ _ => True
  | .Block chains => HasLoops chains
  | .Selection _ left right _ _ => HasLoop left ∨ HasLoop right
  | _ => False
/-- There is a loop in one of the chains. -/
def HasLoops : List ControlFlowChain → Prop
  | [] => False
  | chain :: chains => HasLoop chain ∨ HasLoops chains
end

end Magma.Spec
