import Verif.Spec.Course
import Verif.Spec.Printing
/-! Natural loops of a function, and the loops of a chain. -/

namespace Magma.Standard
open Magma.Spec
variable {X : Type}

/-- Some way along branches from the first block comes to `b`. -/
def Comes (blocks : List (BasicBlock X)) (first b : UInt32) : Prop :=
  ∃ l, Course blocks first (l ++ [b])

/-- All ways along branches from the first block to `b` come through `a`; in particular they do if `b` is `a`. -/
def AllThrough (blocks : List (BasicBlock X)) (first a b : UInt32) : Prop :=
  ∀ l, Course blocks first (l ++ [b]) → a ∈ l ++ [b]

/-- A branch from `u` back to a block `a` that dominates it -/
def BranchesBack (blocks : List (BasicBlock X)) (first u a : UInt32) : Prop :=
  Branch blocks u a ∧ Comes blocks first u ∧ AllThrough blocks first a u

/-- `b` is in the natural loop of `a`: some branch goes from a block `u` back to `a`, and from `b`, if it is another block
than `a`, control can come to `u` without coming through `a`. -/
def NaturalLoop (blocks : List (BasicBlock X)) (first a b : UInt32) : Prop :=
  ∃ u, BranchesBack blocks first u a ∧ Comes blocks first b ∧ (b = a ∨ ∃ l, Course blocks b (l ++ [u]) ∧ a ∉ l ++ [u])

end Magma.Standard

namespace Magma.Spec

mutual
/-- The chain has a loop that starts at `a` and contains `b`. -/
def WithinLoop (a b : UInt32) : ControlFlowChain → Prop
  | .Atom _ => False
  | .Block chains => WithinLoopAny a b chains
  | .Selection _ left right _ _ => WithinLoop a b left ∨ WithinLoop a b right
  | .Loop id inner _ _ => (a = id.val ∧ (b = a ∨ b ∈ chainIds inner)) ∨ WithinLoop a b inner
  | .Break => False
  | .Continue => False
/-- The same for chains one after the other -/
def WithinLoopAny (a b : UInt32) : List ControlFlowChain → Prop
  | [] => False
  | chain :: chains => WithinLoop a b chain ∨ WithinLoopAny a b chains
end

end Magma.Spec
