import Verif.Spec.StandardFlow
/-! Ways along the branches of a function, first block first. -/

namespace Magma.Standard
open Magma.Spec
variable {X : Type}

/-- A way from a block along branches, to any block -/
inductive Course (blocks : List (BasicBlock X)) : UInt32 → List UInt32 → Prop where
  | stop {b} : b ∈ blocks → Course blocks (labelId b) [labelId b]
  | step {u v l} : Branch blocks u v → Course blocks v l → Course blocks u (u :: l)

/-- A way from a block along branches, to a block that returns -/
inductive Journey (blocks : List (BasicBlock X)) : UInt32 → List UInt32 → Prop where
  | stop {b} : b ∈ blocks → endOf b = .returns → Journey blocks (labelId b) [labelId b]
  | step {u v l} : Branch blocks u v → Journey blocks v l → Journey blocks u (u :: l)

end Magma.Standard
