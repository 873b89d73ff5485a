import Verif.Spec.Rename
import Verif.Spec.Meaning
import Verif.Spec.Printing
/-! A block that is a copy of another, and what blocks and their copies compute. -/

namespace Magma.Spec
variable {X S : Type}

/-- The condition a block ends with -/
def conditionOf (b : BasicBlock X) : Option OpId :=
  match b.branch with
  | .OpBranchConditional op => some op.condition
  | _ => none

/-- `b` is a copy of `b'`: it has the same code and the same condition and ends like it, but its label and the blocks
it names are others. `σ` says of which blocks they are copies. -/
structure CopyOf (σ : UInt32 → UInt32) (b b' : BasicBlock X) : Prop where
  label : labelId b' = σ (labelId b)
  code : b'.code = b.code
  ends : endOf b' = (endOf b).rename σ
  condition : conditionOf b' = conditionOf b

/-- The meaning in which a copy that control came from counts as the block that it is a copy of -/
def Machine.through (σ : UInt32 → UInt32) (M : Machine X S) : Machine X S :=
  { M with run := fun last => M.run (last.map σ) }

/-- The block visited last, for its copy -/
def Config.through (σ : UInt32 → UInt32) (c : Config S) : Config S := { c with last := c.last.map σ }

/-- The blocks visited and where it got, for copies -/
def throughRun (σ : UInt32 → UInt32) (r : List BlockId × Config S × Outcome) : List BlockId × Config S × Outcome :=
  (r.1.map fun id => ⟨σ id.val⟩, r.2.1.through σ, r.2.2)

end Magma.Spec
