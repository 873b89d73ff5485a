import Verif.Spec.Flow
/-! Functions from which blocks are removed. -/

namespace Magma.Spec
variable {X : Type}

/-- The function with just those of its blocks whose labels are kept -/
def keepBlocks (keep : UInt32 → Bool) (f : FunctionDefinition X) : FunctionDefinition X :=
  { f with blocks := f.blocks.filter fun b => keep b.label.result_id.val }

end Magma.Spec
