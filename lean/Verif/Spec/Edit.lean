import Verif.Spec.Outline
import Mathlib.Data.List.Forall2
/-! Instructions in the place of others. -/

namespace Magma.Spec
variable {X : Type}

/-- An instruction can take the place of another: it has the same role, and labels, merge instructions and branches
stay as they are. -/
def Patches (old new : Core X) : Prop :=
  role old = role new ∧ (role old ∈ [Role.label, .merge, .branch] → old = new)

/-- Both lists import the same sets under the same ids. -/
def SameImports (insts insts' : List (Core X)) : Prop :=
  ∀ op, .OpExtInstImport op ∈ insts ↔ .OpExtInstImport op ∈ insts'

end Magma.Spec
