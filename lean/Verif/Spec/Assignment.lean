import Verif.Spec.RenameOps
import Verif.Spec.Disassembly
/-! Static single assignment, as the standard demands of ids (section 2.4 and 2.16.1). -/

namespace Magma.Spec

/-- Whether the id occurs in the instruction: another id in its place gives another instruction. -/
def Mentions {X : Type} [Renames X] (id : UInt32) (inst : Core X) : Prop :=
  ∃ other, renameInst (fun i => if i = id then other else i) inst ≠ inst

/-- No id is the result of two instructions. -/
def AssignedOnce {X : Type} (insts : List (Core X)) : Prop := (insts.filterMap resultId).Nodup

/-- Every id that occurs is the result of an instruction. -/
def AllAssigned {X : Type} [Renames X] (insts : List (Core X)) : Prop :=
  ∀ inst ∈ insts, ∀ id, Mentions id inst → id ∈ insts.filterMap resultId

end Magma.Spec
