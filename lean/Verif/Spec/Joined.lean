import Verif.Spec.Disassembly
/-! Which instructions the text of a module does not keep apart. -/

namespace Magma.Spec
variable {X : Type}

/-- An entry point -/
def IsEntryPoint : Core X → Prop
  | .OpEntryPoint _ => True
  | _ => False

/-- The text of the instruction ends in the quote after a string. -/
def EndsQuoted : Core X → Prop
  | .OpSourceContinued _ => True
  | .OpSource op => op.source ≠ none
  | .OpSourceExtension _ => True
  | .OpName _ => True
  | .OpMemberName _ => True
  | .OpString _ => True
  | .OpExtension _ => True
  | .OpExtInstImport _ => True
  | .OpEntryPoint op => op.interface = []
  | .OpTypeOpaque _ => True
  | _ => False

/-- A decoration with a linkage, whose text ends in the kind of linkage -/
def IsLinkage : Core X → Prop
  | .OpDecorate op => ∃ s l, op.decoration = .LinkageAttributes s l
  | .OpMemberDecorate op => ∃ s l, op.decoration = .LinkageAttributes s l
  | _ => False

/-- The text from the one instruction to the other, later one may as well be that of a single instruction: the one up to
its string, and the string going on to the end of the other. -/
def Joins (a b : Core X) : Prop :=
  (EndsQuoted a ∧ EndsQuoted b) ∨ (IsEntryPoint a ∧ (EndsQuoted b ∨ IsEntryPoint b)) ∨ (IsLinkage a ∧ IsLinkage b)

end Magma.Spec
