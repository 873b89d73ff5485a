import Verif.Spec.Blame
/-! Which operand an error is about. -/

namespace Magma.Spec

/-- The operand word that an error names -/
def refusedWord : ReadError → Option UInt32
  | .UnknownAddressingModel w | .UnknownMemoryModel w | .UnknownExecutionModel w | .UnknownExecutionMode w
  | .UnknownCapability w | .UnknownDecoration w | .UnknownBuiltIn w | .UnknownFpRoundingMode w
  | .UnknownFpFastMathMode w | .UnknownLinkageType w | .UnknownSignedness w | .UnknownStorageClass w
  | .UnknownFunctionParameterAttribute w | .UnknownMemoryAccess w | .UnknownDim w | .UnknownDepthStatus w
  | .UnknownArrayed w | .UnknownMS w | .UnknownSampledStatus w | .UnknownImageFormat w | .UnknownAccessQualifier w
  | .UnknownLoopControl w | .UnknownSelectionControl w => some w
  | _ => none

/-- The words that an error refuses: the word that it names, or a string up to its end that is not UTF-8 -/
def Refused (e : ReadError) (q : List UInt32) : Prop :=
  (∃ w, refusedWord e = some w ∧ q = [w]) ∨ (e = .InvalidString ∧ ∃ bytes pad, q.flatMap wordBytes = bytes ++ 0 :: pad ∧
    pad.length ≤ 3 ∧ 0 ∉ bytes ∧ ∀ s, stringBytes s ≠ bytes)

/-- The words are the start of the operands of some instruction with this opcode. -/
def CanGoOn (X : Type) (op : Nat) (ws : List UInt32) : Prop :=
  ∃ more, ∃ inst : Core X, opcode inst = op ∧ Reads (operands inst) (ws ++ more) []

end Magma.Spec
