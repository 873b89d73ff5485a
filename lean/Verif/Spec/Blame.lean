import Verif.Spec.Opcodes
import Verif.Spec.Serialise
/-! When an error of the reader is justified: what it says about an instruction is true of it. -/

namespace Magma.Spec

/-- The error is about an operand, and says something true: the word it holds is one of the operand words,
and is no value of that kind, or for masks has a bit set that is not defined. For strings, among the
operand words are some that end with the first NUL and whose bytes up to there are not UTF-8. -/
def BadOperand (ops : List UInt32) : ReadError → Prop
  | .UnknownAddressingModel w => w ∈ ops ∧ ∀ a, addressingModelCode a ≠ w
  | .UnknownMemoryModel w => w ∈ ops ∧ ∀ a, memoryModelCode a ≠ w
  | .UnknownExecutionModel w => w ∈ ops ∧ ∀ a, executionModelCode a ≠ w
  | .UnknownExecutionMode w => w ∈ ops ∧ ∀ a, executionModeNumber a ≠ w
  | .UnknownCapability w => w ∈ ops ∧ ∀ a, capabilityCode a ≠ w
  | .UnknownDecoration w => w ∈ ops ∧ ∀ a, decorationNumber a ≠ w
  | .UnknownBuiltIn w => w ∈ ops ∧ ∀ a, builtInCode a ≠ w
  | .UnknownFpRoundingMode w => w ∈ ops ∧ ∀ a, fpRoundingModeCode a ≠ w
  | .UnknownLinkageType w => w ∈ ops ∧ ∀ a, linkageTypeCode a ≠ w
  | .UnknownSignedness w => w ∈ ops ∧ ∀ a, signednessCode a ≠ w
  | .UnknownStorageClass w => w ∈ ops ∧ ∀ a, storageClassCode a ≠ w
  | .UnknownFunctionParameterAttribute w => w ∈ ops ∧ ∀ a, functionParameterAttributeCode a ≠ w
  | .UnknownDim w => w ∈ ops ∧ ∀ a, dimCode a ≠ w
  | .UnknownDepthStatus w => w ∈ ops ∧ ∀ a, depthStatusCode a ≠ w
  | .UnknownArrayed w => w ∈ ops ∧ ∀ a, arrayedCode a ≠ w
  | .UnknownMS w => w ∈ ops ∧ ∀ a, mSCode a ≠ w
  | .UnknownSampledStatus w => w ∈ ops ∧ ∀ a, sampledStatusCode a ≠ w
  | .UnknownImageFormat w => w ∈ ops ∧ ∀ a, imageFormatCode a ≠ w
  | .UnknownAccessQualifier w => w ∈ ops ∧ ∀ a, accessQualifierCode a ≠ w
  | .UnknownFpFastMathMode w => w ∈ ops ∧ ∃ i, 5 ≤ i ∧ w.toNat.testBit i = true
  | .UnknownMemoryAccess w => w ∈ ops ∧ ∃ i, 3 ≤ i ∧ w.toNat.testBit i = true
  | .UnknownLoopControl w => w ∈ ops ∧ ∃ i, 4 ≤ i ∧ w.toNat.testBit i = true
  | .UnknownSelectionControl w => w ∈ ops ∧ ∃ i, 2 ≤ i ∧ w.toNat.testBit i = true
  | .InvalidString => ∃ pre u rest bytes pad, ops = pre ++ u ++ rest ∧ u.flatMap wordBytes = bytes ++ 0 :: pad ∧
      pad.length ≤ 3 ∧ 0 ∉ bytes ∧ ∀ s, stringBytes s ≠ bytes
  | .UnexpectedEndOfInstruction => True  -- about the end, not an operand: see `Justifies`
  | _ => False

/-- The words end in the middle of a string, and what there is of it is not the start of the UTF-8 bytes of a
string. -/
def BadEnd (ops : List UInt32) : Prop :=
  ∃ pre u, ops = pre ++ u ∧ 0 ∉ u.flatMap wordBytes ∧ ∀ s, 0 ∉ stringBytes s → ¬ u.flatMap wordBytes <+: stringBytes s

/-- The instruction with head word `head` and operand words `ops`, which follows the instructions `before`,
justifies the error. -/
def Justifies {X : Type} (known : List (ExtInstSet X)) (before : List (Core X)) (head : UInt32) (ops : List UInt32) :
    ReadError → Prop
  | .UnknownOp id wc => head.toNat = wc.toNat * 65536 + id.toNat ∧ unimplementedOpcodes.lookup id.toNat = none ∧
      id.toNat ∉ supportedOpcodes
  | .UnimplementedOp name => unimplementedOpcodes.lookup (head.toNat % 65536) = some name
  | .UnknownInstSet name => head.toNat % 65536 = 11 ∧
      ∃ id u extra, ops = id :: (u ++ extra) ∧ SpellsString name u ∧ ∀ s ∈ known, s.name ≠ name
  | .DuplicateResultId id => head.toNat % 65536 = 11 ∧ (∃ more, ops = id.val :: more) ∧
      ∃ i ∈ before, importName id.val i ≠ none
  | .UnknownInstSetId id => head.toNat % 65536 = 12 ∧ (∃ rt res more, ops = rt :: res :: id.val :: more) ∧
      ∀ i ∈ before, importName id.val i = none
  | .UnknownExtInstOp set inst => head.toNat % 65536 = 12 ∧ ∃ rt res id args, ops = rt :: res :: id :: inst :: args ∧
      ∃ i ∈ before, importName id i = some set
  | .InstructionHadExcessData => ∃ p extra, ops = p ++ extra ∧ extra ≠ [] ∧ ∃ inst : Core X,
      opcode inst = head.toNat % 65536 ∧ (SpellsOperands known before inst p ∨
        ∃ rt res id number args imp name s i, ops = rt :: res :: id :: number :: args ∧ imp ∈ before ∧
          importName id imp = some name ∧ setNamed known name = some s ∧
          s.readInstruction number args = .ok (extra, i) ∧ inst = .OpExtInst ⟨⟨rt⟩, ⟨res⟩, ⟨id⟩, i⟩)
  -- with more words it would be an instruction; or it ends in the middle of a string that is not UTF-8; or it is
  -- an extended instruction that ends before its operands, or for which the set asks for more words
  | .UnexpectedEndOfInstruction => BadEnd ops ∨
      (head.toNat % 65536 ≠ 12 ∧ ∃ more, more ≠ [] ∧ ∃ inst : Core X, opcode inst = head.toNat % 65536 ∧
        Reads (operands inst) (ops ++ more) []) ∨
      (head.toNat % 65536 = 12 ∧ (ops.length < 4 ∨ ∃ rt res id number args imp name s,
        ops = rt :: res :: id :: number :: args ∧ imp ∈ before ∧ importName id imp = some name ∧
        setNamed known name = some s ∧ s.readInstruction number args = .error (.err .UnexpectedEndOfInstruction)))
  | e => BadOperand ops e

/-- The error is about the header or the end of the input, not about an instruction. -/
def AboutStream : ReadError → Prop
  | .UnexpectedEndOfStream | .UnexpectedStreamAlignment | .BadMagic | .UnknownVersionBytes _ _ _ _
  | .UnknownReservedSchema => True
  | _ => False

/-- The errors of an instruction set are about the words given to it. -/
def OwnErrors {X : Type} (s : ExtInstSet X) : Prop :=
  (∀ n ws e, s.readInstruction n ws = .error (.err e) → e = .UnexpectedEndOfInstruction ∨ e = .UnknownExtInstOp s.name n) ∧
  ∀ n ws rest i, s.readInstruction n ws = .ok (rest, i) → rest <:+ ws

end Magma.Spec
