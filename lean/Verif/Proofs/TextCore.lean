import Verif.Proofs.TextOps
import Verif.Spec.Disassembly
/-! Generated by `tools/gen_text.py`: the instruction cases of the disassembly. -/

namespace Magma

theorem decimal_eq (n : Nat) : Spec.decimal n = fmtNat n := by
  show (toString n).toList = Nat.toDigits 10 n
  simp

theorem leftColumn_some (r : ResultId) : fmtResult r = Spec.leftColumn (some r.val) := by
  simp only [Spec.leftColumn, decimal_eq]
  rfl

theorem leftColumn_none : fmtNoResult = Spec.leftColumn none := rfl

theorem Core.layout {X : Type} [Display X] (c : Core X) :
    ∃ name s, (Spec.opcode c, name) ∈ Spec.mnemonics ∧ Spaced s ∧
      Display.fmt c = Spec.leftColumn (Spec.resultId c) ++ (name.toList ++ s) := by
  cases c with
  | OpNop op =>
    obtain ⟨s, hs, h⟩ := OpNop.layout op
    exact ⟨"OpNop", s, show (0, "OpNop") ∈ Spec.mnemonics by decide, hs,
      h.trans (congrArg (· ++ _) (leftColumn_none))⟩
  | OpUndef op =>
    obtain ⟨s, hs, h⟩ := OpUndef.layout op
    exact ⟨"OpUndef", s, show (1, "OpUndef") ∈ Spec.mnemonics by decide, hs,
      h.trans (congrArg (· ++ _) (leftColumn_some op.result_id))⟩
  | OpSourceContinued op =>
    obtain ⟨s, hs, h⟩ := OpSourceContinued.layout op
    exact ⟨"OpSourceContinued", s, show (2, "OpSourceContinued") ∈ Spec.mnemonics by decide, hs,
      h.trans (congrArg (· ++ _) (leftColumn_none))⟩
  | OpSource op =>
    obtain ⟨s, hs, h⟩ := OpSource.layout op
    exact ⟨"OpSource", s, show (3, "OpSource") ∈ Spec.mnemonics by decide, hs,
      h.trans (congrArg (· ++ _) (leftColumn_none))⟩
  | OpSourceExtension op =>
    obtain ⟨s, hs, h⟩ := OpSourceExtension.layout op
    exact ⟨"OpSourceExtension", s, show (4, "OpSourceExtension") ∈ Spec.mnemonics by decide, hs,
      h.trans (congrArg (· ++ _) (leftColumn_none))⟩
  | OpName op =>
    obtain ⟨s, hs, h⟩ := OpName.layout op
    exact ⟨"OpName", s, show (5, "OpName") ∈ Spec.mnemonics by decide, hs,
      h.trans (congrArg (· ++ _) (leftColumn_none))⟩
  | OpMemberName op =>
    obtain ⟨s, hs, h⟩ := OpMemberName.layout op
    exact ⟨"OpMemberName", s, show (6, "OpMemberName") ∈ Spec.mnemonics by decide, hs,
      h.trans (congrArg (· ++ _) (leftColumn_none))⟩
  | OpString op =>
    obtain ⟨s, hs, h⟩ := OpString.layout op
    exact ⟨"OpString", s, show (7, "OpString") ∈ Spec.mnemonics by decide, hs,
      h.trans (congrArg (· ++ _) (leftColumn_some op.result_id))⟩
  | OpExtension op =>
    obtain ⟨s, hs, h⟩ := OpExtension.layout op
    exact ⟨"OpExtension", s, show (10, "OpExtension") ∈ Spec.mnemonics by decide, hs,
      h.trans (congrArg (· ++ _) (leftColumn_none))⟩
  | OpExtInstImport op =>
    obtain ⟨s, hs, h⟩ := OpExtInstImport.layout op
    exact ⟨"OpExtInstImport", s, show (11, "OpExtInstImport") ∈ Spec.mnemonics by decide, hs,
      h.trans (congrArg (· ++ _) (leftColumn_some op.result_id))⟩
  | OpExtInst op =>
    obtain ⟨s, hs, h⟩ := OpExtInst.layout op
    exact ⟨"OpExtInst", s, show (12, "OpExtInst") ∈ Spec.mnemonics by decide, hs,
      h.trans (congrArg (· ++ _) (leftColumn_some op.result_id))⟩
  | OpMemoryModel op =>
    obtain ⟨s, hs, h⟩ := OpMemoryModel.layout op
    exact ⟨"OpMemoryModel", s, show (14, "OpMemoryModel") ∈ Spec.mnemonics by decide, hs,
      h.trans (congrArg (· ++ _) (leftColumn_none))⟩
  | OpEntryPoint op =>
    obtain ⟨s, hs, h⟩ := OpEntryPoint.layout op
    exact ⟨"OpEntryPoint", s, show (15, "OpEntryPoint") ∈ Spec.mnemonics by decide, hs,
      h.trans (congrArg (· ++ _) (leftColumn_none))⟩
  | OpExecutionMode op =>
    obtain ⟨s, hs, h⟩ := OpExecutionMode.layout op
    exact ⟨"OpExecutionMode", s, show (16, "OpExecutionMode") ∈ Spec.mnemonics by decide, hs,
      h.trans (congrArg (· ++ _) (leftColumn_none))⟩
  | OpCapability op =>
    obtain ⟨s, hs, h⟩ := OpCapability.layout op
    exact ⟨"OpCapability", s, show (17, "OpCapability") ∈ Spec.mnemonics by decide, hs,
      h.trans (congrArg (· ++ _) (leftColumn_none))⟩
  | OpTypeVoid op =>
    obtain ⟨s, hs, h⟩ := OpTypeVoid.layout op
    exact ⟨"OpTypeVoid", s, show (19, "OpTypeVoid") ∈ Spec.mnemonics by decide, hs,
      h.trans (congrArg (· ++ _) (leftColumn_some op.result_id))⟩
  | OpTypeBool op =>
    obtain ⟨s, hs, h⟩ := OpTypeBool.layout op
    exact ⟨"OpTypeBool", s, show (20, "OpTypeBool") ∈ Spec.mnemonics by decide, hs,
      h.trans (congrArg (· ++ _) (leftColumn_some op.result_id))⟩
  | OpTypeInt op =>
    obtain ⟨s, hs, h⟩ := OpTypeInt.layout op
    exact ⟨"OpTypeInt", s, show (21, "OpTypeInt") ∈ Spec.mnemonics by decide, hs,
      h.trans (congrArg (· ++ _) (leftColumn_some op.result_id))⟩
  | OpTypeFloat op =>
    obtain ⟨s, hs, h⟩ := OpTypeFloat.layout op
    exact ⟨"OpTypeFloat", s, show (22, "OpTypeFloat") ∈ Spec.mnemonics by decide, hs,
      h.trans (congrArg (· ++ _) (leftColumn_some op.result_id))⟩
  | OpTypeVector op =>
    obtain ⟨s, hs, h⟩ := OpTypeVector.layout op
    exact ⟨"OpTypeVector", s, show (23, "OpTypeVector") ∈ Spec.mnemonics by decide, hs,
      h.trans (congrArg (· ++ _) (leftColumn_some op.result_id))⟩
  | OpTypeMatrix op =>
    obtain ⟨s, hs, h⟩ := OpTypeMatrix.layout op
    exact ⟨"OpTypeMatrix", s, show (24, "OpTypeMatrix") ∈ Spec.mnemonics by decide, hs,
      h.trans (congrArg (· ++ _) (leftColumn_some op.result_id))⟩
  | OpTypeImage op =>
    obtain ⟨s, hs, h⟩ := OpTypeImage.layout op
    exact ⟨"OpTypeImage", s, show (25, "OpTypeImage") ∈ Spec.mnemonics by decide, hs,
      h.trans (congrArg (· ++ _) (leftColumn_some op.result_id))⟩
  | OpTypeSampler op =>
    obtain ⟨s, hs, h⟩ := OpTypeSampler.layout op
    exact ⟨"OpTypeSampler", s, show (26, "OpTypeSampler") ∈ Spec.mnemonics by decide, hs,
      h.trans (congrArg (· ++ _) (leftColumn_some op.result_id))⟩
  | OpTypeSampledImage op =>
    obtain ⟨s, hs, h⟩ := OpTypeSampledImage.layout op
    exact ⟨"OpTypeSampledImage", s, show (27, "OpTypeSampledImage") ∈ Spec.mnemonics by decide, hs,
      h.trans (congrArg (· ++ _) (leftColumn_some op.result_id))⟩
  | OpTypeArray op =>
    obtain ⟨s, hs, h⟩ := OpTypeArray.layout op
    exact ⟨"OpTypeArray", s, show (28, "OpTypeArray") ∈ Spec.mnemonics by decide, hs,
      h.trans (congrArg (· ++ _) (leftColumn_some op.result_id))⟩
  | OpTypeRuntimeArray op =>
    obtain ⟨s, hs, h⟩ := OpTypeRuntimeArray.layout op
    exact ⟨"OpTypeRuntimeArray", s, show (29, "OpTypeRuntimeArray") ∈ Spec.mnemonics by decide, hs,
      h.trans (congrArg (· ++ _) (leftColumn_some op.result_id))⟩
  | OpTypeStruct op =>
    obtain ⟨s, hs, h⟩ := OpTypeStruct.layout op
    exact ⟨"OpTypeStruct", s, show (30, "OpTypeStruct") ∈ Spec.mnemonics by decide, hs,
      h.trans (congrArg (· ++ _) (leftColumn_some op.result_id))⟩
  | OpTypeOpaque op =>
    obtain ⟨s, hs, h⟩ := OpTypeOpaque.layout op
    exact ⟨"OpTypeOpaque", s, show (31, "OpTypeOpaque") ∈ Spec.mnemonics by decide, hs,
      h.trans (congrArg (· ++ _) (leftColumn_some op.result_id))⟩
  | OpTypePointer op =>
    obtain ⟨s, hs, h⟩ := OpTypePointer.layout op
    exact ⟨"OpTypePointer", s, show (32, "OpTypePointer") ∈ Spec.mnemonics by decide, hs,
      h.trans (congrArg (· ++ _) (leftColumn_some op.result_id))⟩
  | OpTypeFunction op =>
    obtain ⟨s, hs, h⟩ := OpTypeFunction.layout op
    exact ⟨"OpTypeFunction", s, show (33, "OpTypeFunction") ∈ Spec.mnemonics by decide, hs,
      h.trans (congrArg (· ++ _) (leftColumn_some op.result_id))⟩
  | OpTypeEvent op =>
    obtain ⟨s, hs, h⟩ := OpTypeEvent.layout op
    exact ⟨"OpTypeEvent", s, show (34, "OpTypeEvent") ∈ Spec.mnemonics by decide, hs,
      h.trans (congrArg (· ++ _) (leftColumn_some op.result_id))⟩
  | OpTypeDeviceEvent op =>
    obtain ⟨s, hs, h⟩ := OpTypeDeviceEvent.layout op
    exact ⟨"OpTypeDeviceEvent", s, show (35, "OpTypeDeviceEvent") ∈ Spec.mnemonics by decide, hs,
      h.trans (congrArg (· ++ _) (leftColumn_some op.result_id))⟩
  | OpTypeQueue op =>
    obtain ⟨s, hs, h⟩ := OpTypeQueue.layout op
    exact ⟨"OpTypeQueue", s, show (37, "OpTypeQueue") ∈ Spec.mnemonics by decide, hs,
      h.trans (congrArg (· ++ _) (leftColumn_some op.result_id))⟩
  | OpTypePipe op =>
    obtain ⟨s, hs, h⟩ := OpTypePipe.layout op
    exact ⟨"OpTypePipe", s, show (38, "OpTypePipe") ∈ Spec.mnemonics by decide, hs,
      h.trans (congrArg (· ++ _) (leftColumn_some op.result_id))⟩
  | OpTypeForwardPointer op =>
    obtain ⟨s, hs, h⟩ := OpTypeForwardPointer.layout op
    exact ⟨"OpTypeForwardPointer", s, show (39, "OpTypeForwardPointer") ∈ Spec.mnemonics by decide, hs,
      h.trans (congrArg (· ++ _) (leftColumn_none))⟩
  | OpConstant op =>
    obtain ⟨s, hs, h⟩ := OpConstant.layout op
    exact ⟨"OpConstant", s, show (43, "OpConstant") ∈ Spec.mnemonics by decide, hs,
      h.trans (congrArg (· ++ _) (leftColumn_some op.result_id))⟩
  | OpConstantComposite op =>
    obtain ⟨s, hs, h⟩ := OpConstantComposite.layout op
    exact ⟨"OpConstantComposite", s, show (44, "OpConstantComposite") ∈ Spec.mnemonics by decide, hs,
      h.trans (congrArg (· ++ _) (leftColumn_some op.result_id))⟩
  | OpFunction op =>
    obtain ⟨s, hs, h⟩ := OpFunction.layout op
    exact ⟨"OpFunction", s, show (54, "OpFunction") ∈ Spec.mnemonics by decide, hs,
      h.trans (congrArg (· ++ _) (leftColumn_some op.result_id))⟩
  | OpFunctionParameter op =>
    obtain ⟨s, hs, h⟩ := OpFunctionParameter.layout op
    exact ⟨"OpFunctionParameter", s, show (55, "OpFunctionParameter") ∈ Spec.mnemonics by decide, hs,
      h.trans (congrArg (· ++ _) (leftColumn_some op.result_id))⟩
  | OpFunctionEnd op =>
    obtain ⟨s, hs, h⟩ := OpFunctionEnd.layout op
    exact ⟨"OpFunctionEnd", s, show (56, "OpFunctionEnd") ∈ Spec.mnemonics by decide, hs,
      h.trans (congrArg (· ++ _) (leftColumn_none))⟩
  | OpVariable op =>
    obtain ⟨s, hs, h⟩ := OpVariable.layout op
    exact ⟨"OpVariable", s, show (59, "OpVariable") ∈ Spec.mnemonics by decide, hs,
      h.trans (congrArg (· ++ _) (leftColumn_some op.result_id))⟩
  | OpLoad op =>
    obtain ⟨s, hs, h⟩ := OpLoad.layout op
    exact ⟨"OpLoad", s, show (61, "OpLoad") ∈ Spec.mnemonics by decide, hs,
      h.trans (congrArg (· ++ _) (leftColumn_some op.result_id))⟩
  | OpStore op =>
    obtain ⟨s, hs, h⟩ := OpStore.layout op
    exact ⟨"OpStore", s, show (62, "OpStore") ∈ Spec.mnemonics by decide, hs,
      h.trans (congrArg (· ++ _) (leftColumn_none))⟩
  | OpAccessChain op =>
    obtain ⟨s, hs, h⟩ := OpAccessChain.layout op
    exact ⟨"OpAccessChain", s, show (65, "OpAccessChain") ∈ Spec.mnemonics by decide, hs,
      h.trans (congrArg (· ++ _) (leftColumn_some op.result_id))⟩
  | OpDecorate op =>
    obtain ⟨s, hs, h⟩ := OpDecorate.layout op
    exact ⟨"OpDecorate", s, show (71, "OpDecorate") ∈ Spec.mnemonics by decide, hs,
      h.trans (congrArg (· ++ _) (leftColumn_none))⟩
  | OpMemberDecorate op =>
    obtain ⟨s, hs, h⟩ := OpMemberDecorate.layout op
    exact ⟨"OpMemberDecorate", s, show (72, "OpMemberDecorate") ∈ Spec.mnemonics by decide, hs,
      h.trans (congrArg (· ++ _) (leftColumn_none))⟩
  | OpConvertUToF op =>
    obtain ⟨s, hs, h⟩ := OpConvertUToF.layout op
    exact ⟨"OpConvertUToF", s, show (112, "OpConvertUToF") ∈ Spec.mnemonics by decide, hs,
      h.trans (congrArg (· ++ _) (leftColumn_some op.result_id))⟩
  | OpBitcast op =>
    obtain ⟨s, hs, h⟩ := OpBitcast.layout op
    exact ⟨"OpBitcast", s, show (124, "OpBitcast") ∈ Spec.mnemonics by decide, hs,
      h.trans (congrArg (· ++ _) (leftColumn_some op.result_id))⟩
  | OpIAdd op =>
    obtain ⟨s, hs, h⟩ := OpIAdd.layout op
    exact ⟨"OpIAdd", s, show (128, "OpIAdd") ∈ Spec.mnemonics by decide, hs,
      h.trans (congrArg (· ++ _) (leftColumn_some op.result_id))⟩
  | OpFAdd op =>
    obtain ⟨s, hs, h⟩ := OpFAdd.layout op
    exact ⟨"OpFAdd", s, show (129, "OpFAdd") ∈ Spec.mnemonics by decide, hs,
      h.trans (congrArg (· ++ _) (leftColumn_some op.result_id))⟩
  | OpISub op =>
    obtain ⟨s, hs, h⟩ := OpISub.layout op
    exact ⟨"OpISub", s, show (130, "OpISub") ∈ Spec.mnemonics by decide, hs,
      h.trans (congrArg (· ++ _) (leftColumn_some op.result_id))⟩
  | OpFSub op =>
    obtain ⟨s, hs, h⟩ := OpFSub.layout op
    exact ⟨"OpFSub", s, show (131, "OpFSub") ∈ Spec.mnemonics by decide, hs,
      h.trans (congrArg (· ++ _) (leftColumn_some op.result_id))⟩
  | OpIMul op =>
    obtain ⟨s, hs, h⟩ := OpIMul.layout op
    exact ⟨"OpIMul", s, show (132, "OpIMul") ∈ Spec.mnemonics by decide, hs,
      h.trans (congrArg (· ++ _) (leftColumn_some op.result_id))⟩
  | OpFMul op =>
    obtain ⟨s, hs, h⟩ := OpFMul.layout op
    exact ⟨"OpFMul", s, show (133, "OpFMul") ∈ Spec.mnemonics by decide, hs,
      h.trans (congrArg (· ++ _) (leftColumn_some op.result_id))⟩
  | OpUDiv op =>
    obtain ⟨s, hs, h⟩ := OpUDiv.layout op
    exact ⟨"OpUDiv", s, show (134, "OpUDiv") ∈ Spec.mnemonics by decide, hs,
      h.trans (congrArg (· ++ _) (leftColumn_some op.result_id))⟩
  | OpSDiv op =>
    obtain ⟨s, hs, h⟩ := OpSDiv.layout op
    exact ⟨"OpSDiv", s, show (135, "OpSDiv") ∈ Spec.mnemonics by decide, hs,
      h.trans (congrArg (· ++ _) (leftColumn_some op.result_id))⟩
  | OpFDiv op =>
    obtain ⟨s, hs, h⟩ := OpFDiv.layout op
    exact ⟨"OpFDiv", s, show (136, "OpFDiv") ∈ Spec.mnemonics by decide, hs,
      h.trans (congrArg (· ++ _) (leftColumn_some op.result_id))⟩
  | OpUMod op =>
    obtain ⟨s, hs, h⟩ := OpUMod.layout op
    exact ⟨"OpUMod", s, show (137, "OpUMod") ∈ Spec.mnemonics by decide, hs,
      h.trans (congrArg (· ++ _) (leftColumn_some op.result_id))⟩
  | OpSRem op =>
    obtain ⟨s, hs, h⟩ := OpSRem.layout op
    exact ⟨"OpSRem", s, show (138, "OpSRem") ∈ Spec.mnemonics by decide, hs,
      h.trans (congrArg (· ++ _) (leftColumn_some op.result_id))⟩
  | OpSMod op =>
    obtain ⟨s, hs, h⟩ := OpSMod.layout op
    exact ⟨"OpSMod", s, show (139, "OpSMod") ∈ Spec.mnemonics by decide, hs,
      h.trans (congrArg (· ++ _) (leftColumn_some op.result_id))⟩
  | OpFRem op =>
    obtain ⟨s, hs, h⟩ := OpFRem.layout op
    exact ⟨"OpFRem", s, show (140, "OpFRem") ∈ Spec.mnemonics by decide, hs,
      h.trans (congrArg (· ++ _) (leftColumn_some op.result_id))⟩
  | OpFMod op =>
    obtain ⟨s, hs, h⟩ := OpFMod.layout op
    exact ⟨"OpFMod", s, show (141, "OpFMod") ∈ Spec.mnemonics by decide, hs,
      h.trans (congrArg (· ++ _) (leftColumn_some op.result_id))⟩
  | OpIAddCarry op =>
    obtain ⟨s, hs, h⟩ := OpIAddCarry.layout op
    exact ⟨"OpIAddCarry", s, show (149, "OpIAddCarry") ∈ Spec.mnemonics by decide, hs,
      h.trans (congrArg (· ++ _) (leftColumn_some op.result_id))⟩
  | OpISubBorrow op =>
    obtain ⟨s, hs, h⟩ := OpISubBorrow.layout op
    exact ⟨"OpISubBorrow", s, show (150, "OpISubBorrow") ∈ Spec.mnemonics by decide, hs,
      h.trans (congrArg (· ++ _) (leftColumn_some op.result_id))⟩
  | OpUMulExtended op =>
    obtain ⟨s, hs, h⟩ := OpUMulExtended.layout op
    exact ⟨"OpUMulExtended", s, show (151, "OpUMulExtended") ∈ Spec.mnemonics by decide, hs,
      h.trans (congrArg (· ++ _) (leftColumn_some op.result_id))⟩
  | OpSMulExtended op =>
    obtain ⟨s, hs, h⟩ := OpSMulExtended.layout op
    exact ⟨"OpSMulExtended", s, show (152, "OpSMulExtended") ∈ Spec.mnemonics by decide, hs,
      h.trans (congrArg (· ++ _) (leftColumn_some op.result_id))⟩
  | OpBitwiseOr op =>
    obtain ⟨s, hs, h⟩ := OpBitwiseOr.layout op
    exact ⟨"OpBitwiseOr", s, show (197, "OpBitwiseOr") ∈ Spec.mnemonics by decide, hs,
      h.trans (congrArg (· ++ _) (leftColumn_some op.result_id))⟩
  | OpBitwiseXor op =>
    obtain ⟨s, hs, h⟩ := OpBitwiseXor.layout op
    exact ⟨"OpBitwiseXor", s, show (198, "OpBitwiseXor") ∈ Spec.mnemonics by decide, hs,
      h.trans (congrArg (· ++ _) (leftColumn_some op.result_id))⟩
  | OpBitwiseAnd op =>
    obtain ⟨s, hs, h⟩ := OpBitwiseAnd.layout op
    exact ⟨"OpBitwiseAnd", s, show (199, "OpBitwiseAnd") ∈ Spec.mnemonics by decide, hs,
      h.trans (congrArg (· ++ _) (leftColumn_some op.result_id))⟩
  | OpIEqual op =>
    obtain ⟨s, hs, h⟩ := OpIEqual.layout op
    exact ⟨"OpIEqual", s, show (170, "OpIEqual") ∈ Spec.mnemonics by decide, hs,
      h.trans (congrArg (· ++ _) (leftColumn_some op.result_id))⟩
  | OpINotEqual op =>
    obtain ⟨s, hs, h⟩ := OpINotEqual.layout op
    exact ⟨"OpINotEqual", s, show (171, "OpINotEqual") ∈ Spec.mnemonics by decide, hs,
      h.trans (congrArg (· ++ _) (leftColumn_some op.result_id))⟩
  | OpUGreaterThan op =>
    obtain ⟨s, hs, h⟩ := OpUGreaterThan.layout op
    exact ⟨"OpUGreaterThan", s, show (172, "OpUGreaterThan") ∈ Spec.mnemonics by decide, hs,
      h.trans (congrArg (· ++ _) (leftColumn_some op.result_id))⟩
  | OpSGreaterThan op =>
    obtain ⟨s, hs, h⟩ := OpSGreaterThan.layout op
    exact ⟨"OpSGreaterThan", s, show (173, "OpSGreaterThan") ∈ Spec.mnemonics by decide, hs,
      h.trans (congrArg (· ++ _) (leftColumn_some op.result_id))⟩
  | OpUGreaterThanEqual op =>
    obtain ⟨s, hs, h⟩ := OpUGreaterThanEqual.layout op
    exact ⟨"OpUGreaterThanEqual", s, show (174, "OpUGreaterThanEqual") ∈ Spec.mnemonics by decide, hs,
      h.trans (congrArg (· ++ _) (leftColumn_some op.result_id))⟩
  | OpSGreaterThanEqual op =>
    obtain ⟨s, hs, h⟩ := OpSGreaterThanEqual.layout op
    exact ⟨"OpSGreaterThanEqual", s, show (175, "OpSGreaterThanEqual") ∈ Spec.mnemonics by decide, hs,
      h.trans (congrArg (· ++ _) (leftColumn_some op.result_id))⟩
  | OpULessThan op =>
    obtain ⟨s, hs, h⟩ := OpULessThan.layout op
    exact ⟨"OpULessThan", s, show (176, "OpULessThan") ∈ Spec.mnemonics by decide, hs,
      h.trans (congrArg (· ++ _) (leftColumn_some op.result_id))⟩
  | OpSLessThan op =>
    obtain ⟨s, hs, h⟩ := OpSLessThan.layout op
    exact ⟨"OpSLessThan", s, show (177, "OpSLessThan") ∈ Spec.mnemonics by decide, hs,
      h.trans (congrArg (· ++ _) (leftColumn_some op.result_id))⟩
  | OpULessThanEqual op =>
    obtain ⟨s, hs, h⟩ := OpULessThanEqual.layout op
    exact ⟨"OpULessThanEqual", s, show (178, "OpULessThanEqual") ∈ Spec.mnemonics by decide, hs,
      h.trans (congrArg (· ++ _) (leftColumn_some op.result_id))⟩
  | OpSLessThanEqual op =>
    obtain ⟨s, hs, h⟩ := OpSLessThanEqual.layout op
    exact ⟨"OpSLessThanEqual", s, show (179, "OpSLessThanEqual") ∈ Spec.mnemonics by decide, hs,
      h.trans (congrArg (· ++ _) (leftColumn_some op.result_id))⟩
  | OpFOrdEqual op =>
    obtain ⟨s, hs, h⟩ := OpFOrdEqual.layout op
    exact ⟨"OpFOrdEqual", s, show (180, "OpFOrdEqual") ∈ Spec.mnemonics by decide, hs,
      h.trans (congrArg (· ++ _) (leftColumn_some op.result_id))⟩
  | OpFUnordEqual op =>
    obtain ⟨s, hs, h⟩ := OpFUnordEqual.layout op
    exact ⟨"OpFUnordEqual", s, show (181, "OpFUnordEqual") ∈ Spec.mnemonics by decide, hs,
      h.trans (congrArg (· ++ _) (leftColumn_some op.result_id))⟩
  | OpFOrdNotEqual op =>
    obtain ⟨s, hs, h⟩ := OpFOrdNotEqual.layout op
    exact ⟨"OpFOrdNotEqual", s, show (182, "OpFOrdNotEqual") ∈ Spec.mnemonics by decide, hs,
      h.trans (congrArg (· ++ _) (leftColumn_some op.result_id))⟩
  | OpFUnordNotEqual op =>
    obtain ⟨s, hs, h⟩ := OpFUnordNotEqual.layout op
    exact ⟨"OpFUnordNotEqual", s, show (183, "OpFUnordNotEqual") ∈ Spec.mnemonics by decide, hs,
      h.trans (congrArg (· ++ _) (leftColumn_some op.result_id))⟩
  | OpFOrdLessThan op =>
    obtain ⟨s, hs, h⟩ := OpFOrdLessThan.layout op
    exact ⟨"OpFOrdLessThan", s, show (184, "OpFOrdLessThan") ∈ Spec.mnemonics by decide, hs,
      h.trans (congrArg (· ++ _) (leftColumn_some op.result_id))⟩
  | OpFUnordLessThan op =>
    obtain ⟨s, hs, h⟩ := OpFUnordLessThan.layout op
    exact ⟨"OpFUnordLessThan", s, show (185, "OpFUnordLessThan") ∈ Spec.mnemonics by decide, hs,
      h.trans (congrArg (· ++ _) (leftColumn_some op.result_id))⟩
  | OpFOrdGreaterThan op =>
    obtain ⟨s, hs, h⟩ := OpFOrdGreaterThan.layout op
    exact ⟨"OpFOrdGreaterThan", s, show (186, "OpFOrdGreaterThan") ∈ Spec.mnemonics by decide, hs,
      h.trans (congrArg (· ++ _) (leftColumn_some op.result_id))⟩
  | OpFUnordGreaterThan op =>
    obtain ⟨s, hs, h⟩ := OpFUnordGreaterThan.layout op
    exact ⟨"OpFUnordGreaterThan", s, show (187, "OpFUnordGreaterThan") ∈ Spec.mnemonics by decide, hs,
      h.trans (congrArg (· ++ _) (leftColumn_some op.result_id))⟩
  | OpFOrdLessThanEqual op =>
    obtain ⟨s, hs, h⟩ := OpFOrdLessThanEqual.layout op
    exact ⟨"OpFOrdLessThanEqual", s, show (188, "OpFOrdLessThanEqual") ∈ Spec.mnemonics by decide, hs,
      h.trans (congrArg (· ++ _) (leftColumn_some op.result_id))⟩
  | OpFUnordLessThanEqual op =>
    obtain ⟨s, hs, h⟩ := OpFUnordLessThanEqual.layout op
    exact ⟨"OpFUnordLessThanEqual", s, show (189, "OpFUnordLessThanEqual") ∈ Spec.mnemonics by decide, hs,
      h.trans (congrArg (· ++ _) (leftColumn_some op.result_id))⟩
  | OpFOrdGreaterThanEqual op =>
    obtain ⟨s, hs, h⟩ := OpFOrdGreaterThanEqual.layout op
    exact ⟨"OpFOrdGreaterThanEqual", s, show (190, "OpFOrdGreaterThanEqual") ∈ Spec.mnemonics by decide, hs,
      h.trans (congrArg (· ++ _) (leftColumn_some op.result_id))⟩
  | OpFUnordGreaterThanEqual op =>
    obtain ⟨s, hs, h⟩ := OpFUnordGreaterThanEqual.layout op
    exact ⟨"OpFUnordGreaterThanEqual", s, show (191, "OpFUnordGreaterThanEqual") ∈ Spec.mnemonics by decide, hs,
      h.trans (congrArg (· ++ _) (leftColumn_some op.result_id))⟩
  | OpPhi op =>
    obtain ⟨s, hs, h⟩ := OpPhi.layout op
    exact ⟨"OpPhi", s, show (245, "OpPhi") ∈ Spec.mnemonics by decide, hs,
      h.trans (congrArg (· ++ _) (leftColumn_some op.result_id))⟩
  | OpLoopMerge op =>
    obtain ⟨s, hs, h⟩ := OpLoopMerge.layout op
    exact ⟨"OpLoopMerge", s, show (246, "OpLoopMerge") ∈ Spec.mnemonics by decide, hs,
      h.trans (congrArg (· ++ _) (leftColumn_none))⟩
  | OpSelectionMerge op =>
    obtain ⟨s, hs, h⟩ := OpSelectionMerge.layout op
    exact ⟨"OpSelectionMerge", s, show (247, "OpSelectionMerge") ∈ Spec.mnemonics by decide, hs,
      h.trans (congrArg (· ++ _) (leftColumn_none))⟩
  | OpLabel op =>
    obtain ⟨s, hs, h⟩ := OpLabel.layout op
    exact ⟨"OpLabel", s, show (248, "OpLabel") ∈ Spec.mnemonics by decide, hs,
      h.trans (congrArg (· ++ _) (leftColumn_some op.result_id))⟩
  | OpBranch op =>
    obtain ⟨s, hs, h⟩ := OpBranch.layout op
    exact ⟨"OpBranch", s, show (249, "OpBranch") ∈ Spec.mnemonics by decide, hs,
      h.trans (congrArg (· ++ _) (leftColumn_none))⟩
  | OpBranchConditional op =>
    obtain ⟨s, hs, h⟩ := OpBranchConditional.layout op
    exact ⟨"OpBranchConditional", s, show (250, "OpBranchConditional") ∈ Spec.mnemonics by decide, hs,
      h.trans (congrArg (· ++ _) (leftColumn_none))⟩
  | OpReturn op =>
    obtain ⟨s, hs, h⟩ := OpReturn.layout op
    exact ⟨"OpReturn", s, show (253, "OpReturn") ∈ Spec.mnemonics by decide, hs,
      h.trans (congrArg (· ++ _) (leftColumn_none))⟩

/-- The opcodes in the order of the constructors -/
def Core.opcodes : List Nat := [0, 1, 2, 3, 4, 5, 6, 7, 10, 11, 12, 14, 15, 16, 17, 19, 20, 21, 22, 23, 24, 25, 26, 27, 28, 29, 30, 31, 32, 33, 34, 35, 37, 38, 39, 43, 44, 54, 55, 56, 59, 61, 62, 65, 71, 72, 112, 124, 128, 129, 130, 131, 132, 133, 134, 135, 136, 137, 138, 139, 140, 141, 149, 150, 151, 152, 197, 198, 199, 170, 171, 172, 173, 174, 175, 176, 177, 178, 179, 180, 181, 182, 183, 184, 185, 186, 187, 188, 189, 190, 191, 245, 246, 247, 248, 249, 250, 253]

theorem Core.opcode_idx {X : Type} (c : Core X) : Core.opcodes[c.ctorIdx]? = some (Spec.opcode c) := by
  cases c <;> rfl

theorem Core.ctorIdx_eq {X : Type} {a b : Core X} (h : Spec.opcode a = Spec.opcode b) :
    a.ctorIdx = b.ctorIdx := by
  have hn : Core.opcodes.Nodup := by decide +kernel
  have ha := Core.opcode_idx a
  have hb := Core.opcode_idx b
  have hlt : a.ctorIdx < Core.opcodes.length := by
    rcases Nat.lt_or_ge a.ctorIdx Core.opcodes.length with h' | h'
    · exact h'
    · rw [List.getElem?_eq_none h'] at ha
      cases ha
  rw [h] at ha
  exact (List.getElem?_inj hlt hn).mp (ha.trans hb.symm)

theorem leftColumn_length (r : Option UInt32) : (Spec.leftColumn r).length = 15 := by
  cases r with
  | none => rfl
  | some r => rw [← leftColumn_some ⟨r⟩]; exact fmtResult_length _

theorem takeWhile_spaced {n s : Text} (hn : ' ' ∉ n) (hs : Spaced s) :
    (n ++ s).takeWhile (· != ' ') = n := by
  induction n with
  | nil => rcases hs with rfl | ⟨t, rfl⟩ <;> rfl
  | cons c cs ih =>
    have hc : (c != ' ') = true := by
      simp only [bne_iff_ne]
      rintro rfl
      exact hn List.mem_cons_self
    rw [List.cons_append, List.takeWhile_cons_of_pos (p := (· != ' ')) hc,
      ih (fun m => hn (List.mem_cons_of_mem _ m))]

theorem nodup_map_inj {α β : Type} {f : α → β} {l : List α} (hn : (l.map f).Nodup) {a b : α} (ha : a ∈ l)
    (hb : b ∈ l) (h : f a = f b) : a = b := by
  induction l with
  | nil => cases ha
  | cons c l ih =>
    rw [List.map_cons, List.nodup_cons] at hn
    rcases List.mem_cons.mp ha with ea | ha
    · rcases List.mem_cons.mp hb with eb | hb
      · rw [ea, eb]
      · exact absurd (ea ▸ h ▸ List.mem_map_of_mem hb) hn.1
    · rcases List.mem_cons.mp hb with eb | hb
      · exact absurd (eb ▸ h ▸ List.mem_map_of_mem ha) hn.1
      · exact ih hn.2 ha hb

theorem Core.opcode_of_fmt {X : Type} [Display X] {a b : Core X} (h : Display.fmt a = Display.fmt b) :
    Spec.opcode a = Spec.opcode b := by
  obtain ⟨na, sa, ma, ha, ea⟩ := Core.layout a
  obtain ⟨nb, sb, mb, hb, eb⟩ := Core.layout b
  rw [ea, eb] at h
  have h := (List.append_inj h (by rw [leftColumn_length, leftColumn_length])).2
  have ns : ∀ p ∈ Spec.mnemonics, ' ' ∉ p.2.toList := by decide +kernel
  have h := congrArg (List.takeWhile (· != ' ')) h
  rw [takeWhile_spaced (ns _ ma) ha, takeWhile_spaced (ns _ mb) hb] at h
  have uniq : ∀ p ∈ Spec.mnemonics, ∀ q ∈ Spec.mnemonics, p.2 = q.2 → p.1 = q.1 := by
    have hn : (Spec.mnemonics.map Prod.snd).Nodup := by decide +kernel
    intro p hp q hq h
    exact congrArg Prod.fst (nodup_map_inj hn hp hq h)
  exact uniq _ ma _ mb (String.ext_iff.mpr h)

theorem fmt_inj_OpNop {X : Type} [Display X] (op : OpNop) (b : Core X)
    (hi : b.ctorIdx = 0) : Display.fmt (Core.OpNop op : Core X) = Display.fmt b → Core.OpNop op = b :=
  Core.OpNop.elim (motive := fun b => Display.fmt (Core.OpNop op : Core X) = Display.fmt b → Core.OpNop op = b) b hi
    (fun op' h => congrArg Core.OpNop (OpNop.fmt_inj (h : Display.fmt op = Display.fmt op')))

theorem fmt_inj_OpUndef {X : Type} [Display X] (op : OpUndef) (b : Core X)
    (hi : b.ctorIdx = 1) : Display.fmt (Core.OpUndef op : Core X) = Display.fmt b → Core.OpUndef op = b :=
  Core.OpUndef.elim (motive := fun b => Display.fmt (Core.OpUndef op : Core X) = Display.fmt b → Core.OpUndef op = b) b hi
    (fun op' h => congrArg Core.OpUndef (OpUndef.fmt_inj (h : Display.fmt op = Display.fmt op')))

theorem fmt_inj_OpSourceContinued {X : Type} [Display X] (op : OpSourceContinued) (b : Core X)
    (hi : b.ctorIdx = 2) : Display.fmt (Core.OpSourceContinued op : Core X) = Display.fmt b → Core.OpSourceContinued op = b :=
  Core.OpSourceContinued.elim (motive := fun b => Display.fmt (Core.OpSourceContinued op : Core X) = Display.fmt b → Core.OpSourceContinued op = b) b hi
    (fun op' h => congrArg Core.OpSourceContinued (OpSourceContinued.fmt_inj (h : Display.fmt op = Display.fmt op')))

theorem fmt_inj_OpSource {X : Type} [Display X] (op : OpSource) (b : Core X)
    (hi : b.ctorIdx = 3) : Display.fmt (Core.OpSource op : Core X) = Display.fmt b → Core.OpSource op = b :=
  Core.OpSource.elim (motive := fun b => Display.fmt (Core.OpSource op : Core X) = Display.fmt b → Core.OpSource op = b) b hi
    (fun op' h => congrArg Core.OpSource (OpSource.fmt_inj (h : Display.fmt op = Display.fmt op')))

theorem fmt_inj_OpSourceExtension {X : Type} [Display X] (op : OpSourceExtension) (b : Core X)
    (hi : b.ctorIdx = 4) : Display.fmt (Core.OpSourceExtension op : Core X) = Display.fmt b → Core.OpSourceExtension op = b :=
  Core.OpSourceExtension.elim (motive := fun b => Display.fmt (Core.OpSourceExtension op : Core X) = Display.fmt b → Core.OpSourceExtension op = b) b hi
    (fun op' h => congrArg Core.OpSourceExtension (OpSourceExtension.fmt_inj (h : Display.fmt op = Display.fmt op')))

theorem fmt_inj_OpName {X : Type} [Display X] (op : OpName) (b : Core X)
    (hi : b.ctorIdx = 5) : Display.fmt (Core.OpName op : Core X) = Display.fmt b → Core.OpName op = b :=
  Core.OpName.elim (motive := fun b => Display.fmt (Core.OpName op : Core X) = Display.fmt b → Core.OpName op = b) b hi
    (fun op' h => congrArg Core.OpName (OpName.fmt_inj (h : Display.fmt op = Display.fmt op')))

theorem fmt_inj_OpMemberName {X : Type} [Display X] (op : OpMemberName) (b : Core X)
    (hi : b.ctorIdx = 6) : Display.fmt (Core.OpMemberName op : Core X) = Display.fmt b → Core.OpMemberName op = b :=
  Core.OpMemberName.elim (motive := fun b => Display.fmt (Core.OpMemberName op : Core X) = Display.fmt b → Core.OpMemberName op = b) b hi
    (fun op' h => congrArg Core.OpMemberName (OpMemberName.fmt_inj (h : Display.fmt op = Display.fmt op')))

theorem fmt_inj_OpString {X : Type} [Display X] (op : OpString) (b : Core X)
    (hi : b.ctorIdx = 7) : Display.fmt (Core.OpString op : Core X) = Display.fmt b → Core.OpString op = b :=
  Core.OpString.elim (motive := fun b => Display.fmt (Core.OpString op : Core X) = Display.fmt b → Core.OpString op = b) b hi
    (fun op' h => congrArg Core.OpString (OpString.fmt_inj (h : Display.fmt op = Display.fmt op')))

theorem fmt_inj_OpExtension {X : Type} [Display X] (op : OpExtension) (b : Core X)
    (hi : b.ctorIdx = 8) : Display.fmt (Core.OpExtension op : Core X) = Display.fmt b → Core.OpExtension op = b :=
  Core.OpExtension.elim (motive := fun b => Display.fmt (Core.OpExtension op : Core X) = Display.fmt b → Core.OpExtension op = b) b hi
    (fun op' h => congrArg Core.OpExtension (OpExtension.fmt_inj (h : Display.fmt op = Display.fmt op')))

theorem fmt_inj_OpExtInstImport {X : Type} [Display X] (op : OpExtInstImport) (b : Core X)
    (hi : b.ctorIdx = 9) : Display.fmt (Core.OpExtInstImport op : Core X) = Display.fmt b → Core.OpExtInstImport op = b :=
  Core.OpExtInstImport.elim (motive := fun b => Display.fmt (Core.OpExtInstImport op : Core X) = Display.fmt b → Core.OpExtInstImport op = b) b hi
    (fun op' h => congrArg Core.OpExtInstImport (OpExtInstImport.fmt_inj (h : Display.fmt op = Display.fmt op')))

theorem fmt_inj_OpExtInst {X : Type} [Display X] (hx : ∀ x y : X, Display.fmt x = Display.fmt y → x = y) (op : OpExtInst X) (b : Core X)
    (hi : b.ctorIdx = 10) : Display.fmt (Core.OpExtInst op : Core X) = Display.fmt b → Core.OpExtInst op = b :=
  Core.OpExtInst.elim (motive := fun b => Display.fmt (Core.OpExtInst op : Core X) = Display.fmt b → Core.OpExtInst op = b) b hi
    (fun op' h => congrArg Core.OpExtInst (OpExtInst.fmt_inj hx (h : Display.fmt op = Display.fmt op')))

theorem fmt_inj_OpMemoryModel {X : Type} [Display X] (op : OpMemoryModel) (b : Core X)
    (hi : b.ctorIdx = 11) : Display.fmt (Core.OpMemoryModel op : Core X) = Display.fmt b → Core.OpMemoryModel op = b :=
  Core.OpMemoryModel.elim (motive := fun b => Display.fmt (Core.OpMemoryModel op : Core X) = Display.fmt b → Core.OpMemoryModel op = b) b hi
    (fun op' h => congrArg Core.OpMemoryModel (OpMemoryModel.fmt_inj (h : Display.fmt op = Display.fmt op')))

theorem fmt_inj_OpEntryPoint {X : Type} [Display X] (op : OpEntryPoint) (b : Core X)
    (hi : b.ctorIdx = 12) : Display.fmt (Core.OpEntryPoint op : Core X) = Display.fmt b → Core.OpEntryPoint op = b :=
  Core.OpEntryPoint.elim (motive := fun b => Display.fmt (Core.OpEntryPoint op : Core X) = Display.fmt b → Core.OpEntryPoint op = b) b hi
    (fun op' h => congrArg Core.OpEntryPoint (OpEntryPoint.fmt_inj (h : Display.fmt op = Display.fmt op')))

theorem fmt_inj_OpExecutionMode {X : Type} [Display X] (op : OpExecutionMode) (b : Core X)
    (hi : b.ctorIdx = 13) : Display.fmt (Core.OpExecutionMode op : Core X) = Display.fmt b → Core.OpExecutionMode op = b :=
  Core.OpExecutionMode.elim (motive := fun b => Display.fmt (Core.OpExecutionMode op : Core X) = Display.fmt b → Core.OpExecutionMode op = b) b hi
    (fun op' h => congrArg Core.OpExecutionMode (OpExecutionMode.fmt_inj (h : Display.fmt op = Display.fmt op')))

theorem fmt_inj_OpCapability {X : Type} [Display X] (op : OpCapability) (b : Core X)
    (hi : b.ctorIdx = 14) : Display.fmt (Core.OpCapability op : Core X) = Display.fmt b → Core.OpCapability op = b :=
  Core.OpCapability.elim (motive := fun b => Display.fmt (Core.OpCapability op : Core X) = Display.fmt b → Core.OpCapability op = b) b hi
    (fun op' h => congrArg Core.OpCapability (OpCapability.fmt_inj (h : Display.fmt op = Display.fmt op')))

theorem fmt_inj_OpTypeVoid {X : Type} [Display X] (op : OpTypeVoid) (b : Core X)
    (hi : b.ctorIdx = 15) : Display.fmt (Core.OpTypeVoid op : Core X) = Display.fmt b → Core.OpTypeVoid op = b :=
  Core.OpTypeVoid.elim (motive := fun b => Display.fmt (Core.OpTypeVoid op : Core X) = Display.fmt b → Core.OpTypeVoid op = b) b hi
    (fun op' h => congrArg Core.OpTypeVoid (OpTypeVoid.fmt_inj (h : Display.fmt op = Display.fmt op')))

theorem fmt_inj_OpTypeBool {X : Type} [Display X] (op : OpTypeBool) (b : Core X)
    (hi : b.ctorIdx = 16) : Display.fmt (Core.OpTypeBool op : Core X) = Display.fmt b → Core.OpTypeBool op = b :=
  Core.OpTypeBool.elim (motive := fun b => Display.fmt (Core.OpTypeBool op : Core X) = Display.fmt b → Core.OpTypeBool op = b) b hi
    (fun op' h => congrArg Core.OpTypeBool (OpTypeBool.fmt_inj (h : Display.fmt op = Display.fmt op')))

theorem fmt_inj_OpTypeInt {X : Type} [Display X] (op : OpTypeInt) (b : Core X)
    (hi : b.ctorIdx = 17) : Display.fmt (Core.OpTypeInt op : Core X) = Display.fmt b → Core.OpTypeInt op = b :=
  Core.OpTypeInt.elim (motive := fun b => Display.fmt (Core.OpTypeInt op : Core X) = Display.fmt b → Core.OpTypeInt op = b) b hi
    (fun op' h => congrArg Core.OpTypeInt (OpTypeInt.fmt_inj (h : Display.fmt op = Display.fmt op')))

theorem fmt_inj_OpTypeFloat {X : Type} [Display X] (op : OpTypeFloat) (b : Core X)
    (hi : b.ctorIdx = 18) : Display.fmt (Core.OpTypeFloat op : Core X) = Display.fmt b → Core.OpTypeFloat op = b :=
  Core.OpTypeFloat.elim (motive := fun b => Display.fmt (Core.OpTypeFloat op : Core X) = Display.fmt b → Core.OpTypeFloat op = b) b hi
    (fun op' h => congrArg Core.OpTypeFloat (OpTypeFloat.fmt_inj (h : Display.fmt op = Display.fmt op')))

theorem fmt_inj_OpTypeVector {X : Type} [Display X] (op : OpTypeVector) (b : Core X)
    (hi : b.ctorIdx = 19) : Display.fmt (Core.OpTypeVector op : Core X) = Display.fmt b → Core.OpTypeVector op = b :=
  Core.OpTypeVector.elim (motive := fun b => Display.fmt (Core.OpTypeVector op : Core X) = Display.fmt b → Core.OpTypeVector op = b) b hi
    (fun op' h => congrArg Core.OpTypeVector (OpTypeVector.fmt_inj (h : Display.fmt op = Display.fmt op')))

theorem fmt_inj_OpTypeMatrix {X : Type} [Display X] (op : OpTypeMatrix) (b : Core X)
    (hi : b.ctorIdx = 20) : Display.fmt (Core.OpTypeMatrix op : Core X) = Display.fmt b → Core.OpTypeMatrix op = b :=
  Core.OpTypeMatrix.elim (motive := fun b => Display.fmt (Core.OpTypeMatrix op : Core X) = Display.fmt b → Core.OpTypeMatrix op = b) b hi
    (fun op' h => congrArg Core.OpTypeMatrix (OpTypeMatrix.fmt_inj (h : Display.fmt op = Display.fmt op')))

theorem fmt_inj_OpTypeImage {X : Type} [Display X] (op : OpTypeImage) (b : Core X)
    (hi : b.ctorIdx = 21) : Display.fmt (Core.OpTypeImage op : Core X) = Display.fmt b → Core.OpTypeImage op = b :=
  Core.OpTypeImage.elim (motive := fun b => Display.fmt (Core.OpTypeImage op : Core X) = Display.fmt b → Core.OpTypeImage op = b) b hi
    (fun op' h => congrArg Core.OpTypeImage (OpTypeImage.fmt_inj (h : Display.fmt op = Display.fmt op')))

theorem fmt_inj_OpTypeSampler {X : Type} [Display X] (op : OpTypeSampler) (b : Core X)
    (hi : b.ctorIdx = 22) : Display.fmt (Core.OpTypeSampler op : Core X) = Display.fmt b → Core.OpTypeSampler op = b :=
  Core.OpTypeSampler.elim (motive := fun b => Display.fmt (Core.OpTypeSampler op : Core X) = Display.fmt b → Core.OpTypeSampler op = b) b hi
    (fun op' h => congrArg Core.OpTypeSampler (OpTypeSampler.fmt_inj (h : Display.fmt op = Display.fmt op')))

theorem fmt_inj_OpTypeSampledImage {X : Type} [Display X] (op : OpTypeSampledImage) (b : Core X)
    (hi : b.ctorIdx = 23) : Display.fmt (Core.OpTypeSampledImage op : Core X) = Display.fmt b → Core.OpTypeSampledImage op = b :=
  Core.OpTypeSampledImage.elim (motive := fun b => Display.fmt (Core.OpTypeSampledImage op : Core X) = Display.fmt b → Core.OpTypeSampledImage op = b) b hi
    (fun op' h => congrArg Core.OpTypeSampledImage (OpTypeSampledImage.fmt_inj (h : Display.fmt op = Display.fmt op')))

theorem fmt_inj_OpTypeArray {X : Type} [Display X] (op : OpTypeArray) (b : Core X)
    (hi : b.ctorIdx = 24) : Display.fmt (Core.OpTypeArray op : Core X) = Display.fmt b → Core.OpTypeArray op = b :=
  Core.OpTypeArray.elim (motive := fun b => Display.fmt (Core.OpTypeArray op : Core X) = Display.fmt b → Core.OpTypeArray op = b) b hi
    (fun op' h => congrArg Core.OpTypeArray (OpTypeArray.fmt_inj (h : Display.fmt op = Display.fmt op')))

theorem fmt_inj_OpTypeRuntimeArray {X : Type} [Display X] (op : OpTypeRuntimeArray) (b : Core X)
    (hi : b.ctorIdx = 25) : Display.fmt (Core.OpTypeRuntimeArray op : Core X) = Display.fmt b → Core.OpTypeRuntimeArray op = b :=
  Core.OpTypeRuntimeArray.elim (motive := fun b => Display.fmt (Core.OpTypeRuntimeArray op : Core X) = Display.fmt b → Core.OpTypeRuntimeArray op = b) b hi
    (fun op' h => congrArg Core.OpTypeRuntimeArray (OpTypeRuntimeArray.fmt_inj (h : Display.fmt op = Display.fmt op')))

theorem fmt_inj_OpTypeStruct {X : Type} [Display X] (op : OpTypeStruct) (b : Core X)
    (hi : b.ctorIdx = 26) : Display.fmt (Core.OpTypeStruct op : Core X) = Display.fmt b → Core.OpTypeStruct op = b :=
  Core.OpTypeStruct.elim (motive := fun b => Display.fmt (Core.OpTypeStruct op : Core X) = Display.fmt b → Core.OpTypeStruct op = b) b hi
    (fun op' h => congrArg Core.OpTypeStruct (OpTypeStruct.fmt_inj (h : Display.fmt op = Display.fmt op')))

theorem fmt_inj_OpTypeOpaque {X : Type} [Display X] (op : OpTypeOpaque) (b : Core X)
    (hi : b.ctorIdx = 27) : Display.fmt (Core.OpTypeOpaque op : Core X) = Display.fmt b → Core.OpTypeOpaque op = b :=
  Core.OpTypeOpaque.elim (motive := fun b => Display.fmt (Core.OpTypeOpaque op : Core X) = Display.fmt b → Core.OpTypeOpaque op = b) b hi
    (fun op' h => congrArg Core.OpTypeOpaque (OpTypeOpaque.fmt_inj (h : Display.fmt op = Display.fmt op')))

theorem fmt_inj_OpTypePointer {X : Type} [Display X] (op : OpTypePointer) (b : Core X)
    (hi : b.ctorIdx = 28) : Display.fmt (Core.OpTypePointer op : Core X) = Display.fmt b → Core.OpTypePointer op = b :=
  Core.OpTypePointer.elim (motive := fun b => Display.fmt (Core.OpTypePointer op : Core X) = Display.fmt b → Core.OpTypePointer op = b) b hi
    (fun op' h => congrArg Core.OpTypePointer (OpTypePointer.fmt_inj (h : Display.fmt op = Display.fmt op')))

theorem fmt_inj_OpTypeFunction {X : Type} [Display X] (op : OpTypeFunction) (b : Core X)
    (hi : b.ctorIdx = 29) : Display.fmt (Core.OpTypeFunction op : Core X) = Display.fmt b → Core.OpTypeFunction op = b :=
  Core.OpTypeFunction.elim (motive := fun b => Display.fmt (Core.OpTypeFunction op : Core X) = Display.fmt b → Core.OpTypeFunction op = b) b hi
    (fun op' h => congrArg Core.OpTypeFunction (OpTypeFunction.fmt_inj (h : Display.fmt op = Display.fmt op')))

theorem fmt_inj_OpTypeEvent {X : Type} [Display X] (op : OpTypeEvent) (b : Core X)
    (hi : b.ctorIdx = 30) : Display.fmt (Core.OpTypeEvent op : Core X) = Display.fmt b → Core.OpTypeEvent op = b :=
  Core.OpTypeEvent.elim (motive := fun b => Display.fmt (Core.OpTypeEvent op : Core X) = Display.fmt b → Core.OpTypeEvent op = b) b hi
    (fun op' h => congrArg Core.OpTypeEvent (OpTypeEvent.fmt_inj (h : Display.fmt op = Display.fmt op')))

theorem fmt_inj_OpTypeDeviceEvent {X : Type} [Display X] (op : OpTypeDeviceEvent) (b : Core X)
    (hi : b.ctorIdx = 31) : Display.fmt (Core.OpTypeDeviceEvent op : Core X) = Display.fmt b → Core.OpTypeDeviceEvent op = b :=
  Core.OpTypeDeviceEvent.elim (motive := fun b => Display.fmt (Core.OpTypeDeviceEvent op : Core X) = Display.fmt b → Core.OpTypeDeviceEvent op = b) b hi
    (fun op' h => congrArg Core.OpTypeDeviceEvent (OpTypeDeviceEvent.fmt_inj (h : Display.fmt op = Display.fmt op')))

theorem fmt_inj_OpTypeQueue {X : Type} [Display X] (op : OpTypeQueue) (b : Core X)
    (hi : b.ctorIdx = 32) : Display.fmt (Core.OpTypeQueue op : Core X) = Display.fmt b → Core.OpTypeQueue op = b :=
  Core.OpTypeQueue.elim (motive := fun b => Display.fmt (Core.OpTypeQueue op : Core X) = Display.fmt b → Core.OpTypeQueue op = b) b hi
    (fun op' h => congrArg Core.OpTypeQueue (OpTypeQueue.fmt_inj (h : Display.fmt op = Display.fmt op')))

theorem fmt_inj_OpTypePipe {X : Type} [Display X] (op : OpTypePipe) (b : Core X)
    (hi : b.ctorIdx = 33) : Display.fmt (Core.OpTypePipe op : Core X) = Display.fmt b → Core.OpTypePipe op = b :=
  Core.OpTypePipe.elim (motive := fun b => Display.fmt (Core.OpTypePipe op : Core X) = Display.fmt b → Core.OpTypePipe op = b) b hi
    (fun op' h => congrArg Core.OpTypePipe (OpTypePipe.fmt_inj (h : Display.fmt op = Display.fmt op')))

theorem fmt_inj_OpTypeForwardPointer {X : Type} [Display X] (op : OpTypeForwardPointer) (b : Core X)
    (hi : b.ctorIdx = 34) : Display.fmt (Core.OpTypeForwardPointer op : Core X) = Display.fmt b → Core.OpTypeForwardPointer op = b :=
  Core.OpTypeForwardPointer.elim (motive := fun b => Display.fmt (Core.OpTypeForwardPointer op : Core X) = Display.fmt b → Core.OpTypeForwardPointer op = b) b hi
    (fun op' h => congrArg Core.OpTypeForwardPointer (OpTypeForwardPointer.fmt_inj (h : Display.fmt op = Display.fmt op')))

theorem fmt_inj_OpConstant {X : Type} [Display X] (op : OpConstant) (b : Core X)
    (hi : b.ctorIdx = 35) : Display.fmt (Core.OpConstant op : Core X) = Display.fmt b → Core.OpConstant op = b :=
  Core.OpConstant.elim (motive := fun b => Display.fmt (Core.OpConstant op : Core X) = Display.fmt b → Core.OpConstant op = b) b hi
    (fun op' h => congrArg Core.OpConstant (OpConstant.fmt_inj (h : Display.fmt op = Display.fmt op')))

theorem fmt_inj_OpConstantComposite {X : Type} [Display X] (op : OpConstantComposite) (b : Core X)
    (hi : b.ctorIdx = 36) : Display.fmt (Core.OpConstantComposite op : Core X) = Display.fmt b → Core.OpConstantComposite op = b :=
  Core.OpConstantComposite.elim (motive := fun b => Display.fmt (Core.OpConstantComposite op : Core X) = Display.fmt b → Core.OpConstantComposite op = b) b hi
    (fun op' h => congrArg Core.OpConstantComposite (OpConstantComposite.fmt_inj (h : Display.fmt op = Display.fmt op')))

theorem fmt_inj_OpFunction {X : Type} [Display X] (op : OpFunction) (b : Core X)
    (hi : b.ctorIdx = 37) : Display.fmt (Core.OpFunction op : Core X) = Display.fmt b → Core.OpFunction op = b :=
  Core.OpFunction.elim (motive := fun b => Display.fmt (Core.OpFunction op : Core X) = Display.fmt b → Core.OpFunction op = b) b hi
    (fun op' h => congrArg Core.OpFunction (OpFunction.fmt_inj (h : Display.fmt op = Display.fmt op')))

theorem fmt_inj_OpFunctionParameter {X : Type} [Display X] (op : OpFunctionParameter) (b : Core X)
    (hi : b.ctorIdx = 38) : Display.fmt (Core.OpFunctionParameter op : Core X) = Display.fmt b → Core.OpFunctionParameter op = b :=
  Core.OpFunctionParameter.elim (motive := fun b => Display.fmt (Core.OpFunctionParameter op : Core X) = Display.fmt b → Core.OpFunctionParameter op = b) b hi
    (fun op' h => congrArg Core.OpFunctionParameter (OpFunctionParameter.fmt_inj (h : Display.fmt op = Display.fmt op')))

theorem fmt_inj_OpFunctionEnd {X : Type} [Display X] (op : OpFunctionEnd) (b : Core X)
    (hi : b.ctorIdx = 39) : Display.fmt (Core.OpFunctionEnd op : Core X) = Display.fmt b → Core.OpFunctionEnd op = b :=
  Core.OpFunctionEnd.elim (motive := fun b => Display.fmt (Core.OpFunctionEnd op : Core X) = Display.fmt b → Core.OpFunctionEnd op = b) b hi
    (fun op' h => congrArg Core.OpFunctionEnd (OpFunctionEnd.fmt_inj (h : Display.fmt op = Display.fmt op')))

theorem fmt_inj_OpVariable {X : Type} [Display X] (op : OpVariable) (b : Core X)
    (hi : b.ctorIdx = 40) : Display.fmt (Core.OpVariable op : Core X) = Display.fmt b → Core.OpVariable op = b :=
  Core.OpVariable.elim (motive := fun b => Display.fmt (Core.OpVariable op : Core X) = Display.fmt b → Core.OpVariable op = b) b hi
    (fun op' h => congrArg Core.OpVariable (OpVariable.fmt_inj (h : Display.fmt op = Display.fmt op')))

theorem fmt_inj_OpLoad {X : Type} [Display X] (op : OpLoad) (b : Core X)
    (hi : b.ctorIdx = 41) : Display.fmt (Core.OpLoad op : Core X) = Display.fmt b → Core.OpLoad op = b :=
  Core.OpLoad.elim (motive := fun b => Display.fmt (Core.OpLoad op : Core X) = Display.fmt b → Core.OpLoad op = b) b hi
    (fun op' h => congrArg Core.OpLoad (OpLoad.fmt_inj (h : Display.fmt op = Display.fmt op')))

theorem fmt_inj_OpStore {X : Type} [Display X] (op : OpStore) (b : Core X)
    (hi : b.ctorIdx = 42) : Display.fmt (Core.OpStore op : Core X) = Display.fmt b → Core.OpStore op = b :=
  Core.OpStore.elim (motive := fun b => Display.fmt (Core.OpStore op : Core X) = Display.fmt b → Core.OpStore op = b) b hi
    (fun op' h => congrArg Core.OpStore (OpStore.fmt_inj (h : Display.fmt op = Display.fmt op')))

theorem fmt_inj_OpAccessChain {X : Type} [Display X] (op : OpAccessChain) (b : Core X)
    (hi : b.ctorIdx = 43) : Display.fmt (Core.OpAccessChain op : Core X) = Display.fmt b → Core.OpAccessChain op = b :=
  Core.OpAccessChain.elim (motive := fun b => Display.fmt (Core.OpAccessChain op : Core X) = Display.fmt b → Core.OpAccessChain op = b) b hi
    (fun op' h => congrArg Core.OpAccessChain (OpAccessChain.fmt_inj (h : Display.fmt op = Display.fmt op')))

theorem fmt_inj_OpDecorate {X : Type} [Display X] (op : OpDecorate) (b : Core X)
    (hi : b.ctorIdx = 44) : Display.fmt (Core.OpDecorate op : Core X) = Display.fmt b → Core.OpDecorate op = b :=
  Core.OpDecorate.elim (motive := fun b => Display.fmt (Core.OpDecorate op : Core X) = Display.fmt b → Core.OpDecorate op = b) b hi
    (fun op' h => congrArg Core.OpDecorate (OpDecorate.fmt_inj (h : Display.fmt op = Display.fmt op')))

theorem fmt_inj_OpMemberDecorate {X : Type} [Display X] (op : OpMemberDecorate) (b : Core X)
    (hi : b.ctorIdx = 45) : Display.fmt (Core.OpMemberDecorate op : Core X) = Display.fmt b → Core.OpMemberDecorate op = b :=
  Core.OpMemberDecorate.elim (motive := fun b => Display.fmt (Core.OpMemberDecorate op : Core X) = Display.fmt b → Core.OpMemberDecorate op = b) b hi
    (fun op' h => congrArg Core.OpMemberDecorate (OpMemberDecorate.fmt_inj (h : Display.fmt op = Display.fmt op')))

theorem fmt_inj_OpConvertUToF {X : Type} [Display X] (op : OpConvertUToF) (b : Core X)
    (hi : b.ctorIdx = 46) : Display.fmt (Core.OpConvertUToF op : Core X) = Display.fmt b → Core.OpConvertUToF op = b :=
  Core.OpConvertUToF.elim (motive := fun b => Display.fmt (Core.OpConvertUToF op : Core X) = Display.fmt b → Core.OpConvertUToF op = b) b hi
    (fun op' h => congrArg Core.OpConvertUToF (OpConvertUToF.fmt_inj (h : Display.fmt op = Display.fmt op')))

theorem fmt_inj_OpBitcast {X : Type} [Display X] (op : OpBitcast) (b : Core X)
    (hi : b.ctorIdx = 47) : Display.fmt (Core.OpBitcast op : Core X) = Display.fmt b → Core.OpBitcast op = b :=
  Core.OpBitcast.elim (motive := fun b => Display.fmt (Core.OpBitcast op : Core X) = Display.fmt b → Core.OpBitcast op = b) b hi
    (fun op' h => congrArg Core.OpBitcast (OpBitcast.fmt_inj (h : Display.fmt op = Display.fmt op')))

theorem fmt_inj_OpIAdd {X : Type} [Display X] (op : OpIAdd) (b : Core X)
    (hi : b.ctorIdx = 48) : Display.fmt (Core.OpIAdd op : Core X) = Display.fmt b → Core.OpIAdd op = b :=
  Core.OpIAdd.elim (motive := fun b => Display.fmt (Core.OpIAdd op : Core X) = Display.fmt b → Core.OpIAdd op = b) b hi
    (fun op' h => congrArg Core.OpIAdd (OpIAdd.fmt_inj (h : Display.fmt op = Display.fmt op')))

theorem fmt_inj_OpFAdd {X : Type} [Display X] (op : OpFAdd) (b : Core X)
    (hi : b.ctorIdx = 49) : Display.fmt (Core.OpFAdd op : Core X) = Display.fmt b → Core.OpFAdd op = b :=
  Core.OpFAdd.elim (motive := fun b => Display.fmt (Core.OpFAdd op : Core X) = Display.fmt b → Core.OpFAdd op = b) b hi
    (fun op' h => congrArg Core.OpFAdd (OpFAdd.fmt_inj (h : Display.fmt op = Display.fmt op')))

theorem fmt_inj_OpISub {X : Type} [Display X] (op : OpISub) (b : Core X)
    (hi : b.ctorIdx = 50) : Display.fmt (Core.OpISub op : Core X) = Display.fmt b → Core.OpISub op = b :=
  Core.OpISub.elim (motive := fun b => Display.fmt (Core.OpISub op : Core X) = Display.fmt b → Core.OpISub op = b) b hi
    (fun op' h => congrArg Core.OpISub (OpISub.fmt_inj (h : Display.fmt op = Display.fmt op')))

theorem fmt_inj_OpFSub {X : Type} [Display X] (op : OpFSub) (b : Core X)
    (hi : b.ctorIdx = 51) : Display.fmt (Core.OpFSub op : Core X) = Display.fmt b → Core.OpFSub op = b :=
  Core.OpFSub.elim (motive := fun b => Display.fmt (Core.OpFSub op : Core X) = Display.fmt b → Core.OpFSub op = b) b hi
    (fun op' h => congrArg Core.OpFSub (OpFSub.fmt_inj (h : Display.fmt op = Display.fmt op')))

theorem fmt_inj_OpIMul {X : Type} [Display X] (op : OpIMul) (b : Core X)
    (hi : b.ctorIdx = 52) : Display.fmt (Core.OpIMul op : Core X) = Display.fmt b → Core.OpIMul op = b :=
  Core.OpIMul.elim (motive := fun b => Display.fmt (Core.OpIMul op : Core X) = Display.fmt b → Core.OpIMul op = b) b hi
    (fun op' h => congrArg Core.OpIMul (OpIMul.fmt_inj (h : Display.fmt op = Display.fmt op')))

theorem fmt_inj_OpFMul {X : Type} [Display X] (op : OpFMul) (b : Core X)
    (hi : b.ctorIdx = 53) : Display.fmt (Core.OpFMul op : Core X) = Display.fmt b → Core.OpFMul op = b :=
  Core.OpFMul.elim (motive := fun b => Display.fmt (Core.OpFMul op : Core X) = Display.fmt b → Core.OpFMul op = b) b hi
    (fun op' h => congrArg Core.OpFMul (OpFMul.fmt_inj (h : Display.fmt op = Display.fmt op')))

theorem fmt_inj_OpUDiv {X : Type} [Display X] (op : OpUDiv) (b : Core X)
    (hi : b.ctorIdx = 54) : Display.fmt (Core.OpUDiv op : Core X) = Display.fmt b → Core.OpUDiv op = b :=
  Core.OpUDiv.elim (motive := fun b => Display.fmt (Core.OpUDiv op : Core X) = Display.fmt b → Core.OpUDiv op = b) b hi
    (fun op' h => congrArg Core.OpUDiv (OpUDiv.fmt_inj (h : Display.fmt op = Display.fmt op')))

theorem fmt_inj_OpSDiv {X : Type} [Display X] (op : OpSDiv) (b : Core X)
    (hi : b.ctorIdx = 55) : Display.fmt (Core.OpSDiv op : Core X) = Display.fmt b → Core.OpSDiv op = b :=
  Core.OpSDiv.elim (motive := fun b => Display.fmt (Core.OpSDiv op : Core X) = Display.fmt b → Core.OpSDiv op = b) b hi
    (fun op' h => congrArg Core.OpSDiv (OpSDiv.fmt_inj (h : Display.fmt op = Display.fmt op')))

theorem fmt_inj_OpFDiv {X : Type} [Display X] (op : OpFDiv) (b : Core X)
    (hi : b.ctorIdx = 56) : Display.fmt (Core.OpFDiv op : Core X) = Display.fmt b → Core.OpFDiv op = b :=
  Core.OpFDiv.elim (motive := fun b => Display.fmt (Core.OpFDiv op : Core X) = Display.fmt b → Core.OpFDiv op = b) b hi
    (fun op' h => congrArg Core.OpFDiv (OpFDiv.fmt_inj (h : Display.fmt op = Display.fmt op')))

theorem fmt_inj_OpUMod {X : Type} [Display X] (op : OpUMod) (b : Core X)
    (hi : b.ctorIdx = 57) : Display.fmt (Core.OpUMod op : Core X) = Display.fmt b → Core.OpUMod op = b :=
  Core.OpUMod.elim (motive := fun b => Display.fmt (Core.OpUMod op : Core X) = Display.fmt b → Core.OpUMod op = b) b hi
    (fun op' h => congrArg Core.OpUMod (OpUMod.fmt_inj (h : Display.fmt op = Display.fmt op')))

theorem fmt_inj_OpSRem {X : Type} [Display X] (op : OpSRem) (b : Core X)
    (hi : b.ctorIdx = 58) : Display.fmt (Core.OpSRem op : Core X) = Display.fmt b → Core.OpSRem op = b :=
  Core.OpSRem.elim (motive := fun b => Display.fmt (Core.OpSRem op : Core X) = Display.fmt b → Core.OpSRem op = b) b hi
    (fun op' h => congrArg Core.OpSRem (OpSRem.fmt_inj (h : Display.fmt op = Display.fmt op')))

theorem fmt_inj_OpSMod {X : Type} [Display X] (op : OpSMod) (b : Core X)
    (hi : b.ctorIdx = 59) : Display.fmt (Core.OpSMod op : Core X) = Display.fmt b → Core.OpSMod op = b :=
  Core.OpSMod.elim (motive := fun b => Display.fmt (Core.OpSMod op : Core X) = Display.fmt b → Core.OpSMod op = b) b hi
    (fun op' h => congrArg Core.OpSMod (OpSMod.fmt_inj (h : Display.fmt op = Display.fmt op')))

theorem fmt_inj_OpFRem {X : Type} [Display X] (op : OpFRem) (b : Core X)
    (hi : b.ctorIdx = 60) : Display.fmt (Core.OpFRem op : Core X) = Display.fmt b → Core.OpFRem op = b :=
  Core.OpFRem.elim (motive := fun b => Display.fmt (Core.OpFRem op : Core X) = Display.fmt b → Core.OpFRem op = b) b hi
    (fun op' h => congrArg Core.OpFRem (OpFRem.fmt_inj (h : Display.fmt op = Display.fmt op')))

theorem fmt_inj_OpFMod {X : Type} [Display X] (op : OpFMod) (b : Core X)
    (hi : b.ctorIdx = 61) : Display.fmt (Core.OpFMod op : Core X) = Display.fmt b → Core.OpFMod op = b :=
  Core.OpFMod.elim (motive := fun b => Display.fmt (Core.OpFMod op : Core X) = Display.fmt b → Core.OpFMod op = b) b hi
    (fun op' h => congrArg Core.OpFMod (OpFMod.fmt_inj (h : Display.fmt op = Display.fmt op')))

theorem fmt_inj_OpIAddCarry {X : Type} [Display X] (op : OpIAddCarry) (b : Core X)
    (hi : b.ctorIdx = 62) : Display.fmt (Core.OpIAddCarry op : Core X) = Display.fmt b → Core.OpIAddCarry op = b :=
  Core.OpIAddCarry.elim (motive := fun b => Display.fmt (Core.OpIAddCarry op : Core X) = Display.fmt b → Core.OpIAddCarry op = b) b hi
    (fun op' h => congrArg Core.OpIAddCarry (OpIAddCarry.fmt_inj (h : Display.fmt op = Display.fmt op')))

theorem fmt_inj_OpISubBorrow {X : Type} [Display X] (op : OpISubBorrow) (b : Core X)
    (hi : b.ctorIdx = 63) : Display.fmt (Core.OpISubBorrow op : Core X) = Display.fmt b → Core.OpISubBorrow op = b :=
  Core.OpISubBorrow.elim (motive := fun b => Display.fmt (Core.OpISubBorrow op : Core X) = Display.fmt b → Core.OpISubBorrow op = b) b hi
    (fun op' h => congrArg Core.OpISubBorrow (OpISubBorrow.fmt_inj (h : Display.fmt op = Display.fmt op')))

theorem fmt_inj_OpUMulExtended {X : Type} [Display X] (op : OpUMulExtended) (b : Core X)
    (hi : b.ctorIdx = 64) : Display.fmt (Core.OpUMulExtended op : Core X) = Display.fmt b → Core.OpUMulExtended op = b :=
  Core.OpUMulExtended.elim (motive := fun b => Display.fmt (Core.OpUMulExtended op : Core X) = Display.fmt b → Core.OpUMulExtended op = b) b hi
    (fun op' h => congrArg Core.OpUMulExtended (OpUMulExtended.fmt_inj (h : Display.fmt op = Display.fmt op')))

theorem fmt_inj_OpSMulExtended {X : Type} [Display X] (op : OpSMulExtended) (b : Core X)
    (hi : b.ctorIdx = 65) : Display.fmt (Core.OpSMulExtended op : Core X) = Display.fmt b → Core.OpSMulExtended op = b :=
  Core.OpSMulExtended.elim (motive := fun b => Display.fmt (Core.OpSMulExtended op : Core X) = Display.fmt b → Core.OpSMulExtended op = b) b hi
    (fun op' h => congrArg Core.OpSMulExtended (OpSMulExtended.fmt_inj (h : Display.fmt op = Display.fmt op')))

theorem fmt_inj_OpBitwiseOr {X : Type} [Display X] (op : OpBitwiseOr) (b : Core X)
    (hi : b.ctorIdx = 66) : Display.fmt (Core.OpBitwiseOr op : Core X) = Display.fmt b → Core.OpBitwiseOr op = b :=
  Core.OpBitwiseOr.elim (motive := fun b => Display.fmt (Core.OpBitwiseOr op : Core X) = Display.fmt b → Core.OpBitwiseOr op = b) b hi
    (fun op' h => congrArg Core.OpBitwiseOr (OpBitwiseOr.fmt_inj (h : Display.fmt op = Display.fmt op')))

theorem fmt_inj_OpBitwiseXor {X : Type} [Display X] (op : OpBitwiseXor) (b : Core X)
    (hi : b.ctorIdx = 67) : Display.fmt (Core.OpBitwiseXor op : Core X) = Display.fmt b → Core.OpBitwiseXor op = b :=
  Core.OpBitwiseXor.elim (motive := fun b => Display.fmt (Core.OpBitwiseXor op : Core X) = Display.fmt b → Core.OpBitwiseXor op = b) b hi
    (fun op' h => congrArg Core.OpBitwiseXor (OpBitwiseXor.fmt_inj (h : Display.fmt op = Display.fmt op')))

theorem fmt_inj_OpBitwiseAnd {X : Type} [Display X] (op : OpBitwiseAnd) (b : Core X)
    (hi : b.ctorIdx = 68) : Display.fmt (Core.OpBitwiseAnd op : Core X) = Display.fmt b → Core.OpBitwiseAnd op = b :=
  Core.OpBitwiseAnd.elim (motive := fun b => Display.fmt (Core.OpBitwiseAnd op : Core X) = Display.fmt b → Core.OpBitwiseAnd op = b) b hi
    (fun op' h => congrArg Core.OpBitwiseAnd (OpBitwiseAnd.fmt_inj (h : Display.fmt op = Display.fmt op')))

theorem fmt_inj_OpIEqual {X : Type} [Display X] (op : OpIEqual) (b : Core X)
    (hi : b.ctorIdx = 69) : Display.fmt (Core.OpIEqual op : Core X) = Display.fmt b → Core.OpIEqual op = b :=
  Core.OpIEqual.elim (motive := fun b => Display.fmt (Core.OpIEqual op : Core X) = Display.fmt b → Core.OpIEqual op = b) b hi
    (fun op' h => congrArg Core.OpIEqual (OpIEqual.fmt_inj (h : Display.fmt op = Display.fmt op')))

theorem fmt_inj_OpINotEqual {X : Type} [Display X] (op : OpINotEqual) (b : Core X)
    (hi : b.ctorIdx = 70) : Display.fmt (Core.OpINotEqual op : Core X) = Display.fmt b → Core.OpINotEqual op = b :=
  Core.OpINotEqual.elim (motive := fun b => Display.fmt (Core.OpINotEqual op : Core X) = Display.fmt b → Core.OpINotEqual op = b) b hi
    (fun op' h => congrArg Core.OpINotEqual (OpINotEqual.fmt_inj (h : Display.fmt op = Display.fmt op')))

theorem fmt_inj_OpUGreaterThan {X : Type} [Display X] (op : OpUGreaterThan) (b : Core X)
    (hi : b.ctorIdx = 71) : Display.fmt (Core.OpUGreaterThan op : Core X) = Display.fmt b → Core.OpUGreaterThan op = b :=
  Core.OpUGreaterThan.elim (motive := fun b => Display.fmt (Core.OpUGreaterThan op : Core X) = Display.fmt b → Core.OpUGreaterThan op = b) b hi
    (fun op' h => congrArg Core.OpUGreaterThan (OpUGreaterThan.fmt_inj (h : Display.fmt op = Display.fmt op')))

theorem fmt_inj_OpSGreaterThan {X : Type} [Display X] (op : OpSGreaterThan) (b : Core X)
    (hi : b.ctorIdx = 72) : Display.fmt (Core.OpSGreaterThan op : Core X) = Display.fmt b → Core.OpSGreaterThan op = b :=
  Core.OpSGreaterThan.elim (motive := fun b => Display.fmt (Core.OpSGreaterThan op : Core X) = Display.fmt b → Core.OpSGreaterThan op = b) b hi
    (fun op' h => congrArg Core.OpSGreaterThan (OpSGreaterThan.fmt_inj (h : Display.fmt op = Display.fmt op')))

theorem fmt_inj_OpUGreaterThanEqual {X : Type} [Display X] (op : OpUGreaterThanEqual) (b : Core X)
    (hi : b.ctorIdx = 73) : Display.fmt (Core.OpUGreaterThanEqual op : Core X) = Display.fmt b → Core.OpUGreaterThanEqual op = b :=
  Core.OpUGreaterThanEqual.elim (motive := fun b => Display.fmt (Core.OpUGreaterThanEqual op : Core X) = Display.fmt b → Core.OpUGreaterThanEqual op = b) b hi
    (fun op' h => congrArg Core.OpUGreaterThanEqual (OpUGreaterThanEqual.fmt_inj (h : Display.fmt op = Display.fmt op')))

theorem fmt_inj_OpSGreaterThanEqual {X : Type} [Display X] (op : OpSGreaterThanEqual) (b : Core X)
    (hi : b.ctorIdx = 74) : Display.fmt (Core.OpSGreaterThanEqual op : Core X) = Display.fmt b → Core.OpSGreaterThanEqual op = b :=
  Core.OpSGreaterThanEqual.elim (motive := fun b => Display.fmt (Core.OpSGreaterThanEqual op : Core X) = Display.fmt b → Core.OpSGreaterThanEqual op = b) b hi
    (fun op' h => congrArg Core.OpSGreaterThanEqual (OpSGreaterThanEqual.fmt_inj (h : Display.fmt op = Display.fmt op')))

theorem fmt_inj_OpULessThan {X : Type} [Display X] (op : OpULessThan) (b : Core X)
    (hi : b.ctorIdx = 75) : Display.fmt (Core.OpULessThan op : Core X) = Display.fmt b → Core.OpULessThan op = b :=
  Core.OpULessThan.elim (motive := fun b => Display.fmt (Core.OpULessThan op : Core X) = Display.fmt b → Core.OpULessThan op = b) b hi
    (fun op' h => congrArg Core.OpULessThan (OpULessThan.fmt_inj (h : Display.fmt op = Display.fmt op')))

theorem fmt_inj_OpSLessThan {X : Type} [Display X] (op : OpSLessThan) (b : Core X)
    (hi : b.ctorIdx = 76) : Display.fmt (Core.OpSLessThan op : Core X) = Display.fmt b → Core.OpSLessThan op = b :=
  Core.OpSLessThan.elim (motive := fun b => Display.fmt (Core.OpSLessThan op : Core X) = Display.fmt b → Core.OpSLessThan op = b) b hi
    (fun op' h => congrArg Core.OpSLessThan (OpSLessThan.fmt_inj (h : Display.fmt op = Display.fmt op')))

theorem fmt_inj_OpULessThanEqual {X : Type} [Display X] (op : OpULessThanEqual) (b : Core X)
    (hi : b.ctorIdx = 77) : Display.fmt (Core.OpULessThanEqual op : Core X) = Display.fmt b → Core.OpULessThanEqual op = b :=
  Core.OpULessThanEqual.elim (motive := fun b => Display.fmt (Core.OpULessThanEqual op : Core X) = Display.fmt b → Core.OpULessThanEqual op = b) b hi
    (fun op' h => congrArg Core.OpULessThanEqual (OpULessThanEqual.fmt_inj (h : Display.fmt op = Display.fmt op')))

theorem fmt_inj_OpSLessThanEqual {X : Type} [Display X] (op : OpSLessThanEqual) (b : Core X)
    (hi : b.ctorIdx = 78) : Display.fmt (Core.OpSLessThanEqual op : Core X) = Display.fmt b → Core.OpSLessThanEqual op = b :=
  Core.OpSLessThanEqual.elim (motive := fun b => Display.fmt (Core.OpSLessThanEqual op : Core X) = Display.fmt b → Core.OpSLessThanEqual op = b) b hi
    (fun op' h => congrArg Core.OpSLessThanEqual (OpSLessThanEqual.fmt_inj (h : Display.fmt op = Display.fmt op')))

theorem fmt_inj_OpFOrdEqual {X : Type} [Display X] (op : OpFOrdEqual) (b : Core X)
    (hi : b.ctorIdx = 79) : Display.fmt (Core.OpFOrdEqual op : Core X) = Display.fmt b → Core.OpFOrdEqual op = b :=
  Core.OpFOrdEqual.elim (motive := fun b => Display.fmt (Core.OpFOrdEqual op : Core X) = Display.fmt b → Core.OpFOrdEqual op = b) b hi
    (fun op' h => congrArg Core.OpFOrdEqual (OpFOrdEqual.fmt_inj (h : Display.fmt op = Display.fmt op')))

theorem fmt_inj_OpFUnordEqual {X : Type} [Display X] (op : OpFUnordEqual) (b : Core X)
    (hi : b.ctorIdx = 80) : Display.fmt (Core.OpFUnordEqual op : Core X) = Display.fmt b → Core.OpFUnordEqual op = b :=
  Core.OpFUnordEqual.elim (motive := fun b => Display.fmt (Core.OpFUnordEqual op : Core X) = Display.fmt b → Core.OpFUnordEqual op = b) b hi
    (fun op' h => congrArg Core.OpFUnordEqual (OpFUnordEqual.fmt_inj (h : Display.fmt op = Display.fmt op')))

theorem fmt_inj_OpFOrdNotEqual {X : Type} [Display X] (op : OpFOrdNotEqual) (b : Core X)
    (hi : b.ctorIdx = 81) : Display.fmt (Core.OpFOrdNotEqual op : Core X) = Display.fmt b → Core.OpFOrdNotEqual op = b :=
  Core.OpFOrdNotEqual.elim (motive := fun b => Display.fmt (Core.OpFOrdNotEqual op : Core X) = Display.fmt b → Core.OpFOrdNotEqual op = b) b hi
    (fun op' h => congrArg Core.OpFOrdNotEqual (OpFOrdNotEqual.fmt_inj (h : Display.fmt op = Display.fmt op')))

theorem fmt_inj_OpFUnordNotEqual {X : Type} [Display X] (op : OpFUnordNotEqual) (b : Core X)
    (hi : b.ctorIdx = 82) : Display.fmt (Core.OpFUnordNotEqual op : Core X) = Display.fmt b → Core.OpFUnordNotEqual op = b :=
  Core.OpFUnordNotEqual.elim (motive := fun b => Display.fmt (Core.OpFUnordNotEqual op : Core X) = Display.fmt b → Core.OpFUnordNotEqual op = b) b hi
    (fun op' h => congrArg Core.OpFUnordNotEqual (OpFUnordNotEqual.fmt_inj (h : Display.fmt op = Display.fmt op')))

theorem fmt_inj_OpFOrdLessThan {X : Type} [Display X] (op : OpFOrdLessThan) (b : Core X)
    (hi : b.ctorIdx = 83) : Display.fmt (Core.OpFOrdLessThan op : Core X) = Display.fmt b → Core.OpFOrdLessThan op = b :=
  Core.OpFOrdLessThan.elim (motive := fun b => Display.fmt (Core.OpFOrdLessThan op : Core X) = Display.fmt b → Core.OpFOrdLessThan op = b) b hi
    (fun op' h => congrArg Core.OpFOrdLessThan (OpFOrdLessThan.fmt_inj (h : Display.fmt op = Display.fmt op')))

theorem fmt_inj_OpFUnordLessThan {X : Type} [Display X] (op : OpFUnordLessThan) (b : Core X)
    (hi : b.ctorIdx = 84) : Display.fmt (Core.OpFUnordLessThan op : Core X) = Display.fmt b → Core.OpFUnordLessThan op = b :=
  Core.OpFUnordLessThan.elim (motive := fun b => Display.fmt (Core.OpFUnordLessThan op : Core X) = Display.fmt b → Core.OpFUnordLessThan op = b) b hi
    (fun op' h => congrArg Core.OpFUnordLessThan (OpFUnordLessThan.fmt_inj (h : Display.fmt op = Display.fmt op')))

theorem fmt_inj_OpFOrdGreaterThan {X : Type} [Display X] (op : OpFOrdGreaterThan) (b : Core X)
    (hi : b.ctorIdx = 85) : Display.fmt (Core.OpFOrdGreaterThan op : Core X) = Display.fmt b → Core.OpFOrdGreaterThan op = b :=
  Core.OpFOrdGreaterThan.elim (motive := fun b => Display.fmt (Core.OpFOrdGreaterThan op : Core X) = Display.fmt b → Core.OpFOrdGreaterThan op = b) b hi
    (fun op' h => congrArg Core.OpFOrdGreaterThan (OpFOrdGreaterThan.fmt_inj (h : Display.fmt op = Display.fmt op')))

theorem fmt_inj_OpFUnordGreaterThan {X : Type} [Display X] (op : OpFUnordGreaterThan) (b : Core X)
    (hi : b.ctorIdx = 86) : Display.fmt (Core.OpFUnordGreaterThan op : Core X) = Display.fmt b → Core.OpFUnordGreaterThan op = b :=
  Core.OpFUnordGreaterThan.elim (motive := fun b => Display.fmt (Core.OpFUnordGreaterThan op : Core X) = Display.fmt b → Core.OpFUnordGreaterThan op = b) b hi
    (fun op' h => congrArg Core.OpFUnordGreaterThan (OpFUnordGreaterThan.fmt_inj (h : Display.fmt op = Display.fmt op')))

theorem fmt_inj_OpFOrdLessThanEqual {X : Type} [Display X] (op : OpFOrdLessThanEqual) (b : Core X)
    (hi : b.ctorIdx = 87) : Display.fmt (Core.OpFOrdLessThanEqual op : Core X) = Display.fmt b → Core.OpFOrdLessThanEqual op = b :=
  Core.OpFOrdLessThanEqual.elim (motive := fun b => Display.fmt (Core.OpFOrdLessThanEqual op : Core X) = Display.fmt b → Core.OpFOrdLessThanEqual op = b) b hi
    (fun op' h => congrArg Core.OpFOrdLessThanEqual (OpFOrdLessThanEqual.fmt_inj (h : Display.fmt op = Display.fmt op')))

theorem fmt_inj_OpFUnordLessThanEqual {X : Type} [Display X] (op : OpFUnordLessThanEqual) (b : Core X)
    (hi : b.ctorIdx = 88) : Display.fmt (Core.OpFUnordLessThanEqual op : Core X) = Display.fmt b → Core.OpFUnordLessThanEqual op = b :=
  Core.OpFUnordLessThanEqual.elim (motive := fun b => Display.fmt (Core.OpFUnordLessThanEqual op : Core X) = Display.fmt b → Core.OpFUnordLessThanEqual op = b) b hi
    (fun op' h => congrArg Core.OpFUnordLessThanEqual (OpFUnordLessThanEqual.fmt_inj (h : Display.fmt op = Display.fmt op')))

theorem fmt_inj_OpFOrdGreaterThanEqual {X : Type} [Display X] (op : OpFOrdGreaterThanEqual) (b : Core X)
    (hi : b.ctorIdx = 89) : Display.fmt (Core.OpFOrdGreaterThanEqual op : Core X) = Display.fmt b → Core.OpFOrdGreaterThanEqual op = b :=
  Core.OpFOrdGreaterThanEqual.elim (motive := fun b => Display.fmt (Core.OpFOrdGreaterThanEqual op : Core X) = Display.fmt b → Core.OpFOrdGreaterThanEqual op = b) b hi
    (fun op' h => congrArg Core.OpFOrdGreaterThanEqual (OpFOrdGreaterThanEqual.fmt_inj (h : Display.fmt op = Display.fmt op')))

theorem fmt_inj_OpFUnordGreaterThanEqual {X : Type} [Display X] (op : OpFUnordGreaterThanEqual) (b : Core X)
    (hi : b.ctorIdx = 90) : Display.fmt (Core.OpFUnordGreaterThanEqual op : Core X) = Display.fmt b → Core.OpFUnordGreaterThanEqual op = b :=
  Core.OpFUnordGreaterThanEqual.elim (motive := fun b => Display.fmt (Core.OpFUnordGreaterThanEqual op : Core X) = Display.fmt b → Core.OpFUnordGreaterThanEqual op = b) b hi
    (fun op' h => congrArg Core.OpFUnordGreaterThanEqual (OpFUnordGreaterThanEqual.fmt_inj (h : Display.fmt op = Display.fmt op')))

theorem fmt_inj_OpPhi {X : Type} [Display X] (op : OpPhi) (b : Core X)
    (hi : b.ctorIdx = 91) : Display.fmt (Core.OpPhi op : Core X) = Display.fmt b → Core.OpPhi op = b :=
  Core.OpPhi.elim (motive := fun b => Display.fmt (Core.OpPhi op : Core X) = Display.fmt b → Core.OpPhi op = b) b hi
    (fun op' h => congrArg Core.OpPhi (OpPhi.fmt_inj (h : Display.fmt op = Display.fmt op')))

theorem fmt_inj_OpLoopMerge {X : Type} [Display X] (op : OpLoopMerge) (b : Core X)
    (hi : b.ctorIdx = 92) : Display.fmt (Core.OpLoopMerge op : Core X) = Display.fmt b → Core.OpLoopMerge op = b :=
  Core.OpLoopMerge.elim (motive := fun b => Display.fmt (Core.OpLoopMerge op : Core X) = Display.fmt b → Core.OpLoopMerge op = b) b hi
    (fun op' h => congrArg Core.OpLoopMerge (OpLoopMerge.fmt_inj (h : Display.fmt op = Display.fmt op')))

theorem fmt_inj_OpSelectionMerge {X : Type} [Display X] (op : OpSelectionMerge) (b : Core X)
    (hi : b.ctorIdx = 93) : Display.fmt (Core.OpSelectionMerge op : Core X) = Display.fmt b → Core.OpSelectionMerge op = b :=
  Core.OpSelectionMerge.elim (motive := fun b => Display.fmt (Core.OpSelectionMerge op : Core X) = Display.fmt b → Core.OpSelectionMerge op = b) b hi
    (fun op' h => congrArg Core.OpSelectionMerge (OpSelectionMerge.fmt_inj (h : Display.fmt op = Display.fmt op')))

theorem fmt_inj_OpLabel {X : Type} [Display X] (op : OpLabel) (b : Core X)
    (hi : b.ctorIdx = 94) : Display.fmt (Core.OpLabel op : Core X) = Display.fmt b → Core.OpLabel op = b :=
  Core.OpLabel.elim (motive := fun b => Display.fmt (Core.OpLabel op : Core X) = Display.fmt b → Core.OpLabel op = b) b hi
    (fun op' h => congrArg Core.OpLabel (OpLabel.fmt_inj (h : Display.fmt op = Display.fmt op')))

theorem fmt_inj_OpBranch {X : Type} [Display X] (op : OpBranch) (b : Core X)
    (hi : b.ctorIdx = 95) : Display.fmt (Core.OpBranch op : Core X) = Display.fmt b → Core.OpBranch op = b :=
  Core.OpBranch.elim (motive := fun b => Display.fmt (Core.OpBranch op : Core X) = Display.fmt b → Core.OpBranch op = b) b hi
    (fun op' h => congrArg Core.OpBranch (OpBranch.fmt_inj (h : Display.fmt op = Display.fmt op')))

theorem fmt_inj_OpBranchConditional {X : Type} [Display X] (op : OpBranchConditional) (b : Core X)
    (hi : b.ctorIdx = 96) : Display.fmt (Core.OpBranchConditional op : Core X) = Display.fmt b → Core.OpBranchConditional op = b :=
  Core.OpBranchConditional.elim (motive := fun b => Display.fmt (Core.OpBranchConditional op : Core X) = Display.fmt b → Core.OpBranchConditional op = b) b hi
    (fun op' h => congrArg Core.OpBranchConditional (OpBranchConditional.fmt_inj (h : Display.fmt op = Display.fmt op')))

theorem fmt_inj_OpReturn {X : Type} [Display X] (op : OpReturn) (b : Core X)
    (hi : b.ctorIdx = 97) : Display.fmt (Core.OpReturn op : Core X) = Display.fmt b → Core.OpReturn op = b :=
  Core.OpReturn.elim (motive := fun b => Display.fmt (Core.OpReturn op : Core X) = Display.fmt b → Core.OpReturn op = b) b hi
    (fun op' h => congrArg Core.OpReturn (OpReturn.fmt_inj (h : Display.fmt op = Display.fmt op')))

theorem Core.fmt_inj {X : Type} [Display X] (hx : ∀ x y : X, Display.fmt x = Display.fmt y → x = y)
    {a b : Core X} (h : Display.fmt a = Display.fmt b) : a = b := by
  have hi := Core.ctorIdx_eq (Core.opcode_of_fmt h)
  cases a with
  | OpNop op => exact fmt_inj_OpNop op b (Eq.symm hi) h
  | OpUndef op => exact fmt_inj_OpUndef op b (Eq.symm hi) h
  | OpSourceContinued op => exact fmt_inj_OpSourceContinued op b (Eq.symm hi) h
  | OpSource op => exact fmt_inj_OpSource op b (Eq.symm hi) h
  | OpSourceExtension op => exact fmt_inj_OpSourceExtension op b (Eq.symm hi) h
  | OpName op => exact fmt_inj_OpName op b (Eq.symm hi) h
  | OpMemberName op => exact fmt_inj_OpMemberName op b (Eq.symm hi) h
  | OpString op => exact fmt_inj_OpString op b (Eq.symm hi) h
  | OpExtension op => exact fmt_inj_OpExtension op b (Eq.symm hi) h
  | OpExtInstImport op => exact fmt_inj_OpExtInstImport op b (Eq.symm hi) h
  | OpExtInst op => exact fmt_inj_OpExtInst hx op b (Eq.symm hi) h
  | OpMemoryModel op => exact fmt_inj_OpMemoryModel op b (Eq.symm hi) h
  | OpEntryPoint op => exact fmt_inj_OpEntryPoint op b (Eq.symm hi) h
  | OpExecutionMode op => exact fmt_inj_OpExecutionMode op b (Eq.symm hi) h
  | OpCapability op => exact fmt_inj_OpCapability op b (Eq.symm hi) h
  | OpTypeVoid op => exact fmt_inj_OpTypeVoid op b (Eq.symm hi) h
  | OpTypeBool op => exact fmt_inj_OpTypeBool op b (Eq.symm hi) h
  | OpTypeInt op => exact fmt_inj_OpTypeInt op b (Eq.symm hi) h
  | OpTypeFloat op => exact fmt_inj_OpTypeFloat op b (Eq.symm hi) h
  | OpTypeVector op => exact fmt_inj_OpTypeVector op b (Eq.symm hi) h
  | OpTypeMatrix op => exact fmt_inj_OpTypeMatrix op b (Eq.symm hi) h
  | OpTypeImage op => exact fmt_inj_OpTypeImage op b (Eq.symm hi) h
  | OpTypeSampler op => exact fmt_inj_OpTypeSampler op b (Eq.symm hi) h
  | OpTypeSampledImage op => exact fmt_inj_OpTypeSampledImage op b (Eq.symm hi) h
  | OpTypeArray op => exact fmt_inj_OpTypeArray op b (Eq.symm hi) h
  | OpTypeRuntimeArray op => exact fmt_inj_OpTypeRuntimeArray op b (Eq.symm hi) h
  | OpTypeStruct op => exact fmt_inj_OpTypeStruct op b (Eq.symm hi) h
  | OpTypeOpaque op => exact fmt_inj_OpTypeOpaque op b (Eq.symm hi) h
  | OpTypePointer op => exact fmt_inj_OpTypePointer op b (Eq.symm hi) h
  | OpTypeFunction op => exact fmt_inj_OpTypeFunction op b (Eq.symm hi) h
  | OpTypeEvent op => exact fmt_inj_OpTypeEvent op b (Eq.symm hi) h
  | OpTypeDeviceEvent op => exact fmt_inj_OpTypeDeviceEvent op b (Eq.symm hi) h
  | OpTypeQueue op => exact fmt_inj_OpTypeQueue op b (Eq.symm hi) h
  | OpTypePipe op => exact fmt_inj_OpTypePipe op b (Eq.symm hi) h
  | OpTypeForwardPointer op => exact fmt_inj_OpTypeForwardPointer op b (Eq.symm hi) h
  | OpConstant op => exact fmt_inj_OpConstant op b (Eq.symm hi) h
  | OpConstantComposite op => exact fmt_inj_OpConstantComposite op b (Eq.symm hi) h
  | OpFunction op => exact fmt_inj_OpFunction op b (Eq.symm hi) h
  | OpFunctionParameter op => exact fmt_inj_OpFunctionParameter op b (Eq.symm hi) h
  | OpFunctionEnd op => exact fmt_inj_OpFunctionEnd op b (Eq.symm hi) h
  | OpVariable op => exact fmt_inj_OpVariable op b (Eq.symm hi) h
  | OpLoad op => exact fmt_inj_OpLoad op b (Eq.symm hi) h
  | OpStore op => exact fmt_inj_OpStore op b (Eq.symm hi) h
  | OpAccessChain op => exact fmt_inj_OpAccessChain op b (Eq.symm hi) h
  | OpDecorate op => exact fmt_inj_OpDecorate op b (Eq.symm hi) h
  | OpMemberDecorate op => exact fmt_inj_OpMemberDecorate op b (Eq.symm hi) h
  | OpConvertUToF op => exact fmt_inj_OpConvertUToF op b (Eq.symm hi) h
  | OpBitcast op => exact fmt_inj_OpBitcast op b (Eq.symm hi) h
  | OpIAdd op => exact fmt_inj_OpIAdd op b (Eq.symm hi) h
  | OpFAdd op => exact fmt_inj_OpFAdd op b (Eq.symm hi) h
  | OpISub op => exact fmt_inj_OpISub op b (Eq.symm hi) h
  | OpFSub op => exact fmt_inj_OpFSub op b (Eq.symm hi) h
  | OpIMul op => exact fmt_inj_OpIMul op b (Eq.symm hi) h
  | OpFMul op => exact fmt_inj_OpFMul op b (Eq.symm hi) h
  | OpUDiv op => exact fmt_inj_OpUDiv op b (Eq.symm hi) h
  | OpSDiv op => exact fmt_inj_OpSDiv op b (Eq.symm hi) h
  | OpFDiv op => exact fmt_inj_OpFDiv op b (Eq.symm hi) h
  | OpUMod op => exact fmt_inj_OpUMod op b (Eq.symm hi) h
  | OpSRem op => exact fmt_inj_OpSRem op b (Eq.symm hi) h
  | OpSMod op => exact fmt_inj_OpSMod op b (Eq.symm hi) h
  | OpFRem op => exact fmt_inj_OpFRem op b (Eq.symm hi) h
  | OpFMod op => exact fmt_inj_OpFMod op b (Eq.symm hi) h
  | OpIAddCarry op => exact fmt_inj_OpIAddCarry op b (Eq.symm hi) h
  | OpISubBorrow op => exact fmt_inj_OpISubBorrow op b (Eq.symm hi) h
  | OpUMulExtended op => exact fmt_inj_OpUMulExtended op b (Eq.symm hi) h
  | OpSMulExtended op => exact fmt_inj_OpSMulExtended op b (Eq.symm hi) h
  | OpBitwiseOr op => exact fmt_inj_OpBitwiseOr op b (Eq.symm hi) h
  | OpBitwiseXor op => exact fmt_inj_OpBitwiseXor op b (Eq.symm hi) h
  | OpBitwiseAnd op => exact fmt_inj_OpBitwiseAnd op b (Eq.symm hi) h
  | OpIEqual op => exact fmt_inj_OpIEqual op b (Eq.symm hi) h
  | OpINotEqual op => exact fmt_inj_OpINotEqual op b (Eq.symm hi) h
  | OpUGreaterThan op => exact fmt_inj_OpUGreaterThan op b (Eq.symm hi) h
  | OpSGreaterThan op => exact fmt_inj_OpSGreaterThan op b (Eq.symm hi) h
  | OpUGreaterThanEqual op => exact fmt_inj_OpUGreaterThanEqual op b (Eq.symm hi) h
  | OpSGreaterThanEqual op => exact fmt_inj_OpSGreaterThanEqual op b (Eq.symm hi) h
  | OpULessThan op => exact fmt_inj_OpULessThan op b (Eq.symm hi) h
  | OpSLessThan op => exact fmt_inj_OpSLessThan op b (Eq.symm hi) h
  | OpULessThanEqual op => exact fmt_inj_OpULessThanEqual op b (Eq.symm hi) h
  | OpSLessThanEqual op => exact fmt_inj_OpSLessThanEqual op b (Eq.symm hi) h
  | OpFOrdEqual op => exact fmt_inj_OpFOrdEqual op b (Eq.symm hi) h
  | OpFUnordEqual op => exact fmt_inj_OpFUnordEqual op b (Eq.symm hi) h
  | OpFOrdNotEqual op => exact fmt_inj_OpFOrdNotEqual op b (Eq.symm hi) h
  | OpFUnordNotEqual op => exact fmt_inj_OpFUnordNotEqual op b (Eq.symm hi) h
  | OpFOrdLessThan op => exact fmt_inj_OpFOrdLessThan op b (Eq.symm hi) h
  | OpFUnordLessThan op => exact fmt_inj_OpFUnordLessThan op b (Eq.symm hi) h
  | OpFOrdGreaterThan op => exact fmt_inj_OpFOrdGreaterThan op b (Eq.symm hi) h
  | OpFUnordGreaterThan op => exact fmt_inj_OpFUnordGreaterThan op b (Eq.symm hi) h
  | OpFOrdLessThanEqual op => exact fmt_inj_OpFOrdLessThanEqual op b (Eq.symm hi) h
  | OpFUnordLessThanEqual op => exact fmt_inj_OpFUnordLessThanEqual op b (Eq.symm hi) h
  | OpFOrdGreaterThanEqual op => exact fmt_inj_OpFOrdGreaterThanEqual op b (Eq.symm hi) h
  | OpFUnordGreaterThanEqual op => exact fmt_inj_OpFUnordGreaterThanEqual op b (Eq.symm hi) h
  | OpPhi op => exact fmt_inj_OpPhi op b (Eq.symm hi) h
  | OpLoopMerge op => exact fmt_inj_OpLoopMerge op b (Eq.symm hi) h
  | OpSelectionMerge op => exact fmt_inj_OpSelectionMerge op b (Eq.symm hi) h
  | OpLabel op => exact fmt_inj_OpLabel op b (Eq.symm hi) h
  | OpBranch op => exact fmt_inj_OpBranch op b (Eq.symm hi) h
  | OpBranchConditional op => exact fmt_inj_OpBranchConditional op b (Eq.symm hi) h
  | OpReturn op => exact fmt_inj_OpReturn op b (Eq.symm hi) h

theorem OpExtInst.fmt_line' {X : Type} [Display X] (op : OpExtInst X)
    (hx : ∀ x : X, '\n' ∉ Display.fmt x) : '\n' ∉ Display.fmt op :=
  line_append (line_append (line_append (line_append (line_of_plain (fmtResult_plain _)) (by decide))
    (line_of_plain (PlainArg.plain op.result_type))) (line_of_plain (PlainArg.plain op.set)))
    (line_append (s := [' ']) (by decide) (hx _))

theorem Core.fmt_line {X : Type} [Display X] (hx : ∀ x : X, '\n' ∉ Display.fmt x) (c : Core X)
    (hs : ∀ s ∈ Spec.strings c, '\n' ∉ s.toList) : '\n' ∉ Display.fmt c := by
  cases c with
  | OpNop op => exact line_of_plain (OpNop.fmt_plain op)
  | OpUndef op => exact line_of_plain (OpUndef.fmt_plain op)
  | OpSourceContinued op => exact OpSourceContinued.fmt_line op (hs op.continued_source (by simp [Spec.strings]))
  | OpSource op => exact OpSource.fmt_line op (fun s e => hs s (by simp [Spec.strings, e]))
  | OpSourceExtension op => exact OpSourceExtension.fmt_line op (hs op.extension (by simp [Spec.strings]))
  | OpName op => exact OpName.fmt_line op (hs op.name (by simp [Spec.strings]))
  | OpMemberName op => exact OpMemberName.fmt_line op (hs op.name (by simp [Spec.strings]))
  | OpString op => exact OpString.fmt_line op (hs op.string (by simp [Spec.strings]))
  | OpExtension op => exact OpExtension.fmt_line op (hs op.name (by simp [Spec.strings]))
  | OpExtInstImport op => exact OpExtInstImport.fmt_line op (hs op.name (by simp [Spec.strings]))
  | OpExtInst op => exact OpExtInst.fmt_line' op hx
  | OpMemoryModel op => exact line_of_plain (OpMemoryModel.fmt_plain op)
  | OpEntryPoint op => exact OpEntryPoint.fmt_line op (hs op.name (by simp [Spec.strings]))
  | OpExecutionMode op => exact line_of_plain (OpExecutionMode.fmt_plain op)
  | OpCapability op => exact line_of_plain (OpCapability.fmt_plain op)
  | OpTypeVoid op => exact line_of_plain (OpTypeVoid.fmt_plain op)
  | OpTypeBool op => exact line_of_plain (OpTypeBool.fmt_plain op)
  | OpTypeInt op => exact line_of_plain (OpTypeInt.fmt_plain op)
  | OpTypeFloat op => exact line_of_plain (OpTypeFloat.fmt_plain op)
  | OpTypeVector op => exact line_of_plain (OpTypeVector.fmt_plain op)
  | OpTypeMatrix op => exact line_of_plain (OpTypeMatrix.fmt_plain op)
  | OpTypeImage op => exact line_of_plain (OpTypeImage.fmt_plain op)
  | OpTypeSampler op => exact line_of_plain (OpTypeSampler.fmt_plain op)
  | OpTypeSampledImage op => exact line_of_plain (OpTypeSampledImage.fmt_plain op)
  | OpTypeArray op => exact line_of_plain (OpTypeArray.fmt_plain op)
  | OpTypeRuntimeArray op => exact line_of_plain (OpTypeRuntimeArray.fmt_plain op)
  | OpTypeStruct op => exact line_of_plain (OpTypeStruct.fmt_plain op)
  | OpTypeOpaque op => exact OpTypeOpaque.fmt_line op (hs op.name (by simp [Spec.strings]))
  | OpTypePointer op => exact line_of_plain (OpTypePointer.fmt_plain op)
  | OpTypeFunction op => exact line_of_plain (OpTypeFunction.fmt_plain op)
  | OpTypeEvent op => exact line_of_plain (OpTypeEvent.fmt_plain op)
  | OpTypeDeviceEvent op => exact line_of_plain (OpTypeDeviceEvent.fmt_plain op)
  | OpTypeQueue op => exact line_of_plain (OpTypeQueue.fmt_plain op)
  | OpTypePipe op => exact line_of_plain (OpTypePipe.fmt_plain op)
  | OpTypeForwardPointer op => exact line_of_plain (OpTypeForwardPointer.fmt_plain op)
  | OpConstant op => exact line_of_plain (OpConstant.fmt_plain op)
  | OpConstantComposite op => exact line_of_plain (OpConstantComposite.fmt_plain op)
  | OpFunction op => exact line_of_plain (OpFunction.fmt_plain op)
  | OpFunctionParameter op => exact line_of_plain (OpFunctionParameter.fmt_plain op)
  | OpFunctionEnd op => exact line_of_plain (OpFunctionEnd.fmt_plain op)
  | OpVariable op => exact line_of_plain (OpVariable.fmt_plain op)
  | OpLoad op => exact line_of_plain (OpLoad.fmt_plain op)
  | OpStore op => exact line_of_plain (OpStore.fmt_plain op)
  | OpAccessChain op => exact line_of_plain (OpAccessChain.fmt_plain op)
  | OpDecorate op => exact OpDecorate.fmt_line op (fun s l e => hs s (by simp [Spec.strings, Spec.decorationStrings, e]))
  | OpMemberDecorate op => exact OpMemberDecorate.fmt_line op (fun s l e => hs s (by simp [Spec.strings, Spec.decorationStrings, e]))
  | OpConvertUToF op => exact line_of_plain (OpConvertUToF.fmt_plain op)
  | OpBitcast op => exact line_of_plain (OpBitcast.fmt_plain op)
  | OpIAdd op => exact line_of_plain (OpIAdd.fmt_plain op)
  | OpFAdd op => exact line_of_plain (OpFAdd.fmt_plain op)
  | OpISub op => exact line_of_plain (OpISub.fmt_plain op)
  | OpFSub op => exact line_of_plain (OpFSub.fmt_plain op)
  | OpIMul op => exact line_of_plain (OpIMul.fmt_plain op)
  | OpFMul op => exact line_of_plain (OpFMul.fmt_plain op)
  | OpUDiv op => exact line_of_plain (OpUDiv.fmt_plain op)
  | OpSDiv op => exact line_of_plain (OpSDiv.fmt_plain op)
  | OpFDiv op => exact line_of_plain (OpFDiv.fmt_plain op)
  | OpUMod op => exact line_of_plain (OpUMod.fmt_plain op)
  | OpSRem op => exact line_of_plain (OpSRem.fmt_plain op)
  | OpSMod op => exact line_of_plain (OpSMod.fmt_plain op)
  | OpFRem op => exact line_of_plain (OpFRem.fmt_plain op)
  | OpFMod op => exact line_of_plain (OpFMod.fmt_plain op)
  | OpIAddCarry op => exact line_of_plain (OpIAddCarry.fmt_plain op)
  | OpISubBorrow op => exact line_of_plain (OpISubBorrow.fmt_plain op)
  | OpUMulExtended op => exact line_of_plain (OpUMulExtended.fmt_plain op)
  | OpSMulExtended op => exact line_of_plain (OpSMulExtended.fmt_plain op)
  | OpBitwiseOr op => exact line_of_plain (OpBitwiseOr.fmt_plain op)
  | OpBitwiseXor op => exact line_of_plain (OpBitwiseXor.fmt_plain op)
  | OpBitwiseAnd op => exact line_of_plain (OpBitwiseAnd.fmt_plain op)
  | OpIEqual op => exact line_of_plain (OpIEqual.fmt_plain op)
  | OpINotEqual op => exact line_of_plain (OpINotEqual.fmt_plain op)
  | OpUGreaterThan op => exact line_of_plain (OpUGreaterThan.fmt_plain op)
  | OpSGreaterThan op => exact line_of_plain (OpSGreaterThan.fmt_plain op)
  | OpUGreaterThanEqual op => exact line_of_plain (OpUGreaterThanEqual.fmt_plain op)
  | OpSGreaterThanEqual op => exact line_of_plain (OpSGreaterThanEqual.fmt_plain op)
  | OpULessThan op => exact line_of_plain (OpULessThan.fmt_plain op)
  | OpSLessThan op => exact line_of_plain (OpSLessThan.fmt_plain op)
  | OpULessThanEqual op => exact line_of_plain (OpULessThanEqual.fmt_plain op)
  | OpSLessThanEqual op => exact line_of_plain (OpSLessThanEqual.fmt_plain op)
  | OpFOrdEqual op => exact line_of_plain (OpFOrdEqual.fmt_plain op)
  | OpFUnordEqual op => exact line_of_plain (OpFUnordEqual.fmt_plain op)
  | OpFOrdNotEqual op => exact line_of_plain (OpFOrdNotEqual.fmt_plain op)
  | OpFUnordNotEqual op => exact line_of_plain (OpFUnordNotEqual.fmt_plain op)
  | OpFOrdLessThan op => exact line_of_plain (OpFOrdLessThan.fmt_plain op)
  | OpFUnordLessThan op => exact line_of_plain (OpFUnordLessThan.fmt_plain op)
  | OpFOrdGreaterThan op => exact line_of_plain (OpFOrdGreaterThan.fmt_plain op)
  | OpFUnordGreaterThan op => exact line_of_plain (OpFUnordGreaterThan.fmt_plain op)
  | OpFOrdLessThanEqual op => exact line_of_plain (OpFOrdLessThanEqual.fmt_plain op)
  | OpFUnordLessThanEqual op => exact line_of_plain (OpFUnordLessThanEqual.fmt_plain op)
  | OpFOrdGreaterThanEqual op => exact line_of_plain (OpFOrdGreaterThanEqual.fmt_plain op)
  | OpFUnordGreaterThanEqual op => exact line_of_plain (OpFUnordGreaterThanEqual.fmt_plain op)
  | OpPhi op => exact line_of_plain (OpPhi.fmt_plain op)
  | OpLoopMerge op => exact line_of_plain (OpLoopMerge.fmt_plain op)
  | OpSelectionMerge op => exact line_of_plain (OpSelectionMerge.fmt_plain op)
  | OpLabel op => exact line_of_plain (OpLabel.fmt_plain op)
  | OpBranch op => exact line_of_plain (OpBranch.fmt_plain op)
  | OpBranchConditional op => exact line_of_plain (OpBranchConditional.fmt_plain op)
  | OpReturn op => exact line_of_plain (OpReturn.fmt_plain op)

end Magma
