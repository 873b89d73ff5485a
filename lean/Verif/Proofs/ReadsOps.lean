import Verif.Proofs.ReadsHandler
/-! Lemmas: each instruction reader accepts exactly the spellings of its instruction. -/

namespace Magma
open Spec

/-- The reader accepts exactly the spellings given by `ops`, and is safe. -/
structure OpLaw {α : Type} (read : Block → R (Block × α)) (ops : α → List Operand) : Prop where
  iff : ∀ ws rest a, read ws = .ok (rest, a) ↔ Reads (ops a) ws rest
  safe : ∀ ws, Safe (read ws)

macro "op_law" r:ident m:ident : tactic => `(tactic| (
  refine ⟨?_, ?_⟩
  · intro ws rest op
    cases op
    simp only [$r:ident, bind_ok, Lawful.iff, Prod.exists, pure_ok, Prod.mk.injEq, $m:ident,
      operands, List.append_assoc, Reads_append, Reads_nil, and_true, exists_and_left, exists_and_right,
      exists_eq_right, exists_eq_left, ↓existsAndEq, true_and, and_assoc]
  · intro ws
    unfold $r:ident
    repeat (refine Safe.bind (Lawful.safe _) fun _ _ => ?_)
    exact .pure _))

theorem OpNop_law (X : Type) : OpLaw OpNop.read (fun op => operands (.OpNop op : Core X)) :=
  ⟨fun ws rest op => by cases op; simp [OpNop.read, pure_ok, operands, Reads], fun _ => .pure _⟩
theorem OpUndef_law (X : Type) : OpLaw OpUndef.read (fun op => operands (.OpUndef op : Core X)) := by
  op_law OpUndef.read OpUndef.mk.injEq
theorem OpSourceContinued_law (X : Type) : OpLaw OpSourceContinued.read (fun op => operands (.OpSourceContinued op : Core X)) := by
  op_law OpSourceContinued.read OpSourceContinued.mk.injEq
theorem OpSource_law (X : Type) : OpLaw OpSource.read (fun op => operands (.OpSource op : Core X)) := by
  op_law OpSource.read OpSource.mk.injEq
theorem OpSourceExtension_law (X : Type) : OpLaw OpSourceExtension.read (fun op => operands (.OpSourceExtension op : Core X)) := by
  op_law OpSourceExtension.read OpSourceExtension.mk.injEq
theorem OpName_law (X : Type) : OpLaw OpName.read (fun op => operands (.OpName op : Core X)) := by
  op_law OpName.read OpName.mk.injEq
theorem OpMemberName_law (X : Type) : OpLaw OpMemberName.read (fun op => operands (.OpMemberName op : Core X)) := by
  op_law OpMemberName.read OpMemberName.mk.injEq
theorem OpString_law (X : Type) : OpLaw OpString.read (fun op => operands (.OpString op : Core X)) := by
  op_law OpString.read OpString.mk.injEq
theorem OpDecorate_law (X : Type) : OpLaw OpDecorate.read (fun op => operands (.OpDecorate op : Core X)) := by
  op_law OpDecorate.read OpDecorate.mk.injEq
theorem OpMemberDecorate_law (X : Type) : OpLaw OpMemberDecorate.read (fun op => operands (.OpMemberDecorate op : Core X)) := by
  op_law OpMemberDecorate.read OpMemberDecorate.mk.injEq
theorem OpExtension_law (X : Type) : OpLaw OpExtension.read (fun op => operands (.OpExtension op : Core X)) := by
  op_law OpExtension.read OpExtension.mk.injEq
theorem OpMemoryModel_law (X : Type) : OpLaw OpMemoryModel.read (fun op => operands (.OpMemoryModel op : Core X)) := by
  op_law OpMemoryModel.read OpMemoryModel.mk.injEq
theorem OpEntryPoint_law (X : Type) : OpLaw OpEntryPoint.read (fun op => operands (.OpEntryPoint op : Core X)) := by
  op_law OpEntryPoint.read OpEntryPoint.mk.injEq
theorem OpExecutionMode_law (X : Type) : OpLaw OpExecutionMode.read (fun op => operands (.OpExecutionMode op : Core X)) := by
  op_law OpExecutionMode.read OpExecutionMode.mk.injEq
theorem OpCapability_law (X : Type) : OpLaw OpCapability.read (fun op => operands (.OpCapability op : Core X)) := by
  op_law OpCapability.read OpCapability.mk.injEq
theorem OpTypeVoid_law (X : Type) : OpLaw OpTypeVoid.read (fun op => operands (.OpTypeVoid op : Core X)) := by
  op_law OpTypeVoid.read OpTypeVoid.mk.injEq
theorem OpTypeBool_law (X : Type) : OpLaw OpTypeBool.read (fun op => operands (.OpTypeBool op : Core X)) := by
  op_law OpTypeBool.read OpTypeBool.mk.injEq
theorem OpTypeInt_law (X : Type) : OpLaw OpTypeInt.read (fun op => operands (.OpTypeInt op : Core X)) := by
  op_law OpTypeInt.read OpTypeInt.mk.injEq
theorem OpTypeFloat_law (X : Type) : OpLaw OpTypeFloat.read (fun op => operands (.OpTypeFloat op : Core X)) := by
  op_law OpTypeFloat.read OpTypeFloat.mk.injEq
theorem OpTypeVector_law (X : Type) : OpLaw OpTypeVector.read (fun op => operands (.OpTypeVector op : Core X)) := by
  op_law OpTypeVector.read OpTypeVector.mk.injEq
theorem OpTypeMatrix_law (X : Type) : OpLaw OpTypeMatrix.read (fun op => operands (.OpTypeMatrix op : Core X)) := by
  op_law OpTypeMatrix.read OpTypeMatrix.mk.injEq
theorem OpTypeImage_law (X : Type) : OpLaw OpTypeImage.read (fun op => operands (.OpTypeImage op : Core X)) := by
  op_law OpTypeImage.read OpTypeImage.mk.injEq
theorem OpTypeSampler_law (X : Type) : OpLaw OpTypeSampler.read (fun op => operands (.OpTypeSampler op : Core X)) := by
  op_law OpTypeSampler.read OpTypeSampler.mk.injEq
theorem OpTypeSampledImage_law (X : Type) : OpLaw OpTypeSampledImage.read (fun op => operands (.OpTypeSampledImage op : Core X)) := by
  op_law OpTypeSampledImage.read OpTypeSampledImage.mk.injEq
theorem OpTypeArray_law (X : Type) : OpLaw OpTypeArray.read (fun op => operands (.OpTypeArray op : Core X)) := by
  op_law OpTypeArray.read OpTypeArray.mk.injEq
theorem OpTypeRuntimeArray_law (X : Type) : OpLaw OpTypeRuntimeArray.read (fun op => operands (.OpTypeRuntimeArray op : Core X)) := by
  op_law OpTypeRuntimeArray.read OpTypeRuntimeArray.mk.injEq
theorem OpTypeStruct_law (X : Type) : OpLaw OpTypeStruct.read (fun op => operands (.OpTypeStruct op : Core X)) := by
  op_law OpTypeStruct.read OpTypeStruct.mk.injEq
theorem OpTypeOpaque_law (X : Type) : OpLaw OpTypeOpaque.read (fun op => operands (.OpTypeOpaque op : Core X)) := by
  op_law OpTypeOpaque.read OpTypeOpaque.mk.injEq
theorem OpTypePointer_law (X : Type) : OpLaw OpTypePointer.read (fun op => operands (.OpTypePointer op : Core X)) := by
  op_law OpTypePointer.read OpTypePointer.mk.injEq
theorem OpTypeFunction_law (X : Type) : OpLaw OpTypeFunction.read (fun op => operands (.OpTypeFunction op : Core X)) := by
  op_law OpTypeFunction.read OpTypeFunction.mk.injEq
theorem OpConstant_law (X : Type) : OpLaw OpConstant.read (fun op => operands (.OpConstant op : Core X)) := by
  op_law OpConstant.read OpConstant.mk.injEq
theorem OpConstantComposite_law (X : Type) : OpLaw OpConstantComposite.read (fun op => operands (.OpConstantComposite op : Core X)) := by
  op_law OpConstantComposite.read OpConstantComposite.mk.injEq
theorem OpFunction_law (X : Type) : OpLaw OpFunction.read (fun op => operands (.OpFunction op : Core X)) := by
  op_law OpFunction.read OpFunction.mk.injEq
theorem OpFunctionParameter_law (X : Type) : OpLaw OpFunctionParameter.read (fun op => operands (.OpFunctionParameter op : Core X)) := by
  op_law OpFunctionParameter.read OpFunctionParameter.mk.injEq
theorem OpFunctionEnd_law (X : Type) : OpLaw OpFunctionEnd.read (fun op => operands (.OpFunctionEnd op : Core X)) :=
  ⟨fun ws rest op => by cases op; simp [OpFunctionEnd.read, pure_ok, operands, Reads], fun _ => .pure _⟩
theorem OpVariable_law (X : Type) : OpLaw OpVariable.read (fun op => operands (.OpVariable op : Core X)) := by
  op_law OpVariable.read OpVariable.mk.injEq
theorem OpLoad_law (X : Type) : OpLaw OpLoad.read (fun op => operands (.OpLoad op : Core X)) := by
  op_law OpLoad.read OpLoad.mk.injEq
theorem OpStore_law (X : Type) : OpLaw OpStore.read (fun op => operands (.OpStore op : Core X)) := by
  op_law OpStore.read OpStore.mk.injEq
theorem OpAccessChain_law (X : Type) : OpLaw OpAccessChain.read (fun op => operands (.OpAccessChain op : Core X)) := by
  op_law OpAccessChain.read OpAccessChain.mk.injEq
theorem OpConvertUToF_law (X : Type) : OpLaw OpConvertUToF.read (fun op => operands (.OpConvertUToF op : Core X)) := by
  op_law OpConvertUToF.read OpConvertUToF.mk.injEq
theorem OpPhi_law (X : Type) : OpLaw OpPhi.read (fun op => operands (.OpPhi op : Core X)) := by
  op_law OpPhi.read OpPhi.mk.injEq
theorem OpLoopMerge_law (X : Type) : OpLaw OpLoopMerge.read (fun op => operands (.OpLoopMerge op : Core X)) := by
  op_law OpLoopMerge.read OpLoopMerge.mk.injEq
theorem OpSelectionMerge_law (X : Type) : OpLaw OpSelectionMerge.read (fun op => operands (.OpSelectionMerge op : Core X)) := by
  op_law OpSelectionMerge.read OpSelectionMerge.mk.injEq
theorem OpLabel_law (X : Type) : OpLaw OpLabel.read (fun op => operands (.OpLabel op : Core X)) := by
  op_law OpLabel.read OpLabel.mk.injEq
theorem OpBranch_law (X : Type) : OpLaw OpBranch.read (fun op => operands (.OpBranch op : Core X)) := by
  op_law OpBranch.read OpBranch.mk.injEq
theorem OpBranchConditional_law (X : Type) : OpLaw OpBranchConditional.read (fun op => operands (.OpBranchConditional op : Core X)) := by
  op_law OpBranchConditional.read OpBranchConditional.mk.injEq
theorem OpReturn_law (X : Type) : OpLaw OpReturn.read (fun op => operands (.OpReturn op : Core X)) :=
  ⟨fun ws rest op => by cases op; simp [OpReturn.read, pure_ok, operands, Reads], fun _ => .pure _⟩
theorem OpBitcast_law (X : Type) : OpLaw OpBitcast.read (fun op => operands (.OpBitcast op : Core X)) := by
  op_law OpBitcast.read OpBitcast.mk.injEq
theorem OpIAdd_law (X : Type) : OpLaw OpIAdd.read (fun op => operands (.OpIAdd op : Core X)) := by
  op_law OpIAdd.read OpIAdd.mk.injEq
theorem OpFAdd_law (X : Type) : OpLaw OpFAdd.read (fun op => operands (.OpFAdd op : Core X)) := by
  op_law OpFAdd.read OpFAdd.mk.injEq
theorem OpISub_law (X : Type) : OpLaw OpISub.read (fun op => operands (.OpISub op : Core X)) := by
  op_law OpISub.read OpISub.mk.injEq
theorem OpFSub_law (X : Type) : OpLaw OpFSub.read (fun op => operands (.OpFSub op : Core X)) := by
  op_law OpFSub.read OpFSub.mk.injEq
theorem OpIMul_law (X : Type) : OpLaw OpIMul.read (fun op => operands (.OpIMul op : Core X)) := by
  op_law OpIMul.read OpIMul.mk.injEq
theorem OpFMul_law (X : Type) : OpLaw OpFMul.read (fun op => operands (.OpFMul op : Core X)) := by
  op_law OpFMul.read OpFMul.mk.injEq
theorem OpUDiv_law (X : Type) : OpLaw OpUDiv.read (fun op => operands (.OpUDiv op : Core X)) := by
  op_law OpUDiv.read OpUDiv.mk.injEq
theorem OpSDiv_law (X : Type) : OpLaw OpSDiv.read (fun op => operands (.OpSDiv op : Core X)) := by
  op_law OpSDiv.read OpSDiv.mk.injEq
theorem OpFDiv_law (X : Type) : OpLaw OpFDiv.read (fun op => operands (.OpFDiv op : Core X)) := by
  op_law OpFDiv.read OpFDiv.mk.injEq
theorem OpUMod_law (X : Type) : OpLaw OpUMod.read (fun op => operands (.OpUMod op : Core X)) := by
  op_law OpUMod.read OpUMod.mk.injEq
theorem OpSRem_law (X : Type) : OpLaw OpSRem.read (fun op => operands (.OpSRem op : Core X)) := by
  op_law OpSRem.read OpSRem.mk.injEq
theorem OpSMod_law (X : Type) : OpLaw OpSMod.read (fun op => operands (.OpSMod op : Core X)) := by
  op_law OpSMod.read OpSMod.mk.injEq
theorem OpFRem_law (X : Type) : OpLaw OpFRem.read (fun op => operands (.OpFRem op : Core X)) := by
  op_law OpFRem.read OpFRem.mk.injEq
theorem OpFMod_law (X : Type) : OpLaw OpFMod.read (fun op => operands (.OpFMod op : Core X)) := by
  op_law OpFMod.read OpFMod.mk.injEq
theorem OpIAddCarry_law (X : Type) : OpLaw OpIAddCarry.read (fun op => operands (.OpIAddCarry op : Core X)) := by
  op_law OpIAddCarry.read OpIAddCarry.mk.injEq
theorem OpISubBorrow_law (X : Type) : OpLaw OpISubBorrow.read (fun op => operands (.OpISubBorrow op : Core X)) := by
  op_law OpISubBorrow.read OpISubBorrow.mk.injEq
theorem OpUMulExtended_law (X : Type) : OpLaw OpUMulExtended.read (fun op => operands (.OpUMulExtended op : Core X)) := by
  op_law OpUMulExtended.read OpUMulExtended.mk.injEq
theorem OpSMulExtended_law (X : Type) : OpLaw OpSMulExtended.read (fun op => operands (.OpSMulExtended op : Core X)) := by
  op_law OpSMulExtended.read OpSMulExtended.mk.injEq
theorem OpBitwiseOr_law (X : Type) : OpLaw OpBitwiseOr.read (fun op => operands (.OpBitwiseOr op : Core X)) := by
  op_law OpBitwiseOr.read OpBitwiseOr.mk.injEq
theorem OpBitwiseXor_law (X : Type) : OpLaw OpBitwiseXor.read (fun op => operands (.OpBitwiseXor op : Core X)) := by
  op_law OpBitwiseXor.read OpBitwiseXor.mk.injEq
theorem OpBitwiseAnd_law (X : Type) : OpLaw OpBitwiseAnd.read (fun op => operands (.OpBitwiseAnd op : Core X)) := by
  op_law OpBitwiseAnd.read OpBitwiseAnd.mk.injEq
theorem OpIEqual_law (X : Type) : OpLaw OpIEqual.read (fun op => operands (.OpIEqual op : Core X)) := by
  op_law OpIEqual.read OpIEqual.mk.injEq
theorem OpINotEqual_law (X : Type) : OpLaw OpINotEqual.read (fun op => operands (.OpINotEqual op : Core X)) := by
  op_law OpINotEqual.read OpINotEqual.mk.injEq
theorem OpUGreaterThan_law (X : Type) : OpLaw OpUGreaterThan.read (fun op => operands (.OpUGreaterThan op : Core X)) := by
  op_law OpUGreaterThan.read OpUGreaterThan.mk.injEq
theorem OpSGreaterThan_law (X : Type) : OpLaw OpSGreaterThan.read (fun op => operands (.OpSGreaterThan op : Core X)) := by
  op_law OpSGreaterThan.read OpSGreaterThan.mk.injEq
theorem OpUGreaterThanEqual_law (X : Type) : OpLaw OpUGreaterThanEqual.read (fun op => operands (.OpUGreaterThanEqual op : Core X)) := by
  op_law OpUGreaterThanEqual.read OpUGreaterThanEqual.mk.injEq
theorem OpSGreaterThanEqual_law (X : Type) : OpLaw OpSGreaterThanEqual.read (fun op => operands (.OpSGreaterThanEqual op : Core X)) := by
  op_law OpSGreaterThanEqual.read OpSGreaterThanEqual.mk.injEq
theorem OpULessThan_law (X : Type) : OpLaw OpULessThan.read (fun op => operands (.OpULessThan op : Core X)) := by
  op_law OpULessThan.read OpULessThan.mk.injEq
theorem OpSLessThan_law (X : Type) : OpLaw OpSLessThan.read (fun op => operands (.OpSLessThan op : Core X)) := by
  op_law OpSLessThan.read OpSLessThan.mk.injEq
theorem OpULessThanEqual_law (X : Type) : OpLaw OpULessThanEqual.read (fun op => operands (.OpULessThanEqual op : Core X)) := by
  op_law OpULessThanEqual.read OpULessThanEqual.mk.injEq
theorem OpSLessThanEqual_law (X : Type) : OpLaw OpSLessThanEqual.read (fun op => operands (.OpSLessThanEqual op : Core X)) := by
  op_law OpSLessThanEqual.read OpSLessThanEqual.mk.injEq
theorem OpFOrdEqual_law (X : Type) : OpLaw OpFOrdEqual.read (fun op => operands (.OpFOrdEqual op : Core X)) := by
  op_law OpFOrdEqual.read OpFOrdEqual.mk.injEq
theorem OpFUnordEqual_law (X : Type) : OpLaw OpFUnordEqual.read (fun op => operands (.OpFUnordEqual op : Core X)) := by
  op_law OpFUnordEqual.read OpFUnordEqual.mk.injEq
theorem OpFOrdNotEqual_law (X : Type) : OpLaw OpFOrdNotEqual.read (fun op => operands (.OpFOrdNotEqual op : Core X)) := by
  op_law OpFOrdNotEqual.read OpFOrdNotEqual.mk.injEq
theorem OpFUnordNotEqual_law (X : Type) : OpLaw OpFUnordNotEqual.read (fun op => operands (.OpFUnordNotEqual op : Core X)) := by
  op_law OpFUnordNotEqual.read OpFUnordNotEqual.mk.injEq
theorem OpFOrdLessThan_law (X : Type) : OpLaw OpFOrdLessThan.read (fun op => operands (.OpFOrdLessThan op : Core X)) := by
  op_law OpFOrdLessThan.read OpFOrdLessThan.mk.injEq
theorem OpFUnordLessThan_law (X : Type) : OpLaw OpFUnordLessThan.read (fun op => operands (.OpFUnordLessThan op : Core X)) := by
  op_law OpFUnordLessThan.read OpFUnordLessThan.mk.injEq
theorem OpFOrdGreaterThan_law (X : Type) : OpLaw OpFOrdGreaterThan.read (fun op => operands (.OpFOrdGreaterThan op : Core X)) := by
  op_law OpFOrdGreaterThan.read OpFOrdGreaterThan.mk.injEq
theorem OpFUnordGreaterThan_law (X : Type) : OpLaw OpFUnordGreaterThan.read (fun op => operands (.OpFUnordGreaterThan op : Core X)) := by
  op_law OpFUnordGreaterThan.read OpFUnordGreaterThan.mk.injEq
theorem OpFOrdLessThanEqual_law (X : Type) : OpLaw OpFOrdLessThanEqual.read (fun op => operands (.OpFOrdLessThanEqual op : Core X)) := by
  op_law OpFOrdLessThanEqual.read OpFOrdLessThanEqual.mk.injEq
theorem OpFUnordLessThanEqual_law (X : Type) : OpLaw OpFUnordLessThanEqual.read (fun op => operands (.OpFUnordLessThanEqual op : Core X)) := by
  op_law OpFUnordLessThanEqual.read OpFUnordLessThanEqual.mk.injEq
theorem OpFOrdGreaterThanEqual_law (X : Type) : OpLaw OpFOrdGreaterThanEqual.read (fun op => operands (.OpFOrdGreaterThanEqual op : Core X)) := by
  op_law OpFOrdGreaterThanEqual.read OpFOrdGreaterThanEqual.mk.injEq
theorem OpFUnordGreaterThanEqual_law (X : Type) : OpLaw OpFUnordGreaterThanEqual.read (fun op => operands (.OpFUnordGreaterThanEqual op : Core X)) := by
  op_law OpFUnordGreaterThanEqual.read OpFUnordGreaterThanEqual.mk.injEq

end Magma
