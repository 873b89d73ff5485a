import Verif.Model.Op
/-! Generated by `tools/gen.py` from the Rust source; citations are to `/repo`. -/

namespace Magma

/-- src/spv/logical/mod.rs:15-22 -/
inductive GroupDebug where
  | OpSourceContinued (op : OpSourceContinued)
  | OpSource (op : OpSource)
  | OpSourceExtension (op : OpSourceExtension)
  | OpName (op : OpName)
  | OpMemberName (op : OpMemberName)
  | OpString (op : OpString)
  deriving DecidableEq

/-- src/spv/logical/mod.rs:25-28 -/
inductive GroupAnnotation where
  | OpDecorate (op : OpDecorate)
  | OpMemberDecorate (op : OpMemberDecorate)
  deriving DecidableEq

/-- src/spv/logical/mod.rs:31-52 -/
inductive GroupType where
  | OpTypeVoid (op : OpTypeVoid)
  | OpTypeBool (op : OpTypeBool)
  | OpTypeInt (op : OpTypeInt)
  | OpTypeFloat (op : OpTypeFloat)
  | OpTypeVector (op : OpTypeVector)
  | OpTypeMatrix (op : OpTypeMatrix)
  | OpTypeImage (op : OpTypeImage)
  | OpTypeSampler (op : OpTypeSampler)
  | OpTypeSampledImage (op : OpTypeSampledImage)
  | OpTypeArray (op : OpTypeArray)
  | OpTypeRuntimeArray (op : OpTypeRuntimeArray)
  | OpTypeStruct (op : OpTypeStruct)
  | OpTypeOpaque (op : OpTypeOpaque)
  | OpTypePointer (op : OpTypePointer)
  | OpTypeFunction (op : OpTypeFunction)
  | OpTypeEvent (op : OpTypeEvent)
  | OpTypeDeviceEvent (op : OpTypeDeviceEvent)
  | OpTypeQueue (op : OpTypeQueue)
  | OpTypePipe (op : OpTypePipe)
  | OpTypeForwardPointer (op : OpTypeForwardPointer)
  deriving DecidableEq

/-- src/spv/logical/mod.rs:55-58 -/
inductive GroupConstant where
  | OpConstant (op : OpConstant)
  | OpConstantComposite (op : OpConstantComposite)
  deriving DecidableEq

/-- src/spv/logical/mod.rs:61-66 -/
inductive GroupGlobal where
  | GroupType (op : GroupType)
  | GroupConstant (op : GroupConstant)
  | OpVariable (op : OpVariable)
  deriving DecidableEq

/-- src/spv/logical/mod.rs:69-124 -/
inductive GroupCode (X : Type) where
  | OpNop (op : OpNop)
  | OpUndef (op : OpUndef)
  | OpExtInst (op : OpExtInst X)
  | OpVariable (op : OpVariable)
  | OpLoad (op : OpLoad)
  | OpStore (op : OpStore)
  | OpAccessChain (op : OpAccessChain)
  | OpConvertUToF (op : OpConvertUToF)
  | OpBitcast (op : OpBitcast)
  | OpIAdd (op : OpIAdd)
  | OpFAdd (op : OpFAdd)
  | OpISub (op : OpISub)
  | OpFSub (op : OpFSub)
  | OpIMul (op : OpIMul)
  | OpFMul (op : OpFMul)
  | OpUDiv (op : OpUDiv)
  | OpSDiv (op : OpSDiv)
  | OpFDiv (op : OpFDiv)
  | OpUMod (op : OpUMod)
  | OpSRem (op : OpSRem)
  | OpSMod (op : OpSMod)
  | OpFRem (op : OpFRem)
  | OpFMod (op : OpFMod)
  | OpIAddCarry (op : OpIAddCarry)
  | OpISubBorrow (op : OpISubBorrow)
  | OpUMulExtended (op : OpUMulExtended)
  | OpSMulExtended (op : OpSMulExtended)
  | OpBitwiseOr (op : OpBitwiseOr)
  | OpBitwiseXor (op : OpBitwiseXor)
  | OpBitwiseAnd (op : OpBitwiseAnd)
  | OpIEqual (op : OpIEqual)
  | OpINotEqual (op : OpINotEqual)
  | OpUGreaterThan (op : OpUGreaterThan)
  | OpSGreaterThan (op : OpSGreaterThan)
  | OpUGreaterThanEqual (op : OpUGreaterThanEqual)
  | OpSGreaterThanEqual (op : OpSGreaterThanEqual)
  | OpULessThan (op : OpULessThan)
  | OpSLessThan (op : OpSLessThan)
  | OpULessThanEqual (op : OpULessThanEqual)
  | OpSLessThanEqual (op : OpSLessThanEqual)
  | OpFOrdEqual (op : OpFOrdEqual)
  | OpFUnordEqual (op : OpFUnordEqual)
  | OpFOrdNotEqual (op : OpFOrdNotEqual)
  | OpFUnordNotEqual (op : OpFUnordNotEqual)
  | OpFOrdLessThan (op : OpFOrdLessThan)
  | OpFUnordLessThan (op : OpFUnordLessThan)
  | OpFOrdGreaterThan (op : OpFOrdGreaterThan)
  | OpFUnordGreaterThan (op : OpFUnordGreaterThan)
  | OpFOrdLessThanEqual (op : OpFOrdLessThanEqual)
  | OpFUnordLessThanEqual (op : OpFUnordLessThanEqual)
  | OpFOrdGreaterThanEqual (op : OpFOrdGreaterThanEqual)
  | OpFUnordGreaterThanEqual (op : OpFUnordGreaterThanEqual)
  | OpPhi (op : OpPhi)
  deriving DecidableEq

/-- src/spv/logical/mod.rs:188-191 -/
inductive GroupMerge where
  | OpLoopMerge (op : OpLoopMerge)
  | OpSelectionMerge (op : OpSelectionMerge)
  deriving DecidableEq

/-- src/spv/logical/mod.rs:194-198 -/
inductive GroupBranch where
  | OpBranch (op : OpBranch)
  | OpBranchConditional (op : OpBranchConditional)
  | OpReturn (op : OpReturn)
  deriving DecidableEq

/-- src/spv/logical/parser/mod.rs:19-36 -/
inductive OpByBlock (X : Type) where
  | OpCapability (op : OpCapability)
  | OpExtension (op : OpExtension)
  | OpExtInstImport (op : OpExtInstImport)
  | OpMemoryModel (op : OpMemoryModel)
  | OpEntryPoint (op : OpEntryPoint)
  | OpExecutionMode (op : OpExecutionMode)
  | GroupDebug (op : GroupDebug)
  | GroupAnnotation (op : GroupAnnotation)
  | GroupGlobal (op : GroupGlobal)
  | OpFunction (op : OpFunction)
  | OpFunctionParameter (op : OpFunctionParameter)
  | OpFunctionEnd (op : OpFunctionEnd)
  | OpLabel (op : OpLabel)
  | GroupCode (op : GroupCode X)
  | GroupMerge (op : GroupMerge)
  | GroupBranch (op : GroupBranch)
  deriving DecidableEq

/-- src/spv/logical/parser/mod.rs:86-93 -/
def OpByBlock.ofVariable {X : Type} (op : OpVariable) : OpByBlock X :=
  match op.storage_class with
  | .Function => .GroupCode (.OpVariable op)
  | _ => .GroupGlobal (.OpVariable op)

/-- src/spv/logical/parser/mod.rs:95-199 (the group conversions at 38-84 inlined) -/
def OpByBlock.ofCore {X : Type} (inst : Core X) : OpByBlock X :=
  match inst with
  | .OpNop op => .GroupCode (.OpNop op)
  | .OpUndef op => .GroupCode (.OpUndef op)
  | .OpSourceContinued op => .GroupDebug (.OpSourceContinued op)
  | .OpSource op => .GroupDebug (.OpSource op)
  | .OpSourceExtension op => .GroupDebug (.OpSourceExtension op)
  | .OpName op => .GroupDebug (.OpName op)
  | .OpMemberName op => .GroupDebug (.OpMemberName op)
  | .OpString op => .GroupDebug (.OpString op)
  | .OpExtension op => .OpExtension op
  | .OpExtInstImport op => .OpExtInstImport op
  | .OpExtInst op => .GroupCode (.OpExtInst op)
  | .OpMemoryModel op => .OpMemoryModel op
  | .OpEntryPoint op => .OpEntryPoint op
  | .OpExecutionMode op => .OpExecutionMode op
  | .OpCapability op => .OpCapability op
  | .OpTypeVoid op => .GroupGlobal (.GroupType (.OpTypeVoid op))
  | .OpTypeBool op => .GroupGlobal (.GroupType (.OpTypeBool op))
  | .OpTypeInt op => .GroupGlobal (.GroupType (.OpTypeInt op))
  | .OpTypeFloat op => .GroupGlobal (.GroupType (.OpTypeFloat op))
  | .OpTypeVector op => .GroupGlobal (.GroupType (.OpTypeVector op))
  | .OpTypeMatrix op => .GroupGlobal (.GroupType (.OpTypeMatrix op))
  | .OpTypeImage op => .GroupGlobal (.GroupType (.OpTypeImage op))
  | .OpTypeSampler op => .GroupGlobal (.GroupType (.OpTypeSampler op))
  | .OpTypeSampledImage op => .GroupGlobal (.GroupType (.OpTypeSampledImage op))
  | .OpTypeArray op => .GroupGlobal (.GroupType (.OpTypeArray op))
  | .OpTypeRuntimeArray op => .GroupGlobal (.GroupType (.OpTypeRuntimeArray op))
  | .OpTypeStruct op => .GroupGlobal (.GroupType (.OpTypeStruct op))
  | .OpTypeOpaque op => .GroupGlobal (.GroupType (.OpTypeOpaque op))
  | .OpTypePointer op => .GroupGlobal (.GroupType (.OpTypePointer op))
  | .OpTypeFunction op => .GroupGlobal (.GroupType (.OpTypeFunction op))
  | .OpTypeEvent op => .GroupGlobal (.GroupType (.OpTypeEvent op))
  | .OpTypeDeviceEvent op => .GroupGlobal (.GroupType (.OpTypeDeviceEvent op))
  | .OpTypeQueue op => .GroupGlobal (.GroupType (.OpTypeQueue op))
  | .OpTypePipe op => .GroupGlobal (.GroupType (.OpTypePipe op))
  | .OpTypeForwardPointer op => .GroupGlobal (.GroupType (.OpTypeForwardPointer op))
  | .OpConstant op => .GroupGlobal (.GroupConstant (.OpConstant op))
  | .OpConstantComposite op => .GroupGlobal (.GroupConstant (.OpConstantComposite op))
  | .OpFunction op => .OpFunction op
  | .OpFunctionParameter op => .OpFunctionParameter op
  | .OpFunctionEnd op => .OpFunctionEnd op
  | .OpVariable op => .ofVariable op
  | .OpLoad op => .GroupCode (.OpLoad op)
  | .OpStore op => .GroupCode (.OpStore op)
  | .OpAccessChain op => .GroupCode (.OpAccessChain op)
  | .OpDecorate op => .GroupAnnotation (.OpDecorate op)
  | .OpMemberDecorate op => .GroupAnnotation (.OpMemberDecorate op)
  | .OpConvertUToF op => .GroupCode (.OpConvertUToF op)
  | .OpBitcast op => .GroupCode (.OpBitcast op)
  | .OpIAdd op => .GroupCode (.OpIAdd op)
  | .OpFAdd op => .GroupCode (.OpFAdd op)
  | .OpISub op => .GroupCode (.OpISub op)
  | .OpFSub op => .GroupCode (.OpFSub op)
  | .OpIMul op => .GroupCode (.OpIMul op)
  | .OpFMul op => .GroupCode (.OpFMul op)
  | .OpUDiv op => .GroupCode (.OpUDiv op)
  | .OpSDiv op => .GroupCode (.OpSDiv op)
  | .OpFDiv op => .GroupCode (.OpFDiv op)
  | .OpUMod op => .GroupCode (.OpUMod op)
  | .OpSRem op => .GroupCode (.OpSRem op)
  | .OpSMod op => .GroupCode (.OpSMod op)
  | .OpFRem op => .GroupCode (.OpFRem op)
  | .OpFMod op => .GroupCode (.OpFMod op)
  | .OpIAddCarry op => .GroupCode (.OpIAddCarry op)
  | .OpISubBorrow op => .GroupCode (.OpISubBorrow op)
  | .OpUMulExtended op => .GroupCode (.OpUMulExtended op)
  | .OpSMulExtended op => .GroupCode (.OpSMulExtended op)
  | .OpBitwiseOr op => .GroupCode (.OpBitwiseOr op)
  | .OpBitwiseXor op => .GroupCode (.OpBitwiseXor op)
  | .OpBitwiseAnd op => .GroupCode (.OpBitwiseAnd op)
  | .OpIEqual op => .GroupCode (.OpIEqual op)
  | .OpINotEqual op => .GroupCode (.OpINotEqual op)
  | .OpUGreaterThan op => .GroupCode (.OpUGreaterThan op)
  | .OpSGreaterThan op => .GroupCode (.OpSGreaterThan op)
  | .OpUGreaterThanEqual op => .GroupCode (.OpUGreaterThanEqual op)
  | .OpSGreaterThanEqual op => .GroupCode (.OpSGreaterThanEqual op)
  | .OpULessThan op => .GroupCode (.OpULessThan op)
  | .OpSLessThan op => .GroupCode (.OpSLessThan op)
  | .OpULessThanEqual op => .GroupCode (.OpULessThanEqual op)
  | .OpSLessThanEqual op => .GroupCode (.OpSLessThanEqual op)
  | .OpFOrdEqual op => .GroupCode (.OpFOrdEqual op)
  | .OpFUnordEqual op => .GroupCode (.OpFUnordEqual op)
  | .OpFOrdNotEqual op => .GroupCode (.OpFOrdNotEqual op)
  | .OpFUnordNotEqual op => .GroupCode (.OpFUnordNotEqual op)
  | .OpFOrdLessThan op => .GroupCode (.OpFOrdLessThan op)
  | .OpFUnordLessThan op => .GroupCode (.OpFUnordLessThan op)
  | .OpFOrdGreaterThan op => .GroupCode (.OpFOrdGreaterThan op)
  | .OpFUnordGreaterThan op => .GroupCode (.OpFUnordGreaterThan op)
  | .OpFOrdLessThanEqual op => .GroupCode (.OpFOrdLessThanEqual op)
  | .OpFUnordLessThanEqual op => .GroupCode (.OpFUnordLessThanEqual op)
  | .OpFOrdGreaterThanEqual op => .GroupCode (.OpFOrdGreaterThanEqual op)
  | .OpFUnordGreaterThanEqual op => .GroupCode (.OpFUnordGreaterThanEqual op)
  | .OpPhi op => .GroupCode (.OpPhi op)
  | .OpLoopMerge op => .GroupMerge (.OpLoopMerge op)
  | .OpSelectionMerge op => .GroupMerge (.OpSelectionMerge op)
  | .OpLabel op => .OpLabel op
  | .OpBranch op => .GroupBranch (.OpBranch op)
  | .OpBranchConditional op => .GroupBranch (.OpBranchConditional op)
  | .OpReturn op => .GroupBranch (.OpReturn op)

end Magma
