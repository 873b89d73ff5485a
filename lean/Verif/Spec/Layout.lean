import Verif.Model.Logical
/-! The logical layout of a module (SPIR-V 1.0, section 2.4), as the list of instructions that a
logical module stands for. -/

namespace Magma.Spec
variable {X : Type}

/-- Debug instructions -/
def debugInst : GroupDebug → Core X
  | .OpSourceContinued op => .OpSourceContinued op
  | .OpSource op => .OpSource op
  | .OpSourceExtension op => .OpSourceExtension op
  | .OpName op => .OpName op
  | .OpMemberName op => .OpMemberName op
  | .OpString op => .OpString op

/-- Annotations -/
def annotationInst : GroupAnnotation → Core X
  | .OpDecorate op => .OpDecorate op
  | .OpMemberDecorate op => .OpMemberDecorate op

/-- Types -/
def typeInst : GroupType → Core X
  | .OpTypeVoid op => .OpTypeVoid op
  | .OpTypeBool op => .OpTypeBool op
  | .OpTypeInt op => .OpTypeInt op
  | .OpTypeFloat op => .OpTypeFloat op
  | .OpTypeVector op => .OpTypeVector op
  | .OpTypeMatrix op => .OpTypeMatrix op
  | .OpTypeImage op => .OpTypeImage op
  | .OpTypeSampler op => .OpTypeSampler op
  | .OpTypeSampledImage op => .OpTypeSampledImage op
  | .OpTypeArray op => .OpTypeArray op
  | .OpTypeRuntimeArray op => .OpTypeRuntimeArray op
  | .OpTypeStruct op => .OpTypeStruct op
  | .OpTypeOpaque op => .OpTypeOpaque op
  | .OpTypePointer op => .OpTypePointer op
  | .OpTypeFunction op => .OpTypeFunction op
  | .OpTypeEvent op => .OpTypeEvent op
  | .OpTypeDeviceEvent op => .OpTypeDeviceEvent op
  | .OpTypeQueue op => .OpTypeQueue op
  | .OpTypePipe op => .OpTypePipe op
  | .OpTypeForwardPointer op => .OpTypeForwardPointer op

/-- Constants -/
def constantInst : GroupConstant → Core X
  | .OpConstant op => .OpConstant op
  | .OpConstantComposite op => .OpConstantComposite op

/-- Types, constants and global variables -/
def globalInst : GroupGlobal → Core X
  | .GroupType t => typeInst t
  | .GroupConstant c => constantInst c
  | .OpVariable op => .OpVariable op

/-- Instructions inside a block -/
def codeInst : GroupCode X → Core X
  | .OpNop op => .OpNop op
  | .OpUndef op => .OpUndef op
  | .OpExtInst op => .OpExtInst op
  | .OpVariable op => .OpVariable op
  | .OpLoad op => .OpLoad op
  | .OpStore op => .OpStore op
  | .OpAccessChain op => .OpAccessChain op
  | .OpConvertUToF op => .OpConvertUToF op
  | .OpBitcast op => .OpBitcast op
  | .OpIAdd op => .OpIAdd op
  | .OpFAdd op => .OpFAdd op
  | .OpISub op => .OpISub op
  | .OpFSub op => .OpFSub op
  | .OpIMul op => .OpIMul op
  | .OpFMul op => .OpFMul op
  | .OpUDiv op => .OpUDiv op
  | .OpSDiv op => .OpSDiv op
  | .OpFDiv op => .OpFDiv op
  | .OpUMod op => .OpUMod op
  | .OpSRem op => .OpSRem op
  | .OpSMod op => .OpSMod op
  | .OpFRem op => .OpFRem op
  | .OpFMod op => .OpFMod op
  | .OpIAddCarry op => .OpIAddCarry op
  | .OpISubBorrow op => .OpISubBorrow op
  | .OpUMulExtended op => .OpUMulExtended op
  | .OpSMulExtended op => .OpSMulExtended op
  | .OpBitwiseOr op => .OpBitwiseOr op
  | .OpBitwiseXor op => .OpBitwiseXor op
  | .OpBitwiseAnd op => .OpBitwiseAnd op
  | .OpIEqual op => .OpIEqual op
  | .OpINotEqual op => .OpINotEqual op
  | .OpUGreaterThan op => .OpUGreaterThan op
  | .OpSGreaterThan op => .OpSGreaterThan op
  | .OpUGreaterThanEqual op => .OpUGreaterThanEqual op
  | .OpSGreaterThanEqual op => .OpSGreaterThanEqual op
  | .OpULessThan op => .OpULessThan op
  | .OpSLessThan op => .OpSLessThan op
  | .OpULessThanEqual op => .OpULessThanEqual op
  | .OpSLessThanEqual op => .OpSLessThanEqual op
  | .OpFOrdEqual op => .OpFOrdEqual op
  | .OpFUnordEqual op => .OpFUnordEqual op
  | .OpFOrdNotEqual op => .OpFOrdNotEqual op
  | .OpFUnordNotEqual op => .OpFUnordNotEqual op
  | .OpFOrdLessThan op => .OpFOrdLessThan op
  | .OpFUnordLessThan op => .OpFUnordLessThan op
  | .OpFOrdGreaterThan op => .OpFOrdGreaterThan op
  | .OpFUnordGreaterThan op => .OpFUnordGreaterThan op
  | .OpFOrdLessThanEqual op => .OpFOrdLessThanEqual op
  | .OpFUnordLessThanEqual op => .OpFUnordLessThanEqual op
  | .OpFOrdGreaterThanEqual op => .OpFOrdGreaterThanEqual op
  | .OpFUnordGreaterThanEqual op => .OpFUnordGreaterThanEqual op
  | .OpPhi op => .OpPhi op

/-- Merge instructions -/
def mergeInst : GroupMerge → Core X
  | .OpLoopMerge op => .OpLoopMerge op
  | .OpSelectionMerge op => .OpSelectionMerge op

/-- Instructions that end a block -/
def branchInst : GroupBranch → Core X
  | .OpBranch op => .OpBranch op
  | .OpBranchConditional op => .OpBranchConditional op
  | .OpReturn op => .OpReturn op

/-- A block: its label, its code, perhaps a merge instruction, and the instruction that ends it -/
def blockInsts (b : BasicBlock X) : List (Core X) :=
  .OpLabel b.label :: (b.code.map codeInst ++ b.merge.toList.map mergeInst ++ [branchInst b.branch])

/-- A function without body -/
def declarationInsts (d : FunctionDeclaration) : List (Core X) :=
  .OpFunction d.function :: (d.parameters.map .OpFunctionParameter ++ [.OpFunctionEnd {}])

/-- A function with its blocks -/
def definitionInsts (d : FunctionDefinition X) : List (Core X) :=
  .OpFunction d.function ::
    (d.parameters.map .OpFunctionParameter ++ d.blocks.flatMap blockInsts ++ [.OpFunctionEnd {}])

/-- All instructions of a module in the order of the standard -/
def layout (m : LogicalModule X) : List (Core X) :=
  m.capabilities.map (fun c => .OpCapability { capability := c }) ++
  m.extensions.map (fun n => .OpExtension { name := n }) ++
  m.ext_inst_imports.map .OpExtInstImport ++
  [.OpMemoryModel m.memory_model] ++
  m.entry_points.map .OpEntryPoint ++
  m.execution_modes.map .OpExecutionMode ++
  m.debug.map debugInst ++
  m.annotations.map annotationInst ++
  m.globals.map globalInst ++
  m.function_declarations.flatMap declarationInsts ++
  m.function_definitions.flatMap definitionInsts

/-- Variables of a function are in its blocks, all others are global. -/
structure VariablesPlaced (m : LogicalModule X) : Prop where
  inGlobals : ∀ v, .OpVariable v ∈ m.globals → v.storage_class ≠ .Function
  inBlocks : ∀ d ∈ m.function_definitions, ∀ b ∈ d.blocks, ∀ v, .OpVariable v ∈ b.code →
    v.storage_class = .Function

/-- `m` is the reading of the instructions `insts`. A function without blocks counts as a
declaration as long as no function with blocks precedes it. -/
structure IsLayout (insts : List (Core X)) (m : LogicalModule X) : Prop where
  insts_eq : insts = layout m
  placed : VariablesPlaced m
  declared : ∀ d ds, m.function_definitions = d :: ds → d.blocks ≠ []

end Magma.Spec
