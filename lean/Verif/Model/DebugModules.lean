import Verif.Model.DebugOps
import Verif.Model.Parser
import Verif.Model.ControlFlow
/-! Generated by `tools/gen_debug.py`: derived debug output; citations are to `/repo`. -/

namespace Magma

/-- src/glsl450/op.rs:7-10 -/
instance : Debug Glsl.Sin :=
  ⟨fun shown ⟨a0⟩ =>
    debugStruct "Sin" [("x", Debug.debug shown a0)]⟩

/-- src/glsl450/op.rs:24-27 -/
instance : Debug Glsl.Cos :=
  ⟨fun shown ⟨a0⟩ =>
    debugStruct "Cos" [("x", Debug.debug shown a0)]⟩

/-- src/glsl450/mod.rs:15-19: the names of the variants -/
def Glsl.Inst.debugName : Glsl.Inst → String
  | .Sin _ => "Sin"
  | .Cos _ => "Cos"

/-- src/glsl450/mod.rs:15-19: the fields of the variants -/
def Glsl.Inst.debugFields (shown : Char → Bool) : Glsl.Inst → List Text
  | .Sin a0 => [Debug.debug shown a0]
  | .Cos a0 => [Debug.debug shown a0]

/-- src/glsl450/mod.rs:15-19 -/
instance : Debug Glsl.Inst := ⟨fun shown x => debugTuple x.debugName (x.debugFields shown)⟩

/-- src/spv/logical/mod.rs:14-22: the names of the variants -/
def GroupDebug.debugName : GroupDebug → String
  | .OpSourceContinued _ => "OpSourceContinued"
  | .OpSource _ => "OpSource"
  | .OpSourceExtension _ => "OpSourceExtension"
  | .OpName _ => "OpName"
  | .OpMemberName _ => "OpMemberName"
  | .OpString _ => "OpString"

/-- src/spv/logical/mod.rs:14-22: the fields of the variants -/
def GroupDebug.debugFields (shown : Char → Bool) : GroupDebug → List Text
  | .OpSourceContinued a0 => [Debug.debug shown a0]
  | .OpSource a0 => [Debug.debug shown a0]
  | .OpSourceExtension a0 => [Debug.debug shown a0]
  | .OpName a0 => [Debug.debug shown a0]
  | .OpMemberName a0 => [Debug.debug shown a0]
  | .OpString a0 => [Debug.debug shown a0]

/-- src/spv/logical/mod.rs:14-22 -/
instance : Debug GroupDebug := ⟨fun shown x => debugTuple x.debugName (x.debugFields shown)⟩

/-- src/spv/logical/mod.rs:24-28: the names of the variants -/
def GroupAnnotation.debugName : GroupAnnotation → String
  | .OpDecorate _ => "OpDecorate"
  | .OpMemberDecorate _ => "OpMemberDecorate"

/-- src/spv/logical/mod.rs:24-28: the fields of the variants -/
def GroupAnnotation.debugFields (shown : Char → Bool) : GroupAnnotation → List Text
  | .OpDecorate a0 => [Debug.debug shown a0]
  | .OpMemberDecorate a0 => [Debug.debug shown a0]

/-- src/spv/logical/mod.rs:24-28 -/
instance : Debug GroupAnnotation := ⟨fun shown x => debugTuple x.debugName (x.debugFields shown)⟩

/-- src/spv/logical/mod.rs:30-52: the names of the variants -/
def GroupType.debugName : GroupType → String
  | .OpTypeVoid _ => "OpTypeVoid"
  | .OpTypeBool _ => "OpTypeBool"
  | .OpTypeInt _ => "OpTypeInt"
  | .OpTypeFloat _ => "OpTypeFloat"
  | .OpTypeVector _ => "OpTypeVector"
  | .OpTypeMatrix _ => "OpTypeMatrix"
  | .OpTypeImage _ => "OpTypeImage"
  | .OpTypeSampler _ => "OpTypeSampler"
  | .OpTypeSampledImage _ => "OpTypeSampledImage"
  | .OpTypeArray _ => "OpTypeArray"
  | .OpTypeRuntimeArray _ => "OpTypeRuntimeArray"
  | .OpTypeStruct _ => "OpTypeStruct"
  | .OpTypeOpaque _ => "OpTypeOpaque"
  | .OpTypePointer _ => "OpTypePointer"
  | .OpTypeFunction _ => "OpTypeFunction"
  | .OpTypeEvent _ => "OpTypeEvent"
  | .OpTypeDeviceEvent _ => "OpTypeDeviceEvent"
  | .OpTypeQueue _ => "OpTypeQueue"
  | .OpTypePipe _ => "OpTypePipe"
  | .OpTypeForwardPointer _ => "OpTypeForwardPointer"

/-- src/spv/logical/mod.rs:30-52: the fields of the variants -/
def GroupType.debugFields (shown : Char → Bool) : GroupType → List Text
  | .OpTypeVoid a0 => [Debug.debug shown a0]
  | .OpTypeBool a0 => [Debug.debug shown a0]
  | .OpTypeInt a0 => [Debug.debug shown a0]
  | .OpTypeFloat a0 => [Debug.debug shown a0]
  | .OpTypeVector a0 => [Debug.debug shown a0]
  | .OpTypeMatrix a0 => [Debug.debug shown a0]
  | .OpTypeImage a0 => [Debug.debug shown a0]
  | .OpTypeSampler a0 => [Debug.debug shown a0]
  | .OpTypeSampledImage a0 => [Debug.debug shown a0]
  | .OpTypeArray a0 => [Debug.debug shown a0]
  | .OpTypeRuntimeArray a0 => [Debug.debug shown a0]
  | .OpTypeStruct a0 => [Debug.debug shown a0]
  | .OpTypeOpaque a0 => [Debug.debug shown a0]
  | .OpTypePointer a0 => [Debug.debug shown a0]
  | .OpTypeFunction a0 => [Debug.debug shown a0]
  | .OpTypeEvent a0 => [Debug.debug shown a0]
  | .OpTypeDeviceEvent a0 => [Debug.debug shown a0]
  | .OpTypeQueue a0 => [Debug.debug shown a0]
  | .OpTypePipe a0 => [Debug.debug shown a0]
  | .OpTypeForwardPointer a0 => [Debug.debug shown a0]

/-- src/spv/logical/mod.rs:30-52 -/
instance : Debug GroupType := ⟨fun shown x => debugTuple x.debugName (x.debugFields shown)⟩

/-- src/spv/logical/mod.rs:54-58: the names of the variants -/
def GroupConstant.debugName : GroupConstant → String
  | .OpConstant _ => "OpConstant"
  | .OpConstantComposite _ => "OpConstantComposite"

/-- src/spv/logical/mod.rs:54-58: the fields of the variants -/
def GroupConstant.debugFields (shown : Char → Bool) : GroupConstant → List Text
  | .OpConstant a0 => [Debug.debug shown a0]
  | .OpConstantComposite a0 => [Debug.debug shown a0]

/-- src/spv/logical/mod.rs:54-58 -/
instance : Debug GroupConstant := ⟨fun shown x => debugTuple x.debugName (x.debugFields shown)⟩

/-- src/spv/logical/mod.rs:60-66: the names of the variants -/
def GroupGlobal.debugName : GroupGlobal → String
  | .GroupType _ => "GroupType"
  | .GroupConstant _ => "GroupConstant"
  | .OpVariable _ => "OpVariable"

/-- src/spv/logical/mod.rs:60-66: the fields of the variants -/
def GroupGlobal.debugFields (shown : Char → Bool) : GroupGlobal → List Text
  | .GroupType a0 => [Debug.debug shown a0]
  | .GroupConstant a0 => [Debug.debug shown a0]
  | .OpVariable a0 => [Debug.debug shown a0]

/-- src/spv/logical/mod.rs:60-66 -/
instance : Debug GroupGlobal := ⟨fun shown x => debugTuple x.debugName (x.debugFields shown)⟩

/-- src/spv/logical/mod.rs:68-124: the names of the variants -/
def GroupCode.debugName {X : Type} : GroupCode X → String
  | .OpNop _ => "OpNop"
  | .OpUndef _ => "OpUndef"
  | .OpExtInst _ => "OpExtInst"
  | .OpVariable _ => "OpVariable"
  | .OpLoad _ => "OpLoad"
  | .OpStore _ => "OpStore"
  | .OpAccessChain _ => "OpAccessChain"
  | .OpConvertUToF _ => "OpConvertUToF"
  | .OpBitcast _ => "OpBitcast"
  | .OpIAdd _ => "OpIAdd"
  | .OpFAdd _ => "OpFAdd"
  | .OpISub _ => "OpISub"
  | .OpFSub _ => "OpFSub"
  | .OpIMul _ => "OpIMul"
  | .OpFMul _ => "OpFMul"
  | .OpUDiv _ => "OpUDiv"
  | .OpSDiv _ => "OpSDiv"
  | .OpFDiv _ => "OpFDiv"
  | .OpUMod _ => "OpUMod"
  | .OpSRem _ => "OpSRem"
  | .OpSMod _ => "OpSMod"
  | .OpFRem _ => "OpFRem"
  | .OpFMod _ => "OpFMod"
  | .OpIAddCarry _ => "OpIAddCarry"
  | .OpISubBorrow _ => "OpISubBorrow"
  | .OpUMulExtended _ => "OpUMulExtended"
  | .OpSMulExtended _ => "OpSMulExtended"
  | .OpBitwiseOr _ => "OpBitwiseOr"
  | .OpBitwiseXor _ => "OpBitwiseXor"
  | .OpBitwiseAnd _ => "OpBitwiseAnd"
  | .OpIEqual _ => "OpIEqual"
  | .OpINotEqual _ => "OpINotEqual"
  | .OpUGreaterThan _ => "OpUGreaterThan"
  | .OpSGreaterThan _ => "OpSGreaterThan"
  | .OpUGreaterThanEqual _ => "OpUGreaterThanEqual"
  | .OpSGreaterThanEqual _ => "OpSGreaterThanEqual"
  | .OpULessThan _ => "OpULessThan"
  | .OpSLessThan _ => "OpSLessThan"
  | .OpULessThanEqual _ => "OpULessThanEqual"
  | .OpSLessThanEqual _ => "OpSLessThanEqual"
  | .OpFOrdEqual _ => "OpFOrdEqual"
  | .OpFUnordEqual _ => "OpFUnordEqual"
  | .OpFOrdNotEqual _ => "OpFOrdNotEqual"
  | .OpFUnordNotEqual _ => "OpFUnordNotEqual"
  | .OpFOrdLessThan _ => "OpFOrdLessThan"
  | .OpFUnordLessThan _ => "OpFUnordLessThan"
  | .OpFOrdGreaterThan _ => "OpFOrdGreaterThan"
  | .OpFUnordGreaterThan _ => "OpFUnordGreaterThan"
  | .OpFOrdLessThanEqual _ => "OpFOrdLessThanEqual"
  | .OpFUnordLessThanEqual _ => "OpFUnordLessThanEqual"
  | .OpFOrdGreaterThanEqual _ => "OpFOrdGreaterThanEqual"
  | .OpFUnordGreaterThanEqual _ => "OpFUnordGreaterThanEqual"
  | .OpPhi _ => "OpPhi"

/-- src/spv/logical/mod.rs:68-124: the fields of the variants -/
def GroupCode.debugFields {X : Type} [Debug X] (shown : Char → Bool) : GroupCode X → List Text
  | .OpNop a0 => [Debug.debug shown a0]
  | .OpUndef a0 => [Debug.debug shown a0]
  | .OpExtInst a0 => [Debug.debug shown a0]
  | .OpVariable a0 => [Debug.debug shown a0]
  | .OpLoad a0 => [Debug.debug shown a0]
  | .OpStore a0 => [Debug.debug shown a0]
  | .OpAccessChain a0 => [Debug.debug shown a0]
  | .OpConvertUToF a0 => [Debug.debug shown a0]
  | .OpBitcast a0 => [Debug.debug shown a0]
  | .OpIAdd a0 => [Debug.debug shown a0]
  | .OpFAdd a0 => [Debug.debug shown a0]
  | .OpISub a0 => [Debug.debug shown a0]
  | .OpFSub a0 => [Debug.debug shown a0]
  | .OpIMul a0 => [Debug.debug shown a0]
  | .OpFMul a0 => [Debug.debug shown a0]
  | .OpUDiv a0 => [Debug.debug shown a0]
  | .OpSDiv a0 => [Debug.debug shown a0]
  | .OpFDiv a0 => [Debug.debug shown a0]
  | .OpUMod a0 => [Debug.debug shown a0]
  | .OpSRem a0 => [Debug.debug shown a0]
  | .OpSMod a0 => [Debug.debug shown a0]
  | .OpFRem a0 => [Debug.debug shown a0]
  | .OpFMod a0 => [Debug.debug shown a0]
  | .OpIAddCarry a0 => [Debug.debug shown a0]
  | .OpISubBorrow a0 => [Debug.debug shown a0]
  | .OpUMulExtended a0 => [Debug.debug shown a0]
  | .OpSMulExtended a0 => [Debug.debug shown a0]
  | .OpBitwiseOr a0 => [Debug.debug shown a0]
  | .OpBitwiseXor a0 => [Debug.debug shown a0]
  | .OpBitwiseAnd a0 => [Debug.debug shown a0]
  | .OpIEqual a0 => [Debug.debug shown a0]
  | .OpINotEqual a0 => [Debug.debug shown a0]
  | .OpUGreaterThan a0 => [Debug.debug shown a0]
  | .OpSGreaterThan a0 => [Debug.debug shown a0]
  | .OpUGreaterThanEqual a0 => [Debug.debug shown a0]
  | .OpSGreaterThanEqual a0 => [Debug.debug shown a0]
  | .OpULessThan a0 => [Debug.debug shown a0]
  | .OpSLessThan a0 => [Debug.debug shown a0]
  | .OpULessThanEqual a0 => [Debug.debug shown a0]
  | .OpSLessThanEqual a0 => [Debug.debug shown a0]
  | .OpFOrdEqual a0 => [Debug.debug shown a0]
  | .OpFUnordEqual a0 => [Debug.debug shown a0]
  | .OpFOrdNotEqual a0 => [Debug.debug shown a0]
  | .OpFUnordNotEqual a0 => [Debug.debug shown a0]
  | .OpFOrdLessThan a0 => [Debug.debug shown a0]
  | .OpFUnordLessThan a0 => [Debug.debug shown a0]
  | .OpFOrdGreaterThan a0 => [Debug.debug shown a0]
  | .OpFUnordGreaterThan a0 => [Debug.debug shown a0]
  | .OpFOrdLessThanEqual a0 => [Debug.debug shown a0]
  | .OpFUnordLessThanEqual a0 => [Debug.debug shown a0]
  | .OpFOrdGreaterThanEqual a0 => [Debug.debug shown a0]
  | .OpFUnordGreaterThanEqual a0 => [Debug.debug shown a0]
  | .OpPhi a0 => [Debug.debug shown a0]

/-- src/spv/logical/mod.rs:68-124 -/
instance {X : Type} [Debug X] : Debug (GroupCode X) := ⟨fun shown x => debugTuple x.debugName (x.debugFields shown)⟩

/-- src/spv/logical/mod.rs:187-191: the names of the variants -/
def GroupMerge.debugName : GroupMerge → String
  | .OpLoopMerge _ => "OpLoopMerge"
  | .OpSelectionMerge _ => "OpSelectionMerge"

/-- src/spv/logical/mod.rs:187-191: the fields of the variants -/
def GroupMerge.debugFields (shown : Char → Bool) : GroupMerge → List Text
  | .OpLoopMerge a0 => [Debug.debug shown a0]
  | .OpSelectionMerge a0 => [Debug.debug shown a0]

/-- src/spv/logical/mod.rs:187-191 -/
instance : Debug GroupMerge := ⟨fun shown x => debugTuple x.debugName (x.debugFields shown)⟩

/-- src/spv/logical/mod.rs:193-198: the names of the variants -/
def GroupBranch.debugName : GroupBranch → String
  | .OpBranch _ => "OpBranch"
  | .OpBranchConditional _ => "OpBranchConditional"
  | .OpReturn _ => "OpReturn"

/-- src/spv/logical/mod.rs:193-198: the fields of the variants -/
def GroupBranch.debugFields (shown : Char → Bool) : GroupBranch → List Text
  | .OpBranch a0 => [Debug.debug shown a0]
  | .OpBranchConditional a0 => [Debug.debug shown a0]
  | .OpReturn a0 => [Debug.debug shown a0]

/-- src/spv/logical/mod.rs:193-198 -/
instance : Debug GroupBranch := ⟨fun shown x => debugTuple x.debugName (x.debugFields shown)⟩

/-- src/spv/logical/parser/mod.rs:18-36: the names of the variants -/
def OpByBlock.debugName {X : Type} : OpByBlock X → String
  | .OpCapability _ => "OpCapability"
  | .OpExtension _ => "OpExtension"
  | .OpExtInstImport _ => "OpExtInstImport"
  | .OpMemoryModel _ => "OpMemoryModel"
  | .OpEntryPoint _ => "OpEntryPoint"
  | .OpExecutionMode _ => "OpExecutionMode"
  | .GroupDebug _ => "GroupDebug"
  | .GroupAnnotation _ => "GroupAnnotation"
  | .GroupGlobal _ => "GroupGlobal"
  | .OpFunction _ => "OpFunction"
  | .OpFunctionParameter _ => "OpFunctionParameter"
  | .OpFunctionEnd _ => "OpFunctionEnd"
  | .OpLabel _ => "OpLabel"
  | .GroupCode _ => "GroupCode"
  | .GroupMerge _ => "GroupMerge"
  | .GroupBranch _ => "GroupBranch"

/-- src/spv/logical/parser/mod.rs:18-36: the fields of the variants -/
def OpByBlock.debugFields {X : Type} [Debug X] (shown : Char → Bool) : OpByBlock X → List Text
  | .OpCapability a0 => [Debug.debug shown a0]
  | .OpExtension a0 => [Debug.debug shown a0]
  | .OpExtInstImport a0 => [Debug.debug shown a0]
  | .OpMemoryModel a0 => [Debug.debug shown a0]
  | .OpEntryPoint a0 => [Debug.debug shown a0]
  | .OpExecutionMode a0 => [Debug.debug shown a0]
  | .GroupDebug a0 => [Debug.debug shown a0]
  | .GroupAnnotation a0 => [Debug.debug shown a0]
  | .GroupGlobal a0 => [Debug.debug shown a0]
  | .OpFunction a0 => [Debug.debug shown a0]
  | .OpFunctionParameter a0 => [Debug.debug shown a0]
  | .OpFunctionEnd a0 => [Debug.debug shown a0]
  | .OpLabel a0 => [Debug.debug shown a0]
  | .GroupCode a0 => [Debug.debug shown a0]
  | .GroupMerge a0 => [Debug.debug shown a0]
  | .GroupBranch a0 => [Debug.debug shown a0]

/-- src/spv/logical/parser/mod.rs:18-36 -/
instance {X : Type} [Debug X] : Debug (OpByBlock X) := ⟨fun shown x => debugTuple x.debugName (x.debugFields shown)⟩

/-- src/spv/logical/mod.rs:211-215 -/
instance : Debug FunctionDeclaration :=
  ⟨fun shown ⟨a0, a1⟩ =>
    debugStruct "FunctionDeclaration" [("function", Debug.debug shown a0), ("parameters", Debug.debug shown a1)]⟩

/-- src/spv/logical/mod.rs:217-223 -/
instance {X : Type} [Debug X] : Debug (BasicBlock X) :=
  ⟨fun shown ⟨a0, a1, a2, a3⟩ =>
    debugStruct "BasicBlock" [("label", Debug.debug shown a0), ("code", Debug.debug shown a1), ("merge", Debug.debug shown a2), ("branch", Debug.debug shown a3)]⟩

/-- src/spv/logical/mod.rs:225-230 -/
instance {X : Type} [Debug X] : Debug (FunctionDefinition X) :=
  ⟨fun shown ⟨a0, a1, a2⟩ =>
    debugStruct "FunctionDefinition" [("function", Debug.debug shown a0), ("parameters", Debug.debug shown a1), ("blocks", Debug.debug shown a2)]⟩

/-- src/spv/logical/mod.rs:232-245 -/
instance {X : Type} [Debug X] : Debug (LogicalModule X) :=
  ⟨fun shown ⟨a0, a1, a2, a3, a4, a5, a6, a7, a8, a9, a10⟩ =>
    debugStruct "LogicalModule" [("capabilities", Debug.debug shown a0), ("extensions", Debug.debug shown a1), ("ext_inst_imports", Debug.debug shown a2), ("memory_model", Debug.debug shown a3), ("entry_points", Debug.debug shown a4), ("execution_modes", Debug.debug shown a5), ("debug", Debug.debug shown a6), ("annotations", Debug.debug shown a7), ("globals", Debug.debug shown a8), ("function_declarations", Debug.debug shown a9), ("function_definitions", Debug.debug shown a10)]⟩

/-- src/spv/logical/parser/parser.rs:8-15: the names of the variants -/
def ValidationError.debugName : ValidationError → String
  | .MemoryModelMissing => "MemoryModelMissing"
  | .ExpectedOpFunction _ => "ExpectedOpFunction"
  | .ExpectedOpFunctionEnd _ => "ExpectedOpFunctionEnd"
  | .ExpectedBranch _ => "ExpectedBranch"
  | .UnexpectedInstruction _ => "UnexpectedInstruction"

/-- src/spv/logical/parser/parser.rs:8-15: the fields of the variants -/
def ValidationError.debugFields (shown : Char → Bool) : ValidationError → List Text
  | .MemoryModelMissing => []
  | .ExpectedOpFunction a0 => [Debug.debug shown a0]
  | .ExpectedOpFunctionEnd a0 => [Debug.debug shown a0]
  | .ExpectedBranch a0 => [Debug.debug shown a0]
  | .UnexpectedInstruction a0 => [Debug.debug shown a0]

/-- src/spv/logical/parser/parser.rs:8-15 -/
instance : Debug ValidationError := ⟨fun shown x => debugTuple x.debugName (x.debugFields shown)⟩

/-- src/spv/logical/control_flow.rs:10-11 -/
instance : Debug BlockId :=
  ⟨fun shown ⟨a0⟩ =>
    debugTuple "BlockId" [Debug.debug shown a0]⟩

/-- src/spv/logical/control_flow.rs:136-140: the names of the variants -/
def ControlType.debugName : ControlType → String
  | .Selection => "Selection"
  | .Loop => "Loop"

/-- src/spv/logical/control_flow.rs:136-140 -/
instance : Debug ControlType := ⟨fun _ x => debugTuple x.debugName []⟩

/-- src/spv/logical/control_flow.rs:142-150: the names of the variants -/
def ControlFlowError.debugName : ControlFlowError → String
  | .DuplicateBlockId _ => "DuplicateBlockId"
  | .NoBlocks => "NoBlocks"
  | .UnknownBlockId _ => "UnknownBlockId"
  | .CouldNotPredictConverge _ => "CouldNotPredictConverge"
  | .InvalidConvergePrediction _ _ => "InvalidConvergePrediction"
  | .Failed => "Failed"

/-- src/spv/logical/control_flow.rs:142-150: the fields of the variants -/
def ControlFlowError.debugFields (shown : Char → Bool) : ControlFlowError → List Text
  | .DuplicateBlockId a0 => [Debug.debug shown a0]
  | .NoBlocks => []
  | .UnknownBlockId a0 => [Debug.debug shown a0]
  | .CouldNotPredictConverge a0 => [Debug.debug shown a0]
  | .InvalidConvergePrediction a0 a1 => [Debug.debug shown a0, Debug.debug shown a1]
  | .Failed => []

/-- src/spv/logical/control_flow.rs:142-150 -/
instance : Debug ControlFlowError := ⟨fun shown x => debugTuple x.debugName (x.debugFields shown)⟩

/-- src/spv/logical/control_flow.rs:188-192: the names of the variants -/
def Continue.debugName : Continue → String
  | .Next _ => "Next"
  | .Return => "Return"

/-- src/spv/logical/control_flow.rs:188-192: the fields of the variants -/
def Continue.debugFields (shown : Char → Bool) : Continue → List Text
  | .Next a0 => [Debug.debug shown a0]
  | .Return => []

/-- src/spv/logical/control_flow.rs:188-192 -/
instance : Debug Continue := ⟨fun shown x => debugTuple x.debugName (x.debugFields shown)⟩

/-- src/spv/logical/control_flow.rs:195-199: the names of the variants -/
def Converge.debugName : Converge → String
  | .If _ _ => "If"
  | .Loop _ _ _ => "Loop"

/-- src/spv/logical/control_flow.rs:195-199: the fields of the variants -/
def Converge.debugFields (shown : Char → Bool) : Converge → List Text
  | .If a0 a1 => [Debug.debug shown a0, Debug.debug shown a1]
  | .Loop a0 a1 a2 => [Debug.debug shown a0, Debug.debug shown a1, Debug.debug shown a2]

/-- src/spv/logical/control_flow.rs:195-199 -/
instance : Debug Converge := ⟨fun shown x => debugTuple x.debugName (x.debugFields shown)⟩

end Magma
