import Verif.Spec.Encoding
import Verif.Model.Module
/-! What the disassembly of an instruction and of a module looks like. Nothing here calls the
printers of the model. -/

namespace Magma.Spec

/-- The instruction names of the SPIR-V 1.0 standard, by opcode -/
def mnemonics : List (Nat × String) :=
  [(0, "OpNop"),
   (1, "OpUndef"),
   (2, "OpSourceContinued"),
   (3, "OpSource"),
   (4, "OpSourceExtension"),
   (5, "OpName"),
   (6, "OpMemberName"),
   (7, "OpString"),
   (10, "OpExtension"),
   (11, "OpExtInstImport"),
   (12, "OpExtInst"),
   (14, "OpMemoryModel"),
   (15, "OpEntryPoint"),
   (16, "OpExecutionMode"),
   (17, "OpCapability"),
   (19, "OpTypeVoid"),
   (20, "OpTypeBool"),
   (21, "OpTypeInt"),
   (22, "OpTypeFloat"),
   (23, "OpTypeVector"),
   (24, "OpTypeMatrix"),
   (25, "OpTypeImage"),
   (26, "OpTypeSampler"),
   (27, "OpTypeSampledImage"),
   (28, "OpTypeArray"),
   (29, "OpTypeRuntimeArray"),
   (30, "OpTypeStruct"),
   (31, "OpTypeOpaque"),
   (32, "OpTypePointer"),
   (33, "OpTypeFunction"),
   (34, "OpTypeEvent"),
   (35, "OpTypeDeviceEvent"),
   (37, "OpTypeQueue"),
   (38, "OpTypePipe"),
   (39, "OpTypeForwardPointer"),
   (43, "OpConstant"),
   (44, "OpConstantComposite"),
   (54, "OpFunction"),
   (55, "OpFunctionParameter"),
   (56, "OpFunctionEnd"),
   (59, "OpVariable"),
   (61, "OpLoad"),
   (62, "OpStore"),
   (65, "OpAccessChain"),
   (71, "OpDecorate"),
   (72, "OpMemberDecorate"),
   (112, "OpConvertUToF"),
   (124, "OpBitcast"),
   (128, "OpIAdd"),
   (129, "OpFAdd"),
   (130, "OpISub"),
   (131, "OpFSub"),
   (132, "OpIMul"),
   (133, "OpFMul"),
   (134, "OpUDiv"),
   (135, "OpSDiv"),
   (136, "OpFDiv"),
   (137, "OpUMod"),
   (138, "OpSRem"),
   (139, "OpSMod"),
   (140, "OpFRem"),
   (141, "OpFMod"),
   (149, "OpIAddCarry"),
   (150, "OpISubBorrow"),
   (151, "OpUMulExtended"),
   (152, "OpSMulExtended"),
   (170, "OpIEqual"),
   (171, "OpINotEqual"),
   (172, "OpUGreaterThan"),
   (173, "OpSGreaterThan"),
   (174, "OpUGreaterThanEqual"),
   (175, "OpSGreaterThanEqual"),
   (176, "OpULessThan"),
   (177, "OpSLessThan"),
   (178, "OpULessThanEqual"),
   (179, "OpSLessThanEqual"),
   (180, "OpFOrdEqual"),
   (181, "OpFUnordEqual"),
   (182, "OpFOrdNotEqual"),
   (183, "OpFUnordNotEqual"),
   (184, "OpFOrdLessThan"),
   (185, "OpFUnordLessThan"),
   (186, "OpFOrdGreaterThan"),
   (187, "OpFUnordGreaterThan"),
   (188, "OpFOrdLessThanEqual"),
   (189, "OpFUnordLessThanEqual"),
   (190, "OpFOrdGreaterThanEqual"),
   (191, "OpFUnordGreaterThanEqual"),
   (197, "OpBitwiseOr"),
   (198, "OpBitwiseXor"),
   (199, "OpBitwiseAnd"),
   (245, "OpPhi"),
   (246, "OpLoopMerge"),
   (247, "OpSelectionMerge"),
   (248, "OpLabel"),
   (249, "OpBranch"),
   (250, "OpBranchConditional"),
   (253, "OpReturn")]

/-- The result id, for the instructions that have one -/
def resultId {X : Type} : Core X → Option UInt32
  | .OpNop _ => none
  | .OpUndef op => some op.result_id.val
  | .OpSourceContinued _ => none
  | .OpSource _ => none
  | .OpSourceExtension _ => none
  | .OpName _ => none
  | .OpMemberName _ => none
  | .OpString op => some op.result_id.val
  | .OpExtension _ => none
  | .OpExtInstImport op => some op.result_id.val
  | .OpExtInst op => some op.result_id.val
  | .OpMemoryModel _ => none
  | .OpEntryPoint _ => none
  | .OpExecutionMode _ => none
  | .OpCapability _ => none
  | .OpTypeVoid op => some op.result_id.val
  | .OpTypeBool op => some op.result_id.val
  | .OpTypeInt op => some op.result_id.val
  | .OpTypeFloat op => some op.result_id.val
  | .OpTypeVector op => some op.result_id.val
  | .OpTypeMatrix op => some op.result_id.val
  | .OpTypeImage op => some op.result_id.val
  | .OpTypeSampler op => some op.result_id.val
  | .OpTypeSampledImage op => some op.result_id.val
  | .OpTypeArray op => some op.result_id.val
  | .OpTypeRuntimeArray op => some op.result_id.val
  | .OpTypeStruct op => some op.result_id.val
  | .OpTypeOpaque op => some op.result_id.val
  | .OpTypePointer op => some op.result_id.val
  | .OpTypeFunction op => some op.result_id.val
  | .OpTypeEvent op => some op.result_id.val
  | .OpTypeDeviceEvent op => some op.result_id.val
  | .OpTypeQueue op => some op.result_id.val
  | .OpTypePipe op => some op.result_id.val
  | .OpTypeForwardPointer _ => none
  | .OpConstant op => some op.result_id.val
  | .OpConstantComposite op => some op.result_id.val
  | .OpFunction op => some op.result_id.val
  | .OpFunctionParameter op => some op.result_id.val
  | .OpFunctionEnd _ => none
  | .OpVariable op => some op.result_id.val
  | .OpLoad op => some op.result_id.val
  | .OpStore _ => none
  | .OpAccessChain op => some op.result_id.val
  | .OpDecorate _ => none
  | .OpMemberDecorate _ => none
  | .OpConvertUToF op => some op.result_id.val
  | .OpBitcast op => some op.result_id.val
  | .OpIAdd op => some op.result_id.val
  | .OpFAdd op => some op.result_id.val
  | .OpISub op => some op.result_id.val
  | .OpFSub op => some op.result_id.val
  | .OpIMul op => some op.result_id.val
  | .OpFMul op => some op.result_id.val
  | .OpUDiv op => some op.result_id.val
  | .OpSDiv op => some op.result_id.val
  | .OpFDiv op => some op.result_id.val
  | .OpUMod op => some op.result_id.val
  | .OpSRem op => some op.result_id.val
  | .OpSMod op => some op.result_id.val
  | .OpFRem op => some op.result_id.val
  | .OpFMod op => some op.result_id.val
  | .OpIAddCarry op => some op.result_id.val
  | .OpISubBorrow op => some op.result_id.val
  | .OpUMulExtended op => some op.result_id.val
  | .OpSMulExtended op => some op.result_id.val
  | .OpBitwiseOr op => some op.result_id.val
  | .OpBitwiseXor op => some op.result_id.val
  | .OpBitwiseAnd op => some op.result_id.val
  | .OpIEqual op => some op.result_id.val
  | .OpINotEqual op => some op.result_id.val
  | .OpUGreaterThan op => some op.result_id.val
  | .OpSGreaterThan op => some op.result_id.val
  | .OpUGreaterThanEqual op => some op.result_id.val
  | .OpSGreaterThanEqual op => some op.result_id.val
  | .OpULessThan op => some op.result_id.val
  | .OpSLessThan op => some op.result_id.val
  | .OpULessThanEqual op => some op.result_id.val
  | .OpSLessThanEqual op => some op.result_id.val
  | .OpFOrdEqual op => some op.result_id.val
  | .OpFUnordEqual op => some op.result_id.val
  | .OpFOrdNotEqual op => some op.result_id.val
  | .OpFUnordNotEqual op => some op.result_id.val
  | .OpFOrdLessThan op => some op.result_id.val
  | .OpFUnordLessThan op => some op.result_id.val
  | .OpFOrdGreaterThan op => some op.result_id.val
  | .OpFUnordGreaterThan op => some op.result_id.val
  | .OpFOrdLessThanEqual op => some op.result_id.val
  | .OpFUnordLessThanEqual op => some op.result_id.val
  | .OpFOrdGreaterThanEqual op => some op.result_id.val
  | .OpFUnordGreaterThanEqual op => some op.result_id.val
  | .OpPhi op => some op.result_id.val
  | .OpLoopMerge _ => none
  | .OpSelectionMerge _ => none
  | .OpLabel op => some op.result_id.val
  | .OpBranch _ => none
  | .OpBranchConditional _ => none
  | .OpReturn _ => none

/-- Decimal notation -/
def decimal (n : Nat) : Text := (toString n).toList

/-- The first 15 columns: the result id, right-aligned in 12 columns, and an equals sign; blank for
an instruction without result -/
def leftColumn : Option UInt32 → Text
  | none => List.replicate 15 ' '
  | some id =>
    let text := '%' :: decimal id.toNat
    List.replicate (12 - text.length) ' ' ++ text ++ [' ', '=', ' ']

/-- The strings in a decoration -/
def decorationStrings : Decoration → List String
  | .LinkageAttributes s _ => [s]
  | _ => []

/-- The literal strings of an instruction -/
def strings {X : Type} : Core X → List String
  | .OpSourceContinued op => [op.continued_source]
  | .OpSource op => op.source.toList
  | .OpSourceExtension op => [op.extension]
  | .OpName op => [op.name]
  | .OpMemberName op => [op.name]
  | .OpString op => [op.string]
  | .OpExtension op => [op.name]
  | .OpExtInstImport op => [op.name]
  | .OpEntryPoint op => [op.name]
  | .OpTypeOpaque op => [op.name]
  | .OpDecorate op => decorationStrings op.decoration
  | .OpMemberDecorate op => decorationStrings op.decoration
  | _ => []

/-- After a newline in the string comes what instructions begin with: the left column and `Op` -/
def Forges (s : String) : Prop :=
  ∃ before id after, s.toList = before ++ '\n' :: (leftColumn id ++ 'O' :: 'p' :: after)

/-- The lines of a text: its parts that are ended by a newline, and the rest if there is one -/
def lines : Text → List Text
  | [] => []
  | c :: cs =>
    if c = '\n' then [] :: lines cs
    else match lines cs with
      | [] => [[c]]
      | l :: ls => (c :: l) :: ls

/-- The registered generators -/
def generatorName : Tool → String
  | .KhronosReserved => "Khronos"
  | .LunarG => "LunarG"
  | .Valve => "Valve"
  | .Codeplay => "Codeplay"
  | .Nvidia => "NVIDIA"
  | .Arm => "ARM"
  | .KhronosLLvmTranslator => "Khronos LLVM/SPIR-V Translator"
  | .KhronosAssembler => "Khronos SPIR-V Tools Assembler"
  | .KhronosGlslang => "Khronos Glslang Reference Front End"
  | .Qualcomm => "Qualcomm"
  | .Amd => "AMD"
  | .Intel => "Intel"
  | .Other _ => "Unknown"

/-- The five lines before the instructions -/
def headerLines {X : Type} (m : RawModule X) : List Text :=
  ["; SPIR-V".toList,
   "; Version: ".toList ++ decimal m.version.f0.toNat ++ ".".toList ++ decimal m.version.f1.toNat,
   "; Generator: ".toList ++ (generatorName m.generator.tool).toList ++ "; ".toList ++
     decimal m.generator.version.toNat,
   "; Bound: ".toList ++ decimal m.bound.toNat,
   "; Schema: 0".toList]

end Magma.Spec
