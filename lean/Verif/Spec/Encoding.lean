import Verif.Spec.Numbers
import Verif.Model.ReadCore
/-! What it means for words and bytes to spell an instruction or a module, after the SPIR-V 1.0
standard (sections 2.2, 2.3 and 3).  Nothing here calls the reader of the model; the only things
taken from the model are the data types of the API and, for extended instructions, the reading
function that the caller supplies with each instruction set.

The places where the reader accepts more than the standard are visible as: the `ignored` part of
`mask` operands, the padding after a string, the word count 0, and the version word. -/

namespace Magma.Spec

/-- The four bytes of a word, least significant first. -/
def wordBytes (w : UInt32) : List UInt8 :=
  [UInt8.ofNat w.toNat, UInt8.ofNat (w.toNat / 256), UInt8.ofNat (w.toNat / 65536),
   UInt8.ofNat (w.toNat / 16777216)]

/-- The UTF-8 bytes of a string -/
def stringBytes (s : String) : List UInt8 := s.toByteArray.data.toList

/-- `u` is a spelling of the literal string `s`: its bytes are those of `s`, a NUL, and padding up
to the end of the word (the standard asks for zero padding; the content of `pad` is not looked
at). The string itself must not contain a NUL. -/
def SpellsString (s : String) (u : List UInt32) : Prop :=
  ∃ pad : List UInt8, u.flatMap wordBytes = stringBytes s ++ 0 :: pad ∧ pad.length ≤ 3 ∧
    0 ∉ stringBytes s

/-- One item of the operand part of an instruction. -/
inductive Operand where
  /-- exactly this word -/
  | lit (w : UInt32)
  /-- a word that is `v` outside of the ignored bits -/
  | mask (ignored v : UInt32)
  /-- a literal string -/
  | str (s : String)
  /-- an optional operand is absent, or the operands of a variadic list are over: the words of
  the instruction must end here -/
  | done
  /-- something the binary form has no words for -/
  | never

/-- `Reads os ws rest`: the words `ws` start with a spelling of `os`, followed by `rest`. -/
def Reads : List Operand → List UInt32 → List UInt32 → Prop
  | [], ws, rest => ws = rest
  | .lit w :: os, ws, rest => ∃ ws', ws = w :: ws' ∧ Reads os ws' rest
  | .mask ignored v :: os, ws, rest => ∃ w ws', ws = w :: ws' ∧ w &&& ~~~ignored = v ∧ Reads os ws' rest
  | .str s :: os, ws, rest => ∃ u ws', ws = u ++ ws' ∧ SpellsString s u ∧ Reads os ws' rest
  | .done :: os, ws, rest => ws = [] ∧ Reads os ws rest
  | .never :: _, _, _ => False

/-- Operands of a value of an operand type. -/
class Encode (α : Type) where
  enc : α → List Operand

export Encode (enc)

instance : Encode UInt32 := ⟨fun w => [.lit w]⟩
instance : Encode OpId := ⟨fun i => [.lit i.val]⟩
instance : Encode ResultId := ⟨fun i => [.lit i.val]⟩
instance : Encode SourceVersion := ⟨fun i => [.lit i.val]⟩
instance : Encode MemberIndex := ⟨fun i => [.lit i.val]⟩
instance : Encode String := ⟨fun s => [.str s]⟩
/-- An optional operand is there if words are left. -/
instance {α : Type} [Encode α] : Encode (Option α) :=
  ⟨fun | some a => enc a
       | none => [.done]⟩
/-- A variadic operand takes all the words that are left. -/
instance {α : Type} [Encode α] : Encode (List α) := ⟨fun l => l.flatMap enc ++ [.done]⟩

instance : Encode BuiltIn := ⟨fun a => [.lit (builtInCode a)]⟩
instance : Encode FunctionParameterAttribute := ⟨fun a => [.lit (functionParameterAttributeCode a)]⟩
instance : Encode FpRoundingMode := ⟨fun a => [.lit (fpRoundingModeCode a)]⟩
instance : Encode LinkageType := ⟨fun a => [.lit (linkageTypeCode a)]⟩
instance : Encode AddressingModel := ⟨fun a => [.lit (addressingModelCode a)]⟩
instance : Encode MemoryModel := ⟨fun a => [.lit (memoryModelCode a)]⟩
instance : Encode ExecutionModel := ⟨fun a => [.lit (executionModelCode a)]⟩
instance : Encode Capability := ⟨fun a => [.lit (capabilityCode a)]⟩
instance : Encode Signedness := ⟨fun a => [.lit (signednessCode a)]⟩
instance : Encode StorageClass := ⟨fun a => [.lit (storageClassCode a)]⟩
instance : Encode Dim := ⟨fun a => [.lit (dimCode a)]⟩
instance : Encode DepthStatus := ⟨fun a => [.lit (depthStatusCode a)]⟩
instance : Encode Arrayed := ⟨fun a => [.lit (arrayedCode a)]⟩
instance : Encode MS := ⟨fun a => [.lit (mSCode a)]⟩
instance : Encode SampledStatus := ⟨fun a => [.lit (sampledStatusCode a)]⟩
instance : Encode ImageFormat := ⟨fun a => [.lit (imageFormatCode a)]⟩
instance : Encode AccessQualifier := ⟨fun a => [.lit (accessQualifierCode a)]⟩
/-- `Other n` is for numbers that have no name. -/
instance : Encode SourceLanguage :=
  ⟨fun | .Other n => if n ≤ 4 then [.never] else [.lit n]
       | l => [.lit (sourceLanguageCode l)]⟩

/-- The bit `i` if the flag is set -/
def bit (b : Bool) (i : UInt32) : UInt32 := if b then i else 0

/-- Function control: only the low four bits count. -/
instance : Encode FunctionControl :=
  ⟨fun c => [.mask 0xFFFFFFF0 (bit c.inline 1 ||| bit c.dont_inline 2 ||| bit c.pure_function 4 |||
    bit c.const_function 8)]⟩

/-- Memory access: the high 16 bits are not looked at. -/
instance : Encode MemoryAccess :=
  ⟨fun c => [.mask 0xFFFF0000 (bit c.volatile 1 ||| bit c.aligned 2 ||| bit c.non_temporal 4)]⟩

/-- Fast-math mode: the high 16 bits and bit 5 are not looked at. -/
instance : Encode FpFastMathMode :=
  ⟨fun c => [.mask 0xFFFF0020 (bit c.not_nan 1 ||| bit c.not_inf 2 ||| bit c.nsz 4 |||
    bit c.allow_recip 8 ||| bit c.fast 16)]⟩

/-- Loop control: the high 16 bits are not looked at; the dependency length follows its bit. -/
instance : Encode LoopControl :=
  ⟨fun c => .mask 0xFFFF0000 (bit c.unroll 1 ||| bit c.dont_unroll 2 |||
    bit c.dependency_infinite 4 ||| bit c.dependency_length.isSome 8) ::
    match c.dependency_length with
    | some n => [.lit n]
    | none => []⟩

/-- Selection control: the high 16 bits are not looked at. -/
instance : Encode SelectionControl :=
  ⟨fun c => [.mask 0xFFFF0000 (bit c.flatten 1 ||| bit c.dont_flatten 2)]⟩

instance : Encode BranchWeights := ⟨fun w => [.lit w.true_weight, .lit w.false_weight]⟩
instance : Encode PhiArg := ⟨fun p => [.lit p.«variable».val, .lit p.parent.val]⟩

/-- Enumerants with their own operands -/
instance : Encode ExecutionMode :=
  ⟨fun
    | .Invocations a => .lit 0 :: enc a
    | .SpacingEqual => [.lit 1]
    | .SpacingFractionalEven => [.lit 2]
    | .SpacingFractionalOdd => [.lit 3]
    | .VertexOrderCw => [.lit 4]
    | .VertexOrderCcw => [.lit 5]
    | .PixelCenterInteger => [.lit 6]
    | .OriginUpperLeft => [.lit 7]
    | .OriginLowerLeft => [.lit 8]
    | .EarlyFragmentTests => [.lit 9]
    | .PointMode => [.lit 10]
    | .Xfb => [.lit 11]
    | .DepthReplacing => [.lit 12]
    | .DepthGreater => [.lit 14]
    | .DepthLess => [.lit 15]
    | .DepthUnchanged => [.lit 16]
    | .LocalSize a b c => .lit 17 :: enc a ++ enc b ++ enc c
    | .LocalSizeHint a b c => .lit 18 :: enc a ++ enc b ++ enc c
    | .InputPoints => [.lit 19]
    | .InputLines => [.lit 20]
    | .InputLinesAdjacency => [.lit 21]
    | .Triangles => [.lit 22]
    | .InputTrianglesAdjacency => [.lit 23]
    | .Quads => [.lit 24]
    | .Isolines => [.lit 25]
    | .OutputVerticies a => .lit 26 :: enc a
    | .OutputPoints => [.lit 27]
    | .OutputLineStrip => [.lit 28]
    | .OutputTriangleStrip => [.lit 29]
    | .VecTypeHint a => .lit 30 :: enc a
    | .ContractionOff => [.lit 31]⟩

/-- Enumerants with their own operands -/
instance : Encode Decoration :=
  ⟨fun
    | .RelaxedPrecision => [.lit 0]
    | .SpecId a => .lit 1 :: enc a
    | .Block => [.lit 2]
    | .BufferBlock => [.lit 3]
    | .RowMajor => [.lit 4]
    | .ColMajor => [.lit 5]
    | .ArrayStride a => .lit 6 :: enc a
    | .MatrixStride a => .lit 7 :: enc a
    | .GlslShared => [.lit 8]
    | .GlslPacked => [.lit 9]
    | .CPacked => [.lit 10]
    | .BuiltIn a => .lit 11 :: enc a
    | .NoPerspective => [.lit 13]
    | .Flat => [.lit 14]
    | .Patch => [.lit 15]
    | .Centroid => [.lit 16]
    | .Sample => [.lit 17]
    | .Invariant => [.lit 18]
    | .Restrict => [.lit 19]
    | .Aliased => [.lit 20]
    | .Volatile => [.lit 21]
    | .Constant => [.lit 22]
    | .Coherent => [.lit 23]
    | .NonWritable => [.lit 24]
    | .NonReadable => [.lit 25]
    | .Uniform => [.lit 26]
    | .SaturatedConversion => [.lit 28]
    | .Stream a => .lit 29 :: enc a
    | .Location a => .lit 30 :: enc a
    | .Component a => .lit 31 :: enc a
    | .Index a => .lit 32 :: enc a
    | .Binding a => .lit 33 :: enc a
    | .DescriptorSet a => .lit 34 :: enc a
    | .Offset a => .lit 35 :: enc a
    | .XfbBuffer a => .lit 36 :: enc a
    | .XfbStride a => .lit 37 :: enc a
    | .FuncParamAttr a => .lit 38 :: enc a
    | .FpRoundingMode a => .lit 39 :: enc a
    | .FpFastMathMode a => .lit 40 :: enc a
    | .LinkageAttributes a b => .lit 41 :: enc a ++ enc b
    | .NoContraction => [.lit 42]
    | .InputAttachmentIndex a => .lit 43 :: enc a
    | .Alignment a => .lit 44 :: enc a⟩

/-- The opcode of the standard -/
def opcode {X : Type} : Core X → Nat
  | .OpNop _ => 0
  | .OpUndef _ => 1
  | .OpSourceContinued _ => 2
  | .OpSource _ => 3
  | .OpSourceExtension _ => 4
  | .OpName _ => 5
  | .OpMemberName _ => 6
  | .OpString _ => 7
  | .OpExtension _ => 10
  | .OpExtInstImport _ => 11
  | .OpExtInst _ => 12
  | .OpMemoryModel _ => 14
  | .OpEntryPoint _ => 15
  | .OpExecutionMode _ => 16
  | .OpCapability _ => 17
  | .OpTypeVoid _ => 19
  | .OpTypeBool _ => 20
  | .OpTypeInt _ => 21
  | .OpTypeFloat _ => 22
  | .OpTypeVector _ => 23
  | .OpTypeMatrix _ => 24
  | .OpTypeImage _ => 25
  | .OpTypeSampler _ => 26
  | .OpTypeSampledImage _ => 27
  | .OpTypeArray _ => 28
  | .OpTypeRuntimeArray _ => 29
  | .OpTypeStruct _ => 30
  | .OpTypeOpaque _ => 31
  | .OpTypePointer _ => 32
  | .OpTypeFunction _ => 33
  | .OpTypeEvent _ => 34
  | .OpTypeDeviceEvent _ => 35
  | .OpTypeQueue _ => 37
  | .OpTypePipe _ => 38
  | .OpTypeForwardPointer _ => 39
  | .OpConstant _ => 43
  | .OpConstantComposite _ => 44
  | .OpFunction _ => 54
  | .OpFunctionParameter _ => 55
  | .OpFunctionEnd _ => 56
  | .OpVariable _ => 59
  | .OpLoad _ => 61
  | .OpStore _ => 62
  | .OpAccessChain _ => 65
  | .OpDecorate _ => 71
  | .OpMemberDecorate _ => 72
  | .OpConvertUToF _ => 112
  | .OpBitcast _ => 124
  | .OpIAdd _ => 128
  | .OpFAdd _ => 129
  | .OpISub _ => 130
  | .OpFSub _ => 131
  | .OpIMul _ => 132
  | .OpFMul _ => 133
  | .OpUDiv _ => 134
  | .OpSDiv _ => 135
  | .OpFDiv _ => 136
  | .OpUMod _ => 137
  | .OpSRem _ => 138
  | .OpSMod _ => 139
  | .OpFRem _ => 140
  | .OpFMod _ => 141
  | .OpIAddCarry _ => 149
  | .OpISubBorrow _ => 150
  | .OpUMulExtended _ => 151
  | .OpSMulExtended _ => 152
  | .OpBitwiseOr _ => 197
  | .OpBitwiseXor _ => 198
  | .OpBitwiseAnd _ => 199
  | .OpIEqual _ => 170
  | .OpINotEqual _ => 171
  | .OpUGreaterThan _ => 172
  | .OpSGreaterThan _ => 173
  | .OpUGreaterThanEqual _ => 174
  | .OpSGreaterThanEqual _ => 175
  | .OpULessThan _ => 176
  | .OpSLessThan _ => 177
  | .OpULessThanEqual _ => 178
  | .OpSLessThanEqual _ => 179
  | .OpFOrdEqual _ => 180
  | .OpFUnordEqual _ => 181
  | .OpFOrdNotEqual _ => 182
  | .OpFUnordNotEqual _ => 183
  | .OpFOrdLessThan _ => 184
  | .OpFUnordLessThan _ => 185
  | .OpFOrdGreaterThan _ => 186
  | .OpFUnordGreaterThan _ => 187
  | .OpFOrdLessThanEqual _ => 188
  | .OpFUnordLessThanEqual _ => 189
  | .OpFOrdGreaterThanEqual _ => 190
  | .OpFUnordGreaterThanEqual _ => 191
  | .OpPhi _ => 245
  | .OpLoopMerge _ => 246
  | .OpSelectionMerge _ => 247
  | .OpLabel _ => 248
  | .OpBranch _ => 249
  | .OpBranchConditional _ => 250
  | .OpReturn _ => 253

/-- Instruction kinds the reader has no case for: it never returns them. -/
def supported {X : Type} : Core X → Bool
  | .OpTypeEvent _ | .OpTypeDeviceEvent _ | .OpTypeQueue _ | .OpTypePipe _
  | .OpTypeForwardPointer _ => false
  | _ => true

/-- The operands in the order of the standard. For `OpExtInst`, the part before the instruction
number. -/
def operands {X : Type} : Core X → List Operand
  | .OpNop _ => []
  | .OpUndef op => enc op.result_type ++ enc op.result_id
  | .OpSourceContinued op => enc op.continued_source
  | .OpSource op => enc op.language ++ enc op.version ++ enc op.file ++ enc op.source
  | .OpSourceExtension op => enc op.extension
  | .OpName op => enc op.target ++ enc op.name
  | .OpMemberName op => enc op.struct_type ++ enc op.member ++ enc op.name
  | .OpString op => enc op.result_id ++ enc op.string
  | .OpExtension op => enc op.name
  | .OpExtInstImport op => enc op.result_id ++ enc op.name
  | .OpExtInst op => enc op.result_type ++ enc op.result_id ++ enc op.set
  | .OpMemoryModel op => enc op.addressing_model ++ enc op.memory_model
  | .OpEntryPoint op => enc op.execution_model ++ enc op.entry_point ++ enc op.name ++ enc op.interface
  | .OpExecutionMode op => enc op.entry_point ++ enc op.mode
  | .OpCapability op => enc op.capability
  | .OpTypeVoid op => enc op.result_id
  | .OpTypeBool op => enc op.result_id
  | .OpTypeInt op => enc op.result_id ++ enc op.width ++ enc op.signedness
  | .OpTypeFloat op => enc op.result_id ++ enc op.width
  | .OpTypeVector op => enc op.result_id ++ enc op.component_type ++ enc op.component_count
  | .OpTypeMatrix op => enc op.result_id ++ enc op.column_type ++ enc op.column_count
  | .OpTypeImage op => enc op.result_id ++ enc op.sampled_type ++ enc op.dim ++ enc op.depth ++ enc op.arrayed ++ enc op.ms ++ enc op.sampled ++ enc op.format ++ enc op.access_qualifier
  | .OpTypeSampler op => enc op.result_id
  | .OpTypeSampledImage op => enc op.result_id ++ enc op.image_type
  | .OpTypeArray op => enc op.result_id ++ enc op.element_type ++ enc op.length
  | .OpTypeRuntimeArray op => enc op.result_id ++ enc op.element_type
  | .OpTypeStruct op => enc op.result_id ++ enc op.member_types
  | .OpTypeOpaque op => enc op.result_id ++ enc op.name
  | .OpTypePointer op => enc op.result_id ++ enc op.storage_class ++ enc op.pointed_type
  | .OpTypeFunction op => enc op.result_id ++ enc op.return_type ++ enc op.parameter_types
  | .OpTypeEvent op => enc op.result_id
  | .OpTypeDeviceEvent op => enc op.result_id
  | .OpTypeQueue op => enc op.result_id
  | .OpTypePipe op => enc op.result_id ++ enc op.access_qualifier
  | .OpTypeForwardPointer op => enc op.pointer_type ++ enc op.storage_class
  | .OpConstant op => enc op.result_type ++ enc op.result_id ++ enc op.value
  | .OpConstantComposite op => enc op.result_type ++ enc op.result_id ++ enc op.constituents
  | .OpFunction op => enc op.result_type ++ enc op.result_id ++ enc op.function_control ++ enc op.function_type
  | .OpFunctionParameter op => enc op.result_type ++ enc op.result_id
  | .OpFunctionEnd _ => []
  | .OpVariable op => enc op.result_type ++ enc op.result_id ++ enc op.storage_class ++ enc op.initializer
  | .OpLoad op => enc op.result_type ++ enc op.result_id ++ enc op.pointer ++ enc op.memory_access
  | .OpStore op => enc op.pointer ++ enc op.object ++ enc op.memory_access
  | .OpAccessChain op => enc op.result_type ++ enc op.result_id ++ enc op.base ++ enc op.indexes
  | .OpDecorate op => enc op.target ++ enc op.decoration
  | .OpMemberDecorate op => enc op.structure_type ++ enc op.member ++ enc op.decoration
  | .OpConvertUToF op => enc op.result_type ++ enc op.result_id ++ enc op.unsigned_value
  | .OpBitcast op => enc op.result_type ++ enc op.result_id ++ enc op.operand
  | .OpIAdd op => enc op.result_type ++ enc op.result_id ++ enc op.operand1 ++ enc op.operand2
  | .OpFAdd op => enc op.result_type ++ enc op.result_id ++ enc op.operand1 ++ enc op.operand2
  | .OpISub op => enc op.result_type ++ enc op.result_id ++ enc op.operand1 ++ enc op.operand2
  | .OpFSub op => enc op.result_type ++ enc op.result_id ++ enc op.operand1 ++ enc op.operand2
  | .OpIMul op => enc op.result_type ++ enc op.result_id ++ enc op.operand1 ++ enc op.operand2
  | .OpFMul op => enc op.result_type ++ enc op.result_id ++ enc op.operand1 ++ enc op.operand2
  | .OpUDiv op => enc op.result_type ++ enc op.result_id ++ enc op.operand1 ++ enc op.operand2
  | .OpSDiv op => enc op.result_type ++ enc op.result_id ++ enc op.operand1 ++ enc op.operand2
  | .OpFDiv op => enc op.result_type ++ enc op.result_id ++ enc op.operand1 ++ enc op.operand2
  | .OpUMod op => enc op.result_type ++ enc op.result_id ++ enc op.operand1 ++ enc op.operand2
  | .OpSRem op => enc op.result_type ++ enc op.result_id ++ enc op.operand1 ++ enc op.operand2
  | .OpSMod op => enc op.result_type ++ enc op.result_id ++ enc op.operand1 ++ enc op.operand2
  | .OpFRem op => enc op.result_type ++ enc op.result_id ++ enc op.operand1 ++ enc op.operand2
  | .OpFMod op => enc op.result_type ++ enc op.result_id ++ enc op.operand1 ++ enc op.operand2
  | .OpIAddCarry op => enc op.result_type ++ enc op.result_id ++ enc op.operand1 ++ enc op.operand2
  | .OpISubBorrow op => enc op.result_type ++ enc op.result_id ++ enc op.operand1 ++ enc op.operand2
  | .OpUMulExtended op => enc op.result_type ++ enc op.result_id ++ enc op.operand1 ++ enc op.operand2
  | .OpSMulExtended op => enc op.result_type ++ enc op.result_id ++ enc op.operand1 ++ enc op.operand2
  | .OpBitwiseOr op => enc op.result_type ++ enc op.result_id ++ enc op.operand1 ++ enc op.operand2
  | .OpBitwiseXor op => enc op.result_type ++ enc op.result_id ++ enc op.operand1 ++ enc op.operand2
  | .OpBitwiseAnd op => enc op.result_type ++ enc op.result_id ++ enc op.operand1 ++ enc op.operand2
  | .OpIEqual op => enc op.result_type ++ enc op.result_id ++ enc op.operand1 ++ enc op.operand2
  | .OpINotEqual op => enc op.result_type ++ enc op.result_id ++ enc op.operand1 ++ enc op.operand2
  | .OpUGreaterThan op => enc op.result_type ++ enc op.result_id ++ enc op.operand1 ++ enc op.operand2
  | .OpSGreaterThan op => enc op.result_type ++ enc op.result_id ++ enc op.operand1 ++ enc op.operand2
  | .OpUGreaterThanEqual op => enc op.result_type ++ enc op.result_id ++ enc op.operand1 ++ enc op.operand2
  | .OpSGreaterThanEqual op => enc op.result_type ++ enc op.result_id ++ enc op.operand1 ++ enc op.operand2
  | .OpULessThan op => enc op.result_type ++ enc op.result_id ++ enc op.operand1 ++ enc op.operand2
  | .OpSLessThan op => enc op.result_type ++ enc op.result_id ++ enc op.operand1 ++ enc op.operand2
  | .OpULessThanEqual op => enc op.result_type ++ enc op.result_id ++ enc op.operand1 ++ enc op.operand2
  | .OpSLessThanEqual op => enc op.result_type ++ enc op.result_id ++ enc op.operand1 ++ enc op.operand2
  | .OpFOrdEqual op => enc op.result_type ++ enc op.result_id ++ enc op.operand1 ++ enc op.operand2
  | .OpFUnordEqual op => enc op.result_type ++ enc op.result_id ++ enc op.operand1 ++ enc op.operand2
  | .OpFOrdNotEqual op => enc op.result_type ++ enc op.result_id ++ enc op.operand1 ++ enc op.operand2
  | .OpFUnordNotEqual op => enc op.result_type ++ enc op.result_id ++ enc op.operand1 ++ enc op.operand2
  | .OpFOrdLessThan op => enc op.result_type ++ enc op.result_id ++ enc op.operand1 ++ enc op.operand2
  | .OpFUnordLessThan op => enc op.result_type ++ enc op.result_id ++ enc op.operand1 ++ enc op.operand2
  | .OpFOrdGreaterThan op => enc op.result_type ++ enc op.result_id ++ enc op.operand1 ++ enc op.operand2
  | .OpFUnordGreaterThan op => enc op.result_type ++ enc op.result_id ++ enc op.operand1 ++ enc op.operand2
  | .OpFOrdLessThanEqual op => enc op.result_type ++ enc op.result_id ++ enc op.operand1 ++ enc op.operand2
  | .OpFUnordLessThanEqual op => enc op.result_type ++ enc op.result_id ++ enc op.operand1 ++ enc op.operand2
  | .OpFOrdGreaterThanEqual op => enc op.result_type ++ enc op.result_id ++ enc op.operand1 ++ enc op.operand2
  | .OpFUnordGreaterThanEqual op => enc op.result_type ++ enc op.result_id ++ enc op.operand1 ++ enc op.operand2
  | .OpPhi op => enc op.result_type ++ enc op.result_id ++ enc op.variables
  | .OpLoopMerge op => enc op.merge_block ++ enc op.continue_target ++ enc op.loop_control
  | .OpSelectionMerge op => enc op.merge_block ++ enc op.selection_control
  | .OpLabel op => enc op.result_id
  | .OpBranch op => enc op.target_label
  | .OpBranchConditional op => enc op.condition ++ enc op.true_label ++ enc op.false_label ++ enc op.weights
  | .OpReturn _ => []

/-- The name an instruction imports under the given id, if it does. -/
def importName {X : Type} (id : UInt32) : Core X → Option String
  | .OpExtInstImport op => if op.result_id.val = id then some op.name else none
  | _ => none

/-- The first of the instruction sets with that name -/
def setNamed {X : Type} (known : List (ExtInstSet X)) (name : String) : Option (ExtInstSet X) :=
  known.find? (fun s => s.name == name)

/-- The words `ws` are the operand words of `inst`, which follows the instructions `before`. -/
def SpellsOperands {X : Type} (known : List (ExtInstSet X)) (before : List (Core X)) (inst : Core X)
    (ws : List UInt32) : Prop :=
  match inst with
  | .OpExtInstImport op =>
    -- the name must be known, and the id new among the imports
    Reads (operands inst) ws [] ∧ setNamed known op.name ≠ none ∧
      ∀ i ∈ before, importName op.result_id.val i = none
  | .OpExtInst op =>
    -- the number and the remaining words mean the instruction in the set imported under that id
    ∃ number args importer name s,
      Reads (operands inst) ws (number :: args) ∧
      importer ∈ before ∧ importName op.set.val importer = some name ∧
      setNamed known name = some s ∧
      s.readInstruction number args = .ok ([], op.instruction)
  | _ => Reads (operands inst) ws []

/-- A head word: the opcode in the low half, the number of words of the instruction in the high
half. A word count of 0 is taken as 1. -/
def IsHead (opcode : Nat) (wordCount : Nat) (head : UInt32) : Prop :=
  ∃ wc : Nat, head.toNat = wc * 65536 + opcode ∧ opcode < 65536 ∧
    (wc = wordCount ∨ wc = 0 ∧ wordCount = 1)

/-- The words `ws` are the words of `inst`, which follows the instructions `before`. -/
def SpellsInst {X : Type} (known : List (ExtInstSet X)) (before : List (Core X)) (inst : Core X)
    (ws : List UInt32) : Prop :=
  supported inst ∧ ∃ head ops, ws = head :: ops ∧ IsHead (opcode inst) (ops.length + 1) head ∧
    SpellsOperands known before inst ops

/-- The words `ws` are those of the instructions `insts`, which follow the instructions
`before`. -/
def SpellsBody {X : Type} (known : List (ExtInstSet X)) :
    List (Core X) → List (Core X) → List UInt32 → Prop
  | _, [], ws => ws = []
  | before, inst :: insts, ws => ∃ u ws', ws = u ++ ws' ∧ SpellsInst known before inst u ∧
      SpellsBody known (before ++ [inst]) insts ws'

/-- The version word of version 1.0 is `0x00010000`; the reader does not look at the high halves
of the three low bytes. -/
def IsVersionWord (w : UInt32) : Prop :=
  w.toNat / 16777216 = 0 ∧ w.toNat / 65536 % 16 = 1 ∧ w.toNat / 256 % 16 = 0 ∧ w.toNat % 16 = 0

/-- Generator word: number of the tool in the high half, its version in the low half. `Other n`
is for numbers without a name. -/
def IsGeneratorWord (g : Generator) (w : UInt32) : Prop :=
  w.toNat = (toolCode g.tool).toNat * 65536 + g.version.toNat ∧
  ∀ n, g.tool = .Other n → 12 ≤ n

/-- The words `ws` are those of the module. -/
def SpellsWords {X : Type} (known : List (ExtInstSet X)) (m : RawModule X) (ws : List UInt32) :
    Prop :=
  ∃ ver gen body, ws = 0x07230203 :: ver :: gen :: m.bound :: 0 :: body ∧
    IsVersionWord ver ∧ m.version = ⟨1, 0⟩ ∧ IsGeneratorWord m.generator gen ∧
    SpellsBody known [] m.instructions body

/-- The bytes are those of the module, in either byte order. -/
def SpellsModule {X : Type} (known : List (ExtInstSet X)) (m : RawModule X) (bytes : List UInt8) :
    Prop :=
  ∃ ws, SpellsWords known m ws ∧
    (bytes = ws.flatMap wordBytes ∨ bytes = ws.flatMap (fun w => (wordBytes w).reverse))

end Magma.Spec
