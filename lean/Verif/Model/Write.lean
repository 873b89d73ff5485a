import Verif.Model.Formatter
import Verif.Model.Printer
/-! Generated by `tools/gen_write.py`: the printers of `Display`, as calls of a writer; citations are to `/repo`. -/

namespace Magma
variable {σ : Type}

/-- src/spv/types.rs:98-110 -/
instance : DisplayTo σ SourceLanguage where
  fmtTo x := match x with
    | .Unknown => arg (pad "Unknown".toList)
    | .Essl => arg (pad "ESSL".toList)
    | .Glsl => arg (pad "GLSL".toList)
    | .OpenCL_C => arg (pad "OpenCL_C".toList)
    | .OpenCL_Cpp => arg (pad "OpenCL_CPP".toList)
    | .Other n => do lit "Unknown("; arg (fmtTo n); lit ")"

/-- src/spv/types.rs:118-122 -/
instance : DisplayTo σ SourceVersion where
  fmtTo x := do
    arg (fmtTo x.val)

/-- src/spv/types.rs:305-352: the name -/
instance : DisplayTo σ BuiltIn where
  fmtTo x := arg (pad (Display.fmt x))

/-- src/spv/types.rs:793-807: the name -/
instance : DisplayTo σ FunctionParameterAttribute where
  fmtTo x := arg (pad (Display.fmt x))

/-- src/spv/types.rs:749-759: the name -/
instance : DisplayTo σ FpRoundingMode where
  fmtTo x := arg (pad (Display.fmt x))

/-- src/spv/types.rs:713-737: the parts, joined; `None` is a literal, which makes the same call -/
instance : DisplayTo σ FpFastMathMode where
  fmtTo x := arg (pad (Display.fmt x))

/-- src/spv/types.rs:769-777: the name -/
instance : DisplayTo σ LinkageType where
  fmtTo x := arg (pad (Display.fmt x))

/-- src/spv/types.rs:198-255 -/
instance : DisplayTo σ Decoration where
  fmtTo x := match x with
    | .RelaxedPrecision => arg (pad "RelaxedPrecision".toList)
    | .SpecId n => do lit "SpecId "; arg (fmtTo n)
    | .Block => arg (pad "Block".toList)
    | .BufferBlock => arg (pad "BufferBlock".toList)
    | .RowMajor => arg (pad "RowMajor".toList)
    | .ColMajor => arg (pad "ColMajor".toList)
    | .ArrayStride n => do lit "ArrayStride "; arg (fmtTo n)
    | .MatrixStride n => do lit "MatrixStride "; arg (fmtTo n)
    | .GlslShared => arg (pad "GLSLShared".toList)
    | .GlslPacked => arg (pad "GLSLPacked".toList)
    | .CPacked => arg (pad "CPacked".toList)
    | .BuiltIn b => do lit "BuiltIn "; arg (fmtTo b)
    | .NoPerspective => arg (pad "NoPerspective".toList)
    | .Flat => arg (pad "Flat".toList)
    | .Patch => arg (pad "Patch".toList)
    | .Centroid => arg (pad "Centroid".toList)
    | .Sample => arg (pad "Sample".toList)
    | .Invariant => arg (pad "Invariant".toList)
    | .Restrict => arg (pad "Restrict".toList)
    | .Aliased => arg (pad "Aliased".toList)
    | .Volatile => arg (pad "Volatile".toList)
    | .Constant => arg (pad "Constant".toList)
    | .Coherent => arg (pad "Coherent".toList)
    | .NonWritable => arg (pad "NonWritable".toList)
    | .NonReadable => arg (pad "NonReadable".toList)
    | .Uniform => arg (pad "Uniform".toList)
    | .SaturatedConversion => arg (pad "SaturatedConversion".toList)
    | .Stream n => do lit "Stream "; arg (fmtTo n)
    | .Location n => do lit "Location "; arg (fmtTo n)
    | .Component n => do lit "Component "; arg (fmtTo n)
    | .Index n => do lit "Index "; arg (fmtTo n)
    | .Binding n => do lit "Binding "; arg (fmtTo n)
    | .DescriptorSet n => do lit "DescriptorSet "; arg (fmtTo n)
    | .Offset n => do lit "Offset "; arg (fmtTo n)
    | .XfbBuffer n => do lit "XfbBuffer "; arg (fmtTo n)
    | .XfbStride n => do lit "XfbStride "; arg (fmtTo n)
    | .FuncParamAttr foa => do lit "FuncParamAttr "; arg (fmtTo foa)
    | .FpRoundingMode rounding_mode => do lit "FpRoundingMode "; arg (fmtTo rounding_mode)
    | .FpFastMathMode fast_math_mode => do lit "FpFastMathMode "; arg (fmtTo fast_math_mode)
    | .LinkageAttributes name lt => do lit "LinkageAttributes "; arg (fmtTo name); lit " "; arg (fmtTo lt)
    | .NoContraction => arg (pad "NoContraction".toList)
    | .InputAttachmentIndex n => do lit "InputAttachmentIndex "; arg (fmtTo n)
    | .Alignment n => do lit "Alignment "; arg (fmtTo n)

/-- src/spv/types.rs:360-364 -/
instance : DisplayTo σ MemberIndex where
  fmtTo x := do
    arg (fmtTo x.val)

/-- src/spv/types.rs:376-385: the name -/
instance : DisplayTo σ AddressingModel where
  fmtTo x := arg (pad (Display.fmt x))

/-- src/spv/types.rs:397-406: the name -/
instance : DisplayTo σ MemoryModel where
  fmtTo x := arg (pad (Display.fmt x))

/-- src/spv/types.rs:422-435: the name -/
instance : DisplayTo σ ExecutionModel where
  fmtTo x := arg (pad (Display.fmt x))

/-- src/spv/types.rs:474-515 -/
instance : DisplayTo σ ExecutionMode where
  fmtTo x := match x with
    | .Invocations n => do lit "Invocations "; arg (fmtTo n)
    | .SpacingEqual => arg (pad "SpacingEqual".toList)
    | .SpacingFractionalEven => arg (pad "SpacingFractionalEven".toList)
    | .SpacingFractionalOdd => arg (pad "SpacingFractionalOdd".toList)
    | .VertexOrderCw => arg (pad "VertexOrderCw".toList)
    | .VertexOrderCcw => arg (pad "VertexOrderCcw".toList)
    | .PixelCenterInteger => arg (pad "PixelCenterInteger".toList)
    | .OriginUpperLeft => arg (pad "OriginUpperLeft".toList)
    | .OriginLowerLeft => arg (pad "OriginLowerLeft".toList)
    | .EarlyFragmentTests => arg (pad "EarlyFragmentTests".toList)
    | .PointMode => arg (pad "PointMode".toList)
    | .Xfb => arg (pad "Xfb".toList)
    | .DepthReplacing => arg (pad "DepthReplacing".toList)
    | .DepthGreater => arg (pad "DepthGreater".toList)
    | .DepthLess => arg (pad "DepthLess".toList)
    | .DepthUnchanged => arg (pad "DepthUnchanged".toList)
    | .LocalSize x y z => do lit "LocalSize "; arg (fmtTo x); lit " "; arg (fmtTo y); lit " "; arg (fmtTo z)
    | .LocalSizeHint x y z => do lit "LocalSizeHint "; arg (fmtTo x); lit " "; arg (fmtTo y); lit " "; arg (fmtTo z)
    | .InputPoints => arg (pad "InputPoints".toList)
    | .InputLines => arg (pad "InputLines".toList)
    | .InputLinesAdjacency => arg (pad "InputLinesAdjacency".toList)
    | .Triangles => arg (pad "Triangles".toList)
    | .InputTrianglesAdjacency => arg (pad "InputTrianglesAdjacency".toList)
    | .Quads => arg (pad "Quads".toList)
    | .Isolines => arg (pad "Isolines".toList)
    | .OutputVerticies n => do lit "OutputVerticies "; arg (fmtTo n)
    | .OutputPoints => arg (pad "OutputPoints".toList)
    | .OutputLineStrip => arg (pad "OutputLineStrip".toList)
    | .OutputTriangleStrip => arg (pad "OutputTriangleStrip".toList)
    | .VecTypeHint id => do lit "VecTypeHint "; arg (fmtTo id)
    | .ContractionOff => arg (pad "ContractionOff".toList)

/-- src/spv/types.rs:582-644: the name -/
instance : DisplayTo σ Capability where
  fmtTo x := arg (pad (Display.fmt x))

/-- src/spv/types.rs:654-662: the name -/
instance : DisplayTo σ Signedness where
  fmtTo x := arg (pad (Display.fmt x))

/-- src/spv/types.rs:682-700: the name -/
instance : DisplayTo σ StorageClass where
  fmtTo x := arg (pad (Display.fmt x))

/-- src/spv/types.rs:823-836: the name -/
instance : DisplayTo σ Dim where
  fmtTo x := arg (pad (Display.fmt x))

/-- src/spv/types.rs:848-857: the name -/
instance : DisplayTo σ DepthStatus where
  fmtTo x := arg (pad (Display.fmt x))

/-- src/spv/types.rs:868-876: the name -/
instance : DisplayTo σ Arrayed where
  fmtTo x := arg (pad (Display.fmt x))

/-- src/spv/types.rs:887-895: the name -/
instance : DisplayTo σ MS where
  fmtTo x := arg (pad (Display.fmt x))

/-- src/spv/types.rs:907-916: the name -/
instance : DisplayTo σ SampledStatus where
  fmtTo x := arg (pad (Display.fmt x))

/-- src/spv/types.rs:965-1011: the name -/
instance : DisplayTo σ ImageFormat where
  fmtTo x := arg (pad (Display.fmt x))

/-- src/spv/types.rs:1022-1031: the name -/
instance : DisplayTo σ AccessQualifier where
  fmtTo x := arg (pad (Display.fmt x))

/-- src/spv/types.rs:1113-1131: the parts, joined; `None` is a literal, which makes the same call -/
instance : DisplayTo σ MemoryAccess where
  fmtTo x := arg (pad (Display.fmt x))

/-- src/spv/types.rs:1143-1164: the parts, joined; `None` is a literal, which makes the same call -/
instance : DisplayTo σ FunctionControl where
  fmtTo x := arg (pad (Display.fmt x))

/-- src/spv/types.rs:1178-1199: the parts, joined; `None` is a literal, which makes the same call -/
instance : DisplayTo σ LoopControl where
  fmtTo x := arg (pad (Display.fmt x))

/-- src/spv/types.rs:1209-1224: the parts, joined; `None` is a literal, which makes the same call -/
instance : DisplayTo σ SelectionControl where
  fmtTo x := arg (pad (Display.fmt x))

/-- src/spv/types.rs:1234-1238 -/
instance : DisplayTo σ PhiArg where
  fmtTo x := do
    arg (fmtTo x.«variable»)
    lit " "
    arg (fmtTo x.parent)

/-- src/spv/types.rs:1248-1252 -/
instance : DisplayTo σ BranchWeights where
  fmtTo x := do
    arg (fmtTo x.true_weight)
    lit " "
    arg (fmtTo x.false_weight)

/-- src/spv/op.rs:14 (macro src/spv/dis.rs:92-119) -/
instance : DisplayTo σ OpNop where
  fmtTo _ := do
    arg putNoResult
    arg (pad "OpNop".toList)
    pure ()

/-- src/spv/op.rs:22 (macro src/spv/dis.rs:92-119) -/
instance : DisplayTo σ OpUndef where
  fmtTo op := do
    arg (putResult op.result_id)
    arg (pad "OpUndef".toList)
    formatArgTo op.result_type
    pure ()

/-- src/spv/op.rs:31 (macro src/spv/dis.rs:92-119) -/
instance : DisplayTo σ OpSourceContinued where
  fmtTo op := do
    arg putNoResult
    arg (pad "OpSourceContinued".toList)
    formatArgTo op.continued_source
    pure ()

/-- src/spv/op.rs:41 (macro src/spv/dis.rs:92-119) -/
instance : DisplayTo σ OpSource where
  fmtTo op := do
    arg putNoResult
    arg (pad "OpSource".toList)
    formatArgTo op.language
    formatArgTo op.version
    formatArgTo op.file
    formatArgTo op.source
    pure ()

/-- src/spv/op.rs:48 (macro src/spv/dis.rs:92-119) -/
instance : DisplayTo σ OpSourceExtension where
  fmtTo op := do
    arg putNoResult
    arg (pad "OpSourceExtension".toList)
    formatArgTo op.extension
    pure ()

/-- src/spv/op.rs:56 (macro src/spv/dis.rs:92-119) -/
instance : DisplayTo σ OpName where
  fmtTo op := do
    arg putNoResult
    arg (pad "OpName".toList)
    formatArgTo op.target
    formatArgTo op.name
    pure ()

/-- src/spv/op.rs:65 (macro src/spv/dis.rs:92-119) -/
instance : DisplayTo σ OpMemberName where
  fmtTo op := do
    arg putNoResult
    arg (pad "OpMemberName".toList)
    formatArgTo op.struct_type
    formatArgTo op.member
    formatArgTo op.name
    pure ()

/-- src/spv/op.rs:73 (macro src/spv/dis.rs:92-119) -/
instance : DisplayTo σ OpString where
  fmtTo op := do
    arg (putResult op.result_id)
    arg (pad "OpString".toList)
    formatArgTo op.string
    pure ()

/-- src/spv/op.rs:136 (macro src/spv/dis.rs:92-119) -/
instance : DisplayTo σ OpExtension where
  fmtTo op := do
    arg putNoResult
    arg (pad "OpExtension".toList)
    formatArgTo op.name
    pure ()

/-- src/spv/op.rs:144 (macro src/spv/dis.rs:92-119) -/
instance : DisplayTo σ OpExtInstImport where
  fmtTo op := do
    arg (putResult op.result_id)
    arg (pad "OpExtInstImport".toList)
    formatArgTo op.name
    pure ()

/-- src/spv/op.rs:154 (macro src/spv/dis.rs:92-119) -/
instance {X : Type} [DisplayTo σ X] : DisplayTo σ (OpExtInst X) where
  fmtTo op := do
    arg (putResult op.result_id)
    arg (pad "OpExtInst".toList)
    formatArgTo op.result_type
    formatArgTo op.set
    formatArgTo op.instruction
    pure ()

/-- src/spv/op.rs:164 (macro src/spv/dis.rs:92-119) -/
instance : DisplayTo σ OpMemoryModel where
  fmtTo op := do
    arg putNoResult
    arg (pad "OpMemoryModel".toList)
    formatArgTo op.addressing_model
    formatArgTo op.memory_model
    pure ()

/-- src/spv/op.rs:174 (macro src/spv/dis.rs:92-119) -/
instance : DisplayTo σ OpEntryPoint where
  fmtTo op := do
    arg putNoResult
    arg (pad "OpEntryPoint".toList)
    formatArgTo op.execution_model
    formatArgTo op.entry_point
    formatArgTo op.name
    formatArgTo op.interface
    pure ()

/-- src/spv/op.rs:182 (macro src/spv/dis.rs:92-119) -/
instance : DisplayTo σ OpExecutionMode where
  fmtTo op := do
    arg putNoResult
    arg (pad "OpExecutionMode".toList)
    formatArgTo op.entry_point
    formatArgTo op.mode
    pure ()

/-- src/spv/op.rs:189 (macro src/spv/dis.rs:92-119) -/
instance : DisplayTo σ OpCapability where
  fmtTo op := do
    arg putNoResult
    arg (pad "OpCapability".toList)
    formatArgTo op.capability
    pure ()

/-- src/spv/op.rs:198 (macro src/spv/dis.rs:92-119) -/
instance : DisplayTo σ OpTypeVoid where
  fmtTo op := do
    arg (putResult op.result_id)
    arg (pad "OpTypeVoid".toList)
    pure ()

/-- src/spv/op.rs:205 (macro src/spv/dis.rs:92-119) -/
instance : DisplayTo σ OpTypeBool where
  fmtTo op := do
    arg (putResult op.result_id)
    arg (pad "OpTypeBool".toList)
    pure ()

/-- src/spv/op.rs:214 (macro src/spv/dis.rs:92-119) -/
instance : DisplayTo σ OpTypeInt where
  fmtTo op := do
    arg (putResult op.result_id)
    arg (pad "OpTypeInt".toList)
    formatArgTo op.width
    formatArgTo op.signedness
    pure ()

/-- src/spv/op.rs:222 (macro src/spv/dis.rs:92-119) -/
instance : DisplayTo σ OpTypeFloat where
  fmtTo op := do
    arg (putResult op.result_id)
    arg (pad "OpTypeFloat".toList)
    formatArgTo op.width
    pure ()

/-- src/spv/op.rs:231 (macro src/spv/dis.rs:92-119) -/
instance : DisplayTo σ OpTypeVector where
  fmtTo op := do
    arg (putResult op.result_id)
    arg (pad "OpTypeVector".toList)
    formatArgTo op.component_type
    formatArgTo op.component_count
    pure ()

/-- src/spv/op.rs:240 (macro src/spv/dis.rs:92-119) -/
instance : DisplayTo σ OpTypeMatrix where
  fmtTo op := do
    arg (putResult op.result_id)
    arg (pad "OpTypeMatrix".toList)
    formatArgTo op.column_type
    formatArgTo op.column_count
    pure ()

/-- src/spv/op.rs:255-264 (macro src/spv/dis.rs:92-119) -/
instance : DisplayTo σ OpTypeImage where
  fmtTo op := do
    arg (putResult op.result_id)
    arg (pad "OpTypeImage".toList)
    formatArgTo op.sampled_type
    formatArgTo op.dim
    formatArgTo op.depth
    formatArgTo op.arrayed
    formatArgTo op.ms
    formatArgTo op.sampled
    formatArgTo op.format
    formatArgTo op.access_qualifier
    pure ()

/-- src/spv/op.rs:271 (macro src/spv/dis.rs:92-119) -/
instance : DisplayTo σ OpTypeSampler where
  fmtTo op := do
    arg (putResult op.result_id)
    arg (pad "OpTypeSampler".toList)
    pure ()

/-- src/spv/op.rs:279 (macro src/spv/dis.rs:92-119) -/
instance : DisplayTo σ OpTypeSampledImage where
  fmtTo op := do
    arg (putResult op.result_id)
    arg (pad "OpTypeSampledImage".toList)
    formatArgTo op.image_type
    pure ()

/-- src/spv/op.rs:288 (macro src/spv/dis.rs:92-119) -/
instance : DisplayTo σ OpTypeArray where
  fmtTo op := do
    arg (putResult op.result_id)
    arg (pad "OpTypeArray".toList)
    formatArgTo op.element_type
    formatArgTo op.length
    pure ()

/-- src/spv/op.rs:296 (macro src/spv/dis.rs:92-119) -/
instance : DisplayTo σ OpTypeRuntimeArray where
  fmtTo op := do
    arg (putResult op.result_id)
    arg (pad "OpTypeRuntimeArray".toList)
    formatArgTo op.element_type
    pure ()

/-- src/spv/op.rs:304 (macro src/spv/dis.rs:92-119) -/
instance : DisplayTo σ OpTypeStruct where
  fmtTo op := do
    arg (putResult op.result_id)
    arg (pad "OpTypeStruct".toList)
    formatArgTo op.member_types
    pure ()

/-- src/spv/op.rs:312 (macro src/spv/dis.rs:92-119) -/
instance : DisplayTo σ OpTypeOpaque where
  fmtTo op := do
    arg (putResult op.result_id)
    arg (pad "OpTypeOpaque".toList)
    formatArgTo op.name
    pure ()

/-- src/spv/op.rs:321 (macro src/spv/dis.rs:92-119) -/
instance : DisplayTo σ OpTypePointer where
  fmtTo op := do
    arg (putResult op.result_id)
    arg (pad "OpTypePointer".toList)
    formatArgTo op.storage_class
    formatArgTo op.pointed_type
    pure ()

/-- src/spv/op.rs:330 (macro src/spv/dis.rs:92-119) -/
instance : DisplayTo σ OpTypeFunction where
  fmtTo op := do
    arg (putResult op.result_id)
    arg (pad "OpTypeFunction".toList)
    formatArgTo op.return_type
    formatArgTo op.parameter_types
    pure ()

/-- src/spv/op.rs:337 (macro src/spv/dis.rs:92-119) -/
instance : DisplayTo σ OpTypeEvent where
  fmtTo op := do
    arg (putResult op.result_id)
    arg (pad "OpTypeEvent".toList)
    pure ()

/-- src/spv/op.rs:344 (macro src/spv/dis.rs:92-119) -/
instance : DisplayTo σ OpTypeDeviceEvent where
  fmtTo op := do
    arg (putResult op.result_id)
    arg (pad "OpTypeDeviceEvent".toList)
    pure ()

/-- src/spv/op.rs:358 (macro src/spv/dis.rs:92-119) -/
instance : DisplayTo σ OpTypeQueue where
  fmtTo op := do
    arg (putResult op.result_id)
    arg (pad "OpTypeQueue".toList)
    pure ()

/-- src/spv/op.rs:366 (macro src/spv/dis.rs:92-119) -/
instance : DisplayTo σ OpTypePipe where
  fmtTo op := do
    arg (putResult op.result_id)
    arg (pad "OpTypePipe".toList)
    formatArgTo op.access_qualifier
    pure ()

/-- src/spv/op.rs:374 (macro src/spv/dis.rs:92-119) -/
instance : DisplayTo σ OpTypeForwardPointer where
  fmtTo op := do
    arg putNoResult
    arg (pad "OpTypeForwardPointer".toList)
    formatArgTo op.pointer_type
    formatArgTo op.storage_class
    pure ()

/-- src/spv/op.rs:401 (macro src/spv/dis.rs:92-119) -/
instance : DisplayTo σ OpConstant where
  fmtTo op := do
    arg (putResult op.result_id)
    arg (pad "OpConstant".toList)
    formatArgTo op.result_type
    formatArgTo op.value
    pure ()

/-- src/spv/op.rs:410 (macro src/spv/dis.rs:92-119) -/
instance : DisplayTo σ OpConstantComposite where
  fmtTo op := do
    arg (putResult op.result_id)
    arg (pad "OpConstantComposite".toList)
    formatArgTo op.result_type
    formatArgTo op.constituents
    pure ()

/-- src/spv/op.rs:597 (macro src/spv/dis.rs:92-119) -/
instance : DisplayTo σ OpFunction where
  fmtTo op := do
    arg (putResult op.result_id)
    arg (pad "OpFunction".toList)
    formatArgTo op.result_type
    formatArgTo op.function_control
    formatArgTo op.function_type
    pure ()

/-- src/spv/op.rs:605 (macro src/spv/dis.rs:92-119) -/
instance : DisplayTo σ OpFunctionParameter where
  fmtTo op := do
    arg (putResult op.result_id)
    arg (pad "OpFunctionParameter".toList)
    formatArgTo op.result_type
    pure ()

/-- src/spv/op.rs:610 (macro src/spv/dis.rs:92-119) -/
instance : DisplayTo σ OpFunctionEnd where
  fmtTo _ := do
    arg putNoResult
    arg (pad "OpFunctionEnd".toList)
    pure ()

/-- src/spv/op.rs:475 (macro src/spv/dis.rs:92-119) -/
instance : DisplayTo σ OpVariable where
  fmtTo op := do
    arg (putResult op.result_id)
    arg (pad "OpVariable".toList)
    formatArgTo op.result_type
    formatArgTo op.storage_class
    formatArgTo op.initializer
    pure ()

/-- src/spv/op.rs:496 (macro src/spv/dis.rs:92-119) -/
instance : DisplayTo σ OpLoad where
  fmtTo op := do
    arg (putResult op.result_id)
    arg (pad "OpLoad".toList)
    formatArgTo op.result_type
    formatArgTo op.pointer
    formatArgTo op.memory_access
    pure ()

/-- src/spv/op.rs:505 (macro src/spv/dis.rs:92-119) -/
instance : DisplayTo σ OpStore where
  fmtTo op := do
    arg putNoResult
    arg (pad "OpStore".toList)
    formatArgTo op.pointer
    formatArgTo op.object
    formatArgTo op.memory_access
    pure ()

/-- src/spv/op.rs:534 (macro src/spv/dis.rs:92-119) -/
instance : DisplayTo σ OpAccessChain where
  fmtTo op := do
    arg (putResult op.result_id)
    arg (pad "OpAccessChain".toList)
    formatArgTo op.result_type
    formatArgTo op.base
    formatArgTo op.indexes
    pure ()

/-- src/spv/op.rs:97 (macro src/spv/dis.rs:92-119) -/
instance : DisplayTo σ OpDecorate where
  fmtTo op := do
    arg putNoResult
    arg (pad "OpDecorate".toList)
    formatArgTo op.target
    formatArgTo op.decoration
    pure ()

/-- src/spv/op.rs:106 (macro src/spv/dis.rs:92-119) -/
instance : DisplayTo σ OpMemberDecorate where
  fmtTo op := do
    arg putNoResult
    arg (pad "OpMemberDecorate".toList)
    formatArgTo op.structure_type
    formatArgTo op.member
    formatArgTo op.decoration
    pure ()

/-- src/spv/op.rs:865 (macro src/spv/dis.rs:92-119) -/
instance : DisplayTo σ OpConvertUToF where
  fmtTo op := do
    arg (putResult op.result_id)
    arg (pad "OpConvertUToF".toList)
    formatArgTo op.result_type
    formatArgTo op.unsigned_value
    pure ()

/-- src/spv/op.rs:974 (macros src/spv/dis.rs:92-126) -/
instance : DisplayTo σ OpBitcast where
  fmtTo op := do
    arg (putResult op.result_id)
    arg (pad "OpBitcast".toList)
    formatArgTo op.result_type
    formatArgTo op.operand
    pure ()

/-- src/spv/op.rs:1086 (macros src/spv/dis.rs:92-133) -/
instance : DisplayTo σ OpIAdd where
  fmtTo op := do
    arg (putResult op.result_id)
    arg (pad "OpIAdd".toList)
    formatArgTo op.result_type
    formatArgTo op.operand1
    formatArgTo op.operand2
    pure ()

/-- src/spv/op.rs:1096 (macros src/spv/dis.rs:92-133) -/
instance : DisplayTo σ OpFAdd where
  fmtTo op := do
    arg (putResult op.result_id)
    arg (pad "OpFAdd".toList)
    formatArgTo op.result_type
    formatArgTo op.operand1
    formatArgTo op.operand2
    pure ()

/-- src/spv/op.rs:1106 (macros src/spv/dis.rs:92-133) -/
instance : DisplayTo σ OpISub where
  fmtTo op := do
    arg (putResult op.result_id)
    arg (pad "OpISub".toList)
    formatArgTo op.result_type
    formatArgTo op.operand1
    formatArgTo op.operand2
    pure ()

/-- src/spv/op.rs:1116 (macros src/spv/dis.rs:92-133) -/
instance : DisplayTo σ OpFSub where
  fmtTo op := do
    arg (putResult op.result_id)
    arg (pad "OpFSub".toList)
    formatArgTo op.result_type
    formatArgTo op.operand1
    formatArgTo op.operand2
    pure ()

/-- src/spv/op.rs:1126 (macros src/spv/dis.rs:92-133) -/
instance : DisplayTo σ OpIMul where
  fmtTo op := do
    arg (putResult op.result_id)
    arg (pad "OpIMul".toList)
    formatArgTo op.result_type
    formatArgTo op.operand1
    formatArgTo op.operand2
    pure ()

/-- src/spv/op.rs:1136 (macros src/spv/dis.rs:92-133) -/
instance : DisplayTo σ OpFMul where
  fmtTo op := do
    arg (putResult op.result_id)
    arg (pad "OpFMul".toList)
    formatArgTo op.result_type
    formatArgTo op.operand1
    formatArgTo op.operand2
    pure ()

/-- src/spv/op.rs:1146 (macros src/spv/dis.rs:92-133) -/
instance : DisplayTo σ OpUDiv where
  fmtTo op := do
    arg (putResult op.result_id)
    arg (pad "OpUDiv".toList)
    formatArgTo op.result_type
    formatArgTo op.operand1
    formatArgTo op.operand2
    pure ()

/-- src/spv/op.rs:1156 (macros src/spv/dis.rs:92-133) -/
instance : DisplayTo σ OpSDiv where
  fmtTo op := do
    arg (putResult op.result_id)
    arg (pad "OpSDiv".toList)
    formatArgTo op.result_type
    formatArgTo op.operand1
    formatArgTo op.operand2
    pure ()

/-- src/spv/op.rs:1166 (macros src/spv/dis.rs:92-133) -/
instance : DisplayTo σ OpFDiv where
  fmtTo op := do
    arg (putResult op.result_id)
    arg (pad "OpFDiv".toList)
    formatArgTo op.result_type
    formatArgTo op.operand1
    formatArgTo op.operand2
    pure ()

/-- src/spv/op.rs:1176 (macros src/spv/dis.rs:92-133) -/
instance : DisplayTo σ OpUMod where
  fmtTo op := do
    arg (putResult op.result_id)
    arg (pad "OpUMod".toList)
    formatArgTo op.result_type
    formatArgTo op.operand1
    formatArgTo op.operand2
    pure ()

/-- src/spv/op.rs:1186 (macros src/spv/dis.rs:92-133) -/
instance : DisplayTo σ OpSRem where
  fmtTo op := do
    arg (putResult op.result_id)
    arg (pad "OpSRem".toList)
    formatArgTo op.result_type
    formatArgTo op.operand1
    formatArgTo op.operand2
    pure ()

/-- src/spv/op.rs:1196 (macros src/spv/dis.rs:92-133) -/
instance : DisplayTo σ OpSMod where
  fmtTo op := do
    arg (putResult op.result_id)
    arg (pad "OpSMod".toList)
    formatArgTo op.result_type
    formatArgTo op.operand1
    formatArgTo op.operand2
    pure ()

/-- src/spv/op.rs:1206 (macros src/spv/dis.rs:92-133) -/
instance : DisplayTo σ OpFRem where
  fmtTo op := do
    arg (putResult op.result_id)
    arg (pad "OpFRem".toList)
    formatArgTo op.result_type
    formatArgTo op.operand1
    formatArgTo op.operand2
    pure ()

/-- src/spv/op.rs:1216 (macros src/spv/dis.rs:92-133) -/
instance : DisplayTo σ OpFMod where
  fmtTo op := do
    arg (putResult op.result_id)
    arg (pad "OpFMod".toList)
    formatArgTo op.result_type
    formatArgTo op.operand1
    formatArgTo op.operand2
    pure ()

/-- src/spv/op.rs:1296 (macros src/spv/dis.rs:92-133) -/
instance : DisplayTo σ OpIAddCarry where
  fmtTo op := do
    arg (putResult op.result_id)
    arg (pad "OpIAddCarry".toList)
    formatArgTo op.result_type
    formatArgTo op.operand1
    formatArgTo op.operand2
    pure ()

/-- src/spv/op.rs:1306 (macros src/spv/dis.rs:92-133) -/
instance : DisplayTo σ OpISubBorrow where
  fmtTo op := do
    arg (putResult op.result_id)
    arg (pad "OpISubBorrow".toList)
    formatArgTo op.result_type
    formatArgTo op.operand1
    formatArgTo op.operand2
    pure ()

/-- src/spv/op.rs:1316 (macros src/spv/dis.rs:92-133) -/
instance : DisplayTo σ OpUMulExtended where
  fmtTo op := do
    arg (putResult op.result_id)
    arg (pad "OpUMulExtended".toList)
    formatArgTo op.result_type
    formatArgTo op.operand1
    formatArgTo op.operand2
    pure ()

/-- src/spv/op.rs:1326 (macros src/spv/dis.rs:92-133) -/
instance : DisplayTo σ OpSMulExtended where
  fmtTo op := do
    arg (putResult op.result_id)
    arg (pad "OpSMulExtended".toList)
    formatArgTo op.result_type
    formatArgTo op.operand1
    formatArgTo op.operand2
    pure ()

/-- src/spv/op.rs:1368 (macros src/spv/dis.rs:92-133) -/
instance : DisplayTo σ OpBitwiseOr where
  fmtTo op := do
    arg (putResult op.result_id)
    arg (pad "OpBitwiseOr".toList)
    formatArgTo op.result_type
    formatArgTo op.operand1
    formatArgTo op.operand2
    pure ()

/-- src/spv/op.rs:1378 (macros src/spv/dis.rs:92-133) -/
instance : DisplayTo σ OpBitwiseXor where
  fmtTo op := do
    arg (putResult op.result_id)
    arg (pad "OpBitwiseXor".toList)
    formatArgTo op.result_type
    formatArgTo op.operand1
    formatArgTo op.operand2
    pure ()

/-- src/spv/op.rs:1388 (macros src/spv/dis.rs:92-133) -/
instance : DisplayTo σ OpBitwiseAnd where
  fmtTo op := do
    arg (putResult op.result_id)
    arg (pad "OpBitwiseAnd".toList)
    formatArgTo op.result_type
    formatArgTo op.operand1
    formatArgTo op.operand2
    pure ()

/-- src/spv/op.rs:1472 (macros src/spv/dis.rs:92-133) -/
instance : DisplayTo σ OpIEqual where
  fmtTo op := do
    arg (putResult op.result_id)
    arg (pad "OpIEqual".toList)
    formatArgTo op.result_type
    formatArgTo op.operand1
    formatArgTo op.operand2
    pure ()

/-- src/spv/op.rs:1482 (macros src/spv/dis.rs:92-133) -/
instance : DisplayTo σ OpINotEqual where
  fmtTo op := do
    arg (putResult op.result_id)
    arg (pad "OpINotEqual".toList)
    formatArgTo op.result_type
    formatArgTo op.operand1
    formatArgTo op.operand2
    pure ()

/-- src/spv/op.rs:1492 (macros src/spv/dis.rs:92-133) -/
instance : DisplayTo σ OpUGreaterThan where
  fmtTo op := do
    arg (putResult op.result_id)
    arg (pad "OpUGreaterThan".toList)
    formatArgTo op.result_type
    formatArgTo op.operand1
    formatArgTo op.operand2
    pure ()

/-- src/spv/op.rs:1502 (macros src/spv/dis.rs:92-133) -/
instance : DisplayTo σ OpSGreaterThan where
  fmtTo op := do
    arg (putResult op.result_id)
    arg (pad "OpSGreaterThan".toList)
    formatArgTo op.result_type
    formatArgTo op.operand1
    formatArgTo op.operand2
    pure ()

/-- src/spv/op.rs:1512 (macros src/spv/dis.rs:92-133) -/
instance : DisplayTo σ OpUGreaterThanEqual where
  fmtTo op := do
    arg (putResult op.result_id)
    arg (pad "OpUGreaterThanEqual".toList)
    formatArgTo op.result_type
    formatArgTo op.operand1
    formatArgTo op.operand2
    pure ()

/-- src/spv/op.rs:1522 (macros src/spv/dis.rs:92-133) -/
instance : DisplayTo σ OpSGreaterThanEqual where
  fmtTo op := do
    arg (putResult op.result_id)
    arg (pad "OpSGreaterThanEqual".toList)
    formatArgTo op.result_type
    formatArgTo op.operand1
    formatArgTo op.operand2
    pure ()

/-- src/spv/op.rs:1532 (macros src/spv/dis.rs:92-133) -/
instance : DisplayTo σ OpULessThan where
  fmtTo op := do
    arg (putResult op.result_id)
    arg (pad "OpULessThan".toList)
    formatArgTo op.result_type
    formatArgTo op.operand1
    formatArgTo op.operand2
    pure ()

/-- src/spv/op.rs:1542 (macros src/spv/dis.rs:92-133) -/
instance : DisplayTo σ OpSLessThan where
  fmtTo op := do
    arg (putResult op.result_id)
    arg (pad "OpSLessThan".toList)
    formatArgTo op.result_type
    formatArgTo op.operand1
    formatArgTo op.operand2
    pure ()

/-- src/spv/op.rs:1552 (macros src/spv/dis.rs:92-133) -/
instance : DisplayTo σ OpULessThanEqual where
  fmtTo op := do
    arg (putResult op.result_id)
    arg (pad "OpULessThanEqual".toList)
    formatArgTo op.result_type
    formatArgTo op.operand1
    formatArgTo op.operand2
    pure ()

/-- src/spv/op.rs:1562 (macros src/spv/dis.rs:92-133) -/
instance : DisplayTo σ OpSLessThanEqual where
  fmtTo op := do
    arg (putResult op.result_id)
    arg (pad "OpSLessThanEqual".toList)
    formatArgTo op.result_type
    formatArgTo op.operand1
    formatArgTo op.operand2
    pure ()

/-- src/spv/op.rs:1572 (macros src/spv/dis.rs:92-133) -/
instance : DisplayTo σ OpFOrdEqual where
  fmtTo op := do
    arg (putResult op.result_id)
    arg (pad "OpFOrdEqual".toList)
    formatArgTo op.result_type
    formatArgTo op.operand1
    formatArgTo op.operand2
    pure ()

/-- src/spv/op.rs:1582 (macros src/spv/dis.rs:92-133) -/
instance : DisplayTo σ OpFUnordEqual where
  fmtTo op := do
    arg (putResult op.result_id)
    arg (pad "OpFUnordEqual".toList)
    formatArgTo op.result_type
    formatArgTo op.operand1
    formatArgTo op.operand2
    pure ()

/-- src/spv/op.rs:1592 (macros src/spv/dis.rs:92-133) -/
instance : DisplayTo σ OpFOrdNotEqual where
  fmtTo op := do
    arg (putResult op.result_id)
    arg (pad "OpFOrdNotEqual".toList)
    formatArgTo op.result_type
    formatArgTo op.operand1
    formatArgTo op.operand2
    pure ()

/-- src/spv/op.rs:1602 (macros src/spv/dis.rs:92-133) -/
instance : DisplayTo σ OpFUnordNotEqual where
  fmtTo op := do
    arg (putResult op.result_id)
    arg (pad "OpFUnordNotEqual".toList)
    formatArgTo op.result_type
    formatArgTo op.operand1
    formatArgTo op.operand2
    pure ()

/-- src/spv/op.rs:1612 (macros src/spv/dis.rs:92-133) -/
instance : DisplayTo σ OpFOrdLessThan where
  fmtTo op := do
    arg (putResult op.result_id)
    arg (pad "OpFOrdLessThan".toList)
    formatArgTo op.result_type
    formatArgTo op.operand1
    formatArgTo op.operand2
    pure ()

/-- src/spv/op.rs:1622 (macros src/spv/dis.rs:92-133) -/
instance : DisplayTo σ OpFUnordLessThan where
  fmtTo op := do
    arg (putResult op.result_id)
    arg (pad "OpFUnordLessThan".toList)
    formatArgTo op.result_type
    formatArgTo op.operand1
    formatArgTo op.operand2
    pure ()

/-- src/spv/op.rs:1632 (macros src/spv/dis.rs:92-133) -/
instance : DisplayTo σ OpFOrdGreaterThan where
  fmtTo op := do
    arg (putResult op.result_id)
    arg (pad "OpFOrdGreaterThan".toList)
    formatArgTo op.result_type
    formatArgTo op.operand1
    formatArgTo op.operand2
    pure ()

/-- src/spv/op.rs:1642 (macros src/spv/dis.rs:92-133) -/
instance : DisplayTo σ OpFUnordGreaterThan where
  fmtTo op := do
    arg (putResult op.result_id)
    arg (pad "OpFUnordGreaterThan".toList)
    formatArgTo op.result_type
    formatArgTo op.operand1
    formatArgTo op.operand2
    pure ()

/-- src/spv/op.rs:1652 (macros src/spv/dis.rs:92-133) -/
instance : DisplayTo σ OpFOrdLessThanEqual where
  fmtTo op := do
    arg (putResult op.result_id)
    arg (pad "OpFOrdLessThanEqual".toList)
    formatArgTo op.result_type
    formatArgTo op.operand1
    formatArgTo op.operand2
    pure ()

/-- src/spv/op.rs:1662 (macros src/spv/dis.rs:92-133) -/
instance : DisplayTo σ OpFUnordLessThanEqual where
  fmtTo op := do
    arg (putResult op.result_id)
    arg (pad "OpFUnordLessThanEqual".toList)
    formatArgTo op.result_type
    formatArgTo op.operand1
    formatArgTo op.operand2
    pure ()

/-- src/spv/op.rs:1672 (macros src/spv/dis.rs:92-133) -/
instance : DisplayTo σ OpFOrdGreaterThanEqual where
  fmtTo op := do
    arg (putResult op.result_id)
    arg (pad "OpFOrdGreaterThanEqual".toList)
    formatArgTo op.result_type
    formatArgTo op.operand1
    formatArgTo op.operand2
    pure ()

/-- src/spv/op.rs:1682 (macros src/spv/dis.rs:92-133) -/
instance : DisplayTo σ OpFUnordGreaterThanEqual where
  fmtTo op := do
    arg (putResult op.result_id)
    arg (pad "OpFUnordGreaterThanEqual".toList)
    formatArgTo op.result_type
    formatArgTo op.operand1
    formatArgTo op.operand2
    pure ()

/-- src/spv/op.rs:1722 (macro src/spv/dis.rs:92-119) -/
instance : DisplayTo σ OpPhi where
  fmtTo op := do
    arg (putResult op.result_id)
    arg (pad "OpPhi".toList)
    formatArgTo op.result_type
    formatArgTo op.variables
    pure ()

/-- src/spv/op.rs:1731 (macro src/spv/dis.rs:92-119) -/
instance : DisplayTo σ OpLoopMerge where
  fmtTo op := do
    arg putNoResult
    arg (pad "OpLoopMerge".toList)
    formatArgTo op.merge_block
    formatArgTo op.continue_target
    formatArgTo op.loop_control
    pure ()

/-- src/spv/op.rs:1739 (macro src/spv/dis.rs:92-119) -/
instance : DisplayTo σ OpSelectionMerge where
  fmtTo op := do
    arg putNoResult
    arg (pad "OpSelectionMerge".toList)
    formatArgTo op.merge_block
    formatArgTo op.selection_control
    pure ()

/-- src/spv/op.rs:1746 (macro src/spv/dis.rs:92-119) -/
instance : DisplayTo σ OpLabel where
  fmtTo op := do
    arg (putResult op.result_id)
    arg (pad "OpLabel".toList)
    pure ()

/-- src/spv/op.rs:1753 (macro src/spv/dis.rs:92-119) -/
instance : DisplayTo σ OpBranch where
  fmtTo op := do
    arg putNoResult
    arg (pad "OpBranch".toList)
    formatArgTo op.target_label
    pure ()

/-- src/spv/op.rs:1763 (macro src/spv/dis.rs:92-119) -/
instance : DisplayTo σ OpBranchConditional where
  fmtTo op := do
    arg putNoResult
    arg (pad "OpBranchConditional".toList)
    formatArgTo op.condition
    formatArgTo op.true_label
    formatArgTo op.false_label
    formatArgTo op.weights
    pure ()

/-- src/spv/op.rs:1774 (macro src/spv/dis.rs:92-119) -/
instance : DisplayTo σ OpReturn where
  fmtTo _ := do
    arg putNoResult
    arg (pad "OpReturn".toList)
    pure ()

/-- src/spv/raw/mod.rs:154-257 -/
instance {X : Type} [DisplayTo σ X] : DisplayTo σ (Core X) where
  fmtTo c := match c with
    | .OpNop op => fmtTo op
    | .OpUndef op => fmtTo op
    | .OpSourceContinued op => fmtTo op
    | .OpSource op => fmtTo op
    | .OpSourceExtension op => fmtTo op
    | .OpName op => fmtTo op
    | .OpMemberName op => fmtTo op
    | .OpString op => fmtTo op
    | .OpExtension op => fmtTo op
    | .OpExtInstImport op => fmtTo op
    | .OpExtInst op => fmtTo op
    | .OpMemoryModel op => fmtTo op
    | .OpEntryPoint op => fmtTo op
    | .OpExecutionMode op => fmtTo op
    | .OpCapability op => fmtTo op
    | .OpTypeVoid op => fmtTo op
    | .OpTypeBool op => fmtTo op
    | .OpTypeInt op => fmtTo op
    | .OpTypeFloat op => fmtTo op
    | .OpTypeVector op => fmtTo op
    | .OpTypeMatrix op => fmtTo op
    | .OpTypeImage op => fmtTo op
    | .OpTypeSampler op => fmtTo op
    | .OpTypeSampledImage op => fmtTo op
    | .OpTypeArray op => fmtTo op
    | .OpTypeRuntimeArray op => fmtTo op
    | .OpTypeStruct op => fmtTo op
    | .OpTypeOpaque op => fmtTo op
    | .OpTypePointer op => fmtTo op
    | .OpTypeFunction op => fmtTo op
    | .OpTypeEvent op => fmtTo op
    | .OpTypeDeviceEvent op => fmtTo op
    | .OpTypeQueue op => fmtTo op
    | .OpTypePipe op => fmtTo op
    | .OpTypeForwardPointer op => fmtTo op
    | .OpConstant op => fmtTo op
    | .OpConstantComposite op => fmtTo op
    | .OpFunction op => fmtTo op
    | .OpFunctionParameter op => fmtTo op
    | .OpFunctionEnd op => fmtTo op
    | .OpVariable op => fmtTo op
    | .OpLoad op => fmtTo op
    | .OpStore op => fmtTo op
    | .OpAccessChain op => fmtTo op
    | .OpDecorate op => fmtTo op
    | .OpMemberDecorate op => fmtTo op
    | .OpConvertUToF op => fmtTo op
    | .OpBitcast op => fmtTo op
    | .OpIAdd op => fmtTo op
    | .OpFAdd op => fmtTo op
    | .OpISub op => fmtTo op
    | .OpFSub op => fmtTo op
    | .OpIMul op => fmtTo op
    | .OpFMul op => fmtTo op
    | .OpUDiv op => fmtTo op
    | .OpSDiv op => fmtTo op
    | .OpFDiv op => fmtTo op
    | .OpUMod op => fmtTo op
    | .OpSRem op => fmtTo op
    | .OpSMod op => fmtTo op
    | .OpFRem op => fmtTo op
    | .OpFMod op => fmtTo op
    | .OpIAddCarry op => fmtTo op
    | .OpISubBorrow op => fmtTo op
    | .OpUMulExtended op => fmtTo op
    | .OpSMulExtended op => fmtTo op
    | .OpBitwiseOr op => fmtTo op
    | .OpBitwiseXor op => fmtTo op
    | .OpBitwiseAnd op => fmtTo op
    | .OpIEqual op => fmtTo op
    | .OpINotEqual op => fmtTo op
    | .OpUGreaterThan op => fmtTo op
    | .OpSGreaterThan op => fmtTo op
    | .OpUGreaterThanEqual op => fmtTo op
    | .OpSGreaterThanEqual op => fmtTo op
    | .OpULessThan op => fmtTo op
    | .OpSLessThan op => fmtTo op
    | .OpULessThanEqual op => fmtTo op
    | .OpSLessThanEqual op => fmtTo op
    | .OpFOrdEqual op => fmtTo op
    | .OpFUnordEqual op => fmtTo op
    | .OpFOrdNotEqual op => fmtTo op
    | .OpFUnordNotEqual op => fmtTo op
    | .OpFOrdLessThan op => fmtTo op
    | .OpFUnordLessThan op => fmtTo op
    | .OpFOrdGreaterThan op => fmtTo op
    | .OpFUnordGreaterThan op => fmtTo op
    | .OpFOrdLessThanEqual op => fmtTo op
    | .OpFUnordLessThanEqual op => fmtTo op
    | .OpFOrdGreaterThanEqual op => fmtTo op
    | .OpFUnordGreaterThanEqual op => fmtTo op
    | .OpPhi op => fmtTo op
    | .OpLoopMerge op => fmtTo op
    | .OpSelectionMerge op => fmtTo op
    | .OpLabel op => fmtTo op
    | .OpBranch op => fmtTo op
    | .OpBranchConditional op => fmtTo op
    | .OpReturn op => fmtTo op

/-- src/spv/logical/mod.rs:126-185: every arm prints the instruction -/
instance {X : Type} [DisplayTo σ X] : DisplayTo σ (GroupCode X) where
  fmtTo c := match c with
    | .OpNop op => fmtTo op
    | .OpUndef op => fmtTo op
    | .OpExtInst op => fmtTo op
    | .OpVariable op => fmtTo op
    | .OpLoad op => fmtTo op
    | .OpStore op => fmtTo op
    | .OpAccessChain op => fmtTo op
    | .OpConvertUToF op => fmtTo op
    | .OpBitcast op => fmtTo op
    | .OpIAdd op => fmtTo op
    | .OpFAdd op => fmtTo op
    | .OpISub op => fmtTo op
    | .OpFSub op => fmtTo op
    | .OpIMul op => fmtTo op
    | .OpFMul op => fmtTo op
    | .OpUDiv op => fmtTo op
    | .OpSDiv op => fmtTo op
    | .OpFDiv op => fmtTo op
    | .OpUMod op => fmtTo op
    | .OpSRem op => fmtTo op
    | .OpSMod op => fmtTo op
    | .OpFRem op => fmtTo op
    | .OpFMod op => fmtTo op
    | .OpIAddCarry op => fmtTo op
    | .OpISubBorrow op => fmtTo op
    | .OpUMulExtended op => fmtTo op
    | .OpSMulExtended op => fmtTo op
    | .OpBitwiseOr op => fmtTo op
    | .OpBitwiseXor op => fmtTo op
    | .OpBitwiseAnd op => fmtTo op
    | .OpIEqual op => fmtTo op
    | .OpINotEqual op => fmtTo op
    | .OpUGreaterThan op => fmtTo op
    | .OpSGreaterThan op => fmtTo op
    | .OpUGreaterThanEqual op => fmtTo op
    | .OpSGreaterThanEqual op => fmtTo op
    | .OpULessThan op => fmtTo op
    | .OpSLessThan op => fmtTo op
    | .OpULessThanEqual op => fmtTo op
    | .OpSLessThanEqual op => fmtTo op
    | .OpFOrdEqual op => fmtTo op
    | .OpFUnordEqual op => fmtTo op
    | .OpFOrdNotEqual op => fmtTo op
    | .OpFUnordNotEqual op => fmtTo op
    | .OpFOrdLessThan op => fmtTo op
    | .OpFUnordLessThan op => fmtTo op
    | .OpFOrdGreaterThan op => fmtTo op
    | .OpFUnordGreaterThan op => fmtTo op
    | .OpFOrdLessThanEqual op => fmtTo op
    | .OpFUnordLessThanEqual op => fmtTo op
    | .OpFOrdGreaterThanEqual op => fmtTo op
    | .OpFUnordGreaterThanEqual op => fmtTo op
    | .OpPhi op => fmtTo op

/-- src/spv/logical/mod.rs:200-209 -/
instance : DisplayTo σ GroupBranch where
  fmtTo c := match c with
    | .OpBranch op => fmtTo op
    | .OpBranchConditional op => fmtTo op
    | .OpReturn op => fmtTo op

end Magma
