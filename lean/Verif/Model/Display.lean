import Verif.Model.Fmt
/-! Generated by `tools/gen.py` from the Rust source; citations are to `/repo`. -/

namespace Magma

/-- src/spv/types.rs:98-110 -/
instance : Display SourceLanguage where
  fmt x := match x with
    | .Unknown => "Unknown".toList
    | .Essl => "ESSL".toList
    | .Glsl => "GLSL".toList
    | .OpenCL_C => "OpenCL_C".toList
    | .OpenCL_Cpp => "OpenCL_CPP".toList
    | .Other n => "Unknown(".toList ++ Display.fmt n ++ ")".toList

/-- src/spv/types.rs:118-122 -/
instance : Display SourceVersion where
  fmt x := Display.fmt x.val

/-- src/spv/types.rs:305-352 -/
instance : Display BuiltIn where
  fmt x := match x with
    | .Position => "Position".toList
    | .PointSize => "PointSize".toList
    | .ClipDistance => "ClipDistance".toList
    | .CullDistance => "CullDistance".toList
    | .VertexId => "VertexId".toList
    | .InstanceId => "InstanceId".toList
    | .PrimitiveId => "PrimitiveId".toList
    | .InvocationId => "InvocationId".toList
    | .Layer => "Layer".toList
    | .ViewportIndex => "ViewportIndex".toList
    | .TessLevelOuter => "TessLevelOuter".toList
    | .TessLevelInner => "TessLevelInner".toList
    | .TessCoord => "TessCoord".toList
    | .PatchVerticies => "PatchVerticies".toList
    | .FragCoord => "FragCoord".toList
    | .PointCoord => "PointCoord".toList
    | .FrontFacing => "FrontFacing".toList
    | .SampleId => "SampleId".toList
    | .SamplePosition => "SamplePosition".toList
    | .SampleMask => "SampleMask".toList
    | .FragDepth => "FragDepth".toList
    | .HelperInvocation => "HelperInvocation".toList
    | .NumWorkgroups => "NumWorkgroups".toList
    | .WorkgroupSize => "WorkgroupSize".toList
    | .WorkgroupId => "WorkgroupId".toList
    | .LocalInvocationId => "LocalInvocationId".toList
    | .GlobalInvocationId => "GlobalInvocationId".toList
    | .LocalInvocationIndex => "LocalInvocationIndex".toList
    | .WorkDim => "WorkDim".toList
    | .GlobalSize => "GlobalSize".toList
    | .EnqueuedWorkgroupSize => "EnqueuedWorkgroupSize".toList
    | .GlobalOffset => "GlobalOffset".toList
    | .GlobalLinearId => "GlobalLinearId".toList
    | .SubgroupSize => "SubgroupSize".toList
    | .SubgroupMaxSize => "SubgroupMaxSize".toList
    | .NumSubgroups => "NumSubgroups".toList
    | .NumEnqueuedSubgroups => "NumEnqueuedSubgroups".toList
    | .SubgroupId => "SubgroupId".toList
    | .SubgroupLocalInvocationId => "SubgroupLocalInvocationId".toList
    | .VertexIndex => "VertexIndex".toList
    | .InstanceIndex => "InstanceIndex".toList

/-- src/spv/types.rs:793-807 -/
instance : Display FunctionParameterAttribute where
  fmt x := match x with
    | .Zext => "Zext".toList
    | .Sext => "Sext".toList
    | .ByVal => "ByVal".toList
    | .Sret => "Sret".toList
    | .NoAlias => "NoAlias".toList
    | .NoCapture => "NoCapture".toList
    | .NoWrite => "NoWrite".toList
    | .NoReadWrite => "NoReadWrite".toList

/-- src/spv/types.rs:749-759 -/
instance : Display FpRoundingMode where
  fmt x := match x with
    | .Rte => "RTE".toList
    | .Rtz => "RTZ".toList
    | .Rtp => "RTP".toList
    | .Rtn => "RTN".toList

/-- src/spv/types.rs:713-737 -/
instance : Display FpFastMathMode where
  fmt x := joinParts ((if x.not_nan then ["NotNaN".toList] else []) ++
    (if x.not_inf then ["NotInf".toList] else []) ++
    (if x.nsz then ["NSZ".toList] else []) ++
    (if x.allow_recip then ["AllowRecip".toList] else []) ++
    (if x.fast then ["Fast".toList] else []))

/-- src/spv/types.rs:769-777 -/
instance : Display LinkageType where
  fmt x := match x with
    | .Export => "Export".toList
    | .Import => "Import".toList

/-- src/spv/types.rs:198-255 -/
instance : Display Decoration where
  fmt x := match x with
    | .RelaxedPrecision => "RelaxedPrecision".toList
    | .SpecId n => "SpecId ".toList ++ Display.fmt n
    | .Block => "Block".toList
    | .BufferBlock => "BufferBlock".toList
    | .RowMajor => "RowMajor".toList
    | .ColMajor => "ColMajor".toList
    | .ArrayStride n => "ArrayStride ".toList ++ Display.fmt n
    | .MatrixStride n => "MatrixStride ".toList ++ Display.fmt n
    | .GlslShared => "GLSLShared".toList
    | .GlslPacked => "GLSLPacked".toList
    | .CPacked => "CPacked".toList
    | .BuiltIn b => "BuiltIn ".toList ++ Display.fmt b
    | .NoPerspective => "NoPerspective".toList
    | .Flat => "Flat".toList
    | .Patch => "Patch".toList
    | .Centroid => "Centroid".toList
    | .Sample => "Sample".toList
    | .Invariant => "Invariant".toList
    | .Restrict => "Restrict".toList
    | .Aliased => "Aliased".toList
    | .Volatile => "Volatile".toList
    | .Constant => "Constant".toList
    | .Coherent => "Coherent".toList
    | .NonWritable => "NonWritable".toList
    | .NonReadable => "NonReadable".toList
    | .Uniform => "Uniform".toList
    | .SaturatedConversion => "SaturatedConversion".toList
    | .Stream n => "Stream ".toList ++ Display.fmt n
    | .Location n => "Location ".toList ++ Display.fmt n
    | .Component n => "Component ".toList ++ Display.fmt n
    | .Index n => "Index ".toList ++ Display.fmt n
    | .Binding n => "Binding ".toList ++ Display.fmt n
    | .DescriptorSet n => "DescriptorSet ".toList ++ Display.fmt n
    | .Offset n => "Offset ".toList ++ Display.fmt n
    | .XfbBuffer n => "XfbBuffer ".toList ++ Display.fmt n
    | .XfbStride n => "XfbStride ".toList ++ Display.fmt n
    | .FuncParamAttr foa => "FuncParamAttr ".toList ++ Display.fmt foa
    | .FpRoundingMode rounding_mode => "FpRoundingMode ".toList ++ Display.fmt rounding_mode
    | .FpFastMathMode fast_math_mode => "FpFastMathMode ".toList ++ Display.fmt fast_math_mode
    | .LinkageAttributes name lt => "LinkageAttributes ".toList ++ Display.fmt name ++ " ".toList ++ Display.fmt lt
    | .NoContraction => "NoContraction".toList
    | .InputAttachmentIndex n => "InputAttachmentIndex ".toList ++ Display.fmt n
    | .Alignment n => "Alignment ".toList ++ Display.fmt n

/-- src/spv/types.rs:360-364 -/
instance : Display MemberIndex where
  fmt x := Display.fmt x.val

/-- src/spv/types.rs:376-385 -/
instance : Display AddressingModel where
  fmt x := match x with
    | .Logical => "Logical".toList
    | .Physical32 => "Physical32".toList
    | .Physical64 => "Physical64".toList

/-- src/spv/types.rs:397-406 -/
instance : Display MemoryModel where
  fmt x := match x with
    | .Simple => "Simple".toList
    | .Glsl450 => "GLSL450".toList
    | .OpenCL => "OpenCL".toList

/-- src/spv/types.rs:422-435 -/
instance : Display ExecutionModel where
  fmt x := match x with
    | .Vertex => "Vertex".toList
    | .TesselationControl => "TesselationControl".toList
    | .TesselationEvaluation => "TesselationEvaluation".toList
    | .Geometry => "Geometry".toList
    | .Fragment => "Fragment".toList
    | .GlCompute => "GLCompute".toList
    | .Kernel => "Kernel".toList

/-- src/spv/types.rs:474-515 -/
instance : Display ExecutionMode where
  fmt x := match x with
    | .Invocations n => "Invocations ".toList ++ Display.fmt n
    | .SpacingEqual => "SpacingEqual".toList
    | .SpacingFractionalEven => "SpacingFractionalEven".toList
    | .SpacingFractionalOdd => "SpacingFractionalOdd".toList
    | .VertexOrderCw => "VertexOrderCw".toList
    | .VertexOrderCcw => "VertexOrderCcw".toList
    | .PixelCenterInteger => "PixelCenterInteger".toList
    | .OriginUpperLeft => "OriginUpperLeft".toList
    | .OriginLowerLeft => "OriginLowerLeft".toList
    | .EarlyFragmentTests => "EarlyFragmentTests".toList
    | .PointMode => "PointMode".toList
    | .Xfb => "Xfb".toList
    | .DepthReplacing => "DepthReplacing".toList
    | .DepthGreater => "DepthGreater".toList
    | .DepthLess => "DepthLess".toList
    | .DepthUnchanged => "DepthUnchanged".toList
    | .LocalSize x y z => "LocalSize ".toList ++ Display.fmt x ++ " ".toList ++ Display.fmt y ++ " ".toList ++ Display.fmt z
    | .LocalSizeHint x y z => "LocalSizeHint ".toList ++ Display.fmt x ++ " ".toList ++ Display.fmt y ++ " ".toList ++ Display.fmt z
    | .InputPoints => "InputPoints".toList
    | .InputLines => "InputLines".toList
    | .InputLinesAdjacency => "InputLinesAdjacency".toList
    | .Triangles => "Triangles".toList
    | .InputTrianglesAdjacency => "InputTrianglesAdjacency".toList
    | .Quads => "Quads".toList
    | .Isolines => "Isolines".toList
    | .OutputVerticies n => "OutputVerticies ".toList ++ Display.fmt n
    | .OutputPoints => "OutputPoints".toList
    | .OutputLineStrip => "OutputLineStrip".toList
    | .OutputTriangleStrip => "OutputTriangleStrip".toList
    | .VecTypeHint id => "VecTypeHint ".toList ++ Display.fmt id
    | .ContractionOff => "ContractionOff".toList

/-- src/spv/types.rs:582-644 -/
instance : Display Capability where
  fmt x := match x with
    | .Matrix => "Matrix".toList
    | .Shader => "Shader".toList
    | .Geometry => "Geometry".toList
    | .Tessellation => "Tessellation".toList
    | .Addresses => "Addresses".toList
    | .Linkage => "Linkage".toList
    | .Kernel => "Kernel".toList
    | .Vector16 => "Vector16".toList
    | .Float16Buffer => "Float16Buffer".toList
    | .Float16 => "Float16".toList
    | .Float64 => "Float64".toList
    | .Int64 => "Int64".toList
    | .Int64Atomics => "Int64Atomics".toList
    | .ImageBasic => "ImageBasic".toList
    | .ImageReadWrite => "ImageReadWrite".toList
    | .ImageMipmap => "ImageMipmap".toList
    | .Pipes => "Pipes".toList
    | .Groups => "Groups".toList
    | .DeviceEnqueue => "DeviceEnqueue".toList
    | .LiteralSampler => "LiteralSampler".toList
    | .AtomicStorage => "AtomicStorage".toList
    | .Int16 => "Int16".toList
    | .TessellationPointSize => "TessellationPointSize".toList
    | .GeometryPointSize => "GeometryPointSize".toList
    | .ImageGatherExtended => "ImageGatherExtended".toList
    | .StorageImageMultisample => "StorageImageMultisample".toList
    | .UniformBufferArrayDynamicIndexing => "UniformBufferArrayDynamicIndexing".toList
    | .SampledImageArrayDynamicIndexing => "SampledImageArrayDynamicIndexing".toList
    | .StorageBufferArrayDynamicIndexing => "StorageBufferArrayDynamicIndexing".toList
    | .StorageImageArrayDynamicIndexing => "StorageImageArrayDynamicIndexing".toList
    | .ClipDistance => "ClipDistance".toList
    | .CullDistance => "CullDistance".toList
    | .ImageCubeArray => "ImageCubeArray".toList
    | .SampleRateShading => "SampleRateShading".toList
    | .ImageRect => "ImageRect".toList
    | .SampledRect => "SampledRect".toList
    | .GenericPointer => "GenericPointer".toList
    | .Int8 => "Int8".toList
    | .InputAttachment => "InputAttachment".toList
    | .SparseResidency => "SparseResidency".toList
    | .MinLod => "MinLod".toList
    | .Sampled1D => "Sampled1D".toList
    | .Image1D => "Image1D".toList
    | .SampledCubeArray => "SampledCubeArray".toList
    | .SampledBuffer => "SampledBuffer".toList
    | .ImageBuffer => "ImageBuffer".toList
    | .ImageMSArray => "ImageMSArray".toList
    | .StorageImageExtendedFormats => "StorageImageExtendedFormats".toList
    | .ImageQuery => "ImageQuery".toList
    | .DerivativeControl => "DerivativeControl".toList
    | .InterpolationFunction => "InterpolationFunction".toList
    | .TransformFeedback => "TransformFeedback".toList
    | .GeometryStreams => "GeometryStreams".toList
    | .StorageImageReadWithoutFormat => "StorageImageReadWithoutFormat".toList
    | .StorageImageWriteWithoutFormat => "StorageImageWriteWithoutFormat".toList
    | .MultiViewport => "MultiViewport".toList

/-- src/spv/types.rs:654-662 -/
instance : Display Signedness where
  fmt x := match x with
    | .UnsignedOrNone => "0".toList
    | .Signed => "1".toList

/-- src/spv/types.rs:682-700 -/
instance : Display StorageClass where
  fmt x := match x with
    | .UniformConstant => "UniformConstant".toList
    | .Input => "Input".toList
    | .Uniform => "Uniform".toList
    | .Output => "Output".toList
    | .Workgroup => "Workgroup".toList
    | .CrossWorkgroup => "CrossWorkgroup".toList
    | .Private => "Private".toList
    | .Function => "Function".toList
    | .Generic => "Generic".toList
    | .PushConstant => "PushConstant".toList
    | .AtomicCounter => "AtomicCounter".toList
    | .Image => "Image".toList

/-- src/spv/types.rs:823-836 -/
instance : Display Dim where
  fmt x := match x with
    | .Tex1D => "1D".toList
    | .Tex2D => "2D".toList
    | .Tex3D => "3D".toList
    | .Cube => "Cube".toList
    | .Rect => "Rect".toList
    | .Buffer => "Buffer".toList
    | .SubpassData => "SubpassData".toList

/-- src/spv/types.rs:848-857 -/
instance : Display DepthStatus where
  fmt x := match x with
    | .NotDepth => "0".toList
    | .Depth => "1".toList
    | .NoIndication => "2".toList

/-- src/spv/types.rs:868-876 -/
instance : Display Arrayed where
  fmt x := match x with
    | .False => "0".toList
    | .True => "1".toList

/-- src/spv/types.rs:887-895 -/
instance : Display MS where
  fmt x := match x with
    | .Single => "0".toList
    | .Multi => "1".toList

/-- src/spv/types.rs:907-916 -/
instance : Display SampledStatus where
  fmt x := match x with
    | .RuntimeChoice => "0".toList
    | .WithSampler => "1".toList
    | .WithoutSampler => "2".toList

/-- src/spv/types.rs:965-1011 -/
instance : Display ImageFormat where
  fmt x := match x with
    | .Unknown => "Unknown".toList
    | .Rgba32f => "Rgba32f".toList
    | .Rgba16f => "Rgba16f".toList
    | .R32f => "R32f".toList
    | .Rgba8 => "Rgba8".toList
    | .Rgba8Snorm => "Rgba8Snorm".toList
    | .Rg32f => "Rg32f".toList
    | .Rg16f => "Rg16f".toList
    | .R11fG11fB10f => "R11fG11fB10f".toList
    | .R16f => "R16f".toList
    | .Rgba16 => "Rgba16".toList
    | .Rgb10A2 => "Rgb10A2".toList
    | .Rg16 => "Rg16".toList
    | .Rg8 => "Rg8".toList
    | .R16 => "R16".toList
    | .R8 => "R8".toList
    | .Rgba16Snorm => "Rgba16Snorm".toList
    | .Rg16Snorm => "Rg16Snorm".toList
    | .Rg8Snorm => "Rg8Snorm".toList
    | .R16Snorm => "R16Snorm".toList
    | .R8Snorm => "R8Snorm".toList
    | .Rgba32i => "Rgba32i".toList
    | .Rgba16i => "Rgba16i".toList
    | .Rgba8i => "Rgba8i".toList
    | .R32i => "R32i".toList
    | .Rg32i => "Rg32i".toList
    | .Rg16i => "Rg16i".toList
    | .Rg8i => "Rg8i".toList
    | .R16i => "R16i".toList
    | .R8i => "R8i".toList
    | .Rgba32ui => "Rgba32ui".toList
    | .Rgba16ui => "Rgba16ui".toList
    | .Rgba8ui => "Rgba8ui".toList
    | .R32ui => "R32ui".toList
    | .Rgb10a2ui => "Rgb10a2ui".toList
    | .Rg32ui => "Rg32ui".toList
    | .Rg16ui => "Rg16ui".toList
    | .Rg8ui => "Rg8ui".toList
    | .R16ui => "R16ui".toList
    | .R8ui => "R8ui".toList

/-- src/spv/types.rs:1022-1031 -/
instance : Display AccessQualifier where
  fmt x := match x with
    | .ReadOnly => "ReadOnly".toList
    | .WriteOnly => "WriteOnly".toList
    | .ReadWrite => "ReadWrite".toList

/-- src/spv/types.rs:1113-1131 -/
instance : Display MemoryAccess where
  fmt x := joinParts ((if x.volatile then ["Volatile".toList] else []) ++
    (if x.aligned then ["Aligned".toList] else []) ++
    (if x.non_temporal then ["Nontemporal".toList] else []))

/-- src/spv/types.rs:1143-1164 -/
instance : Display FunctionControl where
  fmt x := joinParts ((if x.inline then ["Inline".toList] else []) ++
    (if x.dont_inline then ["DontInline".toList] else []) ++
    (if x.pure_function then ["Pure".toList] else []) ++
    (if x.const_function then ["Const".toList] else []))

/-- src/spv/types.rs:1178-1199 -/
instance : Display LoopControl where
  fmt x := joinParts ((if x.unroll then ["Unroll".toList] else []) ++
    (if x.dont_unroll then ["DontUnroll".toList] else []) ++
    (if x.dependency_infinite then ["DependencyInfinite".toList] else []) ++
    (match x.dependency_length with | some len => ["DependencyLength(".toList ++ Display.fmt len ++ ")".toList] | none => []))

/-- src/spv/types.rs:1209-1224 -/
instance : Display SelectionControl where
  fmt x := joinParts ((if x.flatten then ["Flatten".toList] else []) ++
    (if x.dont_flatten then ["DontFlatten".toList] else []))

/-- src/spv/types.rs:1234-1238 -/
instance : Display PhiArg where
  fmt x := Display.fmt x.«variable» ++ " ".toList ++ Display.fmt x.parent

/-- src/spv/types.rs:1248-1252 -/
instance : Display BranchWeights where
  fmt x := Display.fmt x.true_weight ++ " ".toList ++ Display.fmt x.false_weight

/-- src/spv/op.rs:14 (macro src/spv/dis.rs:92-119) -/
instance : Display OpNop where
  fmt _ := fmtNoResult ++ "OpNop".toList

/-- src/spv/op.rs:22 (macro src/spv/dis.rs:92-119) -/
instance : Display OpUndef where
  fmt op := fmtResult op.result_id ++ "OpUndef".toList ++ FormatArg.formatArg op.result_type

/-- src/spv/op.rs:31 (macro src/spv/dis.rs:92-119) -/
instance : Display OpSourceContinued where
  fmt op := fmtNoResult ++ "OpSourceContinued".toList ++ FormatArg.formatArg op.continued_source

/-- src/spv/op.rs:41 (macro src/spv/dis.rs:92-119) -/
instance : Display OpSource where
  fmt op := fmtNoResult ++ "OpSource".toList ++ FormatArg.formatArg op.language ++ FormatArg.formatArg op.version ++ FormatArg.formatArg op.file ++ FormatArg.formatArg op.source

/-- src/spv/op.rs:48 (macro src/spv/dis.rs:92-119) -/
instance : Display OpSourceExtension where
  fmt op := fmtNoResult ++ "OpSourceExtension".toList ++ FormatArg.formatArg op.extension

/-- src/spv/op.rs:56 (macro src/spv/dis.rs:92-119) -/
instance : Display OpName where
  fmt op := fmtNoResult ++ "OpName".toList ++ FormatArg.formatArg op.target ++ FormatArg.formatArg op.name

/-- src/spv/op.rs:65 (macro src/spv/dis.rs:92-119) -/
instance : Display OpMemberName where
  fmt op := fmtNoResult ++ "OpMemberName".toList ++ FormatArg.formatArg op.struct_type ++ FormatArg.formatArg op.member ++ FormatArg.formatArg op.name

/-- src/spv/op.rs:73 (macro src/spv/dis.rs:92-119) -/
instance : Display OpString where
  fmt op := fmtResult op.result_id ++ "OpString".toList ++ FormatArg.formatArg op.string

/-- src/spv/op.rs:136 (macro src/spv/dis.rs:92-119) -/
instance : Display OpExtension where
  fmt op := fmtNoResult ++ "OpExtension".toList ++ FormatArg.formatArg op.name

/-- src/spv/op.rs:144 (macro src/spv/dis.rs:92-119) -/
instance : Display OpExtInstImport where
  fmt op := fmtResult op.result_id ++ "OpExtInstImport".toList ++ FormatArg.formatArg op.name

/-- src/spv/op.rs:154 (macro src/spv/dis.rs:92-119) -/
instance {X : Type} [Display X] : Display (OpExtInst X) where
  fmt op := fmtResult op.result_id ++ "OpExtInst".toList ++ FormatArg.formatArg op.result_type ++ FormatArg.formatArg op.set ++ FormatArg.formatArg op.instruction

/-- src/spv/op.rs:164 (macro src/spv/dis.rs:92-119) -/
instance : Display OpMemoryModel where
  fmt op := fmtNoResult ++ "OpMemoryModel".toList ++ FormatArg.formatArg op.addressing_model ++ FormatArg.formatArg op.memory_model

/-- src/spv/op.rs:174 (macro src/spv/dis.rs:92-119) -/
instance : Display OpEntryPoint where
  fmt op := fmtNoResult ++ "OpEntryPoint".toList ++ FormatArg.formatArg op.execution_model ++ FormatArg.formatArg op.entry_point ++ FormatArg.formatArg op.name ++ FormatArg.formatArg op.interface

/-- src/spv/op.rs:182 (macro src/spv/dis.rs:92-119) -/
instance : Display OpExecutionMode where
  fmt op := fmtNoResult ++ "OpExecutionMode".toList ++ FormatArg.formatArg op.entry_point ++ FormatArg.formatArg op.mode

/-- src/spv/op.rs:189 (macro src/spv/dis.rs:92-119) -/
instance : Display OpCapability where
  fmt op := fmtNoResult ++ "OpCapability".toList ++ FormatArg.formatArg op.capability

/-- src/spv/op.rs:198 (macro src/spv/dis.rs:92-119) -/
instance : Display OpTypeVoid where
  fmt op := fmtResult op.result_id ++ "OpTypeVoid".toList

/-- src/spv/op.rs:205 (macro src/spv/dis.rs:92-119) -/
instance : Display OpTypeBool where
  fmt op := fmtResult op.result_id ++ "OpTypeBool".toList

/-- src/spv/op.rs:214 (macro src/spv/dis.rs:92-119) -/
instance : Display OpTypeInt where
  fmt op := fmtResult op.result_id ++ "OpTypeInt".toList ++ FormatArg.formatArg op.width ++ FormatArg.formatArg op.signedness

/-- src/spv/op.rs:222 (macro src/spv/dis.rs:92-119) -/
instance : Display OpTypeFloat where
  fmt op := fmtResult op.result_id ++ "OpTypeFloat".toList ++ FormatArg.formatArg op.width

/-- src/spv/op.rs:231 (macro src/spv/dis.rs:92-119) -/
instance : Display OpTypeVector where
  fmt op := fmtResult op.result_id ++ "OpTypeVector".toList ++ FormatArg.formatArg op.component_type ++ FormatArg.formatArg op.component_count

/-- src/spv/op.rs:240 (macro src/spv/dis.rs:92-119) -/
instance : Display OpTypeMatrix where
  fmt op := fmtResult op.result_id ++ "OpTypeMatrix".toList ++ FormatArg.formatArg op.column_type ++ FormatArg.formatArg op.column_count

/-- src/spv/op.rs:255-264 (macro src/spv/dis.rs:92-119) -/
instance : Display OpTypeImage where
  fmt op := fmtResult op.result_id ++ "OpTypeImage".toList ++ FormatArg.formatArg op.sampled_type ++ FormatArg.formatArg op.dim ++ FormatArg.formatArg op.depth ++ FormatArg.formatArg op.arrayed ++ FormatArg.formatArg op.ms ++ FormatArg.formatArg op.sampled ++ FormatArg.formatArg op.format ++ FormatArg.formatArg op.access_qualifier

/-- src/spv/op.rs:271 (macro src/spv/dis.rs:92-119) -/
instance : Display OpTypeSampler where
  fmt op := fmtResult op.result_id ++ "OpTypeSampler".toList

/-- src/spv/op.rs:279 (macro src/spv/dis.rs:92-119) -/
instance : Display OpTypeSampledImage where
  fmt op := fmtResult op.result_id ++ "OpTypeSampledImage".toList ++ FormatArg.formatArg op.image_type

/-- src/spv/op.rs:288 (macro src/spv/dis.rs:92-119) -/
instance : Display OpTypeArray where
  fmt op := fmtResult op.result_id ++ "OpTypeArray".toList ++ FormatArg.formatArg op.element_type ++ FormatArg.formatArg op.length

/-- src/spv/op.rs:296 (macro src/spv/dis.rs:92-119) -/
instance : Display OpTypeRuntimeArray where
  fmt op := fmtResult op.result_id ++ "OpTypeRuntimeArray".toList ++ FormatArg.formatArg op.element_type

/-- src/spv/op.rs:304 (macro src/spv/dis.rs:92-119) -/
instance : Display OpTypeStruct where
  fmt op := fmtResult op.result_id ++ "OpTypeStruct".toList ++ FormatArg.formatArg op.member_types

/-- src/spv/op.rs:312 (macro src/spv/dis.rs:92-119) -/
instance : Display OpTypeOpaque where
  fmt op := fmtResult op.result_id ++ "OpTypeOpaque".toList ++ FormatArg.formatArg op.name

/-- src/spv/op.rs:321 (macro src/spv/dis.rs:92-119) -/
instance : Display OpTypePointer where
  fmt op := fmtResult op.result_id ++ "OpTypePointer".toList ++ FormatArg.formatArg op.storage_class ++ FormatArg.formatArg op.pointed_type

/-- src/spv/op.rs:330 (macro src/spv/dis.rs:92-119) -/
instance : Display OpTypeFunction where
  fmt op := fmtResult op.result_id ++ "OpTypeFunction".toList ++ FormatArg.formatArg op.return_type ++ FormatArg.formatArg op.parameter_types

/-- src/spv/op.rs:337 (macro src/spv/dis.rs:92-119) -/
instance : Display OpTypeEvent where
  fmt op := fmtResult op.result_id ++ "OpTypeEvent".toList

/-- src/spv/op.rs:344 (macro src/spv/dis.rs:92-119) -/
instance : Display OpTypeDeviceEvent where
  fmt op := fmtResult op.result_id ++ "OpTypeDeviceEvent".toList

/-- src/spv/op.rs:358 (macro src/spv/dis.rs:92-119) -/
instance : Display OpTypeQueue where
  fmt op := fmtResult op.result_id ++ "OpTypeQueue".toList

/-- src/spv/op.rs:366 (macro src/spv/dis.rs:92-119) -/
instance : Display OpTypePipe where
  fmt op := fmtResult op.result_id ++ "OpTypePipe".toList ++ FormatArg.formatArg op.access_qualifier

/-- src/spv/op.rs:374 (macro src/spv/dis.rs:92-119) -/
instance : Display OpTypeForwardPointer where
  fmt op := fmtNoResult ++ "OpTypeForwardPointer".toList ++ FormatArg.formatArg op.pointer_type ++ FormatArg.formatArg op.storage_class

/-- src/spv/op.rs:401 (macro src/spv/dis.rs:92-119) -/
instance : Display OpConstant where
  fmt op := fmtResult op.result_id ++ "OpConstant".toList ++ FormatArg.formatArg op.result_type ++ FormatArg.formatArg op.value

/-- src/spv/op.rs:410 (macro src/spv/dis.rs:92-119) -/
instance : Display OpConstantComposite where
  fmt op := fmtResult op.result_id ++ "OpConstantComposite".toList ++ FormatArg.formatArg op.result_type ++ FormatArg.formatArg op.constituents

/-- src/spv/op.rs:597 (macro src/spv/dis.rs:92-119) -/
instance : Display OpFunction where
  fmt op := fmtResult op.result_id ++ "OpFunction".toList ++ FormatArg.formatArg op.result_type ++ FormatArg.formatArg op.function_control ++ FormatArg.formatArg op.function_type

/-- src/spv/op.rs:605 (macro src/spv/dis.rs:92-119) -/
instance : Display OpFunctionParameter where
  fmt op := fmtResult op.result_id ++ "OpFunctionParameter".toList ++ FormatArg.formatArg op.result_type

/-- src/spv/op.rs:610 (macro src/spv/dis.rs:92-119) -/
instance : Display OpFunctionEnd where
  fmt _ := fmtNoResult ++ "OpFunctionEnd".toList

/-- src/spv/op.rs:475 (macro src/spv/dis.rs:92-119) -/
instance : Display OpVariable where
  fmt op := fmtResult op.result_id ++ "OpVariable".toList ++ FormatArg.formatArg op.result_type ++ FormatArg.formatArg op.storage_class ++ FormatArg.formatArg op.initializer

/-- src/spv/op.rs:496 (macro src/spv/dis.rs:92-119) -/
instance : Display OpLoad where
  fmt op := fmtResult op.result_id ++ "OpLoad".toList ++ FormatArg.formatArg op.result_type ++ FormatArg.formatArg op.pointer ++ FormatArg.formatArg op.memory_access

/-- src/spv/op.rs:505 (macro src/spv/dis.rs:92-119) -/
instance : Display OpStore where
  fmt op := fmtNoResult ++ "OpStore".toList ++ FormatArg.formatArg op.pointer ++ FormatArg.formatArg op.object ++ FormatArg.formatArg op.memory_access

/-- src/spv/op.rs:534 (macro src/spv/dis.rs:92-119) -/
instance : Display OpAccessChain where
  fmt op := fmtResult op.result_id ++ "OpAccessChain".toList ++ FormatArg.formatArg op.result_type ++ FormatArg.formatArg op.base ++ FormatArg.formatArg op.indexes

/-- src/spv/op.rs:97 (macro src/spv/dis.rs:92-119) -/
instance : Display OpDecorate where
  fmt op := fmtNoResult ++ "OpDecorate".toList ++ FormatArg.formatArg op.target ++ FormatArg.formatArg op.decoration

/-- src/spv/op.rs:106 (macro src/spv/dis.rs:92-119) -/
instance : Display OpMemberDecorate where
  fmt op := fmtNoResult ++ "OpMemberDecorate".toList ++ FormatArg.formatArg op.structure_type ++ FormatArg.formatArg op.member ++ FormatArg.formatArg op.decoration

/-- src/spv/op.rs:865 (macro src/spv/dis.rs:92-119) -/
instance : Display OpConvertUToF where
  fmt op := fmtResult op.result_id ++ "OpConvertUToF".toList ++ FormatArg.formatArg op.result_type ++ FormatArg.formatArg op.unsigned_value

/-- src/spv/op.rs:974 (macros src/spv/dis.rs:92-126) -/
instance : Display OpBitcast where
  fmt op := fmtResult op.result_id ++ "OpBitcast".toList ++ FormatArg.formatArg op.result_type ++ FormatArg.formatArg op.operand

/-- src/spv/op.rs:1086 (macros src/spv/dis.rs:92-133) -/
instance : Display OpIAdd where
  fmt op := fmtResult op.result_id ++ "OpIAdd".toList ++ FormatArg.formatArg op.result_type ++ FormatArg.formatArg op.operand1 ++ FormatArg.formatArg op.operand2

/-- src/spv/op.rs:1096 (macros src/spv/dis.rs:92-133) -/
instance : Display OpFAdd where
  fmt op := fmtResult op.result_id ++ "OpFAdd".toList ++ FormatArg.formatArg op.result_type ++ FormatArg.formatArg op.operand1 ++ FormatArg.formatArg op.operand2

/-- src/spv/op.rs:1106 (macros src/spv/dis.rs:92-133) -/
instance : Display OpISub where
  fmt op := fmtResult op.result_id ++ "OpISub".toList ++ FormatArg.formatArg op.result_type ++ FormatArg.formatArg op.operand1 ++ FormatArg.formatArg op.operand2

/-- src/spv/op.rs:1116 (macros src/spv/dis.rs:92-133) -/
instance : Display OpFSub where
  fmt op := fmtResult op.result_id ++ "OpFSub".toList ++ FormatArg.formatArg op.result_type ++ FormatArg.formatArg op.operand1 ++ FormatArg.formatArg op.operand2

/-- src/spv/op.rs:1126 (macros src/spv/dis.rs:92-133) -/
instance : Display OpIMul where
  fmt op := fmtResult op.result_id ++ "OpIMul".toList ++ FormatArg.formatArg op.result_type ++ FormatArg.formatArg op.operand1 ++ FormatArg.formatArg op.operand2

/-- src/spv/op.rs:1136 (macros src/spv/dis.rs:92-133) -/
instance : Display OpFMul where
  fmt op := fmtResult op.result_id ++ "OpFMul".toList ++ FormatArg.formatArg op.result_type ++ FormatArg.formatArg op.operand1 ++ FormatArg.formatArg op.operand2

/-- src/spv/op.rs:1146 (macros src/spv/dis.rs:92-133) -/
instance : Display OpUDiv where
  fmt op := fmtResult op.result_id ++ "OpUDiv".toList ++ FormatArg.formatArg op.result_type ++ FormatArg.formatArg op.operand1 ++ FormatArg.formatArg op.operand2

/-- src/spv/op.rs:1156 (macros src/spv/dis.rs:92-133) -/
instance : Display OpSDiv where
  fmt op := fmtResult op.result_id ++ "OpSDiv".toList ++ FormatArg.formatArg op.result_type ++ FormatArg.formatArg op.operand1 ++ FormatArg.formatArg op.operand2

/-- src/spv/op.rs:1166 (macros src/spv/dis.rs:92-133) -/
instance : Display OpFDiv where
  fmt op := fmtResult op.result_id ++ "OpFDiv".toList ++ FormatArg.formatArg op.result_type ++ FormatArg.formatArg op.operand1 ++ FormatArg.formatArg op.operand2

/-- src/spv/op.rs:1176 (macros src/spv/dis.rs:92-133) -/
instance : Display OpUMod where
  fmt op := fmtResult op.result_id ++ "OpUMod".toList ++ FormatArg.formatArg op.result_type ++ FormatArg.formatArg op.operand1 ++ FormatArg.formatArg op.operand2

/-- src/spv/op.rs:1186 (macros src/spv/dis.rs:92-133) -/
instance : Display OpSRem where
  fmt op := fmtResult op.result_id ++ "OpSRem".toList ++ FormatArg.formatArg op.result_type ++ FormatArg.formatArg op.operand1 ++ FormatArg.formatArg op.operand2

/-- src/spv/op.rs:1196 (macros src/spv/dis.rs:92-133) -/
instance : Display OpSMod where
  fmt op := fmtResult op.result_id ++ "OpSMod".toList ++ FormatArg.formatArg op.result_type ++ FormatArg.formatArg op.operand1 ++ FormatArg.formatArg op.operand2

/-- src/spv/op.rs:1206 (macros src/spv/dis.rs:92-133) -/
instance : Display OpFRem where
  fmt op := fmtResult op.result_id ++ "OpFRem".toList ++ FormatArg.formatArg op.result_type ++ FormatArg.formatArg op.operand1 ++ FormatArg.formatArg op.operand2

/-- src/spv/op.rs:1216 (macros src/spv/dis.rs:92-133) -/
instance : Display OpFMod where
  fmt op := fmtResult op.result_id ++ "OpFMod".toList ++ FormatArg.formatArg op.result_type ++ FormatArg.formatArg op.operand1 ++ FormatArg.formatArg op.operand2

/-- src/spv/op.rs:1296 (macros src/spv/dis.rs:92-133) -/
instance : Display OpIAddCarry where
  fmt op := fmtResult op.result_id ++ "OpIAddCarry".toList ++ FormatArg.formatArg op.result_type ++ FormatArg.formatArg op.operand1 ++ FormatArg.formatArg op.operand2

/-- src/spv/op.rs:1306 (macros src/spv/dis.rs:92-133) -/
instance : Display OpISubBorrow where
  fmt op := fmtResult op.result_id ++ "OpISubBorrow".toList ++ FormatArg.formatArg op.result_type ++ FormatArg.formatArg op.operand1 ++ FormatArg.formatArg op.operand2

/-- src/spv/op.rs:1316 (macros src/spv/dis.rs:92-133) -/
instance : Display OpUMulExtended where
  fmt op := fmtResult op.result_id ++ "OpUMulExtended".toList ++ FormatArg.formatArg op.result_type ++ FormatArg.formatArg op.operand1 ++ FormatArg.formatArg op.operand2

/-- src/spv/op.rs:1326 (macros src/spv/dis.rs:92-133) -/
instance : Display OpSMulExtended where
  fmt op := fmtResult op.result_id ++ "OpSMulExtended".toList ++ FormatArg.formatArg op.result_type ++ FormatArg.formatArg op.operand1 ++ FormatArg.formatArg op.operand2

/-- src/spv/op.rs:1368 (macros src/spv/dis.rs:92-133) -/
instance : Display OpBitwiseOr where
  fmt op := fmtResult op.result_id ++ "OpBitwiseOr".toList ++ FormatArg.formatArg op.result_type ++ FormatArg.formatArg op.operand1 ++ FormatArg.formatArg op.operand2

/-- src/spv/op.rs:1378 (macros src/spv/dis.rs:92-133) -/
instance : Display OpBitwiseXor where
  fmt op := fmtResult op.result_id ++ "OpBitwiseXor".toList ++ FormatArg.formatArg op.result_type ++ FormatArg.formatArg op.operand1 ++ FormatArg.formatArg op.operand2

/-- src/spv/op.rs:1388 (macros src/spv/dis.rs:92-133) -/
instance : Display OpBitwiseAnd where
  fmt op := fmtResult op.result_id ++ "OpBitwiseAnd".toList ++ FormatArg.formatArg op.result_type ++ FormatArg.formatArg op.operand1 ++ FormatArg.formatArg op.operand2

/-- src/spv/op.rs:1472 (macros src/spv/dis.rs:92-133) -/
instance : Display OpIEqual where
  fmt op := fmtResult op.result_id ++ "OpIEqual".toList ++ FormatArg.formatArg op.result_type ++ FormatArg.formatArg op.operand1 ++ FormatArg.formatArg op.operand2

/-- src/spv/op.rs:1482 (macros src/spv/dis.rs:92-133) -/
instance : Display OpINotEqual where
  fmt op := fmtResult op.result_id ++ "OpINotEqual".toList ++ FormatArg.formatArg op.result_type ++ FormatArg.formatArg op.operand1 ++ FormatArg.formatArg op.operand2

/-- src/spv/op.rs:1492 (macros src/spv/dis.rs:92-133) -/
instance : Display OpUGreaterThan where
  fmt op := fmtResult op.result_id ++ "OpUGreaterThan".toList ++ FormatArg.formatArg op.result_type ++ FormatArg.formatArg op.operand1 ++ FormatArg.formatArg op.operand2

/-- src/spv/op.rs:1502 (macros src/spv/dis.rs:92-133) -/
instance : Display OpSGreaterThan where
  fmt op := fmtResult op.result_id ++ "OpSGreaterThan".toList ++ FormatArg.formatArg op.result_type ++ FormatArg.formatArg op.operand1 ++ FormatArg.formatArg op.operand2

/-- src/spv/op.rs:1512 (macros src/spv/dis.rs:92-133) -/
instance : Display OpUGreaterThanEqual where
  fmt op := fmtResult op.result_id ++ "OpUGreaterThanEqual".toList ++ FormatArg.formatArg op.result_type ++ FormatArg.formatArg op.operand1 ++ FormatArg.formatArg op.operand2

/-- src/spv/op.rs:1522 (macros src/spv/dis.rs:92-133) -/
instance : Display OpSGreaterThanEqual where
  fmt op := fmtResult op.result_id ++ "OpSGreaterThanEqual".toList ++ FormatArg.formatArg op.result_type ++ FormatArg.formatArg op.operand1 ++ FormatArg.formatArg op.operand2

/-- src/spv/op.rs:1532 (macros src/spv/dis.rs:92-133) -/
instance : Display OpULessThan where
  fmt op := fmtResult op.result_id ++ "OpULessThan".toList ++ FormatArg.formatArg op.result_type ++ FormatArg.formatArg op.operand1 ++ FormatArg.formatArg op.operand2

/-- src/spv/op.rs:1542 (macros src/spv/dis.rs:92-133) -/
instance : Display OpSLessThan where
  fmt op := fmtResult op.result_id ++ "OpSLessThan".toList ++ FormatArg.formatArg op.result_type ++ FormatArg.formatArg op.operand1 ++ FormatArg.formatArg op.operand2

/-- src/spv/op.rs:1552 (macros src/spv/dis.rs:92-133) -/
instance : Display OpULessThanEqual where
  fmt op := fmtResult op.result_id ++ "OpULessThanEqual".toList ++ FormatArg.formatArg op.result_type ++ FormatArg.formatArg op.operand1 ++ FormatArg.formatArg op.operand2

/-- src/spv/op.rs:1562 (macros src/spv/dis.rs:92-133) -/
instance : Display OpSLessThanEqual where
  fmt op := fmtResult op.result_id ++ "OpSLessThanEqual".toList ++ FormatArg.formatArg op.result_type ++ FormatArg.formatArg op.operand1 ++ FormatArg.formatArg op.operand2

/-- src/spv/op.rs:1572 (macros src/spv/dis.rs:92-133) -/
instance : Display OpFOrdEqual where
  fmt op := fmtResult op.result_id ++ "OpFOrdEqual".toList ++ FormatArg.formatArg op.result_type ++ FormatArg.formatArg op.operand1 ++ FormatArg.formatArg op.operand2

/-- src/spv/op.rs:1582 (macros src/spv/dis.rs:92-133) -/
instance : Display OpFUnordEqual where
  fmt op := fmtResult op.result_id ++ "OpFUnordEqual".toList ++ FormatArg.formatArg op.result_type ++ FormatArg.formatArg op.operand1 ++ FormatArg.formatArg op.operand2

/-- src/spv/op.rs:1592 (macros src/spv/dis.rs:92-133) -/
instance : Display OpFOrdNotEqual where
  fmt op := fmtResult op.result_id ++ "OpFOrdNotEqual".toList ++ FormatArg.formatArg op.result_type ++ FormatArg.formatArg op.operand1 ++ FormatArg.formatArg op.operand2

/-- src/spv/op.rs:1602 (macros src/spv/dis.rs:92-133) -/
instance : Display OpFUnordNotEqual where
  fmt op := fmtResult op.result_id ++ "OpFUnordNotEqual".toList ++ FormatArg.formatArg op.result_type ++ FormatArg.formatArg op.operand1 ++ FormatArg.formatArg op.operand2

/-- src/spv/op.rs:1612 (macros src/spv/dis.rs:92-133) -/
instance : Display OpFOrdLessThan where
  fmt op := fmtResult op.result_id ++ "OpFOrdLessThan".toList ++ FormatArg.formatArg op.result_type ++ FormatArg.formatArg op.operand1 ++ FormatArg.formatArg op.operand2

/-- src/spv/op.rs:1622 (macros src/spv/dis.rs:92-133) -/
instance : Display OpFUnordLessThan where
  fmt op := fmtResult op.result_id ++ "OpFUnordLessThan".toList ++ FormatArg.formatArg op.result_type ++ FormatArg.formatArg op.operand1 ++ FormatArg.formatArg op.operand2

/-- src/spv/op.rs:1632 (macros src/spv/dis.rs:92-133) -/
instance : Display OpFOrdGreaterThan where
  fmt op := fmtResult op.result_id ++ "OpFOrdGreaterThan".toList ++ FormatArg.formatArg op.result_type ++ FormatArg.formatArg op.operand1 ++ FormatArg.formatArg op.operand2

/-- src/spv/op.rs:1642 (macros src/spv/dis.rs:92-133) -/
instance : Display OpFUnordGreaterThan where
  fmt op := fmtResult op.result_id ++ "OpFUnordGreaterThan".toList ++ FormatArg.formatArg op.result_type ++ FormatArg.formatArg op.operand1 ++ FormatArg.formatArg op.operand2

/-- src/spv/op.rs:1652 (macros src/spv/dis.rs:92-133) -/
instance : Display OpFOrdLessThanEqual where
  fmt op := fmtResult op.result_id ++ "OpFOrdLessThanEqual".toList ++ FormatArg.formatArg op.result_type ++ FormatArg.formatArg op.operand1 ++ FormatArg.formatArg op.operand2

/-- src/spv/op.rs:1662 (macros src/spv/dis.rs:92-133) -/
instance : Display OpFUnordLessThanEqual where
  fmt op := fmtResult op.result_id ++ "OpFUnordLessThanEqual".toList ++ FormatArg.formatArg op.result_type ++ FormatArg.formatArg op.operand1 ++ FormatArg.formatArg op.operand2

/-- src/spv/op.rs:1672 (macros src/spv/dis.rs:92-133) -/
instance : Display OpFOrdGreaterThanEqual where
  fmt op := fmtResult op.result_id ++ "OpFOrdGreaterThanEqual".toList ++ FormatArg.formatArg op.result_type ++ FormatArg.formatArg op.operand1 ++ FormatArg.formatArg op.operand2

/-- src/spv/op.rs:1682 (macros src/spv/dis.rs:92-133) -/
instance : Display OpFUnordGreaterThanEqual where
  fmt op := fmtResult op.result_id ++ "OpFUnordGreaterThanEqual".toList ++ FormatArg.formatArg op.result_type ++ FormatArg.formatArg op.operand1 ++ FormatArg.formatArg op.operand2

/-- src/spv/op.rs:1722 (macro src/spv/dis.rs:92-119) -/
instance : Display OpPhi where
  fmt op := fmtResult op.result_id ++ "OpPhi".toList ++ FormatArg.formatArg op.result_type ++ FormatArg.formatArg op.variables

/-- src/spv/op.rs:1731 (macro src/spv/dis.rs:92-119) -/
instance : Display OpLoopMerge where
  fmt op := fmtNoResult ++ "OpLoopMerge".toList ++ FormatArg.formatArg op.merge_block ++ FormatArg.formatArg op.continue_target ++ FormatArg.formatArg op.loop_control

/-- src/spv/op.rs:1739 (macro src/spv/dis.rs:92-119) -/
instance : Display OpSelectionMerge where
  fmt op := fmtNoResult ++ "OpSelectionMerge".toList ++ FormatArg.formatArg op.merge_block ++ FormatArg.formatArg op.selection_control

/-- src/spv/op.rs:1746 (macro src/spv/dis.rs:92-119) -/
instance : Display OpLabel where
  fmt op := fmtResult op.result_id ++ "OpLabel".toList

/-- src/spv/op.rs:1753 (macro src/spv/dis.rs:92-119) -/
instance : Display OpBranch where
  fmt op := fmtNoResult ++ "OpBranch".toList ++ FormatArg.formatArg op.target_label

/-- src/spv/op.rs:1763 (macro src/spv/dis.rs:92-119) -/
instance : Display OpBranchConditional where
  fmt op := fmtNoResult ++ "OpBranchConditional".toList ++ FormatArg.formatArg op.condition ++ FormatArg.formatArg op.true_label ++ FormatArg.formatArg op.false_label ++ FormatArg.formatArg op.weights

/-- src/spv/op.rs:1774 (macro src/spv/dis.rs:92-119) -/
instance : Display OpReturn where
  fmt _ := fmtNoResult ++ "OpReturn".toList

/-- src/spv/raw/mod.rs:154-257 -/
def Core.fmt {X : Type} [Display X] (c : Core X) : Text :=
  match c with
  | .OpNop op => Display.fmt op
  | .OpUndef op => Display.fmt op
  | .OpSourceContinued op => Display.fmt op
  | .OpSource op => Display.fmt op
  | .OpSourceExtension op => Display.fmt op
  | .OpName op => Display.fmt op
  | .OpMemberName op => Display.fmt op
  | .OpString op => Display.fmt op
  | .OpExtension op => Display.fmt op
  | .OpExtInstImport op => Display.fmt op
  | .OpExtInst op => Display.fmt op
  | .OpMemoryModel op => Display.fmt op
  | .OpEntryPoint op => Display.fmt op
  | .OpExecutionMode op => Display.fmt op
  | .OpCapability op => Display.fmt op
  | .OpTypeVoid op => Display.fmt op
  | .OpTypeBool op => Display.fmt op
  | .OpTypeInt op => Display.fmt op
  | .OpTypeFloat op => Display.fmt op
  | .OpTypeVector op => Display.fmt op
  | .OpTypeMatrix op => Display.fmt op
  | .OpTypeImage op => Display.fmt op
  | .OpTypeSampler op => Display.fmt op
  | .OpTypeSampledImage op => Display.fmt op
  | .OpTypeArray op => Display.fmt op
  | .OpTypeRuntimeArray op => Display.fmt op
  | .OpTypeStruct op => Display.fmt op
  | .OpTypeOpaque op => Display.fmt op
  | .OpTypePointer op => Display.fmt op
  | .OpTypeFunction op => Display.fmt op
  | .OpTypeEvent op => Display.fmt op
  | .OpTypeDeviceEvent op => Display.fmt op
  | .OpTypeQueue op => Display.fmt op
  | .OpTypePipe op => Display.fmt op
  | .OpTypeForwardPointer op => Display.fmt op
  | .OpConstant op => Display.fmt op
  | .OpConstantComposite op => Display.fmt op
  | .OpFunction op => Display.fmt op
  | .OpFunctionParameter op => Display.fmt op
  | .OpFunctionEnd op => Display.fmt op
  | .OpVariable op => Display.fmt op
  | .OpLoad op => Display.fmt op
  | .OpStore op => Display.fmt op
  | .OpAccessChain op => Display.fmt op
  | .OpDecorate op => Display.fmt op
  | .OpMemberDecorate op => Display.fmt op
  | .OpConvertUToF op => Display.fmt op
  | .OpBitcast op => Display.fmt op
  | .OpIAdd op => Display.fmt op
  | .OpFAdd op => Display.fmt op
  | .OpISub op => Display.fmt op
  | .OpFSub op => Display.fmt op
  | .OpIMul op => Display.fmt op
  | .OpFMul op => Display.fmt op
  | .OpUDiv op => Display.fmt op
  | .OpSDiv op => Display.fmt op
  | .OpFDiv op => Display.fmt op
  | .OpUMod op => Display.fmt op
  | .OpSRem op => Display.fmt op
  | .OpSMod op => Display.fmt op
  | .OpFRem op => Display.fmt op
  | .OpFMod op => Display.fmt op
  | .OpIAddCarry op => Display.fmt op
  | .OpISubBorrow op => Display.fmt op
  | .OpUMulExtended op => Display.fmt op
  | .OpSMulExtended op => Display.fmt op
  | .OpBitwiseOr op => Display.fmt op
  | .OpBitwiseXor op => Display.fmt op
  | .OpBitwiseAnd op => Display.fmt op
  | .OpIEqual op => Display.fmt op
  | .OpINotEqual op => Display.fmt op
  | .OpUGreaterThan op => Display.fmt op
  | .OpSGreaterThan op => Display.fmt op
  | .OpUGreaterThanEqual op => Display.fmt op
  | .OpSGreaterThanEqual op => Display.fmt op
  | .OpULessThan op => Display.fmt op
  | .OpSLessThan op => Display.fmt op
  | .OpULessThanEqual op => Display.fmt op
  | .OpSLessThanEqual op => Display.fmt op
  | .OpFOrdEqual op => Display.fmt op
  | .OpFUnordEqual op => Display.fmt op
  | .OpFOrdNotEqual op => Display.fmt op
  | .OpFUnordNotEqual op => Display.fmt op
  | .OpFOrdLessThan op => Display.fmt op
  | .OpFUnordLessThan op => Display.fmt op
  | .OpFOrdGreaterThan op => Display.fmt op
  | .OpFUnordGreaterThan op => Display.fmt op
  | .OpFOrdLessThanEqual op => Display.fmt op
  | .OpFUnordLessThanEqual op => Display.fmt op
  | .OpFOrdGreaterThanEqual op => Display.fmt op
  | .OpFUnordGreaterThanEqual op => Display.fmt op
  | .OpPhi op => Display.fmt op
  | .OpLoopMerge op => Display.fmt op
  | .OpSelectionMerge op => Display.fmt op
  | .OpLabel op => Display.fmt op
  | .OpBranch op => Display.fmt op
  | .OpBranchConditional op => Display.fmt op
  | .OpReturn op => Display.fmt op

instance {X : Type} [Display X] : Display (Core X) where
  fmt := Core.fmt

end Magma
