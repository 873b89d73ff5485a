import Verif.Model.Debug
/-! Generated by `tools/gen_debug.py`: derived debug output; citations are to `/repo`. -/

namespace Magma

/-- src/spv/types.rs:8-9 -/
instance : Debug OpId :=
  ⟨fun shown ⟨a0⟩ =>
    debugTuple "OpId" [Debug.debug shown a0]⟩

/-- src/spv/types.rs:20-21 -/
instance : Debug ResultId :=
  ⟨fun shown ⟨a0⟩ =>
    debugTuple "ResultId" [Debug.debug shown a0]⟩

/-- src/spv/types.rs:30-31 -/
instance : Debug Version :=
  ⟨fun shown ⟨a0, a1⟩ =>
    debugTuple "Version" [Debug.debug shown a0, Debug.debug shown a1]⟩

/-- src/spv/types.rs:41-56: the names of the variants -/
def Tool.debugName : Tool → String
  | .KhronosReserved => "KhronosReserved"
  | .LunarG => "LunarG"
  | .Valve => "Valve"
  | .Codeplay => "Codeplay"
  | .Nvidia => "Nvidia"
  | .Arm => "Arm"
  | .KhronosLLvmTranslator => "KhronosLLvmTranslator"
  | .KhronosAssembler => "KhronosAssembler"
  | .KhronosGlslang => "KhronosGlslang"
  | .Qualcomm => "Qualcomm"
  | .Amd => "Amd"
  | .Intel => "Intel"
  | .Other _ => "Other"

/-- src/spv/types.rs:41-56: the fields of the variants -/
def Tool.debugFields (shown : Char → Bool) : Tool → List Text
  | .KhronosReserved => []
  | .LunarG => []
  | .Valve => []
  | .Codeplay => []
  | .Nvidia => []
  | .Arm => []
  | .KhronosLLvmTranslator => []
  | .KhronosAssembler => []
  | .KhronosGlslang => []
  | .Qualcomm => []
  | .Amd => []
  | .Intel => []
  | .Other a0 => [Debug.debug shown a0]

/-- src/spv/types.rs:41-56 -/
instance : Debug Tool := ⟨fun shown x => debugTuple x.debugName (x.debugFields shown)⟩

/-- src/spv/types.rs:34-38 -/
instance : Debug Generator :=
  ⟨fun shown ⟨a0, a1⟩ =>
    debugStruct "Generator" [("tool", Debug.debug shown a0), ("version", Debug.debug shown a1)]⟩

/-- src/spv/types.rs:88-96: the names of the variants -/
def SourceLanguage.debugName : SourceLanguage → String
  | .Unknown => "Unknown"
  | .Essl => "Essl"
  | .Glsl => "Glsl"
  | .OpenCL_C => "OpenCL_C"
  | .OpenCL_Cpp => "OpenCL_Cpp"
  | .Other _ => "Other"

/-- src/spv/types.rs:88-96: the fields of the variants -/
def SourceLanguage.debugFields (shown : Char → Bool) : SourceLanguage → List Text
  | .Unknown => []
  | .Essl => []
  | .Glsl => []
  | .OpenCL_C => []
  | .OpenCL_Cpp => []
  | .Other a0 => [Debug.debug shown a0]

/-- src/spv/types.rs:88-96 -/
instance : Debug SourceLanguage := ⟨fun shown x => debugTuple x.debugName (x.debugFields shown)⟩

/-- src/spv/types.rs:115-116 -/
instance : Debug SourceVersion :=
  ⟨fun shown ⟨a0⟩ =>
    debugTuple "SourceVersion" [Debug.debug shown a0]⟩

/-- src/spv/types.rs:260-303: the names of the variants -/
def BuiltIn.debugName : BuiltIn → String
  | .Position => "Position"
  | .PointSize => "PointSize"
  | .ClipDistance => "ClipDistance"
  | .CullDistance => "CullDistance"
  | .VertexId => "VertexId"
  | .InstanceId => "InstanceId"
  | .PrimitiveId => "PrimitiveId"
  | .InvocationId => "InvocationId"
  | .Layer => "Layer"
  | .ViewportIndex => "ViewportIndex"
  | .TessLevelOuter => "TessLevelOuter"
  | .TessLevelInner => "TessLevelInner"
  | .TessCoord => "TessCoord"
  | .PatchVerticies => "PatchVerticies"
  | .FragCoord => "FragCoord"
  | .PointCoord => "PointCoord"
  | .FrontFacing => "FrontFacing"
  | .SampleId => "SampleId"
  | .SamplePosition => "SamplePosition"
  | .SampleMask => "SampleMask"
  | .FragDepth => "FragDepth"
  | .HelperInvocation => "HelperInvocation"
  | .NumWorkgroups => "NumWorkgroups"
  | .WorkgroupSize => "WorkgroupSize"
  | .WorkgroupId => "WorkgroupId"
  | .LocalInvocationId => "LocalInvocationId"
  | .GlobalInvocationId => "GlobalInvocationId"
  | .LocalInvocationIndex => "LocalInvocationIndex"
  | .WorkDim => "WorkDim"
  | .GlobalSize => "GlobalSize"
  | .EnqueuedWorkgroupSize => "EnqueuedWorkgroupSize"
  | .GlobalOffset => "GlobalOffset"
  | .GlobalLinearId => "GlobalLinearId"
  | .SubgroupSize => "SubgroupSize"
  | .SubgroupMaxSize => "SubgroupMaxSize"
  | .NumSubgroups => "NumSubgroups"
  | .NumEnqueuedSubgroups => "NumEnqueuedSubgroups"
  | .SubgroupId => "SubgroupId"
  | .SubgroupLocalInvocationId => "SubgroupLocalInvocationId"
  | .VertexIndex => "VertexIndex"
  | .InstanceIndex => "InstanceIndex"

/-- src/spv/types.rs:260-303 -/
instance : Debug BuiltIn := ⟨fun _ x => debugTuple x.debugName []⟩

/-- src/spv/types.rs:781-791: the names of the variants -/
def FunctionParameterAttribute.debugName : FunctionParameterAttribute → String
  | .Zext => "Zext"
  | .Sext => "Sext"
  | .ByVal => "ByVal"
  | .Sret => "Sret"
  | .NoAlias => "NoAlias"
  | .NoCapture => "NoCapture"
  | .NoWrite => "NoWrite"
  | .NoReadWrite => "NoReadWrite"

/-- src/spv/types.rs:781-791 -/
instance : Debug FunctionParameterAttribute := ⟨fun _ x => debugTuple x.debugName []⟩

/-- src/spv/types.rs:741-747: the names of the variants -/
def FpRoundingMode.debugName : FpRoundingMode → String
  | .Rte => "Rte"
  | .Rtz => "Rtz"
  | .Rtp => "Rtp"
  | .Rtn => "Rtn"

/-- src/spv/types.rs:741-747 -/
instance : Debug FpRoundingMode := ⟨fun _ x => debugTuple x.debugName []⟩

/-- src/spv/types.rs:704-711 -/
instance : Debug FpFastMathMode :=
  ⟨fun shown ⟨a0, a1, a2, a3, a4⟩ =>
    debugStruct "FpFastMathMode" [("not_nan", Debug.debug shown a0), ("not_inf", Debug.debug shown a1), ("nsz", Debug.debug shown a2), ("allow_recip", Debug.debug shown a3), ("fast", Debug.debug shown a4)]⟩

/-- src/spv/types.rs:763-767: the names of the variants -/
def LinkageType.debugName : LinkageType → String
  | .Export => "Export"
  | .Import => "Import"

/-- src/spv/types.rs:763-767 -/
instance : Debug LinkageType := ⟨fun _ x => debugTuple x.debugName []⟩

/-- src/spv/types.rs:151-196: the names of the variants -/
def Decoration.debugName : Decoration → String
  | .RelaxedPrecision => "RelaxedPrecision"
  | .SpecId _ => "SpecId"
  | .Block => "Block"
  | .BufferBlock => "BufferBlock"
  | .RowMajor => "RowMajor"
  | .ColMajor => "ColMajor"
  | .ArrayStride _ => "ArrayStride"
  | .MatrixStride _ => "MatrixStride"
  | .GlslShared => "GlslShared"
  | .GlslPacked => "GlslPacked"
  | .CPacked => "CPacked"
  | .BuiltIn _ => "BuiltIn"
  | .NoPerspective => "NoPerspective"
  | .Flat => "Flat"
  | .Patch => "Patch"
  | .Centroid => "Centroid"
  | .Sample => "Sample"
  | .Invariant => "Invariant"
  | .Restrict => "Restrict"
  | .Aliased => "Aliased"
  | .Volatile => "Volatile"
  | .Constant => "Constant"
  | .Coherent => "Coherent"
  | .NonWritable => "NonWritable"
  | .NonReadable => "NonReadable"
  | .Uniform => "Uniform"
  | .SaturatedConversion => "SaturatedConversion"
  | .Stream _ => "Stream"
  | .Location _ => "Location"
  | .Component _ => "Component"
  | .Index _ => "Index"
  | .Binding _ => "Binding"
  | .DescriptorSet _ => "DescriptorSet"
  | .Offset _ => "Offset"
  | .XfbBuffer _ => "XfbBuffer"
  | .XfbStride _ => "XfbStride"
  | .FuncParamAttr _ => "FuncParamAttr"
  | .FpRoundingMode _ => "FpRoundingMode"
  | .FpFastMathMode _ => "FpFastMathMode"
  | .LinkageAttributes _ _ => "LinkageAttributes"
  | .NoContraction => "NoContraction"
  | .InputAttachmentIndex _ => "InputAttachmentIndex"
  | .Alignment _ => "Alignment"

/-- src/spv/types.rs:151-196: the fields of the variants -/
def Decoration.debugFields (shown : Char → Bool) : Decoration → List Text
  | .RelaxedPrecision => []
  | .SpecId a0 => [Debug.debug shown a0]
  | .Block => []
  | .BufferBlock => []
  | .RowMajor => []
  | .ColMajor => []
  | .ArrayStride a0 => [Debug.debug shown a0]
  | .MatrixStride a0 => [Debug.debug shown a0]
  | .GlslShared => []
  | .GlslPacked => []
  | .CPacked => []
  | .BuiltIn a0 => [Debug.debug shown a0]
  | .NoPerspective => []
  | .Flat => []
  | .Patch => []
  | .Centroid => []
  | .Sample => []
  | .Invariant => []
  | .Restrict => []
  | .Aliased => []
  | .Volatile => []
  | .Constant => []
  | .Coherent => []
  | .NonWritable => []
  | .NonReadable => []
  | .Uniform => []
  | .SaturatedConversion => []
  | .Stream a0 => [Debug.debug shown a0]
  | .Location a0 => [Debug.debug shown a0]
  | .Component a0 => [Debug.debug shown a0]
  | .Index a0 => [Debug.debug shown a0]
  | .Binding a0 => [Debug.debug shown a0]
  | .DescriptorSet a0 => [Debug.debug shown a0]
  | .Offset a0 => [Debug.debug shown a0]
  | .XfbBuffer a0 => [Debug.debug shown a0]
  | .XfbStride a0 => [Debug.debug shown a0]
  | .FuncParamAttr a0 => [Debug.debug shown a0]
  | .FpRoundingMode a0 => [Debug.debug shown a0]
  | .FpFastMathMode a0 => [Debug.debug shown a0]
  | .LinkageAttributes a0 a1 => [Debug.debug shown a0, Debug.debug shown a1]
  | .NoContraction => []
  | .InputAttachmentIndex a0 => [Debug.debug shown a0]
  | .Alignment a0 => [Debug.debug shown a0]

/-- src/spv/types.rs:151-196 -/
instance : Debug Decoration := ⟨fun shown x => debugTuple x.debugName (x.debugFields shown)⟩

/-- src/spv/types.rs:357-358 -/
instance : Debug MemberIndex :=
  ⟨fun shown ⟨a0⟩ =>
    debugTuple "MemberIndex" [Debug.debug shown a0]⟩

/-- src/spv/types.rs:369-374: the names of the variants -/
def AddressingModel.debugName : AddressingModel → String
  | .Logical => "Logical"
  | .Physical32 => "Physical32"
  | .Physical64 => "Physical64"

/-- src/spv/types.rs:369-374 -/
instance : Debug AddressingModel := ⟨fun _ x => debugTuple x.debugName []⟩

/-- src/spv/types.rs:390-395: the names of the variants -/
def MemoryModel.debugName : MemoryModel → String
  | .Simple => "Simple"
  | .Glsl450 => "Glsl450"
  | .OpenCL => "OpenCL"

/-- src/spv/types.rs:390-395 -/
instance : Debug MemoryModel := ⟨fun _ x => debugTuple x.debugName []⟩

/-- src/spv/types.rs:411-420: the names of the variants -/
def ExecutionModel.debugName : ExecutionModel → String
  | .Vertex => "Vertex"
  | .TesselationControl => "TesselationControl"
  | .TesselationEvaluation => "TesselationEvaluation"
  | .Geometry => "Geometry"
  | .Fragment => "Fragment"
  | .GlCompute => "GlCompute"
  | .Kernel => "Kernel"

/-- src/spv/types.rs:411-420 -/
instance : Debug ExecutionModel := ⟨fun _ x => debugTuple x.debugName []⟩

/-- src/spv/types.rs:439-472: the names of the variants -/
def ExecutionMode.debugName : ExecutionMode → String
  | .Invocations _ => "Invocations"
  | .SpacingEqual => "SpacingEqual"
  | .SpacingFractionalEven => "SpacingFractionalEven"
  | .SpacingFractionalOdd => "SpacingFractionalOdd"
  | .VertexOrderCw => "VertexOrderCw"
  | .VertexOrderCcw => "VertexOrderCcw"
  | .PixelCenterInteger => "PixelCenterInteger"
  | .OriginUpperLeft => "OriginUpperLeft"
  | .OriginLowerLeft => "OriginLowerLeft"
  | .EarlyFragmentTests => "EarlyFragmentTests"
  | .PointMode => "PointMode"
  | .Xfb => "Xfb"
  | .DepthReplacing => "DepthReplacing"
  | .DepthGreater => "DepthGreater"
  | .DepthLess => "DepthLess"
  | .DepthUnchanged => "DepthUnchanged"
  | .LocalSize _ _ _ => "LocalSize"
  | .LocalSizeHint _ _ _ => "LocalSizeHint"
  | .InputPoints => "InputPoints"
  | .InputLines => "InputLines"
  | .InputLinesAdjacency => "InputLinesAdjacency"
  | .Triangles => "Triangles"
  | .InputTrianglesAdjacency => "InputTrianglesAdjacency"
  | .Quads => "Quads"
  | .Isolines => "Isolines"
  | .OutputVerticies _ => "OutputVerticies"
  | .OutputPoints => "OutputPoints"
  | .OutputLineStrip => "OutputLineStrip"
  | .OutputTriangleStrip => "OutputTriangleStrip"
  | .VecTypeHint _ => "VecTypeHint"
  | .ContractionOff => "ContractionOff"

/-- src/spv/types.rs:439-472: the fields of the variants -/
def ExecutionMode.debugFields (shown : Char → Bool) : ExecutionMode → List Text
  | .Invocations a0 => [Debug.debug shown a0]
  | .SpacingEqual => []
  | .SpacingFractionalEven => []
  | .SpacingFractionalOdd => []
  | .VertexOrderCw => []
  | .VertexOrderCcw => []
  | .PixelCenterInteger => []
  | .OriginUpperLeft => []
  | .OriginLowerLeft => []
  | .EarlyFragmentTests => []
  | .PointMode => []
  | .Xfb => []
  | .DepthReplacing => []
  | .DepthGreater => []
  | .DepthLess => []
  | .DepthUnchanged => []
  | .LocalSize a0 a1 a2 => [Debug.debug shown a0, Debug.debug shown a1, Debug.debug shown a2]
  | .LocalSizeHint a0 a1 a2 => [Debug.debug shown a0, Debug.debug shown a1, Debug.debug shown a2]
  | .InputPoints => []
  | .InputLines => []
  | .InputLinesAdjacency => []
  | .Triangles => []
  | .InputTrianglesAdjacency => []
  | .Quads => []
  | .Isolines => []
  | .OutputVerticies a0 => [Debug.debug shown a0]
  | .OutputPoints => []
  | .OutputLineStrip => []
  | .OutputTriangleStrip => []
  | .VecTypeHint a0 => [Debug.debug shown a0]
  | .ContractionOff => []

/-- src/spv/types.rs:439-472 -/
instance : Debug ExecutionMode := ⟨fun shown x => debugTuple x.debugName (x.debugFields shown)⟩

/-- src/spv/types.rs:522-580: the names of the variants -/
def Capability.debugName : Capability → String
  | .Matrix => "Matrix"
  | .Shader => "Shader"
  | .Geometry => "Geometry"
  | .Tessellation => "Tessellation"
  | .Addresses => "Addresses"
  | .Linkage => "Linkage"
  | .Kernel => "Kernel"
  | .Vector16 => "Vector16"
  | .Float16Buffer => "Float16Buffer"
  | .Float16 => "Float16"
  | .Float64 => "Float64"
  | .Int64 => "Int64"
  | .Int64Atomics => "Int64Atomics"
  | .ImageBasic => "ImageBasic"
  | .ImageReadWrite => "ImageReadWrite"
  | .ImageMipmap => "ImageMipmap"
  | .Pipes => "Pipes"
  | .Groups => "Groups"
  | .DeviceEnqueue => "DeviceEnqueue"
  | .LiteralSampler => "LiteralSampler"
  | .AtomicStorage => "AtomicStorage"
  | .Int16 => "Int16"
  | .TessellationPointSize => "TessellationPointSize"
  | .GeometryPointSize => "GeometryPointSize"
  | .ImageGatherExtended => "ImageGatherExtended"
  | .StorageImageMultisample => "StorageImageMultisample"
  | .UniformBufferArrayDynamicIndexing => "UniformBufferArrayDynamicIndexing"
  | .SampledImageArrayDynamicIndexing => "SampledImageArrayDynamicIndexing"
  | .StorageBufferArrayDynamicIndexing => "StorageBufferArrayDynamicIndexing"
  | .StorageImageArrayDynamicIndexing => "StorageImageArrayDynamicIndexing"
  | .ClipDistance => "ClipDistance"
  | .CullDistance => "CullDistance"
  | .ImageCubeArray => "ImageCubeArray"
  | .SampleRateShading => "SampleRateShading"
  | .ImageRect => "ImageRect"
  | .SampledRect => "SampledRect"
  | .GenericPointer => "GenericPointer"
  | .Int8 => "Int8"
  | .InputAttachment => "InputAttachment"
  | .SparseResidency => "SparseResidency"
  | .MinLod => "MinLod"
  | .Sampled1D => "Sampled1D"
  | .Image1D => "Image1D"
  | .SampledCubeArray => "SampledCubeArray"
  | .SampledBuffer => "SampledBuffer"
  | .ImageBuffer => "ImageBuffer"
  | .ImageMSArray => "ImageMSArray"
  | .StorageImageExtendedFormats => "StorageImageExtendedFormats"
  | .ImageQuery => "ImageQuery"
  | .DerivativeControl => "DerivativeControl"
  | .InterpolationFunction => "InterpolationFunction"
  | .TransformFeedback => "TransformFeedback"
  | .GeometryStreams => "GeometryStreams"
  | .StorageImageReadWithoutFormat => "StorageImageReadWithoutFormat"
  | .StorageImageWriteWithoutFormat => "StorageImageWriteWithoutFormat"
  | .MultiViewport => "MultiViewport"

/-- src/spv/types.rs:522-580 -/
instance : Debug Capability := ⟨fun _ x => debugTuple x.debugName []⟩

/-- src/spv/types.rs:648-652: the names of the variants -/
def Signedness.debugName : Signedness → String
  | .UnsignedOrNone => "UnsignedOrNone"
  | .Signed => "Signed"

/-- src/spv/types.rs:648-652 -/
instance : Debug Signedness := ⟨fun _ x => debugTuple x.debugName []⟩

/-- src/spv/types.rs:666-680: the names of the variants -/
def StorageClass.debugName : StorageClass → String
  | .UniformConstant => "UniformConstant"
  | .Input => "Input"
  | .Uniform => "Uniform"
  | .Output => "Output"
  | .Workgroup => "Workgroup"
  | .CrossWorkgroup => "CrossWorkgroup"
  | .Private => "Private"
  | .Function => "Function"
  | .Generic => "Generic"
  | .PushConstant => "PushConstant"
  | .AtomicCounter => "AtomicCounter"
  | .Image => "Image"

/-- src/spv/types.rs:666-680 -/
instance : Debug StorageClass := ⟨fun _ x => debugTuple x.debugName []⟩

/-- src/spv/types.rs:812-821: the names of the variants -/
def Dim.debugName : Dim → String
  | .Tex1D => "Tex1D"
  | .Tex2D => "Tex2D"
  | .Tex3D => "Tex3D"
  | .Cube => "Cube"
  | .Rect => "Rect"
  | .Buffer => "Buffer"
  | .SubpassData => "SubpassData"

/-- src/spv/types.rs:812-821 -/
instance : Debug Dim := ⟨fun _ x => debugTuple x.debugName []⟩

/-- src/spv/types.rs:841-846: the names of the variants -/
def DepthStatus.debugName : DepthStatus → String
  | .NotDepth => "NotDepth"
  | .Depth => "Depth"
  | .NoIndication => "NoIndication"

/-- src/spv/types.rs:841-846 -/
instance : Debug DepthStatus := ⟨fun _ x => debugTuple x.debugName []⟩

/-- src/spv/types.rs:862-866: the names of the variants -/
def Arrayed.debugName : Arrayed → String
  | .False => "False"
  | .True => "True"

/-- src/spv/types.rs:862-866 -/
instance : Debug Arrayed := ⟨fun _ x => debugTuple x.debugName []⟩

/-- src/spv/types.rs:881-885: the names of the variants -/
def MS.debugName : MS → String
  | .Single => "Single"
  | .Multi => "Multi"

/-- src/spv/types.rs:881-885 -/
instance : Debug MS := ⟨fun _ x => debugTuple x.debugName []⟩

/-- src/spv/types.rs:900-905: the names of the variants -/
def SampledStatus.debugName : SampledStatus → String
  | .RuntimeChoice => "RuntimeChoice"
  | .WithSampler => "WithSampler"
  | .WithoutSampler => "WithoutSampler"

/-- src/spv/types.rs:900-905 -/
instance : Debug SampledStatus := ⟨fun _ x => debugTuple x.debugName []⟩

/-- src/spv/types.rs:921-963: the names of the variants -/
def ImageFormat.debugName : ImageFormat → String
  | .Unknown => "Unknown"
  | .Rgba32f => "Rgba32f"
  | .Rgba16f => "Rgba16f"
  | .R32f => "R32f"
  | .Rgba8 => "Rgba8"
  | .Rgba8Snorm => "Rgba8Snorm"
  | .Rg32f => "Rg32f"
  | .Rg16f => "Rg16f"
  | .R11fG11fB10f => "R11fG11fB10f"
  | .R16f => "R16f"
  | .Rgba16 => "Rgba16"
  | .Rgb10A2 => "Rgb10A2"
  | .Rg16 => "Rg16"
  | .Rg8 => "Rg8"
  | .R16 => "R16"
  | .R8 => "R8"
  | .Rgba16Snorm => "Rgba16Snorm"
  | .Rg16Snorm => "Rg16Snorm"
  | .Rg8Snorm => "Rg8Snorm"
  | .R16Snorm => "R16Snorm"
  | .R8Snorm => "R8Snorm"
  | .Rgba32i => "Rgba32i"
  | .Rgba16i => "Rgba16i"
  | .Rgba8i => "Rgba8i"
  | .R32i => "R32i"
  | .Rg32i => "Rg32i"
  | .Rg16i => "Rg16i"
  | .Rg8i => "Rg8i"
  | .R16i => "R16i"
  | .R8i => "R8i"
  | .Rgba32ui => "Rgba32ui"
  | .Rgba16ui => "Rgba16ui"
  | .Rgba8ui => "Rgba8ui"
  | .R32ui => "R32ui"
  | .Rgb10a2ui => "Rgb10a2ui"
  | .Rg32ui => "Rg32ui"
  | .Rg16ui => "Rg16ui"
  | .Rg8ui => "Rg8ui"
  | .R16ui => "R16ui"
  | .R8ui => "R8ui"

/-- src/spv/types.rs:921-963 -/
instance : Debug ImageFormat := ⟨fun _ x => debugTuple x.debugName []⟩

/-- src/spv/types.rs:1015-1020: the names of the variants -/
def AccessQualifier.debugName : AccessQualifier → String
  | .ReadOnly => "ReadOnly"
  | .WriteOnly => "WriteOnly"
  | .ReadWrite => "ReadWrite"

/-- src/spv/types.rs:1015-1020 -/
instance : Debug AccessQualifier := ⟨fun _ x => debugTuple x.debugName []⟩

/-- src/spv/types.rs:1106-1111 -/
instance : Debug MemoryAccess :=
  ⟨fun shown ⟨a0, a1, a2⟩ =>
    debugStruct "MemoryAccess" [("volatile", Debug.debug shown a0), ("aligned", Debug.debug shown a1), ("non_temporal", Debug.debug shown a2)]⟩

/-- src/spv/types.rs:1135-1141 -/
instance : Debug FunctionControl :=
  ⟨fun shown ⟨a0, a1, a2, a3⟩ =>
    debugStruct "FunctionControl" [("inline", Debug.debug shown a0), ("dont_inline", Debug.debug shown a1), ("pure_function", Debug.debug shown a2), ("const_function", Debug.debug shown a3)]⟩

/-- src/spv/types.rs:1168-1176 -/
instance : Debug LoopControl :=
  ⟨fun shown ⟨a0, a1, a2, a3⟩ =>
    debugStruct "LoopControl" [("unroll", Debug.debug shown a0), ("dont_unroll", Debug.debug shown a1), ("dependency_infinite", Debug.debug shown a2), ("dependency_length", Debug.debug shown a3)]⟩

/-- src/spv/types.rs:1203-1207 -/
instance : Debug SelectionControl :=
  ⟨fun shown ⟨a0, a1⟩ =>
    debugStruct "SelectionControl" [("flatten", Debug.debug shown a0), ("dont_flatten", Debug.debug shown a1)]⟩

/-- src/spv/types.rs:1228-1232 -/
instance : Debug PhiArg :=
  ⟨fun shown ⟨a0, a1⟩ =>
    debugStruct "PhiArg" [("variable", Debug.debug shown a0), ("parent", Debug.debug shown a1)]⟩

/-- src/spv/types.rs:1242-1246 -/
instance : Debug BranchWeights :=
  ⟨fun shown ⟨a0, a1⟩ =>
    debugStruct "BranchWeights" [("true_weight", Debug.debug shown a0), ("false_weight", Debug.debug shown a1)]⟩

/-- src/spv/raw/mod.rs:259-302: the names of the variants -/
def ReadError.debugName : ReadError → String
  | .UnexpectedEndOfStream => "UnexpectedEndOfStream"
  | .UnexpectedStreamAlignment => "UnexpectedStreamAlignment"
  | .BadMagic => "BadMagic"
  | .UnknownVersionBytes _ _ _ _ => "UnknownVersionBytes"
  | .UnknownVersion _ => "UnknownVersion"
  | .UnknownReservedSchema => "UnknownReservedSchema"
  | .UnknownOp _ _ => "UnknownOp"
  | .UnimplementedOp _ => "UnimplementedOp"
  | .WrongWordCountForOp => "WrongWordCountForOp"
  | .InvalidString => "InvalidString"
  | .UnexpectedEndOfInstruction => "UnexpectedEndOfInstruction"
  | .InstructionHadExcessData => "InstructionHadExcessData"
  | .UnknownInstSet _ => "UnknownInstSet"
  | .UnknownInstSetId _ => "UnknownInstSetId"
  | .UnknownExtInstOp _ _ => "UnknownExtInstOp"
  | .DuplicateResultId _ => "DuplicateResultId"
  | .UnknownAddressingModel _ => "UnknownAddressingModel"
  | .UnknownMemoryModel _ => "UnknownMemoryModel"
  | .UnknownExecutionModel _ => "UnknownExecutionModel"
  | .UnknownExecutionMode _ => "UnknownExecutionMode"
  | .UnknownCapability _ => "UnknownCapability"
  | .UnknownDecoration _ => "UnknownDecoration"
  | .UnknownBuiltIn _ => "UnknownBuiltIn"
  | .UnknownFpRoundingMode _ => "UnknownFpRoundingMode"
  | .UnknownFpFastMathMode _ => "UnknownFpFastMathMode"
  | .UnknownLinkageType _ => "UnknownLinkageType"
  | .UnknownSignedness _ => "UnknownSignedness"
  | .UnknownStorageClass _ => "UnknownStorageClass"
  | .UnknownFunctionParameterAttribute _ => "UnknownFunctionParameterAttribute"
  | .UnknownMemoryAccess _ => "UnknownMemoryAccess"
  | .UnknownDim _ => "UnknownDim"
  | .UnknownDepthStatus _ => "UnknownDepthStatus"
  | .UnknownArrayed _ => "UnknownArrayed"
  | .UnknownMS _ => "UnknownMS"
  | .UnknownSampledStatus _ => "UnknownSampledStatus"
  | .UnknownImageFormat _ => "UnknownImageFormat"
  | .UnknownAccessQualifier _ => "UnknownAccessQualifier"
  | .UnknownLoopControl _ => "UnknownLoopControl"
  | .UnknownSelectionControl _ => "UnknownSelectionControl"

/-- src/spv/raw/mod.rs:259-302: the fields of the variants -/
def ReadError.debugFields (shown : Char → Bool) : ReadError → List Text
  | .UnexpectedEndOfStream => []
  | .UnexpectedStreamAlignment => []
  | .BadMagic => []
  | .UnknownVersionBytes a0 a1 a2 a3 => [Debug.debug shown a0, Debug.debug shown a1, Debug.debug shown a2, Debug.debug shown a3]
  | .UnknownVersion a0 => [Debug.debug shown a0]
  | .UnknownReservedSchema => []
  | .UnknownOp a0 a1 => [Debug.debug shown a0, Debug.debug shown a1]
  | .UnimplementedOp a0 => [Debug.debug shown a0]
  | .WrongWordCountForOp => []
  | .InvalidString => []
  | .UnexpectedEndOfInstruction => []
  | .InstructionHadExcessData => []
  | .UnknownInstSet a0 => [Debug.debug shown a0]
  | .UnknownInstSetId a0 => [Debug.debug shown a0]
  | .UnknownExtInstOp a0 a1 => [Debug.debug shown a0, Debug.debug shown a1]
  | .DuplicateResultId a0 => [Debug.debug shown a0]
  | .UnknownAddressingModel a0 => [Debug.debug shown a0]
  | .UnknownMemoryModel a0 => [Debug.debug shown a0]
  | .UnknownExecutionModel a0 => [Debug.debug shown a0]
  | .UnknownExecutionMode a0 => [Debug.debug shown a0]
  | .UnknownCapability a0 => [Debug.debug shown a0]
  | .UnknownDecoration a0 => [Debug.debug shown a0]
  | .UnknownBuiltIn a0 => [Debug.debug shown a0]
  | .UnknownFpRoundingMode a0 => [Debug.debug shown a0]
  | .UnknownFpFastMathMode a0 => [Debug.debug shown a0]
  | .UnknownLinkageType a0 => [Debug.debug shown a0]
  | .UnknownSignedness a0 => [Debug.debug shown a0]
  | .UnknownStorageClass a0 => [Debug.debug shown a0]
  | .UnknownFunctionParameterAttribute a0 => [Debug.debug shown a0]
  | .UnknownMemoryAccess a0 => [Debug.debug shown a0]
  | .UnknownDim a0 => [Debug.debug shown a0]
  | .UnknownDepthStatus a0 => [Debug.debug shown a0]
  | .UnknownArrayed a0 => [Debug.debug shown a0]
  | .UnknownMS a0 => [Debug.debug shown a0]
  | .UnknownSampledStatus a0 => [Debug.debug shown a0]
  | .UnknownImageFormat a0 => [Debug.debug shown a0]
  | .UnknownAccessQualifier a0 => [Debug.debug shown a0]
  | .UnknownLoopControl a0 => [Debug.debug shown a0]
  | .UnknownSelectionControl a0 => [Debug.debug shown a0]

/-- src/spv/raw/mod.rs:259-302 -/
instance : Debug ReadError := ⟨fun shown x => debugTuple x.debugName (x.debugFields shown)⟩

end Magma
