import Verif.Model.Op
/-! The numbers of the SPIR-V 1.0 standard (section 3, "Binary Form") for the enumerated operands
the crate supports.  Written from the standard, not from the crate's reader; only the names are
the crate's. -/

namespace Magma.Spec

/-- The number of the enumerant in the standard -/
def builtInCode : BuiltIn → UInt32
  | .Position => 0
  | .PointSize => 1
  | .ClipDistance => 3
  | .CullDistance => 4
  | .VertexId => 5
  | .InstanceId => 6
  | .PrimitiveId => 7
  | .InvocationId => 8
  | .Layer => 9
  | .ViewportIndex => 10
  | .TessLevelOuter => 11
  | .TessLevelInner => 12
  | .TessCoord => 13
  | .PatchVerticies => 14
  | .FragCoord => 15
  | .PointCoord => 16
  | .FrontFacing => 17
  | .SampleId => 18
  | .SamplePosition => 19
  | .SampleMask => 20
  | .FragDepth => 22
  | .HelperInvocation => 23
  | .NumWorkgroups => 24
  | .WorkgroupSize => 25
  | .WorkgroupId => 26
  | .LocalInvocationId => 27
  | .GlobalInvocationId => 28
  | .LocalInvocationIndex => 29
  | .WorkDim => 30
  | .GlobalSize => 31
  | .EnqueuedWorkgroupSize => 32
  | .GlobalOffset => 33
  | .GlobalLinearId => 34
  | .SubgroupSize => 36
  | .SubgroupMaxSize => 37
  | .NumSubgroups => 38
  | .NumEnqueuedSubgroups => 39
  | .SubgroupId => 40
  | .SubgroupLocalInvocationId => 41
  | .VertexIndex => 42
  | .InstanceIndex => 43

/-- The number of the enumerant in the standard -/
def functionParameterAttributeCode : FunctionParameterAttribute → UInt32
  | .Zext => 0
  | .Sext => 1
  | .ByVal => 2
  | .Sret => 3
  | .NoAlias => 4
  | .NoCapture => 5
  | .NoWrite => 6
  | .NoReadWrite => 7

/-- The number of the enumerant in the standard -/
def fpRoundingModeCode : FpRoundingMode → UInt32
  | .Rte => 0
  | .Rtz => 1
  | .Rtp => 2
  | .Rtn => 3

/-- The number of the enumerant in the standard -/
def linkageTypeCode : LinkageType → UInt32
  | .Export => 0
  | .Import => 1

/-- The number of the enumerant in the standard -/
def addressingModelCode : AddressingModel → UInt32
  | .Logical => 0
  | .Physical32 => 1
  | .Physical64 => 2

/-- The number of the enumerant in the standard -/
def memoryModelCode : MemoryModel → UInt32
  | .Simple => 0
  | .Glsl450 => 1
  | .OpenCL => 2

/-- The number of the enumerant in the standard -/
def executionModelCode : ExecutionModel → UInt32
  | .Vertex => 0
  | .TesselationControl => 1
  | .TesselationEvaluation => 2
  | .Geometry => 3
  | .Fragment => 4
  | .GlCompute => 5
  | .Kernel => 6

/-- The number of the enumerant in the standard -/
def capabilityCode : Capability → UInt32
  | .Matrix => 0
  | .Shader => 1
  | .Geometry => 2
  | .Tessellation => 3
  | .Addresses => 4
  | .Linkage => 5
  | .Kernel => 6
  | .Vector16 => 7
  | .Float16Buffer => 8
  | .Float16 => 9
  | .Float64 => 10
  | .Int64 => 11
  | .Int64Atomics => 12
  | .ImageBasic => 13
  | .ImageReadWrite => 14
  | .ImageMipmap => 15
  | .Pipes => 17
  | .Groups => 18
  | .DeviceEnqueue => 19
  | .LiteralSampler => 20
  | .AtomicStorage => 21
  | .Int16 => 22
  | .TessellationPointSize => 23
  | .GeometryPointSize => 24
  | .ImageGatherExtended => 25
  | .StorageImageMultisample => 27
  | .UniformBufferArrayDynamicIndexing => 28
  | .SampledImageArrayDynamicIndexing => 29
  | .StorageBufferArrayDynamicIndexing => 30
  | .StorageImageArrayDynamicIndexing => 31
  | .ClipDistance => 32
  | .CullDistance => 33
  | .ImageCubeArray => 34
  | .SampleRateShading => 35
  | .ImageRect => 36
  | .SampledRect => 37
  | .GenericPointer => 38
  | .Int8 => 39
  | .InputAttachment => 40
  | .SparseResidency => 41
  | .MinLod => 42
  | .Sampled1D => 43
  | .Image1D => 44
  | .SampledCubeArray => 45
  | .SampledBuffer => 46
  | .ImageBuffer => 47
  | .ImageMSArray => 48
  | .StorageImageExtendedFormats => 49
  | .ImageQuery => 50
  | .DerivativeControl => 51
  | .InterpolationFunction => 52
  | .TransformFeedback => 53
  | .GeometryStreams => 54
  | .StorageImageReadWithoutFormat => 55
  | .StorageImageWriteWithoutFormat => 56
  | .MultiViewport => 57

/-- The number of the enumerant in the standard -/
def signednessCode : Signedness → UInt32
  | .UnsignedOrNone => 0
  | .Signed => 1

/-- The number of the enumerant in the standard -/
def storageClassCode : StorageClass → UInt32
  | .UniformConstant => 0
  | .Input => 1
  | .Uniform => 2
  | .Output => 3
  | .Workgroup => 4
  | .CrossWorkgroup => 5
  | .Private => 6
  | .Function => 7
  | .Generic => 8
  | .PushConstant => 9
  | .AtomicCounter => 10
  | .Image => 11

/-- The number of the enumerant in the standard -/
def dimCode : Dim → UInt32
  | .Tex1D => 0
  | .Tex2D => 1
  | .Tex3D => 2
  | .Cube => 3
  | .Rect => 4
  | .Buffer => 5
  | .SubpassData => 6

/-- The number of the enumerant in the standard -/
def depthStatusCode : DepthStatus → UInt32
  | .NotDepth => 0
  | .Depth => 1
  | .NoIndication => 2

/-- The number of the enumerant in the standard -/
def arrayedCode : Arrayed → UInt32
  | .False => 0
  | .True => 1

/-- The number of the enumerant in the standard -/
def mSCode : MS → UInt32
  | .Single => 0
  | .Multi => 1

/-- The number of the enumerant in the standard -/
def sampledStatusCode : SampledStatus → UInt32
  | .RuntimeChoice => 0
  | .WithSampler => 1
  | .WithoutSampler => 2

/-- The number of the enumerant in the standard -/
def imageFormatCode : ImageFormat → UInt32
  | .Unknown => 0
  | .Rgba32f => 1
  | .Rgba16f => 2
  | .R32f => 3
  | .Rgba8 => 4
  | .Rgba8Snorm => 5
  | .Rg32f => 6
  | .Rg16f => 7
  | .R11fG11fB10f => 8
  | .R16f => 9
  | .Rgba16 => 10
  | .Rgb10A2 => 11
  | .Rg16 => 12
  | .Rg8 => 13
  | .R16 => 14
  | .R8 => 15
  | .Rgba16Snorm => 16
  | .Rg16Snorm => 17
  | .Rg8Snorm => 18
  | .R16Snorm => 19
  | .R8Snorm => 20
  | .Rgba32i => 21
  | .Rgba16i => 22
  | .Rgba8i => 23
  | .R32i => 24
  | .Rg32i => 25
  | .Rg16i => 26
  | .Rg8i => 27
  | .R16i => 28
  | .R8i => 29
  | .Rgba32ui => 30
  | .Rgba16ui => 31
  | .Rgba8ui => 32
  | .R32ui => 33
  | .Rgb10a2ui => 34
  | .Rg32ui => 35
  | .Rg16ui => 36
  | .Rg8ui => 37
  | .R16ui => 38
  | .R8ui => 39

/-- The number of the enumerant in the standard -/
def accessQualifierCode : AccessQualifier → UInt32
  | .ReadOnly => 0
  | .WriteOnly => 1
  | .ReadWrite => 2

/-- Source language numbers; `Other n` stands for a number without a name. -/
def sourceLanguageCode : SourceLanguage → UInt32
  | .Unknown => 0
  | .Essl => 1
  | .Glsl => 2
  | .OpenCL_C => 3
  | .OpenCL_Cpp => 4
  | .Other n => n

/-- Registered generator numbers; `Other n` stands for a number without a name. -/
def toolCode : Tool → UInt16
  | .KhronosReserved => 0
  | .LunarG => 1
  | .Valve => 2
  | .Codeplay => 3
  | .Nvidia => 4
  | .Arm => 5
  | .KhronosLLvmTranslator => 6
  | .KhronosAssembler => 7
  | .KhronosGlslang => 8
  | .Qualcomm => 9
  | .Amd => 10
  | .Intel => 11
  | .Other n => n

/-- The number of the execution mode, without its operands -/
def executionModeNumber : ExecutionMode → UInt32
  | .Invocations _ => 0
  | .SpacingEqual => 1
  | .SpacingFractionalEven => 2
  | .SpacingFractionalOdd => 3
  | .VertexOrderCw => 4
  | .VertexOrderCcw => 5
  | .PixelCenterInteger => 6
  | .OriginUpperLeft => 7
  | .OriginLowerLeft => 8
  | .EarlyFragmentTests => 9
  | .PointMode => 10
  | .Xfb => 11
  | .DepthReplacing => 12
  | .DepthGreater => 14
  | .DepthLess => 15
  | .DepthUnchanged => 16
  | .LocalSize _ _ _ => 17
  | .LocalSizeHint _ _ _ => 18
  | .InputPoints => 19
  | .InputLines => 20
  | .InputLinesAdjacency => 21
  | .Triangles => 22
  | .InputTrianglesAdjacency => 23
  | .Quads => 24
  | .Isolines => 25
  | .OutputVerticies _ => 26
  | .OutputPoints => 27
  | .OutputLineStrip => 28
  | .OutputTriangleStrip => 29
  | .VecTypeHint _ => 30
  | .ContractionOff => 31

/-- The number of the decoration, without its operands -/
def decorationNumber : Decoration → UInt32
  | .RelaxedPrecision => 0
  | .SpecId _ => 1
  | .Block => 2
  | .BufferBlock => 3
  | .RowMajor => 4
  | .ColMajor => 5
  | .ArrayStride _ => 6
  | .MatrixStride _ => 7
  | .GlslShared => 8
  | .GlslPacked => 9
  | .CPacked => 10
  | .BuiltIn _ => 11
  | .NoPerspective => 13
  | .Flat => 14
  | .Patch => 15
  | .Centroid => 16
  | .Sample => 17
  | .Invariant => 18
  | .Restrict => 19
  | .Aliased => 20
  | .Volatile => 21
  | .Constant => 22
  | .Coherent => 23
  | .NonWritable => 24
  | .NonReadable => 25
  | .Uniform => 26
  | .SaturatedConversion => 28
  | .Stream _ => 29
  | .Location _ => 30
  | .Component _ => 31
  | .Index _ => 32
  | .Binding _ => 33
  | .DescriptorSet _ => 34
  | .Offset _ => 35
  | .XfbBuffer _ => 36
  | .XfbStride _ => 37
  | .FuncParamAttr _ => 38
  | .FpRoundingMode _ => 39
  | .FpFastMathMode _ => 40
  | .LinkageAttributes _ _ => 41
  | .NoContraction => 42
  | .InputAttachmentIndex _ => 43
  | .Alignment _ => 44

end Magma.Spec
