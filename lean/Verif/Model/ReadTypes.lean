import Verif.Model.ReadFlags
/-! Generated by `tools/gen.py` from the Rust source; citations are to `/repo`. -/

namespace Magma

/-- src/spv/raw/mod.rs:495-506: the literal arms of the `match`, in order -/
def AddressingModel.table : List (UInt32 × AddressingModel) :=
  [(0, .Logical),
   (1, .Physical32),
   (2, .Physical64)]

/-- src/spv/raw/mod.rs:495-506 -/
instance : MemoryBlockRead AddressingModel where
  read block := readEnum AddressingModel.table ReadError.UnknownAddressingModel block

/-- src/spv/raw/mod.rs:508-519: the literal arms of the `match`, in order -/
def MemoryModel.table : List (UInt32 × MemoryModel) :=
  [(0, .Simple),
   (1, .Glsl450),
   (2, .OpenCL)]

/-- src/spv/raw/mod.rs:508-519 -/
instance : MemoryBlockRead MemoryModel where
  read block := readEnum MemoryModel.table ReadError.UnknownMemoryModel block

/-- src/spv/raw/mod.rs:521-536: the literal arms of the `match`, in order -/
def ExecutionModel.table : List (UInt32 × ExecutionModel) :=
  [(0, .Vertex),
   (1, .TesselationControl),
   (2, .TesselationEvaluation),
   (3, .Geometry),
   (4, .Fragment),
   (5, .GlCompute),
   (6, .Kernel)]

/-- src/spv/raw/mod.rs:521-536 -/
instance : MemoryBlockRead ExecutionModel where
  read block := readEnum ExecutionModel.table ReadError.UnknownExecutionModel block

/-- src/spv/raw/mod.rs:598-662: the literal arms of the `match`, in order -/
def Capability.table : List (UInt32 × Capability) :=
  [(0, .Matrix),
   (1, .Shader),
   (2, .Geometry),
   (3, .Tessellation),
   (4, .Addresses),
   (5, .Linkage),
   (6, .Kernel),
   (7, .Vector16),
   (8, .Float16Buffer),
   (9, .Float16),
   (10, .Float64),
   (11, .Int64),
   (12, .Int64Atomics),
   (13, .ImageBasic),
   (14, .ImageReadWrite),
   (15, .ImageMipmap),
   (17, .Pipes),
   (18, .Groups),
   (19, .DeviceEnqueue),
   (20, .LiteralSampler),
   (21, .AtomicStorage),
   (22, .Int16),
   (23, .TessellationPointSize),
   (24, .GeometryPointSize),
   (25, .ImageGatherExtended),
   (27, .StorageImageMultisample),
   (28, .UniformBufferArrayDynamicIndexing),
   (29, .SampledImageArrayDynamicIndexing),
   (30, .StorageBufferArrayDynamicIndexing),
   (31, .StorageImageArrayDynamicIndexing),
   (32, .ClipDistance),
   (33, .CullDistance),
   (34, .ImageCubeArray),
   (35, .SampleRateShading),
   (36, .ImageRect),
   (37, .SampledRect),
   (38, .GenericPointer),
   (39, .Int8),
   (40, .InputAttachment),
   (41, .SparseResidency),
   (42, .MinLod),
   (43, .Sampled1D),
   (44, .Image1D),
   (45, .SampledCubeArray),
   (46, .SampledBuffer),
   (47, .ImageBuffer),
   (48, .ImageMSArray),
   (49, .StorageImageExtendedFormats),
   (50, .ImageQuery),
   (51, .DerivativeControl),
   (52, .InterpolationFunction),
   (53, .TransformFeedback),
   (54, .GeometryStreams),
   (55, .StorageImageReadWithoutFormat),
   (56, .StorageImageWriteWithoutFormat),
   (57, .MultiViewport)]

/-- src/spv/raw/mod.rs:598-662 -/
instance : MemoryBlockRead Capability where
  read block := readEnum Capability.table ReadError.UnknownCapability block

/-- src/spv/raw/mod.rs:664-674: the literal arms of the `match`, in order -/
def Signedness.table : List (UInt32 × Signedness) :=
  [(0, .UnsignedOrNone),
   (1, .Signed)]

/-- src/spv/raw/mod.rs:664-674 -/
instance : MemoryBlockRead Signedness where
  read block := readEnum Signedness.table ReadError.UnknownSignedness block

/-- src/spv/raw/mod.rs:676-691: the literal arms of the `match`, in order -/
def Dim.table : List (UInt32 × Dim) :=
  [(0, .Tex1D),
   (1, .Tex2D),
   (2, .Tex3D),
   (3, .Cube),
   (4, .Rect),
   (5, .Buffer),
   (6, .SubpassData)]

/-- src/spv/raw/mod.rs:676-691 -/
instance : MemoryBlockRead Dim where
  read block := readEnum Dim.table ReadError.UnknownDim block

/-- src/spv/raw/mod.rs:693-704: the literal arms of the `match`, in order -/
def DepthStatus.table : List (UInt32 × DepthStatus) :=
  [(0, .NotDepth),
   (1, .Depth),
   (2, .NoIndication)]

/-- src/spv/raw/mod.rs:693-704 -/
instance : MemoryBlockRead DepthStatus where
  read block := readEnum DepthStatus.table ReadError.UnknownDepthStatus block

/-- src/spv/raw/mod.rs:706-716: the literal arms of the `match`, in order -/
def Arrayed.table : List (UInt32 × Arrayed) :=
  [(0, .False),
   (1, .True)]

/-- src/spv/raw/mod.rs:706-716 -/
instance : MemoryBlockRead Arrayed where
  read block := readEnum Arrayed.table ReadError.UnknownArrayed block

/-- src/spv/raw/mod.rs:718-728: the literal arms of the `match`, in order -/
def MS.table : List (UInt32 × MS) :=
  [(0, .Single),
   (1, .Multi)]

/-- src/spv/raw/mod.rs:718-728 -/
instance : MemoryBlockRead MS where
  read block := readEnum MS.table ReadError.UnknownMS block

/-- src/spv/raw/mod.rs:730-741: the literal arms of the `match`, in order -/
def SampledStatus.table : List (UInt32 × SampledStatus) :=
  [(0, .RuntimeChoice),
   (1, .WithSampler),
   (2, .WithoutSampler)]

/-- src/spv/raw/mod.rs:730-741 -/
instance : MemoryBlockRead SampledStatus where
  read block := readEnum SampledStatus.table ReadError.UnknownSampledStatus block

/-- src/spv/raw/mod.rs:743-791: the literal arms of the `match`, in order -/
def ImageFormat.table : List (UInt32 × ImageFormat) :=
  [(0, .Unknown),
   (1, .Rgba32f),
   (2, .Rgba16f),
   (3, .R32f),
   (4, .Rgba8),
   (5, .Rgba8Snorm),
   (6, .Rg32f),
   (7, .Rg16f),
   (8, .R11fG11fB10f),
   (9, .R16f),
   (10, .Rgba16),
   (11, .Rgb10A2),
   (12, .Rg16),
   (13, .Rg8),
   (14, .R16),
   (15, .R8),
   (16, .Rgba16Snorm),
   (17, .Rg16Snorm),
   (18, .Rg8Snorm),
   (19, .R16Snorm),
   (20, .R8Snorm),
   (21, .Rgba32i),
   (22, .Rgba16i),
   (23, .Rgba8i),
   (24, .R32i),
   (25, .Rg32i),
   (26, .Rg16i),
   (27, .Rg8i),
   (28, .R16i),
   (29, .R8i),
   (30, .Rgba32ui),
   (31, .Rgba16ui),
   (32, .Rgba8ui),
   (33, .R32ui),
   (34, .Rgb10a2ui),
   (35, .Rg32ui),
   (36, .Rg16ui),
   (37, .Rg8ui),
   (38, .R16ui),
   (39, .R8ui)]

/-- src/spv/raw/mod.rs:743-791 -/
instance : MemoryBlockRead ImageFormat where
  read block := readEnum ImageFormat.table ReadError.UnknownImageFormat block

/-- src/spv/raw/mod.rs:793-804: the literal arms of the `match`, in order -/
def AccessQualifier.table : List (UInt32 × AccessQualifier) :=
  [(0, .ReadOnly),
   (1, .WriteOnly),
   (2, .ReadWrite)]

/-- src/spv/raw/mod.rs:793-804 -/
instance : MemoryBlockRead AccessQualifier where
  read block := readEnum AccessQualifier.table ReadError.UnknownAccessQualifier block

/-- src/spv/raw/mod.rs:806-826: the literal arms of the `match`, in order -/
def StorageClass.table : List (UInt32 × StorageClass) :=
  [(0, .UniformConstant),
   (1, .Input),
   (2, .Uniform),
   (3, .Output),
   (4, .Workgroup),
   (5, .CrossWorkgroup),
   (6, .Private),
   (7, .Function),
   (8, .Generic),
   (9, .PushConstant),
   (10, .AtomicCounter),
   (11, .Image)]

/-- src/spv/raw/mod.rs:806-826 -/
instance : MemoryBlockRead StorageClass where
  read block := readEnum StorageClass.table ReadError.UnknownStorageClass block

/-- src/spv/raw/mod.rs:856-905: the literal arms of the `match`, in order -/
def BuiltIn.table : List (UInt32 × BuiltIn) :=
  [(0, .Position),
   (1, .PointSize),
   (3, .ClipDistance),
   (4, .CullDistance),
   (5, .VertexId),
   (6, .InstanceId),
   (7, .PrimitiveId),
   (8, .InvocationId),
   (9, .Layer),
   (10, .ViewportIndex),
   (11, .TessLevelOuter),
   (12, .TessLevelInner),
   (13, .TessCoord),
   (14, .PatchVerticies),
   (15, .FragCoord),
   (16, .PointCoord),
   (17, .FrontFacing),
   (18, .SampleId),
   (19, .SamplePosition),
   (20, .SampleMask),
   (22, .FragDepth),
   (23, .HelperInvocation),
   (24, .NumWorkgroups),
   (25, .WorkgroupSize),
   (26, .WorkgroupId),
   (27, .LocalInvocationId),
   (28, .GlobalInvocationId),
   (29, .LocalInvocationIndex),
   (30, .WorkDim),
   (31, .GlobalSize),
   (32, .EnqueuedWorkgroupSize),
   (33, .GlobalOffset),
   (34, .GlobalLinearId),
   (36, .SubgroupSize),
   (37, .SubgroupMaxSize),
   (38, .NumSubgroups),
   (39, .NumEnqueuedSubgroups),
   (40, .SubgroupId),
   (41, .SubgroupLocalInvocationId),
   (42, .VertexIndex),
   (43, .InstanceIndex)]

/-- src/spv/raw/mod.rs:856-905 -/
instance : MemoryBlockRead BuiltIn where
  read block := readEnum BuiltIn.table ReadError.UnknownBuiltIn block

/-- src/spv/raw/mod.rs:907-923: the literal arms of the `match`, in order -/
def FunctionParameterAttribute.table : List (UInt32 × FunctionParameterAttribute) :=
  [(0, .Zext),
   (1, .Sext),
   (2, .ByVal),
   (3, .Sret),
   (4, .NoAlias),
   (5, .NoCapture),
   (6, .NoWrite),
   (7, .NoReadWrite)]

/-- src/spv/raw/mod.rs:907-923 -/
instance : MemoryBlockRead FunctionParameterAttribute where
  read block := readEnum FunctionParameterAttribute.table ReadError.UnknownFunctionParameterAttribute block

/-- src/spv/raw/mod.rs:925-937: the literal arms of the `match`, in order -/
def FpRoundingMode.table : List (UInt32 × FpRoundingMode) :=
  [(0, .Rte),
   (1, .Rtz),
   (2, .Rtp),
   (3, .Rtn)]

/-- src/spv/raw/mod.rs:925-937 -/
instance : MemoryBlockRead FpRoundingMode where
  read block := readEnum FpRoundingMode.table ReadError.UnknownFpRoundingMode block

/-- src/spv/raw/mod.rs:956-966: the literal arms of the `match`, in order -/
def LinkageType.table : List (UInt32 × LinkageType) :=
  [(0, .Export),
   (1, .Import)]

/-- src/spv/raw/mod.rs:956-966 -/
instance : MemoryBlockRead LinkageType where
  read block := readEnum LinkageType.table ReadError.UnknownLinkageType block

/-- src/spv/raw/mod.rs:538-596: the literal arms of the `match`, in order -/
def executionModeHandlers : List (UInt32 × (Block → R (Block × ExecutionMode))) :=
  [(0, read1 ExecutionMode.Invocations),
   (1, readUnit ExecutionMode.SpacingEqual),
   (2, readUnit ExecutionMode.SpacingFractionalEven),
   (3, readUnit ExecutionMode.SpacingFractionalOdd),
   (4, readUnit ExecutionMode.VertexOrderCw),
   (5, readUnit ExecutionMode.VertexOrderCcw),
   (6, readUnit ExecutionMode.PixelCenterInteger),
   (7, readUnit ExecutionMode.OriginUpperLeft),
   (8, readUnit ExecutionMode.OriginLowerLeft),
   (9, readUnit ExecutionMode.EarlyFragmentTests),
   (10, readUnit ExecutionMode.PointMode),
   (11, readUnit ExecutionMode.Xfb),
   (12, readUnit ExecutionMode.DepthReplacing),
   (14, readUnit ExecutionMode.DepthGreater),
   (15, readUnit ExecutionMode.DepthLess),
   (16, readUnit ExecutionMode.DepthUnchanged),
   (17, read3 ExecutionMode.LocalSize),
   (18, read3 ExecutionMode.LocalSizeHint),
   (19, readUnit ExecutionMode.InputPoints),
   (20, readUnit ExecutionMode.InputLines),
   (21, readUnit ExecutionMode.InputLinesAdjacency),
   (22, readUnit ExecutionMode.Triangles),
   (23, readUnit ExecutionMode.InputTrianglesAdjacency),
   (24, readUnit ExecutionMode.Quads),
   (25, readUnit ExecutionMode.Isolines),
   (26, read1 ExecutionMode.OutputVerticies),
   (27, readUnit ExecutionMode.OutputPoints),
   (28, readUnit ExecutionMode.OutputLineStrip),
   (29, readUnit ExecutionMode.OutputTriangleStrip),
   (30, read1 ExecutionMode.VecTypeHint),
   (31, readUnit ExecutionMode.ContractionOff)]

/-- src/spv/raw/mod.rs:538-596 -/
instance : MemoryBlockRead ExecutionMode where
  read block := readHandler executionModeHandlers ReadError.UnknownExecutionMode block

/-- src/spv/raw/mod.rs:968-1077: the literal arms of the `match`, in order -/
def decorationHandlers : List (UInt32 × (Block → R (Block × Decoration))) :=
  [(0, readUnit Decoration.RelaxedPrecision),
   (1, read1 Decoration.SpecId),
   (2, readUnit Decoration.Block),
   (3, readUnit Decoration.BufferBlock),
   (4, readUnit Decoration.RowMajor),
   (5, readUnit Decoration.ColMajor),
   (6, read1 Decoration.ArrayStride),
   (7, read1 Decoration.MatrixStride),
   (8, readUnit Decoration.GlslShared),
   (9, readUnit Decoration.GlslPacked),
   (10, readUnit Decoration.CPacked),
   (11, read1 Decoration.BuiltIn),
   (13, readUnit Decoration.NoPerspective),
   (14, readUnit Decoration.Flat),
   (15, readUnit Decoration.Patch),
   (16, readUnit Decoration.Centroid),
   (17, readUnit Decoration.Sample),
   (18, readUnit Decoration.Invariant),
   (19, readUnit Decoration.Restrict),
   (20, readUnit Decoration.Aliased),
   (21, readUnit Decoration.Volatile),
   (22, readUnit Decoration.Constant),
   (23, readUnit Decoration.Coherent),
   (24, readUnit Decoration.NonWritable),
   (25, readUnit Decoration.NonReadable),
   (26, readUnit Decoration.Uniform),
   (28, readUnit Decoration.SaturatedConversion),
   (29, read1 Decoration.Stream),
   (30, read1 Decoration.Location),
   (31, read1 Decoration.Component),
   (32, read1 Decoration.Index),
   (33, read1 Decoration.Binding),
   (34, read1 Decoration.DescriptorSet),
   (35, read1 Decoration.Offset),
   (36, read1 Decoration.XfbBuffer),
   (37, read1 Decoration.XfbStride),
   (38, read1 Decoration.FuncParamAttr),
   (39, read1 Decoration.FpRoundingMode),
   (40, read1 Decoration.FpFastMathMode),
   (41, read2 Decoration.LinkageAttributes),
   (42, readUnit Decoration.NoContraction),
   (43, read1 Decoration.InputAttachmentIndex),
   (44, read1 Decoration.Alignment)]

/-- src/spv/raw/mod.rs:968-1077 -/
instance : MemoryBlockRead Decoration where
  read block := readHandler decorationHandlers ReadError.UnknownDecoration block

/-- src/spv/raw/mod.rs:466-479: the literal arms of the `match`, in order -/
def SourceLanguage.table : List (UInt32 × SourceLanguage) :=
  [(0, .Unknown),
   (1, .Essl),
   (2, .Glsl),
   (3, .OpenCL_C),
   (4, .OpenCL_Cpp)]

/-- src/spv/raw/mod.rs:466-479 -/
instance : MemoryBlockRead SourceLanguage where
  read block := do
    let (block, word) ← block.readWord
    match SourceLanguage.table.lookup word with
    | some lang => return (block, lang)
    | none => return (block, .Other word)

end Magma
