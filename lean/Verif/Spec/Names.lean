/-! The names that the SPIR-V 1.0 standard gives to the numbers of each enumerated operand, and to the bits of
each mask. Numbers without a name in the standard stand for themselves. -/

namespace Magma.Spec

/-- Numbers and their names -/
abbrev Table := List (UInt32 × String)

/-- Names of built-in variables -/
def builtInNames : Table :=
  [(0, "Position"), (1, "PointSize"), (3, "ClipDistance"), (4, "CullDistance"), (5, "VertexId"),
   (6, "InstanceId"), (7, "PrimitiveId"), (8, "InvocationId"), (9, "Layer"), (10, "ViewportIndex"),
   (11, "TessLevelOuter"), (12, "TessLevelInner"), (13, "TessCoord"), (14, "PatchVertices"),
   (15, "FragCoord"), (16, "PointCoord"), (17, "FrontFacing"), (18, "SampleId"),
   (19, "SamplePosition"), (20, "SampleMask"), (22, "FragDepth"), (23, "HelperInvocation"),
   (24, "NumWorkgroups"), (25, "WorkgroupSize"), (26, "WorkgroupId"), (27, "LocalInvocationId"),
   (28, "GlobalInvocationId"), (29, "LocalInvocationIndex"), (30, "WorkDim"), (31, "GlobalSize"),
   (32, "EnqueuedWorkgroupSize"), (33, "GlobalOffset"), (34, "GlobalLinearId"), (36, "SubgroupSize"),
   (37, "SubgroupMaxSize"), (38, "NumSubgroups"), (39, "NumEnqueuedSubgroups"), (40, "SubgroupId"),
   (41, "SubgroupLocalInvocationId"), (42, "VertexIndex"), (43, "InstanceIndex")]

/-- Names of function parameter attributes -/
def functionParameterAttributeNames : Table :=
  [(0, "Zext"), (1, "Sext"), (2, "ByVal"), (3, "Sret"), (4, "NoAlias"), (5, "NoCapture"),
   (6, "NoWrite"), (7, "NoReadWrite")]

/-- Names of rounding modes -/
def fpRoundingModeNames : Table :=
  [(0, "RTE"), (1, "RTZ"), (2, "RTP"), (3, "RTN")]

/-- Names of linkage types -/
def linkageTypeNames : Table :=
  [(0, "Export"), (1, "Import")]

/-- Names of addressing models -/
def addressingModelNames : Table :=
  [(0, "Logical"), (1, "Physical32"), (2, "Physical64")]

/-- Names of memory models -/
def memoryModelNames : Table :=
  [(0, "Simple"), (1, "GLSL450"), (2, "OpenCL")]

/-- Names of execution models -/
def executionModelNames : Table :=
  [(0, "Vertex"), (1, "TessellationControl"), (2, "TessellationEvaluation"), (3, "Geometry"),
   (4, "Fragment"), (5, "GLCompute"), (6, "Kernel")]

/-- Names of execution modes -/
def executionModeNames : Table :=
  [(0, "Invocations"), (1, "SpacingEqual"), (2, "SpacingFractionalEven"),
   (3, "SpacingFractionalOdd"), (4, "VertexOrderCw"), (5, "VertexOrderCcw"),
   (6, "PixelCenterInteger"), (7, "OriginUpperLeft"), (8, "OriginLowerLeft"),
   (9, "EarlyFragmentTests"), (10, "PointMode"), (11, "Xfb"), (12, "DepthReplacing"),
   (14, "DepthGreater"), (15, "DepthLess"), (16, "DepthUnchanged"), (17, "LocalSize"),
   (18, "LocalSizeHint"), (19, "InputPoints"), (20, "InputLines"), (21, "InputLinesAdjacency"),
   (22, "Triangles"), (23, "InputTrianglesAdjacency"), (24, "Quads"), (25, "Isolines"),
   (26, "OutputVertices"), (27, "OutputPoints"), (28, "OutputLineStrip"),
   (29, "OutputTriangleStrip"), (30, "VecTypeHint"), (31, "ContractionOff")]

/-- Names of capabilities -/
def capabilityNames : Table :=
  [(0, "Matrix"), (1, "Shader"), (2, "Geometry"), (3, "Tessellation"), (4, "Addresses"),
   (5, "Linkage"), (6, "Kernel"), (7, "Vector16"), (8, "Float16Buffer"), (9, "Float16"),
   (10, "Float64"), (11, "Int64"), (12, "Int64Atomics"), (13, "ImageBasic"), (14, "ImageReadWrite"),
   (15, "ImageMipmap"), (17, "Pipes"), (18, "Groups"), (19, "DeviceEnqueue"), (20, "LiteralSampler"),
   (21, "AtomicStorage"), (22, "Int16"), (23, "TessellationPointSize"), (24, "GeometryPointSize"),
   (25, "ImageGatherExtended"), (27, "StorageImageMultisample"),
   (28, "UniformBufferArrayDynamicIndexing"), (29, "SampledImageArrayDynamicIndexing"),
   (30, "StorageBufferArrayDynamicIndexing"), (31, "StorageImageArrayDynamicIndexing"),
   (32, "ClipDistance"), (33, "CullDistance"), (34, "ImageCubeArray"), (35, "SampleRateShading"),
   (36, "ImageRect"), (37, "SampledRect"), (38, "GenericPointer"), (39, "Int8"),
   (40, "InputAttachment"), (41, "SparseResidency"), (42, "MinLod"), (43, "Sampled1D"),
   (44, "Image1D"), (45, "SampledCubeArray"), (46, "SampledBuffer"), (47, "ImageBuffer"),
   (48, "ImageMSArray"), (49, "StorageImageExtendedFormats"), (50, "ImageQuery"),
   (51, "DerivativeControl"), (52, "InterpolationFunction"), (53, "TransformFeedback"),
   (54, "GeometryStreams"), (55, "StorageImageReadWithoutFormat"),
   (56, "StorageImageWriteWithoutFormat"), (57, "MultiViewport")]

/-- Names of storage classes -/
def storageClassNames : Table :=
  [(0, "UniformConstant"), (1, "Input"), (2, "Uniform"), (3, "Output"), (4, "Workgroup"),
   (5, "CrossWorkgroup"), (6, "Private"), (7, "Function"), (8, "Generic"), (9, "PushConstant"),
   (10, "AtomicCounter"), (11, "Image")]

/-- Names of image dimensions -/
def dimNames : Table :=
  [(0, "1D"), (1, "2D"), (2, "3D"), (3, "Cube"), (4, "Rect"), (5, "Buffer"), (6, "SubpassData")]

/-- Names of image formats -/
def imageFormatNames : Table :=
  [(0, "Unknown"), (1, "Rgba32f"), (2, "Rgba16f"), (3, "R32f"), (4, "Rgba8"), (5, "Rgba8Snorm"),
   (6, "Rg32f"), (7, "Rg16f"), (8, "R11fG11fB10f"), (9, "R16f"), (10, "Rgba16"), (11, "Rgb10A2"),
   (12, "Rg16"), (13, "Rg8"), (14, "R16"), (15, "R8"), (16, "Rgba16Snorm"), (17, "Rg16Snorm"),
   (18, "Rg8Snorm"), (19, "R16Snorm"), (20, "R8Snorm"), (21, "Rgba32i"), (22, "Rgba16i"),
   (23, "Rgba8i"), (24, "R32i"), (25, "Rg32i"), (26, "Rg16i"), (27, "Rg8i"), (28, "R16i"),
   (29, "R8i"), (30, "Rgba32ui"), (31, "Rgba16ui"), (32, "Rgba8ui"), (33, "R32ui"),
   (34, "Rgb10a2ui"), (35, "Rg32ui"), (36, "Rg16ui"), (37, "Rg8ui"), (38, "R16ui"), (39, "R8ui")]

/-- Names of access qualifiers -/
def accessQualifierNames : Table :=
  [(0, "ReadOnly"), (1, "WriteOnly"), (2, "ReadWrite")]

/-- Names of decorations -/
def decorationNames : Table :=
  [(0, "RelaxedPrecision"), (1, "SpecId"), (2, "Block"), (3, "BufferBlock"), (4, "RowMajor"),
   (5, "ColMajor"), (6, "ArrayStride"), (7, "MatrixStride"), (8, "GLSLShared"), (9, "GLSLPacked"),
   (10, "CPacked"), (11, "BuiltIn"), (13, "NoPerspective"), (14, "Flat"), (15, "Patch"),
   (16, "Centroid"), (17, "Sample"), (18, "Invariant"), (19, "Restrict"), (20, "Aliased"),
   (21, "Volatile"), (22, "Constant"), (23, "Coherent"), (24, "NonWritable"), (25, "NonReadable"),
   (26, "Uniform"), (28, "SaturatedConversion"), (29, "Stream"), (30, "Location"), (31, "Component"),
   (32, "Index"), (33, "Binding"), (34, "DescriptorSet"), (35, "Offset"), (36, "XfbBuffer"),
   (37, "XfbStride"), (38, "FuncParamAttr"), (39, "FPRoundingMode"), (40, "FPFastMathMode"),
   (41, "LinkageAttributes"), (42, "NoContraction"), (43, "InputAttachmentIndex"), (44, "Alignment")]

/-- Names of signedness -/
def signednessNames : Table :=
  [(0, "0"), (1, "1")]

/-- Names of depth -/
def depthStatusNames : Table :=
  [(0, "0"), (1, "1"), (2, "2")]

/-- Names of arrayed -/
def arrayedNames : Table :=
  [(0, "0"), (1, "1")]

/-- Names of multisampled -/
def mSNames : Table :=
  [(0, "0"), (1, "1")]

/-- Names of sampled -/
def sampledStatusNames : Table :=
  [(0, "0"), (1, "1"), (2, "2")]

/-- Names of source languages -/
def sourceLanguageNames : Table :=
  [(0, "Unknown"), (1, "ESSL"), (2, "GLSL"), (3, "OpenCL_C"), (4, "OpenCL_CPP")]

/-- Names of the bits of memory access, least significant first -/
def memoryAccessBits : List String := ["Volatile", "Aligned", "Nontemporal"]

/-- Names of the bits of function control, least significant first -/
def functionControlBits : List String := ["Inline", "DontInline", "Pure", "Const"]

/-- Names of the bits of loop control that take no argument, least significant first -/
def loopControlBits : List String := ["Unroll", "DontUnroll", "DependencyInfinite"]

/-- Names of the bits of selection control, least significant first -/
def selectionControlBits : List String := ["Flatten", "DontFlatten"]

/-- Names of the bits of the fast math mode, least significant first -/
def fastMathBits : List String := ["NotNaN", "NotInf", "NSZ", "AllowRecip", "Fast"]

/-- The names of the bits that are set, least significant bit first -/
def namesOf : List String → Nat → (Nat → Bool) → List String
  | [], _, _ => []
  | n :: ns, i, bit => (if bit i then [n] else []) ++ namesOf ns (i + 1) bit

/-- Names with bars between them, or `None` -/
def flagText (names : List String) : String :=
  if names = [] then "None" else " | ".intercalate names

end Magma.Spec
