/-! Generated by `tools/gen.py` from the Rust source; citations are to `/repo`. -/

namespace Magma

/-- src/spv/types.rs:9 -/
structure OpId where
  val : UInt32
  deriving DecidableEq, Repr

/-- src/spv/types.rs:21 -/
structure ResultId where
  val : UInt32
  deriving DecidableEq, Repr

/-- src/spv/types.rs:31 -/
structure Version where
  f0 : UInt8
  f1 : UInt8
  deriving DecidableEq, Repr

/-- src/spv/types.rs:42-56 -/
inductive Tool where
  | KhronosReserved
  | LunarG
  | Valve
  | Codeplay
  | Nvidia
  | Arm
  | KhronosLLvmTranslator
  | KhronosAssembler
  | KhronosGlslang
  | Qualcomm
  | Amd
  | Intel
  | Other (a0 : UInt16)
  deriving DecidableEq, Repr

/-- src/spv/types.rs:35-38 -/
structure Generator where
  tool : Tool
  version : UInt16
  deriving DecidableEq, Repr

/-- src/spv/types.rs:89-96 -/
inductive SourceLanguage where
  | Unknown
  | Essl
  | Glsl
  | OpenCL_C
  | OpenCL_Cpp
  | Other (a0 : UInt32)
  deriving DecidableEq, Repr

/-- src/spv/types.rs:116 -/
structure SourceVersion where
  val : UInt32
  deriving DecidableEq, Repr

/-- src/spv/types.rs:261-303 -/
inductive BuiltIn where
  | Position
  | PointSize
  | ClipDistance
  | CullDistance
  | VertexId
  | InstanceId
  | PrimitiveId
  | InvocationId
  | Layer
  | ViewportIndex
  | TessLevelOuter
  | TessLevelInner
  | TessCoord
  | PatchVerticies
  | FragCoord
  | PointCoord
  | FrontFacing
  | SampleId
  | SamplePosition
  | SampleMask
  | FragDepth
  | HelperInvocation
  | NumWorkgroups
  | WorkgroupSize
  | WorkgroupId
  | LocalInvocationId
  | GlobalInvocationId
  | LocalInvocationIndex
  | WorkDim
  | GlobalSize
  | EnqueuedWorkgroupSize
  | GlobalOffset
  | GlobalLinearId
  | SubgroupSize
  | SubgroupMaxSize
  | NumSubgroups
  | NumEnqueuedSubgroups
  | SubgroupId
  | SubgroupLocalInvocationId
  | VertexIndex
  | InstanceIndex
  deriving DecidableEq, Repr

/-- src/spv/types.rs:782-791 -/
inductive FunctionParameterAttribute where
  | Zext
  | Sext
  | ByVal
  | Sret
  | NoAlias
  | NoCapture
  | NoWrite
  | NoReadWrite
  deriving DecidableEq, Repr

/-- src/spv/types.rs:742-747 -/
inductive FpRoundingMode where
  | Rte
  | Rtz
  | Rtp
  | Rtn
  deriving DecidableEq, Repr

/-- src/spv/types.rs:705-711 -/
structure FpFastMathMode where
  not_nan : Bool
  not_inf : Bool
  nsz : Bool
  allow_recip : Bool
  fast : Bool
  deriving DecidableEq, Repr

/-- src/spv/types.rs:764-767 -/
inductive LinkageType where
  | Export
  | Import
  deriving DecidableEq, Repr

/-- src/spv/types.rs:152-196 -/
inductive Decoration where
  | RelaxedPrecision
  | SpecId (a0 : UInt32)
  | Block
  | BufferBlock
  | RowMajor
  | ColMajor
  | ArrayStride (a0 : UInt32)
  | MatrixStride (a0 : UInt32)
  | GlslShared
  | GlslPacked
  | CPacked
  | BuiltIn (a0 : BuiltIn)
  | NoPerspective
  | Flat
  | Patch
  | Centroid
  | Sample
  | Invariant
  | Restrict
  | Aliased
  | Volatile
  | Constant
  | Coherent
  | NonWritable
  | NonReadable
  | Uniform
  | SaturatedConversion
  | Stream (a0 : UInt32)
  | Location (a0 : UInt32)
  | Component (a0 : UInt32)
  | Index (a0 : UInt32)
  | Binding (a0 : UInt32)
  | DescriptorSet (a0 : UInt32)
  | Offset (a0 : UInt32)
  | XfbBuffer (a0 : UInt32)
  | XfbStride (a0 : UInt32)
  | FuncParamAttr (a0 : FunctionParameterAttribute)
  | FpRoundingMode (a0 : FpRoundingMode)
  | FpFastMathMode (a0 : FpFastMathMode)
  | LinkageAttributes (a0 : String) (a1 : LinkageType)
  | NoContraction
  | InputAttachmentIndex (a0 : UInt32)
  | Alignment (a0 : UInt32)
  deriving DecidableEq, Repr

/-- src/spv/types.rs:358 -/
structure MemberIndex where
  val : UInt32
  deriving DecidableEq, Repr

/-- src/spv/types.rs:370-374 -/
inductive AddressingModel where
  | Logical
  | Physical32
  | Physical64
  deriving DecidableEq, Repr

/-- src/spv/types.rs:391-395 -/
inductive MemoryModel where
  | Simple
  | Glsl450
  | OpenCL
  deriving DecidableEq, Repr

/-- src/spv/types.rs:412-420 -/
inductive ExecutionModel where
  | Vertex
  | TesselationControl
  | TesselationEvaluation
  | Geometry
  | Fragment
  | GlCompute
  | Kernel
  deriving DecidableEq, Repr

/-- src/spv/types.rs:440-472 -/
inductive ExecutionMode where
  | Invocations (a0 : UInt32)
  | SpacingEqual
  | SpacingFractionalEven
  | SpacingFractionalOdd
  | VertexOrderCw
  | VertexOrderCcw
  | PixelCenterInteger
  | OriginUpperLeft
  | OriginLowerLeft
  | EarlyFragmentTests
  | PointMode
  | Xfb
  | DepthReplacing
  | DepthGreater
  | DepthLess
  | DepthUnchanged
  | LocalSize (a0 : UInt32) (a1 : UInt32) (a2 : UInt32)
  | LocalSizeHint (a0 : UInt32) (a1 : UInt32) (a2 : UInt32)
  | InputPoints
  | InputLines
  | InputLinesAdjacency
  | Triangles
  | InputTrianglesAdjacency
  | Quads
  | Isolines
  | OutputVerticies (a0 : UInt32)
  | OutputPoints
  | OutputLineStrip
  | OutputTriangleStrip
  | VecTypeHint (a0 : OpId)
  | ContractionOff
  deriving DecidableEq, Repr

/-- src/spv/types.rs:523-580 -/
inductive Capability where
  | Matrix
  | Shader
  | Geometry
  | Tessellation
  | Addresses
  | Linkage
  | Kernel
  | Vector16
  | Float16Buffer
  | Float16
  | Float64
  | Int64
  | Int64Atomics
  | ImageBasic
  | ImageReadWrite
  | ImageMipmap
  | Pipes
  | Groups
  | DeviceEnqueue
  | LiteralSampler
  | AtomicStorage
  | Int16
  | TessellationPointSize
  | GeometryPointSize
  | ImageGatherExtended
  | StorageImageMultisample
  | UniformBufferArrayDynamicIndexing
  | SampledImageArrayDynamicIndexing
  | StorageBufferArrayDynamicIndexing
  | StorageImageArrayDynamicIndexing
  | ClipDistance
  | CullDistance
  | ImageCubeArray
  | SampleRateShading
  | ImageRect
  | SampledRect
  | GenericPointer
  | Int8
  | InputAttachment
  | SparseResidency
  | MinLod
  | Sampled1D
  | Image1D
  | SampledCubeArray
  | SampledBuffer
  | ImageBuffer
  | ImageMSArray
  | StorageImageExtendedFormats
  | ImageQuery
  | DerivativeControl
  | InterpolationFunction
  | TransformFeedback
  | GeometryStreams
  | StorageImageReadWithoutFormat
  | StorageImageWriteWithoutFormat
  | MultiViewport
  deriving DecidableEq, Repr

/-- src/spv/types.rs:649-652 -/
inductive Signedness where
  | UnsignedOrNone
  | Signed
  deriving DecidableEq, Repr

/-- src/spv/types.rs:667-680 -/
inductive StorageClass where
  | UniformConstant
  | Input
  | Uniform
  | Output
  | Workgroup
  | CrossWorkgroup
  | Private
  | Function
  | Generic
  | PushConstant
  | AtomicCounter
  | Image
  deriving DecidableEq, Repr

/-- src/spv/types.rs:813-821 -/
inductive Dim where
  | Tex1D
  | Tex2D
  | Tex3D
  | Cube
  | Rect
  | Buffer
  | SubpassData
  deriving DecidableEq, Repr

/-- src/spv/types.rs:842-846 -/
inductive DepthStatus where
  | NotDepth
  | Depth
  | NoIndication
  deriving DecidableEq, Repr

/-- src/spv/types.rs:863-866 -/
inductive Arrayed where
  | False
  | True
  deriving DecidableEq, Repr

/-- src/spv/types.rs:882-885 -/
inductive MS where
  | Single
  | Multi
  deriving DecidableEq, Repr

/-- src/spv/types.rs:901-905 -/
inductive SampledStatus where
  | RuntimeChoice
  | WithSampler
  | WithoutSampler
  deriving DecidableEq, Repr

/-- src/spv/types.rs:922-963 -/
inductive ImageFormat where
  | Unknown
  | Rgba32f
  | Rgba16f
  | R32f
  | Rgba8
  | Rgba8Snorm
  | Rg32f
  | Rg16f
  | R11fG11fB10f
  | R16f
  | Rgba16
  | Rgb10A2
  | Rg16
  | Rg8
  | R16
  | R8
  | Rgba16Snorm
  | Rg16Snorm
  | Rg8Snorm
  | R16Snorm
  | R8Snorm
  | Rgba32i
  | Rgba16i
  | Rgba8i
  | R32i
  | Rg32i
  | Rg16i
  | Rg8i
  | R16i
  | R8i
  | Rgba32ui
  | Rgba16ui
  | Rgba8ui
  | R32ui
  | Rgb10a2ui
  | Rg32ui
  | Rg16ui
  | Rg8ui
  | R16ui
  | R8ui
  deriving DecidableEq, Repr

/-- src/spv/types.rs:1016-1020 -/
inductive AccessQualifier where
  | ReadOnly
  | WriteOnly
  | ReadWrite
  deriving DecidableEq, Repr

/-- src/spv/types.rs:1107-1111 -/
structure MemoryAccess where
  volatile : Bool
  aligned : Bool
  non_temporal : Bool
  deriving DecidableEq, Repr

/-- src/spv/types.rs:1136-1141 -/
structure FunctionControl where
  inline : Bool
  dont_inline : Bool
  pure_function : Bool
  const_function : Bool
  deriving DecidableEq, Repr

/-- src/spv/types.rs:1169-1176 -/
structure LoopControl where
  unroll : Bool
  dont_unroll : Bool
  dependency_infinite : Bool
  dependency_length : Option UInt32
  deriving DecidableEq, Repr

/-- src/spv/types.rs:1204-1207 -/
structure SelectionControl where
  flatten : Bool
  dont_flatten : Bool
  deriving DecidableEq, Repr

/-- src/spv/types.rs:1229-1232 -/
structure PhiArg where
  «variable» : OpId
  parent : OpId
  deriving DecidableEq, Repr

/-- src/spv/types.rs:1243-1246 -/
structure BranchWeights where
  true_weight : UInt32
  false_weight : UInt32
  deriving DecidableEq, Repr

end Magma
