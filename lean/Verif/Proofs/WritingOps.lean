import Verif.Proofs.Writing
/-! Generated by `tools/gen_write.py`: each printer that writes piece by piece makes the text of `Display`. -/

namespace Magma
open Spec
variable {σ : Type}

instance : StubbornTo σ SourceLanguage := ⟨fun o x => match x with
  | .Unknown => .padded o _
  | .Essl => .padded o _
  | .Glsl => .padded o _
  | .OpenCL_C => .padded o _
  | .OpenCL_Cpp => .padded o _
  | .Other _ => Writes.congr (.bind (.lit _ _) (.bind (.shown _ _) (.lit _ _))) (by simp only [Display.fmt, List.append_assoc])⟩

instance : StubbornTo σ SourceVersion := ⟨fun _ x => Writes.congr (.shown _ _)
  (by simp only [Display.fmt, List.append_assoc])⟩

instance : StubbornTo σ BuiltIn := ⟨fun o _ => .padded o _⟩

instance : StubbornTo σ FunctionParameterAttribute := ⟨fun o _ => .padded o _⟩

instance : StubbornTo σ FpRoundingMode := ⟨fun o _ => .padded o _⟩

instance : StubbornTo σ FpFastMathMode := ⟨fun o _ => .padded o _⟩

instance : StubbornTo σ LinkageType := ⟨fun o _ => .padded o _⟩

instance : StubbornTo σ Decoration := ⟨fun o x => match x with
  | .RelaxedPrecision => .padded o _
  | .SpecId _ => (.bind (.lit _ _) (.shown _ _))
  | .Block => .padded o _
  | .BufferBlock => .padded o _
  | .RowMajor => .padded o _
  | .ColMajor => .padded o _
  | .ArrayStride _ => (.bind (.lit _ _) (.shown _ _))
  | .MatrixStride _ => (.bind (.lit _ _) (.shown _ _))
  | .GlslShared => .padded o _
  | .GlslPacked => .padded o _
  | .CPacked => .padded o _
  | .BuiltIn _ => (.bind (.lit _ _) (.shown _ _))
  | .NoPerspective => .padded o _
  | .Flat => .padded o _
  | .Patch => .padded o _
  | .Centroid => .padded o _
  | .Sample => .padded o _
  | .Invariant => .padded o _
  | .Restrict => .padded o _
  | .Aliased => .padded o _
  | .Volatile => .padded o _
  | .Constant => .padded o _
  | .Coherent => .padded o _
  | .NonWritable => .padded o _
  | .NonReadable => .padded o _
  | .Uniform => .padded o _
  | .SaturatedConversion => .padded o _
  | .Stream _ => (.bind (.lit _ _) (.shown _ _))
  | .Location _ => (.bind (.lit _ _) (.shown _ _))
  | .Component _ => (.bind (.lit _ _) (.shown _ _))
  | .Index _ => (.bind (.lit _ _) (.shown _ _))
  | .Binding _ => (.bind (.lit _ _) (.shown _ _))
  | .DescriptorSet _ => (.bind (.lit _ _) (.shown _ _))
  | .Offset _ => (.bind (.lit _ _) (.shown _ _))
  | .XfbBuffer _ => (.bind (.lit _ _) (.shown _ _))
  | .XfbStride _ => (.bind (.lit _ _) (.shown _ _))
  | .FuncParamAttr _ => (.bind (.lit _ _) (.shown _ _))
  | .FpRoundingMode _ => (.bind (.lit _ _) (.shown _ _))
  | .FpFastMathMode _ => (.bind (.lit _ _) (.shown _ _))
  | .LinkageAttributes _ _ => Writes.congr (.bind (.lit _ _) (.bind (.shown _ _) (.bind (.lit _ _) (.shown _ _)))) (by simp only [Display.fmt, List.append_assoc])
  | .NoContraction => .padded o _
  | .InputAttachmentIndex _ => (.bind (.lit _ _) (.shown _ _))
  | .Alignment _ => (.bind (.lit _ _) (.shown _ _))⟩

instance : StubbornTo σ MemberIndex := ⟨fun _ x => Writes.congr (.shown _ _)
  (by simp only [Display.fmt, List.append_assoc])⟩

instance : StubbornTo σ AddressingModel := ⟨fun o _ => .padded o _⟩

instance : StubbornTo σ MemoryModel := ⟨fun o _ => .padded o _⟩

instance : StubbornTo σ ExecutionModel := ⟨fun o _ => .padded o _⟩

instance : StubbornTo σ ExecutionMode := ⟨fun o x => match x with
  | .Invocations _ => (.bind (.lit _ _) (.shown _ _))
  | .SpacingEqual => .padded o _
  | .SpacingFractionalEven => .padded o _
  | .SpacingFractionalOdd => .padded o _
  | .VertexOrderCw => .padded o _
  | .VertexOrderCcw => .padded o _
  | .PixelCenterInteger => .padded o _
  | .OriginUpperLeft => .padded o _
  | .OriginLowerLeft => .padded o _
  | .EarlyFragmentTests => .padded o _
  | .PointMode => .padded o _
  | .Xfb => .padded o _
  | .DepthReplacing => .padded o _
  | .DepthGreater => .padded o _
  | .DepthLess => .padded o _
  | .DepthUnchanged => .padded o _
  | .LocalSize _ _ _ => Writes.congr (.bind (.lit _ _) (.bind (.shown _ _) (.bind (.lit _ _) (.bind (.shown _ _) (.bind (.lit _ _) (.shown _ _)))))) (by simp only [Display.fmt, List.append_assoc])
  | .LocalSizeHint _ _ _ => Writes.congr (.bind (.lit _ _) (.bind (.shown _ _) (.bind (.lit _ _) (.bind (.shown _ _) (.bind (.lit _ _) (.shown _ _)))))) (by simp only [Display.fmt, List.append_assoc])
  | .InputPoints => .padded o _
  | .InputLines => .padded o _
  | .InputLinesAdjacency => .padded o _
  | .Triangles => .padded o _
  | .InputTrianglesAdjacency => .padded o _
  | .Quads => .padded o _
  | .Isolines => .padded o _
  | .OutputVerticies _ => (.bind (.lit _ _) (.shown _ _))
  | .OutputPoints => .padded o _
  | .OutputLineStrip => .padded o _
  | .OutputTriangleStrip => .padded o _
  | .VecTypeHint _ => (.bind (.lit _ _) (.shown _ _))
  | .ContractionOff => .padded o _⟩

instance : StubbornTo σ Capability := ⟨fun o _ => .padded o _⟩

instance : StubbornTo σ Signedness := ⟨fun o _ => .padded o _⟩

instance : StubbornTo σ StorageClass := ⟨fun o _ => .padded o _⟩

instance : StubbornTo σ Dim := ⟨fun o _ => .padded o _⟩

instance : StubbornTo σ DepthStatus := ⟨fun o _ => .padded o _⟩

instance : StubbornTo σ Arrayed := ⟨fun o _ => .padded o _⟩

instance : StubbornTo σ MS := ⟨fun o _ => .padded o _⟩

instance : StubbornTo σ SampledStatus := ⟨fun o _ => .padded o _⟩

instance : StubbornTo σ ImageFormat := ⟨fun o _ => .padded o _⟩

instance : StubbornTo σ AccessQualifier := ⟨fun o _ => .padded o _⟩

instance : StubbornTo σ MemoryAccess := ⟨fun o _ => .padded o _⟩

instance : StubbornTo σ FunctionControl := ⟨fun o _ => .padded o _⟩

instance : StubbornTo σ LoopControl := ⟨fun o _ => .padded o _⟩

instance : StubbornTo σ SelectionControl := ⟨fun o _ => .padded o _⟩

instance : StubbornTo σ PhiArg := ⟨fun _ x => Writes.congr (.bind (.shown _ _) (.bind (.lit _ _) (.shown _ _)))
  (by simp only [Display.fmt, List.append_assoc])⟩

instance : StubbornTo σ BranchWeights := ⟨fun _ x => Writes.congr (.bind (.shown _ _) (.bind (.lit _ _) (.shown _ _)))
  (by simp only [Display.fmt, List.append_assoc])⟩

instance : LawfulTo σ OpNop := ⟨fun op => Writes.congr
  (.bind (.noResult _) (.bind (.padded _ _) (.done _)))
  (by simp only [Display.fmt, List.append_assoc, List.append_nil])⟩

instance : LawfulTo σ OpUndef := ⟨fun op => Writes.congr
  (.bind (.result _ _) (.bind (.padded _ _) (.bind (LawfulArgs.writes _) (.done _))))
  (by simp only [Display.fmt, List.append_assoc, List.append_nil])⟩

instance : LawfulTo σ OpSourceContinued := ⟨fun op => Writes.congr
  (.bind (.noResult _) (.bind (.padded _ _) (.bind (LawfulArgs.writes _) (.done _))))
  (by simp only [Display.fmt, List.append_assoc, List.append_nil])⟩

instance : LawfulTo σ OpSource := ⟨fun op => Writes.congr
  (.bind (.noResult _) (.bind (.padded _ _) (.bind (LawfulArgs.writes _) (.bind (LawfulArgs.writes _) (.bind (LawfulArgs.writes _) (.bind (LawfulArgs.writes _) (.done _)))))))
  (by simp only [Display.fmt, List.append_assoc, List.append_nil])⟩

instance : LawfulTo σ OpSourceExtension := ⟨fun op => Writes.congr
  (.bind (.noResult _) (.bind (.padded _ _) (.bind (LawfulArgs.writes _) (.done _))))
  (by simp only [Display.fmt, List.append_assoc, List.append_nil])⟩

instance : LawfulTo σ OpName := ⟨fun op => Writes.congr
  (.bind (.noResult _) (.bind (.padded _ _) (.bind (LawfulArgs.writes _) (.bind (LawfulArgs.writes _) (.done _)))))
  (by simp only [Display.fmt, List.append_assoc, List.append_nil])⟩

instance : LawfulTo σ OpMemberName := ⟨fun op => Writes.congr
  (.bind (.noResult _) (.bind (.padded _ _) (.bind (LawfulArgs.writes _) (.bind (LawfulArgs.writes _) (.bind (LawfulArgs.writes _) (.done _))))))
  (by simp only [Display.fmt, List.append_assoc, List.append_nil])⟩

instance : LawfulTo σ OpString := ⟨fun op => Writes.congr
  (.bind (.result _ _) (.bind (.padded _ _) (.bind (LawfulArgs.writes _) (.done _))))
  (by simp only [Display.fmt, List.append_assoc, List.append_nil])⟩

instance : LawfulTo σ OpExtension := ⟨fun op => Writes.congr
  (.bind (.noResult _) (.bind (.padded _ _) (.bind (LawfulArgs.writes _) (.done _))))
  (by simp only [Display.fmt, List.append_assoc, List.append_nil])⟩

instance : LawfulTo σ OpExtInstImport := ⟨fun op => Writes.congr
  (.bind (.result _ _) (.bind (.padded _ _) (.bind (LawfulArgs.writes _) (.done _))))
  (by simp only [Display.fmt, List.append_assoc, List.append_nil])⟩

instance {X : Type} [Display X] [DisplayTo σ X] [LawfulTo σ X] : LawfulTo σ (OpExtInst X) := ⟨fun op => Writes.congr
  (.bind (.result _ _) (.bind (.padded _ _) (.bind (LawfulArgs.writes _) (.bind (LawfulArgs.writes _) (.bind (LawfulArgs.writes _) (.done _))))))
  (by simp only [Display.fmt, List.append_assoc, List.append_nil])⟩

instance : LawfulTo σ OpMemoryModel := ⟨fun op => Writes.congr
  (.bind (.noResult _) (.bind (.padded _ _) (.bind (LawfulArgs.writes _) (.bind (LawfulArgs.writes _) (.done _)))))
  (by simp only [Display.fmt, List.append_assoc, List.append_nil])⟩

instance : LawfulTo σ OpEntryPoint := ⟨fun op => Writes.congr
  (.bind (.noResult _) (.bind (.padded _ _) (.bind (LawfulArgs.writes _) (.bind (LawfulArgs.writes _) (.bind (LawfulArgs.writes _) (.bind (LawfulArgs.writes _) (.done _)))))))
  (by simp only [Display.fmt, List.append_assoc, List.append_nil])⟩

instance : LawfulTo σ OpExecutionMode := ⟨fun op => Writes.congr
  (.bind (.noResult _) (.bind (.padded _ _) (.bind (LawfulArgs.writes _) (.bind (LawfulArgs.writes _) (.done _)))))
  (by simp only [Display.fmt, List.append_assoc, List.append_nil])⟩

instance : LawfulTo σ OpCapability := ⟨fun op => Writes.congr
  (.bind (.noResult _) (.bind (.padded _ _) (.bind (LawfulArgs.writes _) (.done _))))
  (by simp only [Display.fmt, List.append_assoc, List.append_nil])⟩

instance : LawfulTo σ OpTypeVoid := ⟨fun op => Writes.congr
  (.bind (.result _ _) (.bind (.padded _ _) (.done _)))
  (by simp only [Display.fmt, List.append_assoc, List.append_nil])⟩

instance : LawfulTo σ OpTypeBool := ⟨fun op => Writes.congr
  (.bind (.result _ _) (.bind (.padded _ _) (.done _)))
  (by simp only [Display.fmt, List.append_assoc, List.append_nil])⟩

instance : LawfulTo σ OpTypeInt := ⟨fun op => Writes.congr
  (.bind (.result _ _) (.bind (.padded _ _) (.bind (LawfulArgs.writes _) (.bind (LawfulArgs.writes _) (.done _)))))
  (by simp only [Display.fmt, List.append_assoc, List.append_nil])⟩

instance : LawfulTo σ OpTypeFloat := ⟨fun op => Writes.congr
  (.bind (.result _ _) (.bind (.padded _ _) (.bind (LawfulArgs.writes _) (.done _))))
  (by simp only [Display.fmt, List.append_assoc, List.append_nil])⟩

instance : LawfulTo σ OpTypeVector := ⟨fun op => Writes.congr
  (.bind (.result _ _) (.bind (.padded _ _) (.bind (LawfulArgs.writes _) (.bind (LawfulArgs.writes _) (.done _)))))
  (by simp only [Display.fmt, List.append_assoc, List.append_nil])⟩

instance : LawfulTo σ OpTypeMatrix := ⟨fun op => Writes.congr
  (.bind (.result _ _) (.bind (.padded _ _) (.bind (LawfulArgs.writes _) (.bind (LawfulArgs.writes _) (.done _)))))
  (by simp only [Display.fmt, List.append_assoc, List.append_nil])⟩

instance : LawfulTo σ OpTypeImage := ⟨fun op => Writes.congr
  (.bind (.result _ _) (.bind (.padded _ _) (.bind (LawfulArgs.writes _) (.bind (LawfulArgs.writes _) (.bind (LawfulArgs.writes _) (.bind (LawfulArgs.writes _) (.bind (LawfulArgs.writes _) (.bind (LawfulArgs.writes _) (.bind (LawfulArgs.writes _) (.bind (LawfulArgs.writes _) (.done _)))))))))))
  (by simp only [Display.fmt, List.append_assoc, List.append_nil])⟩

instance : LawfulTo σ OpTypeSampler := ⟨fun op => Writes.congr
  (.bind (.result _ _) (.bind (.padded _ _) (.done _)))
  (by simp only [Display.fmt, List.append_assoc, List.append_nil])⟩

instance : LawfulTo σ OpTypeSampledImage := ⟨fun op => Writes.congr
  (.bind (.result _ _) (.bind (.padded _ _) (.bind (LawfulArgs.writes _) (.done _))))
  (by simp only [Display.fmt, List.append_assoc, List.append_nil])⟩

instance : LawfulTo σ OpTypeArray := ⟨fun op => Writes.congr
  (.bind (.result _ _) (.bind (.padded _ _) (.bind (LawfulArgs.writes _) (.bind (LawfulArgs.writes _) (.done _)))))
  (by simp only [Display.fmt, List.append_assoc, List.append_nil])⟩

instance : LawfulTo σ OpTypeRuntimeArray := ⟨fun op => Writes.congr
  (.bind (.result _ _) (.bind (.padded _ _) (.bind (LawfulArgs.writes _) (.done _))))
  (by simp only [Display.fmt, List.append_assoc, List.append_nil])⟩

instance : LawfulTo σ OpTypeStruct := ⟨fun op => Writes.congr
  (.bind (.result _ _) (.bind (.padded _ _) (.bind (LawfulArgs.writes _) (.done _))))
  (by simp only [Display.fmt, List.append_assoc, List.append_nil])⟩

instance : LawfulTo σ OpTypeOpaque := ⟨fun op => Writes.congr
  (.bind (.result _ _) (.bind (.padded _ _) (.bind (LawfulArgs.writes _) (.done _))))
  (by simp only [Display.fmt, List.append_assoc, List.append_nil])⟩

instance : LawfulTo σ OpTypePointer := ⟨fun op => Writes.congr
  (.bind (.result _ _) (.bind (.padded _ _) (.bind (LawfulArgs.writes _) (.bind (LawfulArgs.writes _) (.done _)))))
  (by simp only [Display.fmt, List.append_assoc, List.append_nil])⟩

instance : LawfulTo σ OpTypeFunction := ⟨fun op => Writes.congr
  (.bind (.result _ _) (.bind (.padded _ _) (.bind (LawfulArgs.writes _) (.bind (LawfulArgs.writes _) (.done _)))))
  (by simp only [Display.fmt, List.append_assoc, List.append_nil])⟩

instance : LawfulTo σ OpTypeEvent := ⟨fun op => Writes.congr
  (.bind (.result _ _) (.bind (.padded _ _) (.done _)))
  (by simp only [Display.fmt, List.append_assoc, List.append_nil])⟩

instance : LawfulTo σ OpTypeDeviceEvent := ⟨fun op => Writes.congr
  (.bind (.result _ _) (.bind (.padded _ _) (.done _)))
  (by simp only [Display.fmt, List.append_assoc, List.append_nil])⟩

instance : LawfulTo σ OpTypeQueue := ⟨fun op => Writes.congr
  (.bind (.result _ _) (.bind (.padded _ _) (.done _)))
  (by simp only [Display.fmt, List.append_assoc, List.append_nil])⟩

instance : LawfulTo σ OpTypePipe := ⟨fun op => Writes.congr
  (.bind (.result _ _) (.bind (.padded _ _) (.bind (LawfulArgs.writes _) (.done _))))
  (by simp only [Display.fmt, List.append_assoc, List.append_nil])⟩

instance : LawfulTo σ OpTypeForwardPointer := ⟨fun op => Writes.congr
  (.bind (.noResult _) (.bind (.padded _ _) (.bind (LawfulArgs.writes _) (.bind (LawfulArgs.writes _) (.done _)))))
  (by simp only [Display.fmt, List.append_assoc, List.append_nil])⟩

instance : LawfulTo σ OpConstant := ⟨fun op => Writes.congr
  (.bind (.result _ _) (.bind (.padded _ _) (.bind (LawfulArgs.writes _) (.bind (LawfulArgs.writes _) (.done _)))))
  (by simp only [Display.fmt, List.append_assoc, List.append_nil])⟩

instance : LawfulTo σ OpConstantComposite := ⟨fun op => Writes.congr
  (.bind (.result _ _) (.bind (.padded _ _) (.bind (LawfulArgs.writes _) (.bind (LawfulArgs.writes _) (.done _)))))
  (by simp only [Display.fmt, List.append_assoc, List.append_nil])⟩

instance : LawfulTo σ OpFunction := ⟨fun op => Writes.congr
  (.bind (.result _ _) (.bind (.padded _ _) (.bind (LawfulArgs.writes _) (.bind (LawfulArgs.writes _) (.bind (LawfulArgs.writes _) (.done _))))))
  (by simp only [Display.fmt, List.append_assoc, List.append_nil])⟩

instance : LawfulTo σ OpFunctionParameter := ⟨fun op => Writes.congr
  (.bind (.result _ _) (.bind (.padded _ _) (.bind (LawfulArgs.writes _) (.done _))))
  (by simp only [Display.fmt, List.append_assoc, List.append_nil])⟩

instance : LawfulTo σ OpFunctionEnd := ⟨fun op => Writes.congr
  (.bind (.noResult _) (.bind (.padded _ _) (.done _)))
  (by simp only [Display.fmt, List.append_assoc, List.append_nil])⟩

instance : LawfulTo σ OpVariable := ⟨fun op => Writes.congr
  (.bind (.result _ _) (.bind (.padded _ _) (.bind (LawfulArgs.writes _) (.bind (LawfulArgs.writes _) (.bind (LawfulArgs.writes _) (.done _))))))
  (by simp only [Display.fmt, List.append_assoc, List.append_nil])⟩

instance : LawfulTo σ OpLoad := ⟨fun op => Writes.congr
  (.bind (.result _ _) (.bind (.padded _ _) (.bind (LawfulArgs.writes _) (.bind (LawfulArgs.writes _) (.bind (LawfulArgs.writes _) (.done _))))))
  (by simp only [Display.fmt, List.append_assoc, List.append_nil])⟩

instance : LawfulTo σ OpStore := ⟨fun op => Writes.congr
  (.bind (.noResult _) (.bind (.padded _ _) (.bind (LawfulArgs.writes _) (.bind (LawfulArgs.writes _) (.bind (LawfulArgs.writes _) (.done _))))))
  (by simp only [Display.fmt, List.append_assoc, List.append_nil])⟩

instance : LawfulTo σ OpAccessChain := ⟨fun op => Writes.congr
  (.bind (.result _ _) (.bind (.padded _ _) (.bind (LawfulArgs.writes _) (.bind (LawfulArgs.writes _) (.bind (LawfulArgs.writes _) (.done _))))))
  (by simp only [Display.fmt, List.append_assoc, List.append_nil])⟩

instance : LawfulTo σ OpDecorate := ⟨fun op => Writes.congr
  (.bind (.noResult _) (.bind (.padded _ _) (.bind (LawfulArgs.writes _) (.bind (LawfulArgs.writes _) (.done _)))))
  (by simp only [Display.fmt, List.append_assoc, List.append_nil])⟩

instance : LawfulTo σ OpMemberDecorate := ⟨fun op => Writes.congr
  (.bind (.noResult _) (.bind (.padded _ _) (.bind (LawfulArgs.writes _) (.bind (LawfulArgs.writes _) (.bind (LawfulArgs.writes _) (.done _))))))
  (by simp only [Display.fmt, List.append_assoc, List.append_nil])⟩

instance : LawfulTo σ OpConvertUToF := ⟨fun op => Writes.congr
  (.bind (.result _ _) (.bind (.padded _ _) (.bind (LawfulArgs.writes _) (.bind (LawfulArgs.writes _) (.done _)))))
  (by simp only [Display.fmt, List.append_assoc, List.append_nil])⟩

instance : LawfulTo σ OpBitcast := ⟨fun op => Writes.congr
  (.bind (.result _ _) (.bind (.padded _ _) (.bind (LawfulArgs.writes _) (.bind (LawfulArgs.writes _) (.done _)))))
  (by simp only [Display.fmt, List.append_assoc, List.append_nil])⟩

instance : LawfulTo σ OpIAdd := ⟨fun op => Writes.congr
  (.bind (.result _ _) (.bind (.padded _ _) (.bind (LawfulArgs.writes _) (.bind (LawfulArgs.writes _) (.bind (LawfulArgs.writes _) (.done _))))))
  (by simp only [Display.fmt, List.append_assoc, List.append_nil])⟩

instance : LawfulTo σ OpFAdd := ⟨fun op => Writes.congr
  (.bind (.result _ _) (.bind (.padded _ _) (.bind (LawfulArgs.writes _) (.bind (LawfulArgs.writes _) (.bind (LawfulArgs.writes _) (.done _))))))
  (by simp only [Display.fmt, List.append_assoc, List.append_nil])⟩

instance : LawfulTo σ OpISub := ⟨fun op => Writes.congr
  (.bind (.result _ _) (.bind (.padded _ _) (.bind (LawfulArgs.writes _) (.bind (LawfulArgs.writes _) (.bind (LawfulArgs.writes _) (.done _))))))
  (by simp only [Display.fmt, List.append_assoc, List.append_nil])⟩

instance : LawfulTo σ OpFSub := ⟨fun op => Writes.congr
  (.bind (.result _ _) (.bind (.padded _ _) (.bind (LawfulArgs.writes _) (.bind (LawfulArgs.writes _) (.bind (LawfulArgs.writes _) (.done _))))))
  (by simp only [Display.fmt, List.append_assoc, List.append_nil])⟩

instance : LawfulTo σ OpIMul := ⟨fun op => Writes.congr
  (.bind (.result _ _) (.bind (.padded _ _) (.bind (LawfulArgs.writes _) (.bind (LawfulArgs.writes _) (.bind (LawfulArgs.writes _) (.done _))))))
  (by simp only [Display.fmt, List.append_assoc, List.append_nil])⟩

instance : LawfulTo σ OpFMul := ⟨fun op => Writes.congr
  (.bind (.result _ _) (.bind (.padded _ _) (.bind (LawfulArgs.writes _) (.bind (LawfulArgs.writes _) (.bind (LawfulArgs.writes _) (.done _))))))
  (by simp only [Display.fmt, List.append_assoc, List.append_nil])⟩

instance : LawfulTo σ OpUDiv := ⟨fun op => Writes.congr
  (.bind (.result _ _) (.bind (.padded _ _) (.bind (LawfulArgs.writes _) (.bind (LawfulArgs.writes _) (.bind (LawfulArgs.writes _) (.done _))))))
  (by simp only [Display.fmt, List.append_assoc, List.append_nil])⟩

instance : LawfulTo σ OpSDiv := ⟨fun op => Writes.congr
  (.bind (.result _ _) (.bind (.padded _ _) (.bind (LawfulArgs.writes _) (.bind (LawfulArgs.writes _) (.bind (LawfulArgs.writes _) (.done _))))))
  (by simp only [Display.fmt, List.append_assoc, List.append_nil])⟩

instance : LawfulTo σ OpFDiv := ⟨fun op => Writes.congr
  (.bind (.result _ _) (.bind (.padded _ _) (.bind (LawfulArgs.writes _) (.bind (LawfulArgs.writes _) (.bind (LawfulArgs.writes _) (.done _))))))
  (by simp only [Display.fmt, List.append_assoc, List.append_nil])⟩

instance : LawfulTo σ OpUMod := ⟨fun op => Writes.congr
  (.bind (.result _ _) (.bind (.padded _ _) (.bind (LawfulArgs.writes _) (.bind (LawfulArgs.writes _) (.bind (LawfulArgs.writes _) (.done _))))))
  (by simp only [Display.fmt, List.append_assoc, List.append_nil])⟩

instance : LawfulTo σ OpSRem := ⟨fun op => Writes.congr
  (.bind (.result _ _) (.bind (.padded _ _) (.bind (LawfulArgs.writes _) (.bind (LawfulArgs.writes _) (.bind (LawfulArgs.writes _) (.done _))))))
  (by simp only [Display.fmt, List.append_assoc, List.append_nil])⟩

instance : LawfulTo σ OpSMod := ⟨fun op => Writes.congr
  (.bind (.result _ _) (.bind (.padded _ _) (.bind (LawfulArgs.writes _) (.bind (LawfulArgs.writes _) (.bind (LawfulArgs.writes _) (.done _))))))
  (by simp only [Display.fmt, List.append_assoc, List.append_nil])⟩

instance : LawfulTo σ OpFRem := ⟨fun op => Writes.congr
  (.bind (.result _ _) (.bind (.padded _ _) (.bind (LawfulArgs.writes _) (.bind (LawfulArgs.writes _) (.bind (LawfulArgs.writes _) (.done _))))))
  (by simp only [Display.fmt, List.append_assoc, List.append_nil])⟩

instance : LawfulTo σ OpFMod := ⟨fun op => Writes.congr
  (.bind (.result _ _) (.bind (.padded _ _) (.bind (LawfulArgs.writes _) (.bind (LawfulArgs.writes _) (.bind (LawfulArgs.writes _) (.done _))))))
  (by simp only [Display.fmt, List.append_assoc, List.append_nil])⟩

instance : LawfulTo σ OpIAddCarry := ⟨fun op => Writes.congr
  (.bind (.result _ _) (.bind (.padded _ _) (.bind (LawfulArgs.writes _) (.bind (LawfulArgs.writes _) (.bind (LawfulArgs.writes _) (.done _))))))
  (by simp only [Display.fmt, List.append_assoc, List.append_nil])⟩

instance : LawfulTo σ OpISubBorrow := ⟨fun op => Writes.congr
  (.bind (.result _ _) (.bind (.padded _ _) (.bind (LawfulArgs.writes _) (.bind (LawfulArgs.writes _) (.bind (LawfulArgs.writes _) (.done _))))))
  (by simp only [Display.fmt, List.append_assoc, List.append_nil])⟩

instance : LawfulTo σ OpUMulExtended := ⟨fun op => Writes.congr
  (.bind (.result _ _) (.bind (.padded _ _) (.bind (LawfulArgs.writes _) (.bind (LawfulArgs.writes _) (.bind (LawfulArgs.writes _) (.done _))))))
  (by simp only [Display.fmt, List.append_assoc, List.append_nil])⟩

instance : LawfulTo σ OpSMulExtended := ⟨fun op => Writes.congr
  (.bind (.result _ _) (.bind (.padded _ _) (.bind (LawfulArgs.writes _) (.bind (LawfulArgs.writes _) (.bind (LawfulArgs.writes _) (.done _))))))
  (by simp only [Display.fmt, List.append_assoc, List.append_nil])⟩

instance : LawfulTo σ OpBitwiseOr := ⟨fun op => Writes.congr
  (.bind (.result _ _) (.bind (.padded _ _) (.bind (LawfulArgs.writes _) (.bind (LawfulArgs.writes _) (.bind (LawfulArgs.writes _) (.done _))))))
  (by simp only [Display.fmt, List.append_assoc, List.append_nil])⟩

instance : LawfulTo σ OpBitwiseXor := ⟨fun op => Writes.congr
  (.bind (.result _ _) (.bind (.padded _ _) (.bind (LawfulArgs.writes _) (.bind (LawfulArgs.writes _) (.bind (LawfulArgs.writes _) (.done _))))))
  (by simp only [Display.fmt, List.append_assoc, List.append_nil])⟩

instance : LawfulTo σ OpBitwiseAnd := ⟨fun op => Writes.congr
  (.bind (.result _ _) (.bind (.padded _ _) (.bind (LawfulArgs.writes _) (.bind (LawfulArgs.writes _) (.bind (LawfulArgs.writes _) (.done _))))))
  (by simp only [Display.fmt, List.append_assoc, List.append_nil])⟩

instance : LawfulTo σ OpIEqual := ⟨fun op => Writes.congr
  (.bind (.result _ _) (.bind (.padded _ _) (.bind (LawfulArgs.writes _) (.bind (LawfulArgs.writes _) (.bind (LawfulArgs.writes _) (.done _))))))
  (by simp only [Display.fmt, List.append_assoc, List.append_nil])⟩

instance : LawfulTo σ OpINotEqual := ⟨fun op => Writes.congr
  (.bind (.result _ _) (.bind (.padded _ _) (.bind (LawfulArgs.writes _) (.bind (LawfulArgs.writes _) (.bind (LawfulArgs.writes _) (.done _))))))
  (by simp only [Display.fmt, List.append_assoc, List.append_nil])⟩

instance : LawfulTo σ OpUGreaterThan := ⟨fun op => Writes.congr
  (.bind (.result _ _) (.bind (.padded _ _) (.bind (LawfulArgs.writes _) (.bind (LawfulArgs.writes _) (.bind (LawfulArgs.writes _) (.done _))))))
  (by simp only [Display.fmt, List.append_assoc, List.append_nil])⟩

instance : LawfulTo σ OpSGreaterThan := ⟨fun op => Writes.congr
  (.bind (.result _ _) (.bind (.padded _ _) (.bind (LawfulArgs.writes _) (.bind (LawfulArgs.writes _) (.bind (LawfulArgs.writes _) (.done _))))))
  (by simp only [Display.fmt, List.append_assoc, List.append_nil])⟩

instance : LawfulTo σ OpUGreaterThanEqual := ⟨fun op => Writes.congr
  (.bind (.result _ _) (.bind (.padded _ _) (.bind (LawfulArgs.writes _) (.bind (LawfulArgs.writes _) (.bind (LawfulArgs.writes _) (.done _))))))
  (by simp only [Display.fmt, List.append_assoc, List.append_nil])⟩

instance : LawfulTo σ OpSGreaterThanEqual := ⟨fun op => Writes.congr
  (.bind (.result _ _) (.bind (.padded _ _) (.bind (LawfulArgs.writes _) (.bind (LawfulArgs.writes _) (.bind (LawfulArgs.writes _) (.done _))))))
  (by simp only [Display.fmt, List.append_assoc, List.append_nil])⟩

instance : LawfulTo σ OpULessThan := ⟨fun op => Writes.congr
  (.bind (.result _ _) (.bind (.padded _ _) (.bind (LawfulArgs.writes _) (.bind (LawfulArgs.writes _) (.bind (LawfulArgs.writes _) (.done _))))))
  (by simp only [Display.fmt, List.append_assoc, List.append_nil])⟩

instance : LawfulTo σ OpSLessThan := ⟨fun op => Writes.congr
  (.bind (.result _ _) (.bind (.padded _ _) (.bind (LawfulArgs.writes _) (.bind (LawfulArgs.writes _) (.bind (LawfulArgs.writes _) (.done _))))))
  (by simp only [Display.fmt, List.append_assoc, List.append_nil])⟩

instance : LawfulTo σ OpULessThanEqual := ⟨fun op => Writes.congr
  (.bind (.result _ _) (.bind (.padded _ _) (.bind (LawfulArgs.writes _) (.bind (LawfulArgs.writes _) (.bind (LawfulArgs.writes _) (.done _))))))
  (by simp only [Display.fmt, List.append_assoc, List.append_nil])⟩

instance : LawfulTo σ OpSLessThanEqual := ⟨fun op => Writes.congr
  (.bind (.result _ _) (.bind (.padded _ _) (.bind (LawfulArgs.writes _) (.bind (LawfulArgs.writes _) (.bind (LawfulArgs.writes _) (.done _))))))
  (by simp only [Display.fmt, List.append_assoc, List.append_nil])⟩

instance : LawfulTo σ OpFOrdEqual := ⟨fun op => Writes.congr
  (.bind (.result _ _) (.bind (.padded _ _) (.bind (LawfulArgs.writes _) (.bind (LawfulArgs.writes _) (.bind (LawfulArgs.writes _) (.done _))))))
  (by simp only [Display.fmt, List.append_assoc, List.append_nil])⟩

instance : LawfulTo σ OpFUnordEqual := ⟨fun op => Writes.congr
  (.bind (.result _ _) (.bind (.padded _ _) (.bind (LawfulArgs.writes _) (.bind (LawfulArgs.writes _) (.bind (LawfulArgs.writes _) (.done _))))))
  (by simp only [Display.fmt, List.append_assoc, List.append_nil])⟩

instance : LawfulTo σ OpFOrdNotEqual := ⟨fun op => Writes.congr
  (.bind (.result _ _) (.bind (.padded _ _) (.bind (LawfulArgs.writes _) (.bind (LawfulArgs.writes _) (.bind (LawfulArgs.writes _) (.done _))))))
  (by simp only [Display.fmt, List.append_assoc, List.append_nil])⟩

instance : LawfulTo σ OpFUnordNotEqual := ⟨fun op => Writes.congr
  (.bind (.result _ _) (.bind (.padded _ _) (.bind (LawfulArgs.writes _) (.bind (LawfulArgs.writes _) (.bind (LawfulArgs.writes _) (.done _))))))
  (by simp only [Display.fmt, List.append_assoc, List.append_nil])⟩

instance : LawfulTo σ OpFOrdLessThan := ⟨fun op => Writes.congr
  (.bind (.result _ _) (.bind (.padded _ _) (.bind (LawfulArgs.writes _) (.bind (LawfulArgs.writes _) (.bind (LawfulArgs.writes _) (.done _))))))
  (by simp only [Display.fmt, List.append_assoc, List.append_nil])⟩

instance : LawfulTo σ OpFUnordLessThan := ⟨fun op => Writes.congr
  (.bind (.result _ _) (.bind (.padded _ _) (.bind (LawfulArgs.writes _) (.bind (LawfulArgs.writes _) (.bind (LawfulArgs.writes _) (.done _))))))
  (by simp only [Display.fmt, List.append_assoc, List.append_nil])⟩

instance : LawfulTo σ OpFOrdGreaterThan := ⟨fun op => Writes.congr
  (.bind (.result _ _) (.bind (.padded _ _) (.bind (LawfulArgs.writes _) (.bind (LawfulArgs.writes _) (.bind (LawfulArgs.writes _) (.done _))))))
  (by simp only [Display.fmt, List.append_assoc, List.append_nil])⟩

instance : LawfulTo σ OpFUnordGreaterThan := ⟨fun op => Writes.congr
  (.bind (.result _ _) (.bind (.padded _ _) (.bind (LawfulArgs.writes _) (.bind (LawfulArgs.writes _) (.bind (LawfulArgs.writes _) (.done _))))))
  (by simp only [Display.fmt, List.append_assoc, List.append_nil])⟩

instance : LawfulTo σ OpFOrdLessThanEqual := ⟨fun op => Writes.congr
  (.bind (.result _ _) (.bind (.padded _ _) (.bind (LawfulArgs.writes _) (.bind (LawfulArgs.writes _) (.bind (LawfulArgs.writes _) (.done _))))))
  (by simp only [Display.fmt, List.append_assoc, List.append_nil])⟩

instance : LawfulTo σ OpFUnordLessThanEqual := ⟨fun op => Writes.congr
  (.bind (.result _ _) (.bind (.padded _ _) (.bind (LawfulArgs.writes _) (.bind (LawfulArgs.writes _) (.bind (LawfulArgs.writes _) (.done _))))))
  (by simp only [Display.fmt, List.append_assoc, List.append_nil])⟩

instance : LawfulTo σ OpFOrdGreaterThanEqual := ⟨fun op => Writes.congr
  (.bind (.result _ _) (.bind (.padded _ _) (.bind (LawfulArgs.writes _) (.bind (LawfulArgs.writes _) (.bind (LawfulArgs.writes _) (.done _))))))
  (by simp only [Display.fmt, List.append_assoc, List.append_nil])⟩

instance : LawfulTo σ OpFUnordGreaterThanEqual := ⟨fun op => Writes.congr
  (.bind (.result _ _) (.bind (.padded _ _) (.bind (LawfulArgs.writes _) (.bind (LawfulArgs.writes _) (.bind (LawfulArgs.writes _) (.done _))))))
  (by simp only [Display.fmt, List.append_assoc, List.append_nil])⟩

instance : LawfulTo σ OpPhi := ⟨fun op => Writes.congr
  (.bind (.result _ _) (.bind (.padded _ _) (.bind (LawfulArgs.writes _) (.bind (LawfulArgs.writes _) (.done _)))))
  (by simp only [Display.fmt, List.append_assoc, List.append_nil])⟩

instance : LawfulTo σ OpLoopMerge := ⟨fun op => Writes.congr
  (.bind (.noResult _) (.bind (.padded _ _) (.bind (LawfulArgs.writes _) (.bind (LawfulArgs.writes _) (.bind (LawfulArgs.writes _) (.done _))))))
  (by simp only [Display.fmt, List.append_assoc, List.append_nil])⟩

instance : LawfulTo σ OpSelectionMerge := ⟨fun op => Writes.congr
  (.bind (.noResult _) (.bind (.padded _ _) (.bind (LawfulArgs.writes _) (.bind (LawfulArgs.writes _) (.done _)))))
  (by simp only [Display.fmt, List.append_assoc, List.append_nil])⟩

instance : LawfulTo σ OpLabel := ⟨fun op => Writes.congr
  (.bind (.result _ _) (.bind (.padded _ _) (.done _)))
  (by simp only [Display.fmt, List.append_assoc, List.append_nil])⟩

instance : LawfulTo σ OpBranch := ⟨fun op => Writes.congr
  (.bind (.noResult _) (.bind (.padded _ _) (.bind (LawfulArgs.writes _) (.done _))))
  (by simp only [Display.fmt, List.append_assoc, List.append_nil])⟩

instance : LawfulTo σ OpBranchConditional := ⟨fun op => Writes.congr
  (.bind (.noResult _) (.bind (.padded _ _) (.bind (LawfulArgs.writes _) (.bind (LawfulArgs.writes _) (.bind (LawfulArgs.writes _) (.bind (LawfulArgs.writes _) (.done _)))))))
  (by simp only [Display.fmt, List.append_assoc, List.append_nil])⟩

instance : LawfulTo σ OpReturn := ⟨fun op => Writes.congr
  (.bind (.noResult _) (.bind (.padded _ _) (.done _)))
  (by simp only [Display.fmt, List.append_assoc, List.append_nil])⟩

instance {X : Type} [Display X] [DisplayTo σ X] [LawfulTo σ X] : LawfulTo σ (Core X) := ⟨fun c => match c with
  | .OpNop op => LawfulTo.writes op
  | .OpUndef op => LawfulTo.writes op
  | .OpSourceContinued op => LawfulTo.writes op
  | .OpSource op => LawfulTo.writes op
  | .OpSourceExtension op => LawfulTo.writes op
  | .OpName op => LawfulTo.writes op
  | .OpMemberName op => LawfulTo.writes op
  | .OpString op => LawfulTo.writes op
  | .OpExtension op => LawfulTo.writes op
  | .OpExtInstImport op => LawfulTo.writes op
  | .OpExtInst op => LawfulTo.writes op
  | .OpMemoryModel op => LawfulTo.writes op
  | .OpEntryPoint op => LawfulTo.writes op
  | .OpExecutionMode op => LawfulTo.writes op
  | .OpCapability op => LawfulTo.writes op
  | .OpTypeVoid op => LawfulTo.writes op
  | .OpTypeBool op => LawfulTo.writes op
  | .OpTypeInt op => LawfulTo.writes op
  | .OpTypeFloat op => LawfulTo.writes op
  | .OpTypeVector op => LawfulTo.writes op
  | .OpTypeMatrix op => LawfulTo.writes op
  | .OpTypeImage op => LawfulTo.writes op
  | .OpTypeSampler op => LawfulTo.writes op
  | .OpTypeSampledImage op => LawfulTo.writes op
  | .OpTypeArray op => LawfulTo.writes op
  | .OpTypeRuntimeArray op => LawfulTo.writes op
  | .OpTypeStruct op => LawfulTo.writes op
  | .OpTypeOpaque op => LawfulTo.writes op
  | .OpTypePointer op => LawfulTo.writes op
  | .OpTypeFunction op => LawfulTo.writes op
  | .OpTypeEvent op => LawfulTo.writes op
  | .OpTypeDeviceEvent op => LawfulTo.writes op
  | .OpTypeQueue op => LawfulTo.writes op
  | .OpTypePipe op => LawfulTo.writes op
  | .OpTypeForwardPointer op => LawfulTo.writes op
  | .OpConstant op => LawfulTo.writes op
  | .OpConstantComposite op => LawfulTo.writes op
  | .OpFunction op => LawfulTo.writes op
  | .OpFunctionParameter op => LawfulTo.writes op
  | .OpFunctionEnd op => LawfulTo.writes op
  | .OpVariable op => LawfulTo.writes op
  | .OpLoad op => LawfulTo.writes op
  | .OpStore op => LawfulTo.writes op
  | .OpAccessChain op => LawfulTo.writes op
  | .OpDecorate op => LawfulTo.writes op
  | .OpMemberDecorate op => LawfulTo.writes op
  | .OpConvertUToF op => LawfulTo.writes op
  | .OpBitcast op => LawfulTo.writes op
  | .OpIAdd op => LawfulTo.writes op
  | .OpFAdd op => LawfulTo.writes op
  | .OpISub op => LawfulTo.writes op
  | .OpFSub op => LawfulTo.writes op
  | .OpIMul op => LawfulTo.writes op
  | .OpFMul op => LawfulTo.writes op
  | .OpUDiv op => LawfulTo.writes op
  | .OpSDiv op => LawfulTo.writes op
  | .OpFDiv op => LawfulTo.writes op
  | .OpUMod op => LawfulTo.writes op
  | .OpSRem op => LawfulTo.writes op
  | .OpSMod op => LawfulTo.writes op
  | .OpFRem op => LawfulTo.writes op
  | .OpFMod op => LawfulTo.writes op
  | .OpIAddCarry op => LawfulTo.writes op
  | .OpISubBorrow op => LawfulTo.writes op
  | .OpUMulExtended op => LawfulTo.writes op
  | .OpSMulExtended op => LawfulTo.writes op
  | .OpBitwiseOr op => LawfulTo.writes op
  | .OpBitwiseXor op => LawfulTo.writes op
  | .OpBitwiseAnd op => LawfulTo.writes op
  | .OpIEqual op => LawfulTo.writes op
  | .OpINotEqual op => LawfulTo.writes op
  | .OpUGreaterThan op => LawfulTo.writes op
  | .OpSGreaterThan op => LawfulTo.writes op
  | .OpUGreaterThanEqual op => LawfulTo.writes op
  | .OpSGreaterThanEqual op => LawfulTo.writes op
  | .OpULessThan op => LawfulTo.writes op
  | .OpSLessThan op => LawfulTo.writes op
  | .OpULessThanEqual op => LawfulTo.writes op
  | .OpSLessThanEqual op => LawfulTo.writes op
  | .OpFOrdEqual op => LawfulTo.writes op
  | .OpFUnordEqual op => LawfulTo.writes op
  | .OpFOrdNotEqual op => LawfulTo.writes op
  | .OpFUnordNotEqual op => LawfulTo.writes op
  | .OpFOrdLessThan op => LawfulTo.writes op
  | .OpFUnordLessThan op => LawfulTo.writes op
  | .OpFOrdGreaterThan op => LawfulTo.writes op
  | .OpFUnordGreaterThan op => LawfulTo.writes op
  | .OpFOrdLessThanEqual op => LawfulTo.writes op
  | .OpFUnordLessThanEqual op => LawfulTo.writes op
  | .OpFOrdGreaterThanEqual op => LawfulTo.writes op
  | .OpFUnordGreaterThanEqual op => LawfulTo.writes op
  | .OpPhi op => LawfulTo.writes op
  | .OpLoopMerge op => LawfulTo.writes op
  | .OpSelectionMerge op => LawfulTo.writes op
  | .OpLabel op => LawfulTo.writes op
  | .OpBranch op => LawfulTo.writes op
  | .OpBranchConditional op => LawfulTo.writes op
  | .OpReturn op => LawfulTo.writes op⟩

theorem GroupCode.writes {X : Type} [Display X] [DisplayTo σ X] [LawfulTo σ X] (c : (GroupCode X)) : Writes {} (fmtTo c : PutM σ Unit) c.fmt :=
  match c with
  | .OpNop op => LawfulTo.writes op
  | .OpUndef op => LawfulTo.writes op
  | .OpExtInst op => LawfulTo.writes op
  | .OpVariable op => LawfulTo.writes op
  | .OpLoad op => LawfulTo.writes op
  | .OpStore op => LawfulTo.writes op
  | .OpAccessChain op => LawfulTo.writes op
  | .OpConvertUToF op => LawfulTo.writes op
  | .OpBitcast op => LawfulTo.writes op
  | .OpIAdd op => LawfulTo.writes op
  | .OpFAdd op => LawfulTo.writes op
  | .OpISub op => LawfulTo.writes op
  | .OpFSub op => LawfulTo.writes op
  | .OpIMul op => LawfulTo.writes op
  | .OpFMul op => LawfulTo.writes op
  | .OpUDiv op => LawfulTo.writes op
  | .OpSDiv op => LawfulTo.writes op
  | .OpFDiv op => LawfulTo.writes op
  | .OpUMod op => LawfulTo.writes op
  | .OpSRem op => LawfulTo.writes op
  | .OpSMod op => LawfulTo.writes op
  | .OpFRem op => LawfulTo.writes op
  | .OpFMod op => LawfulTo.writes op
  | .OpIAddCarry op => LawfulTo.writes op
  | .OpISubBorrow op => LawfulTo.writes op
  | .OpUMulExtended op => LawfulTo.writes op
  | .OpSMulExtended op => LawfulTo.writes op
  | .OpBitwiseOr op => LawfulTo.writes op
  | .OpBitwiseXor op => LawfulTo.writes op
  | .OpBitwiseAnd op => LawfulTo.writes op
  | .OpIEqual op => LawfulTo.writes op
  | .OpINotEqual op => LawfulTo.writes op
  | .OpUGreaterThan op => LawfulTo.writes op
  | .OpSGreaterThan op => LawfulTo.writes op
  | .OpUGreaterThanEqual op => LawfulTo.writes op
  | .OpSGreaterThanEqual op => LawfulTo.writes op
  | .OpULessThan op => LawfulTo.writes op
  | .OpSLessThan op => LawfulTo.writes op
  | .OpULessThanEqual op => LawfulTo.writes op
  | .OpSLessThanEqual op => LawfulTo.writes op
  | .OpFOrdEqual op => LawfulTo.writes op
  | .OpFUnordEqual op => LawfulTo.writes op
  | .OpFOrdNotEqual op => LawfulTo.writes op
  | .OpFUnordNotEqual op => LawfulTo.writes op
  | .OpFOrdLessThan op => LawfulTo.writes op
  | .OpFUnordLessThan op => LawfulTo.writes op
  | .OpFOrdGreaterThan op => LawfulTo.writes op
  | .OpFUnordGreaterThan op => LawfulTo.writes op
  | .OpFOrdLessThanEqual op => LawfulTo.writes op
  | .OpFUnordLessThanEqual op => LawfulTo.writes op
  | .OpFOrdGreaterThanEqual op => LawfulTo.writes op
  | .OpFUnordGreaterThanEqual op => LawfulTo.writes op
  | .OpPhi op => LawfulTo.writes op

theorem GroupBranch.writes (c : GroupBranch) : Writes {} (fmtTo c : PutM σ Unit) c.fmt :=
  match c with
  | .OpBranch op => LawfulTo.writes op
  | .OpBranchConditional op => LawfulTo.writes op
  | .OpReturn op => LawfulTo.writes op

end Magma
