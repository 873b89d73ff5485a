import Verif.Model.DebugTypes
import Verif.Proofs.Debug
/-! Generated by `tools/gen_debug.py`: derived debug output can be read back. -/

namespace Magma
open Dbg

instance : Law OpId where
  law _ x y _ _ _ _ h := by
    obtain ⟨a0⟩ := x
    obtain ⟨b0⟩ := y
    obtain ⟨rfl, h1⟩ := tuple_first (tuple_same h)
    exact ⟨rfl, tuple_last h1⟩
  start _ _ := tuple_start (n := "OpId") (by decide) _
  line _ _ := tuple_line (n := "OpId") (by decide) (cons_line none_line)

instance : Law ResultId where
  law _ x y _ _ _ _ h := by
    obtain ⟨a0⟩ := x
    obtain ⟨b0⟩ := y
    obtain ⟨rfl, h1⟩ := tuple_first (tuple_same h)
    exact ⟨rfl, tuple_last h1⟩
  start _ _ := tuple_start (n := "ResultId") (by decide) _
  line _ _ := tuple_line (n := "ResultId") (by decide) (cons_line none_line)

instance : Law Version where
  law _ x y _ _ _ _ h := by
    obtain ⟨a0, a1⟩ := x
    obtain ⟨b0, b1⟩ := y
    obtain ⟨rfl, h1⟩ := tuple_first (tuple_same h)
    obtain ⟨rfl, h2⟩ := tuple_next (by decide) h1
    exact ⟨rfl, tuple_last h2⟩
  start _ _ := tuple_start (n := "Version") (by decide) _
  line _ _ := tuple_line (n := "Version") (by decide) (cons_line (cons_line none_line))

/-- The names of the variants of `Tool` -/
def Tool.debugNames : List String :=
  ["KhronosReserved",
    "LunarG",
    "Valve",
    "Codeplay",
    "Nvidia",
    "Arm",
    "KhronosLLvmTranslator",
    "KhronosAssembler",
    "KhronosGlslang",
    "Qualcomm",
    "Amd",
    "Intel",
    "Other"]

theorem Tool.debugNames_get (x : Tool) : Tool.debugNames[x.ctorIdx]? = some x.debugName := by
  cases x <;> rfl

theorem Tool.debugNames_nodup : Tool.debugNames.Nodup := by decide +kernel

theorem Tool.debugNames_ident : ∀ n ∈ Tool.debugNames, ident n = true := by decide +kernel

theorem Tool.debugName_ident (x : Tool) : ident x.debugName = true :=
  Tool.debugNames_ident _ (List.mem_of_getElem? (debugNames_get x))

instance : Law Tool where
  law _ x y _ _ hs ht h := by
    obtain ⟨hn, hf⟩ := tuple_name x.debugName_ident y.debugName_ident hs ht h
    have hi : y.ctorIdx = x.ctorIdx :=
      same_variant Tool.debugNames_nodup (Tool.debugNames_get y) (hn ▸ Tool.debugNames_get x)
    clear h hn
    revert hf
    cases x with
    | KhronosReserved =>
      exact Tool.KhronosReserved.elim y hi fun hf => ⟨rfl, hf⟩
    | LunarG =>
      exact Tool.LunarG.elim y hi fun hf => ⟨rfl, hf⟩
    | Valve =>
      exact Tool.Valve.elim y hi fun hf => ⟨rfl, hf⟩
    | Codeplay =>
      exact Tool.Codeplay.elim y hi fun hf => ⟨rfl, hf⟩
    | Nvidia =>
      exact Tool.Nvidia.elim y hi fun hf => ⟨rfl, hf⟩
    | Arm =>
      exact Tool.Arm.elim y hi fun hf => ⟨rfl, hf⟩
    | KhronosLLvmTranslator =>
      exact Tool.KhronosLLvmTranslator.elim y hi fun hf => ⟨rfl, hf⟩
    | KhronosAssembler =>
      exact Tool.KhronosAssembler.elim y hi fun hf => ⟨rfl, hf⟩
    | KhronosGlslang =>
      exact Tool.KhronosGlslang.elim y hi fun hf => ⟨rfl, hf⟩
    | Qualcomm =>
      exact Tool.Qualcomm.elim y hi fun hf => ⟨rfl, hf⟩
    | Amd =>
      exact Tool.Amd.elim y hi fun hf => ⟨rfl, hf⟩
    | Intel =>
      exact Tool.Intel.elim y hi fun hf => ⟨rfl, hf⟩
    | Other a0 =>
      refine Tool.Other.elim y hi fun b0 hf => ?_
      obtain ⟨rfl, h1⟩ := tuple_first hf
      exact ⟨rfl, tuple_last h1⟩
  start _ x := tuple_start x.debugName_ident _
  line _ x := by
    refine tuple_line x.debugName_ident ?_
    cases x with
    | KhronosReserved => exact none_line
    | LunarG => exact none_line
    | Valve => exact none_line
    | Codeplay => exact none_line
    | Nvidia => exact none_line
    | Arm => exact none_line
    | KhronosLLvmTranslator => exact none_line
    | KhronosAssembler => exact none_line
    | KhronosGlslang => exact none_line
    | Qualcomm => exact none_line
    | Amd => exact none_line
    | Intel => exact none_line
    | Other _ => exact (cons_line none_line)

instance : Law Generator where
  law _ x y _ _ _ _ h := by
    obtain ⟨a0, a1⟩ := x
    obtain ⟨b0, b1⟩ := y
    obtain ⟨rfl, h1⟩ := struct_first h
    obtain ⟨rfl, h2⟩ := struct_next h1
    exact ⟨rfl, struct_last h2⟩
  start _ _ := struct_start (n := "Generator") (by decide) _
  line _ _ := struct_line (n := "Generator") (by decide) (cons_named (by decide) (cons_named (by decide) none_named))

/-- The names of the variants of `SourceLanguage` -/
def SourceLanguage.debugNames : List String :=
  ["Unknown",
    "Essl",
    "Glsl",
    "OpenCL_C",
    "OpenCL_Cpp",
    "Other"]

theorem SourceLanguage.debugNames_get (x : SourceLanguage) : SourceLanguage.debugNames[x.ctorIdx]? = some x.debugName := by
  cases x <;> rfl

theorem SourceLanguage.debugNames_nodup : SourceLanguage.debugNames.Nodup := by decide +kernel

theorem SourceLanguage.debugNames_ident : ∀ n ∈ SourceLanguage.debugNames, ident n = true := by decide +kernel

theorem SourceLanguage.debugName_ident (x : SourceLanguage) : ident x.debugName = true :=
  SourceLanguage.debugNames_ident _ (List.mem_of_getElem? (debugNames_get x))

instance : Law SourceLanguage where
  law _ x y _ _ hs ht h := by
    obtain ⟨hn, hf⟩ := tuple_name x.debugName_ident y.debugName_ident hs ht h
    have hi : y.ctorIdx = x.ctorIdx :=
      same_variant SourceLanguage.debugNames_nodup (SourceLanguage.debugNames_get y) (hn ▸ SourceLanguage.debugNames_get x)
    clear h hn
    revert hf
    cases x with
    | Unknown =>
      exact SourceLanguage.Unknown.elim y hi fun hf => ⟨rfl, hf⟩
    | Essl =>
      exact SourceLanguage.Essl.elim y hi fun hf => ⟨rfl, hf⟩
    | Glsl =>
      exact SourceLanguage.Glsl.elim y hi fun hf => ⟨rfl, hf⟩
    | OpenCL_C =>
      exact SourceLanguage.OpenCL_C.elim y hi fun hf => ⟨rfl, hf⟩
    | OpenCL_Cpp =>
      exact SourceLanguage.OpenCL_Cpp.elim y hi fun hf => ⟨rfl, hf⟩
    | Other a0 =>
      refine SourceLanguage.Other.elim y hi fun b0 hf => ?_
      obtain ⟨rfl, h1⟩ := tuple_first hf
      exact ⟨rfl, tuple_last h1⟩
  start _ x := tuple_start x.debugName_ident _
  line _ x := by
    refine tuple_line x.debugName_ident ?_
    cases x with
    | Unknown => exact none_line
    | Essl => exact none_line
    | Glsl => exact none_line
    | OpenCL_C => exact none_line
    | OpenCL_Cpp => exact none_line
    | Other _ => exact (cons_line none_line)

instance : Law SourceVersion where
  law _ x y _ _ _ _ h := by
    obtain ⟨a0⟩ := x
    obtain ⟨b0⟩ := y
    obtain ⟨rfl, h1⟩ := tuple_first (tuple_same h)
    exact ⟨rfl, tuple_last h1⟩
  start _ _ := tuple_start (n := "SourceVersion") (by decide) _
  line _ _ := tuple_line (n := "SourceVersion") (by decide) (cons_line none_line)

/-- The names of the variants of `BuiltIn` -/
def BuiltIn.debugNames : List String :=
  ["Position",
    "PointSize",
    "ClipDistance",
    "CullDistance",
    "VertexId",
    "InstanceId",
    "PrimitiveId",
    "InvocationId",
    "Layer",
    "ViewportIndex",
    "TessLevelOuter",
    "TessLevelInner",
    "TessCoord",
    "PatchVerticies",
    "FragCoord",
    "PointCoord",
    "FrontFacing",
    "SampleId",
    "SamplePosition",
    "SampleMask",
    "FragDepth",
    "HelperInvocation",
    "NumWorkgroups",
    "WorkgroupSize",
    "WorkgroupId",
    "LocalInvocationId",
    "GlobalInvocationId",
    "LocalInvocationIndex",
    "WorkDim",
    "GlobalSize",
    "EnqueuedWorkgroupSize",
    "GlobalOffset",
    "GlobalLinearId",
    "SubgroupSize",
    "SubgroupMaxSize",
    "NumSubgroups",
    "NumEnqueuedSubgroups",
    "SubgroupId",
    "SubgroupLocalInvocationId",
    "VertexIndex",
    "InstanceIndex"]

theorem BuiltIn.debugNames_get (x : BuiltIn) : BuiltIn.debugNames[x.ctorIdx]? = some x.debugName := by
  cases x <;> rfl

theorem BuiltIn.debugNames_nodup : BuiltIn.debugNames.Nodup := by decide +kernel

theorem BuiltIn.debugNames_ident : ∀ n ∈ BuiltIn.debugNames, ident n = true := by decide +kernel

theorem BuiltIn.debugName_ident (x : BuiltIn) : ident x.debugName = true :=
  BuiltIn.debugNames_ident _ (List.mem_of_getElem? (debugNames_get x))

instance : Law BuiltIn where
  law _ x y _ _ hs ht h := by
    obtain ⟨hn, hf⟩ := tuple_name x.debugName_ident y.debugName_ident hs ht h
    have hi : y.ctorIdx = x.ctorIdx :=
      same_variant BuiltIn.debugNames_nodup (BuiltIn.debugNames_get y) (hn ▸ BuiltIn.debugNames_get x)
    exact ⟨(BuiltIn.ofNat_ctorIdx x).symm.trans ((congrArg BuiltIn.ofNat hi.symm).trans (BuiltIn.ofNat_ctorIdx y)), hf⟩
  start _ x := tuple_start x.debugName_ident _
  line _ x := tuple_line x.debugName_ident none_line

/-- The names of the variants of `FunctionParameterAttribute` -/
def FunctionParameterAttribute.debugNames : List String :=
  ["Zext",
    "Sext",
    "ByVal",
    "Sret",
    "NoAlias",
    "NoCapture",
    "NoWrite",
    "NoReadWrite"]

theorem FunctionParameterAttribute.debugNames_get (x : FunctionParameterAttribute) : FunctionParameterAttribute.debugNames[x.ctorIdx]? = some x.debugName := by
  cases x <;> rfl

theorem FunctionParameterAttribute.debugNames_nodup : FunctionParameterAttribute.debugNames.Nodup := by decide +kernel

theorem FunctionParameterAttribute.debugNames_ident : ∀ n ∈ FunctionParameterAttribute.debugNames, ident n = true := by decide +kernel

theorem FunctionParameterAttribute.debugName_ident (x : FunctionParameterAttribute) : ident x.debugName = true :=
  FunctionParameterAttribute.debugNames_ident _ (List.mem_of_getElem? (debugNames_get x))

instance : Law FunctionParameterAttribute where
  law _ x y _ _ hs ht h := by
    obtain ⟨hn, hf⟩ := tuple_name x.debugName_ident y.debugName_ident hs ht h
    have hi : y.ctorIdx = x.ctorIdx :=
      same_variant FunctionParameterAttribute.debugNames_nodup (FunctionParameterAttribute.debugNames_get y) (hn ▸ FunctionParameterAttribute.debugNames_get x)
    exact ⟨(FunctionParameterAttribute.ofNat_ctorIdx x).symm.trans ((congrArg FunctionParameterAttribute.ofNat hi.symm).trans (FunctionParameterAttribute.ofNat_ctorIdx y)), hf⟩
  start _ x := tuple_start x.debugName_ident _
  line _ x := tuple_line x.debugName_ident none_line

/-- The names of the variants of `FpRoundingMode` -/
def FpRoundingMode.debugNames : List String :=
  ["Rte",
    "Rtz",
    "Rtp",
    "Rtn"]

theorem FpRoundingMode.debugNames_get (x : FpRoundingMode) : FpRoundingMode.debugNames[x.ctorIdx]? = some x.debugName := by
  cases x <;> rfl

theorem FpRoundingMode.debugNames_nodup : FpRoundingMode.debugNames.Nodup := by decide +kernel

theorem FpRoundingMode.debugNames_ident : ∀ n ∈ FpRoundingMode.debugNames, ident n = true := by decide +kernel

theorem FpRoundingMode.debugName_ident (x : FpRoundingMode) : ident x.debugName = true :=
  FpRoundingMode.debugNames_ident _ (List.mem_of_getElem? (debugNames_get x))

instance : Law FpRoundingMode where
  law _ x y _ _ hs ht h := by
    obtain ⟨hn, hf⟩ := tuple_name x.debugName_ident y.debugName_ident hs ht h
    have hi : y.ctorIdx = x.ctorIdx :=
      same_variant FpRoundingMode.debugNames_nodup (FpRoundingMode.debugNames_get y) (hn ▸ FpRoundingMode.debugNames_get x)
    exact ⟨(FpRoundingMode.ofNat_ctorIdx x).symm.trans ((congrArg FpRoundingMode.ofNat hi.symm).trans (FpRoundingMode.ofNat_ctorIdx y)), hf⟩
  start _ x := tuple_start x.debugName_ident _
  line _ x := tuple_line x.debugName_ident none_line

instance : Law FpFastMathMode where
  law _ x y _ _ _ _ h := by
    obtain ⟨a0, a1, a2, a3, a4⟩ := x
    obtain ⟨b0, b1, b2, b3, b4⟩ := y
    obtain ⟨rfl, h1⟩ := struct_first h
    obtain ⟨rfl, h2⟩ := struct_next h1
    obtain ⟨rfl, h3⟩ := struct_next h2
    obtain ⟨rfl, h4⟩ := struct_next h3
    obtain ⟨rfl, h5⟩ := struct_next h4
    exact ⟨rfl, struct_last h5⟩
  start _ _ := struct_start (n := "FpFastMathMode") (by decide) _
  line _ _ := struct_line (n := "FpFastMathMode") (by decide) (cons_named (by decide) (cons_named (by decide) (cons_named (by decide) (cons_named (by decide) (cons_named (by decide) none_named)))))

/-- The names of the variants of `LinkageType` -/
def LinkageType.debugNames : List String :=
  ["Export",
    "Import"]

theorem LinkageType.debugNames_get (x : LinkageType) : LinkageType.debugNames[x.ctorIdx]? = some x.debugName := by
  cases x <;> rfl

theorem LinkageType.debugNames_nodup : LinkageType.debugNames.Nodup := by decide +kernel

theorem LinkageType.debugNames_ident : ∀ n ∈ LinkageType.debugNames, ident n = true := by decide +kernel

theorem LinkageType.debugName_ident (x : LinkageType) : ident x.debugName = true :=
  LinkageType.debugNames_ident _ (List.mem_of_getElem? (debugNames_get x))

instance : Law LinkageType where
  law _ x y _ _ hs ht h := by
    obtain ⟨hn, hf⟩ := tuple_name x.debugName_ident y.debugName_ident hs ht h
    have hi : y.ctorIdx = x.ctorIdx :=
      same_variant LinkageType.debugNames_nodup (LinkageType.debugNames_get y) (hn ▸ LinkageType.debugNames_get x)
    exact ⟨(LinkageType.ofNat_ctorIdx x).symm.trans ((congrArg LinkageType.ofNat hi.symm).trans (LinkageType.ofNat_ctorIdx y)), hf⟩
  start _ x := tuple_start x.debugName_ident _
  line _ x := tuple_line x.debugName_ident none_line

/-- The names of the variants of `Decoration` -/
def Decoration.debugNames : List String :=
  ["RelaxedPrecision",
    "SpecId",
    "Block",
    "BufferBlock",
    "RowMajor",
    "ColMajor",
    "ArrayStride",
    "MatrixStride",
    "GlslShared",
    "GlslPacked",
    "CPacked",
    "BuiltIn",
    "NoPerspective",
    "Flat",
    "Patch",
    "Centroid",
    "Sample",
    "Invariant",
    "Restrict",
    "Aliased",
    "Volatile",
    "Constant",
    "Coherent",
    "NonWritable",
    "NonReadable",
    "Uniform",
    "SaturatedConversion",
    "Stream",
    "Location",
    "Component",
    "Index",
    "Binding",
    "DescriptorSet",
    "Offset",
    "XfbBuffer",
    "XfbStride",
    "FuncParamAttr",
    "FpRoundingMode",
    "FpFastMathMode",
    "LinkageAttributes",
    "NoContraction",
    "InputAttachmentIndex",
    "Alignment"]

theorem Decoration.debugNames_get (x : Decoration) : Decoration.debugNames[x.ctorIdx]? = some x.debugName := by
  cases x <;> rfl

theorem Decoration.debugNames_nodup : Decoration.debugNames.Nodup := by decide +kernel

theorem Decoration.debugNames_ident : ∀ n ∈ Decoration.debugNames, ident n = true := by decide +kernel

theorem Decoration.debugName_ident (x : Decoration) : ident x.debugName = true :=
  Decoration.debugNames_ident _ (List.mem_of_getElem? (debugNames_get x))

instance : Law Decoration where
  law _ x y _ _ hs ht h := by
    obtain ⟨hn, hf⟩ := tuple_name x.debugName_ident y.debugName_ident hs ht h
    have hi : y.ctorIdx = x.ctorIdx :=
      same_variant Decoration.debugNames_nodup (Decoration.debugNames_get y) (hn ▸ Decoration.debugNames_get x)
    clear h hn
    revert hf
    cases x with
    | RelaxedPrecision =>
      exact Decoration.RelaxedPrecision.elim y hi fun hf => ⟨rfl, hf⟩
    | SpecId a0 =>
      refine Decoration.SpecId.elim y hi fun b0 hf => ?_
      obtain ⟨rfl, h1⟩ := tuple_first hf
      exact ⟨rfl, tuple_last h1⟩
    | Block =>
      exact Decoration.Block.elim y hi fun hf => ⟨rfl, hf⟩
    | BufferBlock =>
      exact Decoration.BufferBlock.elim y hi fun hf => ⟨rfl, hf⟩
    | RowMajor =>
      exact Decoration.RowMajor.elim y hi fun hf => ⟨rfl, hf⟩
    | ColMajor =>
      exact Decoration.ColMajor.elim y hi fun hf => ⟨rfl, hf⟩
    | ArrayStride a0 =>
      refine Decoration.ArrayStride.elim y hi fun b0 hf => ?_
      obtain ⟨rfl, h1⟩ := tuple_first hf
      exact ⟨rfl, tuple_last h1⟩
    | MatrixStride a0 =>
      refine Decoration.MatrixStride.elim y hi fun b0 hf => ?_
      obtain ⟨rfl, h1⟩ := tuple_first hf
      exact ⟨rfl, tuple_last h1⟩
    | GlslShared =>
      exact Decoration.GlslShared.elim y hi fun hf => ⟨rfl, hf⟩
    | GlslPacked =>
      exact Decoration.GlslPacked.elim y hi fun hf => ⟨rfl, hf⟩
    | CPacked =>
      exact Decoration.CPacked.elim y hi fun hf => ⟨rfl, hf⟩
    | BuiltIn a0 =>
      refine Decoration.BuiltIn.elim y hi fun b0 hf => ?_
      obtain ⟨rfl, h1⟩ := tuple_first hf
      exact ⟨rfl, tuple_last h1⟩
    | NoPerspective =>
      exact Decoration.NoPerspective.elim y hi fun hf => ⟨rfl, hf⟩
    | Flat =>
      exact Decoration.Flat.elim y hi fun hf => ⟨rfl, hf⟩
    | Patch =>
      exact Decoration.Patch.elim y hi fun hf => ⟨rfl, hf⟩
    | Centroid =>
      exact Decoration.Centroid.elim y hi fun hf => ⟨rfl, hf⟩
    | Sample =>
      exact Decoration.Sample.elim y hi fun hf => ⟨rfl, hf⟩
    | Invariant =>
      exact Decoration.Invariant.elim y hi fun hf => ⟨rfl, hf⟩
    | Restrict =>
      exact Decoration.Restrict.elim y hi fun hf => ⟨rfl, hf⟩
    | Aliased =>
      exact Decoration.Aliased.elim y hi fun hf => ⟨rfl, hf⟩
    | Volatile =>
      exact Decoration.Volatile.elim y hi fun hf => ⟨rfl, hf⟩
    | Constant =>
      exact Decoration.Constant.elim y hi fun hf => ⟨rfl, hf⟩
    | Coherent =>
      exact Decoration.Coherent.elim y hi fun hf => ⟨rfl, hf⟩
    | NonWritable =>
      exact Decoration.NonWritable.elim y hi fun hf => ⟨rfl, hf⟩
    | NonReadable =>
      exact Decoration.NonReadable.elim y hi fun hf => ⟨rfl, hf⟩
    | Uniform =>
      exact Decoration.Uniform.elim y hi fun hf => ⟨rfl, hf⟩
    | SaturatedConversion =>
      exact Decoration.SaturatedConversion.elim y hi fun hf => ⟨rfl, hf⟩
    | Stream a0 =>
      refine Decoration.Stream.elim y hi fun b0 hf => ?_
      obtain ⟨rfl, h1⟩ := tuple_first hf
      exact ⟨rfl, tuple_last h1⟩
    | Location a0 =>
      refine Decoration.Location.elim y hi fun b0 hf => ?_
      obtain ⟨rfl, h1⟩ := tuple_first hf
      exact ⟨rfl, tuple_last h1⟩
    | Component a0 =>
      refine Decoration.Component.elim y hi fun b0 hf => ?_
      obtain ⟨rfl, h1⟩ := tuple_first hf
      exact ⟨rfl, tuple_last h1⟩
    | Index a0 =>
      refine Decoration.Index.elim y hi fun b0 hf => ?_
      obtain ⟨rfl, h1⟩ := tuple_first hf
      exact ⟨rfl, tuple_last h1⟩
    | Binding a0 =>
      refine Decoration.Binding.elim y hi fun b0 hf => ?_
      obtain ⟨rfl, h1⟩ := tuple_first hf
      exact ⟨rfl, tuple_last h1⟩
    | DescriptorSet a0 =>
      refine Decoration.DescriptorSet.elim y hi fun b0 hf => ?_
      obtain ⟨rfl, h1⟩ := tuple_first hf
      exact ⟨rfl, tuple_last h1⟩
    | Offset a0 =>
      refine Decoration.Offset.elim y hi fun b0 hf => ?_
      obtain ⟨rfl, h1⟩ := tuple_first hf
      exact ⟨rfl, tuple_last h1⟩
    | XfbBuffer a0 =>
      refine Decoration.XfbBuffer.elim y hi fun b0 hf => ?_
      obtain ⟨rfl, h1⟩ := tuple_first hf
      exact ⟨rfl, tuple_last h1⟩
    | XfbStride a0 =>
      refine Decoration.XfbStride.elim y hi fun b0 hf => ?_
      obtain ⟨rfl, h1⟩ := tuple_first hf
      exact ⟨rfl, tuple_last h1⟩
    | FuncParamAttr a0 =>
      refine Decoration.FuncParamAttr.elim y hi fun b0 hf => ?_
      obtain ⟨rfl, h1⟩ := tuple_first hf
      exact ⟨rfl, tuple_last h1⟩
    | FpRoundingMode a0 =>
      refine Decoration.FpRoundingMode.elim y hi fun b0 hf => ?_
      obtain ⟨rfl, h1⟩ := tuple_first hf
      exact ⟨rfl, tuple_last h1⟩
    | FpFastMathMode a0 =>
      refine Decoration.FpFastMathMode.elim y hi fun b0 hf => ?_
      obtain ⟨rfl, h1⟩ := tuple_first hf
      exact ⟨rfl, tuple_last h1⟩
    | LinkageAttributes a0 a1 =>
      refine Decoration.LinkageAttributes.elim y hi fun b0 b1 hf => ?_
      obtain ⟨rfl, h1⟩ := tuple_first hf
      obtain ⟨rfl, h2⟩ := tuple_next (by decide) h1
      exact ⟨rfl, tuple_last h2⟩
    | NoContraction =>
      exact Decoration.NoContraction.elim y hi fun hf => ⟨rfl, hf⟩
    | InputAttachmentIndex a0 =>
      refine Decoration.InputAttachmentIndex.elim y hi fun b0 hf => ?_
      obtain ⟨rfl, h1⟩ := tuple_first hf
      exact ⟨rfl, tuple_last h1⟩
    | Alignment a0 =>
      refine Decoration.Alignment.elim y hi fun b0 hf => ?_
      obtain ⟨rfl, h1⟩ := tuple_first hf
      exact ⟨rfl, tuple_last h1⟩
  start _ x := tuple_start x.debugName_ident _
  line _ x := by
    refine tuple_line x.debugName_ident ?_
    cases x with
    | RelaxedPrecision => exact none_line
    | SpecId _ => exact (cons_line none_line)
    | Block => exact none_line
    | BufferBlock => exact none_line
    | RowMajor => exact none_line
    | ColMajor => exact none_line
    | ArrayStride _ => exact (cons_line none_line)
    | MatrixStride _ => exact (cons_line none_line)
    | GlslShared => exact none_line
    | GlslPacked => exact none_line
    | CPacked => exact none_line
    | BuiltIn _ => exact (cons_line none_line)
    | NoPerspective => exact none_line
    | Flat => exact none_line
    | Patch => exact none_line
    | Centroid => exact none_line
    | Sample => exact none_line
    | Invariant => exact none_line
    | Restrict => exact none_line
    | Aliased => exact none_line
    | Volatile => exact none_line
    | Constant => exact none_line
    | Coherent => exact none_line
    | NonWritable => exact none_line
    | NonReadable => exact none_line
    | Uniform => exact none_line
    | SaturatedConversion => exact none_line
    | Stream _ => exact (cons_line none_line)
    | Location _ => exact (cons_line none_line)
    | Component _ => exact (cons_line none_line)
    | Index _ => exact (cons_line none_line)
    | Binding _ => exact (cons_line none_line)
    | DescriptorSet _ => exact (cons_line none_line)
    | Offset _ => exact (cons_line none_line)
    | XfbBuffer _ => exact (cons_line none_line)
    | XfbStride _ => exact (cons_line none_line)
    | FuncParamAttr _ => exact (cons_line none_line)
    | FpRoundingMode _ => exact (cons_line none_line)
    | FpFastMathMode _ => exact (cons_line none_line)
    | LinkageAttributes _ _ => exact (cons_line (cons_line none_line))
    | NoContraction => exact none_line
    | InputAttachmentIndex _ => exact (cons_line none_line)
    | Alignment _ => exact (cons_line none_line)

instance : Law MemberIndex where
  law _ x y _ _ _ _ h := by
    obtain ⟨a0⟩ := x
    obtain ⟨b0⟩ := y
    obtain ⟨rfl, h1⟩ := tuple_first (tuple_same h)
    exact ⟨rfl, tuple_last h1⟩
  start _ _ := tuple_start (n := "MemberIndex") (by decide) _
  line _ _ := tuple_line (n := "MemberIndex") (by decide) (cons_line none_line)

/-- The names of the variants of `AddressingModel` -/
def AddressingModel.debugNames : List String :=
  ["Logical",
    "Physical32",
    "Physical64"]

theorem AddressingModel.debugNames_get (x : AddressingModel) : AddressingModel.debugNames[x.ctorIdx]? = some x.debugName := by
  cases x <;> rfl

theorem AddressingModel.debugNames_nodup : AddressingModel.debugNames.Nodup := by decide +kernel

theorem AddressingModel.debugNames_ident : ∀ n ∈ AddressingModel.debugNames, ident n = true := by decide +kernel

theorem AddressingModel.debugName_ident (x : AddressingModel) : ident x.debugName = true :=
  AddressingModel.debugNames_ident _ (List.mem_of_getElem? (debugNames_get x))

instance : Law AddressingModel where
  law _ x y _ _ hs ht h := by
    obtain ⟨hn, hf⟩ := tuple_name x.debugName_ident y.debugName_ident hs ht h
    have hi : y.ctorIdx = x.ctorIdx :=
      same_variant AddressingModel.debugNames_nodup (AddressingModel.debugNames_get y) (hn ▸ AddressingModel.debugNames_get x)
    exact ⟨(AddressingModel.ofNat_ctorIdx x).symm.trans ((congrArg AddressingModel.ofNat hi.symm).trans (AddressingModel.ofNat_ctorIdx y)), hf⟩
  start _ x := tuple_start x.debugName_ident _
  line _ x := tuple_line x.debugName_ident none_line

/-- The names of the variants of `MemoryModel` -/
def MemoryModel.debugNames : List String :=
  ["Simple",
    "Glsl450",
    "OpenCL"]

theorem MemoryModel.debugNames_get (x : MemoryModel) : MemoryModel.debugNames[x.ctorIdx]? = some x.debugName := by
  cases x <;> rfl

theorem MemoryModel.debugNames_nodup : MemoryModel.debugNames.Nodup := by decide +kernel

theorem MemoryModel.debugNames_ident : ∀ n ∈ MemoryModel.debugNames, ident n = true := by decide +kernel

theorem MemoryModel.debugName_ident (x : MemoryModel) : ident x.debugName = true :=
  MemoryModel.debugNames_ident _ (List.mem_of_getElem? (debugNames_get x))

instance : Law MemoryModel where
  law _ x y _ _ hs ht h := by
    obtain ⟨hn, hf⟩ := tuple_name x.debugName_ident y.debugName_ident hs ht h
    have hi : y.ctorIdx = x.ctorIdx :=
      same_variant MemoryModel.debugNames_nodup (MemoryModel.debugNames_get y) (hn ▸ MemoryModel.debugNames_get x)
    exact ⟨(MemoryModel.ofNat_ctorIdx x).symm.trans ((congrArg MemoryModel.ofNat hi.symm).trans (MemoryModel.ofNat_ctorIdx y)), hf⟩
  start _ x := tuple_start x.debugName_ident _
  line _ x := tuple_line x.debugName_ident none_line

/-- The names of the variants of `ExecutionModel` -/
def ExecutionModel.debugNames : List String :=
  ["Vertex",
    "TesselationControl",
    "TesselationEvaluation",
    "Geometry",
    "Fragment",
    "GlCompute",
    "Kernel"]

theorem ExecutionModel.debugNames_get (x : ExecutionModel) : ExecutionModel.debugNames[x.ctorIdx]? = some x.debugName := by
  cases x <;> rfl

theorem ExecutionModel.debugNames_nodup : ExecutionModel.debugNames.Nodup := by decide +kernel

theorem ExecutionModel.debugNames_ident : ∀ n ∈ ExecutionModel.debugNames, ident n = true := by decide +kernel

theorem ExecutionModel.debugName_ident (x : ExecutionModel) : ident x.debugName = true :=
  ExecutionModel.debugNames_ident _ (List.mem_of_getElem? (debugNames_get x))

instance : Law ExecutionModel where
  law _ x y _ _ hs ht h := by
    obtain ⟨hn, hf⟩ := tuple_name x.debugName_ident y.debugName_ident hs ht h
    have hi : y.ctorIdx = x.ctorIdx :=
      same_variant ExecutionModel.debugNames_nodup (ExecutionModel.debugNames_get y) (hn ▸ ExecutionModel.debugNames_get x)
    exact ⟨(ExecutionModel.ofNat_ctorIdx x).symm.trans ((congrArg ExecutionModel.ofNat hi.symm).trans (ExecutionModel.ofNat_ctorIdx y)), hf⟩
  start _ x := tuple_start x.debugName_ident _
  line _ x := tuple_line x.debugName_ident none_line

/-- The names of the variants of `ExecutionMode` -/
def ExecutionMode.debugNames : List String :=
  ["Invocations",
    "SpacingEqual",
    "SpacingFractionalEven",
    "SpacingFractionalOdd",
    "VertexOrderCw",
    "VertexOrderCcw",
    "PixelCenterInteger",
    "OriginUpperLeft",
    "OriginLowerLeft",
    "EarlyFragmentTests",
    "PointMode",
    "Xfb",
    "DepthReplacing",
    "DepthGreater",
    "DepthLess",
    "DepthUnchanged",
    "LocalSize",
    "LocalSizeHint",
    "InputPoints",
    "InputLines",
    "InputLinesAdjacency",
    "Triangles",
    "InputTrianglesAdjacency",
    "Quads",
    "Isolines",
    "OutputVerticies",
    "OutputPoints",
    "OutputLineStrip",
    "OutputTriangleStrip",
    "VecTypeHint",
    "ContractionOff"]

theorem ExecutionMode.debugNames_get (x : ExecutionMode) : ExecutionMode.debugNames[x.ctorIdx]? = some x.debugName := by
  cases x <;> rfl

theorem ExecutionMode.debugNames_nodup : ExecutionMode.debugNames.Nodup := by decide +kernel

theorem ExecutionMode.debugNames_ident : ∀ n ∈ ExecutionMode.debugNames, ident n = true := by decide +kernel

theorem ExecutionMode.debugName_ident (x : ExecutionMode) : ident x.debugName = true :=
  ExecutionMode.debugNames_ident _ (List.mem_of_getElem? (debugNames_get x))

instance : Law ExecutionMode where
  law _ x y _ _ hs ht h := by
    obtain ⟨hn, hf⟩ := tuple_name x.debugName_ident y.debugName_ident hs ht h
    have hi : y.ctorIdx = x.ctorIdx :=
      same_variant ExecutionMode.debugNames_nodup (ExecutionMode.debugNames_get y) (hn ▸ ExecutionMode.debugNames_get x)
    clear h hn
    revert hf
    cases x with
    | Invocations a0 =>
      refine ExecutionMode.Invocations.elim y hi fun b0 hf => ?_
      obtain ⟨rfl, h1⟩ := tuple_first hf
      exact ⟨rfl, tuple_last h1⟩
    | SpacingEqual =>
      exact ExecutionMode.SpacingEqual.elim y hi fun hf => ⟨rfl, hf⟩
    | SpacingFractionalEven =>
      exact ExecutionMode.SpacingFractionalEven.elim y hi fun hf => ⟨rfl, hf⟩
    | SpacingFractionalOdd =>
      exact ExecutionMode.SpacingFractionalOdd.elim y hi fun hf => ⟨rfl, hf⟩
    | VertexOrderCw =>
      exact ExecutionMode.VertexOrderCw.elim y hi fun hf => ⟨rfl, hf⟩
    | VertexOrderCcw =>
      exact ExecutionMode.VertexOrderCcw.elim y hi fun hf => ⟨rfl, hf⟩
    | PixelCenterInteger =>
      exact ExecutionMode.PixelCenterInteger.elim y hi fun hf => ⟨rfl, hf⟩
    | OriginUpperLeft =>
      exact ExecutionMode.OriginUpperLeft.elim y hi fun hf => ⟨rfl, hf⟩
    | OriginLowerLeft =>
      exact ExecutionMode.OriginLowerLeft.elim y hi fun hf => ⟨rfl, hf⟩
    | EarlyFragmentTests =>
      exact ExecutionMode.EarlyFragmentTests.elim y hi fun hf => ⟨rfl, hf⟩
    | PointMode =>
      exact ExecutionMode.PointMode.elim y hi fun hf => ⟨rfl, hf⟩
    | Xfb =>
      exact ExecutionMode.Xfb.elim y hi fun hf => ⟨rfl, hf⟩
    | DepthReplacing =>
      exact ExecutionMode.DepthReplacing.elim y hi fun hf => ⟨rfl, hf⟩
    | DepthGreater =>
      exact ExecutionMode.DepthGreater.elim y hi fun hf => ⟨rfl, hf⟩
    | DepthLess =>
      exact ExecutionMode.DepthLess.elim y hi fun hf => ⟨rfl, hf⟩
    | DepthUnchanged =>
      exact ExecutionMode.DepthUnchanged.elim y hi fun hf => ⟨rfl, hf⟩
    | LocalSize a0 a1 a2 =>
      refine ExecutionMode.LocalSize.elim y hi fun b0 b1 b2 hf => ?_
      obtain ⟨rfl, h1⟩ := tuple_first hf
      obtain ⟨rfl, h2⟩ := tuple_next (by decide) h1
      obtain ⟨rfl, h3⟩ := tuple_next (by decide) h2
      exact ⟨rfl, tuple_last h3⟩
    | LocalSizeHint a0 a1 a2 =>
      refine ExecutionMode.LocalSizeHint.elim y hi fun b0 b1 b2 hf => ?_
      obtain ⟨rfl, h1⟩ := tuple_first hf
      obtain ⟨rfl, h2⟩ := tuple_next (by decide) h1
      obtain ⟨rfl, h3⟩ := tuple_next (by decide) h2
      exact ⟨rfl, tuple_last h3⟩
    | InputPoints =>
      exact ExecutionMode.InputPoints.elim y hi fun hf => ⟨rfl, hf⟩
    | InputLines =>
      exact ExecutionMode.InputLines.elim y hi fun hf => ⟨rfl, hf⟩
    | InputLinesAdjacency =>
      exact ExecutionMode.InputLinesAdjacency.elim y hi fun hf => ⟨rfl, hf⟩
    | Triangles =>
      exact ExecutionMode.Triangles.elim y hi fun hf => ⟨rfl, hf⟩
    | InputTrianglesAdjacency =>
      exact ExecutionMode.InputTrianglesAdjacency.elim y hi fun hf => ⟨rfl, hf⟩
    | Quads =>
      exact ExecutionMode.Quads.elim y hi fun hf => ⟨rfl, hf⟩
    | Isolines =>
      exact ExecutionMode.Isolines.elim y hi fun hf => ⟨rfl, hf⟩
    | OutputVerticies a0 =>
      refine ExecutionMode.OutputVerticies.elim y hi fun b0 hf => ?_
      obtain ⟨rfl, h1⟩ := tuple_first hf
      exact ⟨rfl, tuple_last h1⟩
    | OutputPoints =>
      exact ExecutionMode.OutputPoints.elim y hi fun hf => ⟨rfl, hf⟩
    | OutputLineStrip =>
      exact ExecutionMode.OutputLineStrip.elim y hi fun hf => ⟨rfl, hf⟩
    | OutputTriangleStrip =>
      exact ExecutionMode.OutputTriangleStrip.elim y hi fun hf => ⟨rfl, hf⟩
    | VecTypeHint a0 =>
      refine ExecutionMode.VecTypeHint.elim y hi fun b0 hf => ?_
      obtain ⟨rfl, h1⟩ := tuple_first hf
      exact ⟨rfl, tuple_last h1⟩
    | ContractionOff =>
      exact ExecutionMode.ContractionOff.elim y hi fun hf => ⟨rfl, hf⟩
  start _ x := tuple_start x.debugName_ident _
  line _ x := by
    refine tuple_line x.debugName_ident ?_
    cases x with
    | Invocations _ => exact (cons_line none_line)
    | SpacingEqual => exact none_line
    | SpacingFractionalEven => exact none_line
    | SpacingFractionalOdd => exact none_line
    | VertexOrderCw => exact none_line
    | VertexOrderCcw => exact none_line
    | PixelCenterInteger => exact none_line
    | OriginUpperLeft => exact none_line
    | OriginLowerLeft => exact none_line
    | EarlyFragmentTests => exact none_line
    | PointMode => exact none_line
    | Xfb => exact none_line
    | DepthReplacing => exact none_line
    | DepthGreater => exact none_line
    | DepthLess => exact none_line
    | DepthUnchanged => exact none_line
    | LocalSize _ _ _ => exact (cons_line (cons_line (cons_line none_line)))
    | LocalSizeHint _ _ _ => exact (cons_line (cons_line (cons_line none_line)))
    | InputPoints => exact none_line
    | InputLines => exact none_line
    | InputLinesAdjacency => exact none_line
    | Triangles => exact none_line
    | InputTrianglesAdjacency => exact none_line
    | Quads => exact none_line
    | Isolines => exact none_line
    | OutputVerticies _ => exact (cons_line none_line)
    | OutputPoints => exact none_line
    | OutputLineStrip => exact none_line
    | OutputTriangleStrip => exact none_line
    | VecTypeHint _ => exact (cons_line none_line)
    | ContractionOff => exact none_line

/-- The names of the variants of `Capability` -/
def Capability.debugNames : List String :=
  ["Matrix",
    "Shader",
    "Geometry",
    "Tessellation",
    "Addresses",
    "Linkage",
    "Kernel",
    "Vector16",
    "Float16Buffer",
    "Float16",
    "Float64",
    "Int64",
    "Int64Atomics",
    "ImageBasic",
    "ImageReadWrite",
    "ImageMipmap",
    "Pipes",
    "Groups",
    "DeviceEnqueue",
    "LiteralSampler",
    "AtomicStorage",
    "Int16",
    "TessellationPointSize",
    "GeometryPointSize",
    "ImageGatherExtended",
    "StorageImageMultisample",
    "UniformBufferArrayDynamicIndexing",
    "SampledImageArrayDynamicIndexing",
    "StorageBufferArrayDynamicIndexing",
    "StorageImageArrayDynamicIndexing",
    "ClipDistance",
    "CullDistance",
    "ImageCubeArray",
    "SampleRateShading",
    "ImageRect",
    "SampledRect",
    "GenericPointer",
    "Int8",
    "InputAttachment",
    "SparseResidency",
    "MinLod",
    "Sampled1D",
    "Image1D",
    "SampledCubeArray",
    "SampledBuffer",
    "ImageBuffer",
    "ImageMSArray",
    "StorageImageExtendedFormats",
    "ImageQuery",
    "DerivativeControl",
    "InterpolationFunction",
    "TransformFeedback",
    "GeometryStreams",
    "StorageImageReadWithoutFormat",
    "StorageImageWriteWithoutFormat",
    "MultiViewport"]

theorem Capability.debugNames_get (x : Capability) : Capability.debugNames[x.ctorIdx]? = some x.debugName := by
  cases x <;> rfl

theorem Capability.debugNames_nodup : Capability.debugNames.Nodup := by decide +kernel

theorem Capability.debugNames_ident : ∀ n ∈ Capability.debugNames, ident n = true := by decide +kernel

theorem Capability.debugName_ident (x : Capability) : ident x.debugName = true :=
  Capability.debugNames_ident _ (List.mem_of_getElem? (debugNames_get x))

instance : Law Capability where
  law _ x y _ _ hs ht h := by
    obtain ⟨hn, hf⟩ := tuple_name x.debugName_ident y.debugName_ident hs ht h
    have hi : y.ctorIdx = x.ctorIdx :=
      same_variant Capability.debugNames_nodup (Capability.debugNames_get y) (hn ▸ Capability.debugNames_get x)
    exact ⟨(Capability.ofNat_ctorIdx x).symm.trans ((congrArg Capability.ofNat hi.symm).trans (Capability.ofNat_ctorIdx y)), hf⟩
  start _ x := tuple_start x.debugName_ident _
  line _ x := tuple_line x.debugName_ident none_line

/-- The names of the variants of `Signedness` -/
def Signedness.debugNames : List String :=
  ["UnsignedOrNone",
    "Signed"]

theorem Signedness.debugNames_get (x : Signedness) : Signedness.debugNames[x.ctorIdx]? = some x.debugName := by
  cases x <;> rfl

theorem Signedness.debugNames_nodup : Signedness.debugNames.Nodup := by decide +kernel

theorem Signedness.debugNames_ident : ∀ n ∈ Signedness.debugNames, ident n = true := by decide +kernel

theorem Signedness.debugName_ident (x : Signedness) : ident x.debugName = true :=
  Signedness.debugNames_ident _ (List.mem_of_getElem? (debugNames_get x))

instance : Law Signedness where
  law _ x y _ _ hs ht h := by
    obtain ⟨hn, hf⟩ := tuple_name x.debugName_ident y.debugName_ident hs ht h
    have hi : y.ctorIdx = x.ctorIdx :=
      same_variant Signedness.debugNames_nodup (Signedness.debugNames_get y) (hn ▸ Signedness.debugNames_get x)
    exact ⟨(Signedness.ofNat_ctorIdx x).symm.trans ((congrArg Signedness.ofNat hi.symm).trans (Signedness.ofNat_ctorIdx y)), hf⟩
  start _ x := tuple_start x.debugName_ident _
  line _ x := tuple_line x.debugName_ident none_line

/-- The names of the variants of `StorageClass` -/
def StorageClass.debugNames : List String :=
  ["UniformConstant",
    "Input",
    "Uniform",
    "Output",
    "Workgroup",
    "CrossWorkgroup",
    "Private",
    "Function",
    "Generic",
    "PushConstant",
    "AtomicCounter",
    "Image"]

theorem StorageClass.debugNames_get (x : StorageClass) : StorageClass.debugNames[x.ctorIdx]? = some x.debugName := by
  cases x <;> rfl

theorem StorageClass.debugNames_nodup : StorageClass.debugNames.Nodup := by decide +kernel

theorem StorageClass.debugNames_ident : ∀ n ∈ StorageClass.debugNames, ident n = true := by decide +kernel

theorem StorageClass.debugName_ident (x : StorageClass) : ident x.debugName = true :=
  StorageClass.debugNames_ident _ (List.mem_of_getElem? (debugNames_get x))

instance : Law StorageClass where
  law _ x y _ _ hs ht h := by
    obtain ⟨hn, hf⟩ := tuple_name x.debugName_ident y.debugName_ident hs ht h
    have hi : y.ctorIdx = x.ctorIdx :=
      same_variant StorageClass.debugNames_nodup (StorageClass.debugNames_get y) (hn ▸ StorageClass.debugNames_get x)
    exact ⟨(StorageClass.ofNat_ctorIdx x).symm.trans ((congrArg StorageClass.ofNat hi.symm).trans (StorageClass.ofNat_ctorIdx y)), hf⟩
  start _ x := tuple_start x.debugName_ident _
  line _ x := tuple_line x.debugName_ident none_line

/-- The names of the variants of `Dim` -/
def Dim.debugNames : List String :=
  ["Tex1D",
    "Tex2D",
    "Tex3D",
    "Cube",
    "Rect",
    "Buffer",
    "SubpassData"]

theorem Dim.debugNames_get (x : Dim) : Dim.debugNames[x.ctorIdx]? = some x.debugName := by
  cases x <;> rfl

theorem Dim.debugNames_nodup : Dim.debugNames.Nodup := by decide +kernel

theorem Dim.debugNames_ident : ∀ n ∈ Dim.debugNames, ident n = true := by decide +kernel

theorem Dim.debugName_ident (x : Dim) : ident x.debugName = true :=
  Dim.debugNames_ident _ (List.mem_of_getElem? (debugNames_get x))

instance : Law Dim where
  law _ x y _ _ hs ht h := by
    obtain ⟨hn, hf⟩ := tuple_name x.debugName_ident y.debugName_ident hs ht h
    have hi : y.ctorIdx = x.ctorIdx :=
      same_variant Dim.debugNames_nodup (Dim.debugNames_get y) (hn ▸ Dim.debugNames_get x)
    exact ⟨(Dim.ofNat_ctorIdx x).symm.trans ((congrArg Dim.ofNat hi.symm).trans (Dim.ofNat_ctorIdx y)), hf⟩
  start _ x := tuple_start x.debugName_ident _
  line _ x := tuple_line x.debugName_ident none_line

/-- The names of the variants of `DepthStatus` -/
def DepthStatus.debugNames : List String :=
  ["NotDepth",
    "Depth",
    "NoIndication"]

theorem DepthStatus.debugNames_get (x : DepthStatus) : DepthStatus.debugNames[x.ctorIdx]? = some x.debugName := by
  cases x <;> rfl

theorem DepthStatus.debugNames_nodup : DepthStatus.debugNames.Nodup := by decide +kernel

theorem DepthStatus.debugNames_ident : ∀ n ∈ DepthStatus.debugNames, ident n = true := by decide +kernel

theorem DepthStatus.debugName_ident (x : DepthStatus) : ident x.debugName = true :=
  DepthStatus.debugNames_ident _ (List.mem_of_getElem? (debugNames_get x))

instance : Law DepthStatus where
  law _ x y _ _ hs ht h := by
    obtain ⟨hn, hf⟩ := tuple_name x.debugName_ident y.debugName_ident hs ht h
    have hi : y.ctorIdx = x.ctorIdx :=
      same_variant DepthStatus.debugNames_nodup (DepthStatus.debugNames_get y) (hn ▸ DepthStatus.debugNames_get x)
    exact ⟨(DepthStatus.ofNat_ctorIdx x).symm.trans ((congrArg DepthStatus.ofNat hi.symm).trans (DepthStatus.ofNat_ctorIdx y)), hf⟩
  start _ x := tuple_start x.debugName_ident _
  line _ x := tuple_line x.debugName_ident none_line

/-- The names of the variants of `Arrayed` -/
def Arrayed.debugNames : List String :=
  ["False",
    "True"]

theorem Arrayed.debugNames_get (x : Arrayed) : Arrayed.debugNames[x.ctorIdx]? = some x.debugName := by
  cases x <;> rfl

theorem Arrayed.debugNames_nodup : Arrayed.debugNames.Nodup := by decide +kernel

theorem Arrayed.debugNames_ident : ∀ n ∈ Arrayed.debugNames, ident n = true := by decide +kernel

theorem Arrayed.debugName_ident (x : Arrayed) : ident x.debugName = true :=
  Arrayed.debugNames_ident _ (List.mem_of_getElem? (debugNames_get x))

instance : Law Arrayed where
  law _ x y _ _ hs ht h := by
    obtain ⟨hn, hf⟩ := tuple_name x.debugName_ident y.debugName_ident hs ht h
    have hi : y.ctorIdx = x.ctorIdx :=
      same_variant Arrayed.debugNames_nodup (Arrayed.debugNames_get y) (hn ▸ Arrayed.debugNames_get x)
    exact ⟨(Arrayed.ofNat_ctorIdx x).symm.trans ((congrArg Arrayed.ofNat hi.symm).trans (Arrayed.ofNat_ctorIdx y)), hf⟩
  start _ x := tuple_start x.debugName_ident _
  line _ x := tuple_line x.debugName_ident none_line

/-- The names of the variants of `MS` -/
def MS.debugNames : List String :=
  ["Single",
    "Multi"]

theorem MS.debugNames_get (x : MS) : MS.debugNames[x.ctorIdx]? = some x.debugName := by
  cases x <;> rfl

theorem MS.debugNames_nodup : MS.debugNames.Nodup := by decide +kernel

theorem MS.debugNames_ident : ∀ n ∈ MS.debugNames, ident n = true := by decide +kernel

theorem MS.debugName_ident (x : MS) : ident x.debugName = true :=
  MS.debugNames_ident _ (List.mem_of_getElem? (debugNames_get x))

instance : Law MS where
  law _ x y _ _ hs ht h := by
    obtain ⟨hn, hf⟩ := tuple_name x.debugName_ident y.debugName_ident hs ht h
    have hi : y.ctorIdx = x.ctorIdx :=
      same_variant MS.debugNames_nodup (MS.debugNames_get y) (hn ▸ MS.debugNames_get x)
    exact ⟨(MS.ofNat_ctorIdx x).symm.trans ((congrArg MS.ofNat hi.symm).trans (MS.ofNat_ctorIdx y)), hf⟩
  start _ x := tuple_start x.debugName_ident _
  line _ x := tuple_line x.debugName_ident none_line

/-- The names of the variants of `SampledStatus` -/
def SampledStatus.debugNames : List String :=
  ["RuntimeChoice",
    "WithSampler",
    "WithoutSampler"]

theorem SampledStatus.debugNames_get (x : SampledStatus) : SampledStatus.debugNames[x.ctorIdx]? = some x.debugName := by
  cases x <;> rfl

theorem SampledStatus.debugNames_nodup : SampledStatus.debugNames.Nodup := by decide +kernel

theorem SampledStatus.debugNames_ident : ∀ n ∈ SampledStatus.debugNames, ident n = true := by decide +kernel

theorem SampledStatus.debugName_ident (x : SampledStatus) : ident x.debugName = true :=
  SampledStatus.debugNames_ident _ (List.mem_of_getElem? (debugNames_get x))

instance : Law SampledStatus where
  law _ x y _ _ hs ht h := by
    obtain ⟨hn, hf⟩ := tuple_name x.debugName_ident y.debugName_ident hs ht h
    have hi : y.ctorIdx = x.ctorIdx :=
      same_variant SampledStatus.debugNames_nodup (SampledStatus.debugNames_get y) (hn ▸ SampledStatus.debugNames_get x)
    exact ⟨(SampledStatus.ofNat_ctorIdx x).symm.trans ((congrArg SampledStatus.ofNat hi.symm).trans (SampledStatus.ofNat_ctorIdx y)), hf⟩
  start _ x := tuple_start x.debugName_ident _
  line _ x := tuple_line x.debugName_ident none_line

/-- The names of the variants of `ImageFormat` -/
def ImageFormat.debugNames : List String :=
  ["Unknown",
    "Rgba32f",
    "Rgba16f",
    "R32f",
    "Rgba8",
    "Rgba8Snorm",
    "Rg32f",
    "Rg16f",
    "R11fG11fB10f",
    "R16f",
    "Rgba16",
    "Rgb10A2",
    "Rg16",
    "Rg8",
    "R16",
    "R8",
    "Rgba16Snorm",
    "Rg16Snorm",
    "Rg8Snorm",
    "R16Snorm",
    "R8Snorm",
    "Rgba32i",
    "Rgba16i",
    "Rgba8i",
    "R32i",
    "Rg32i",
    "Rg16i",
    "Rg8i",
    "R16i",
    "R8i",
    "Rgba32ui",
    "Rgba16ui",
    "Rgba8ui",
    "R32ui",
    "Rgb10a2ui",
    "Rg32ui",
    "Rg16ui",
    "Rg8ui",
    "R16ui",
    "R8ui"]

theorem ImageFormat.debugNames_get (x : ImageFormat) : ImageFormat.debugNames[x.ctorIdx]? = some x.debugName := by
  cases x <;> rfl

theorem ImageFormat.debugNames_nodup : ImageFormat.debugNames.Nodup := by decide +kernel

theorem ImageFormat.debugNames_ident : ∀ n ∈ ImageFormat.debugNames, ident n = true := by decide +kernel

theorem ImageFormat.debugName_ident (x : ImageFormat) : ident x.debugName = true :=
  ImageFormat.debugNames_ident _ (List.mem_of_getElem? (debugNames_get x))

instance : Law ImageFormat where
  law _ x y _ _ hs ht h := by
    obtain ⟨hn, hf⟩ := tuple_name x.debugName_ident y.debugName_ident hs ht h
    have hi : y.ctorIdx = x.ctorIdx :=
      same_variant ImageFormat.debugNames_nodup (ImageFormat.debugNames_get y) (hn ▸ ImageFormat.debugNames_get x)
    exact ⟨(ImageFormat.ofNat_ctorIdx x).symm.trans ((congrArg ImageFormat.ofNat hi.symm).trans (ImageFormat.ofNat_ctorIdx y)), hf⟩
  start _ x := tuple_start x.debugName_ident _
  line _ x := tuple_line x.debugName_ident none_line

/-- The names of the variants of `AccessQualifier` -/
def AccessQualifier.debugNames : List String :=
  ["ReadOnly",
    "WriteOnly",
    "ReadWrite"]

theorem AccessQualifier.debugNames_get (x : AccessQualifier) : AccessQualifier.debugNames[x.ctorIdx]? = some x.debugName := by
  cases x <;> rfl

theorem AccessQualifier.debugNames_nodup : AccessQualifier.debugNames.Nodup := by decide +kernel

theorem AccessQualifier.debugNames_ident : ∀ n ∈ AccessQualifier.debugNames, ident n = true := by decide +kernel

theorem AccessQualifier.debugName_ident (x : AccessQualifier) : ident x.debugName = true :=
  AccessQualifier.debugNames_ident _ (List.mem_of_getElem? (debugNames_get x))

instance : Law AccessQualifier where
  law _ x y _ _ hs ht h := by
    obtain ⟨hn, hf⟩ := tuple_name x.debugName_ident y.debugName_ident hs ht h
    have hi : y.ctorIdx = x.ctorIdx :=
      same_variant AccessQualifier.debugNames_nodup (AccessQualifier.debugNames_get y) (hn ▸ AccessQualifier.debugNames_get x)
    exact ⟨(AccessQualifier.ofNat_ctorIdx x).symm.trans ((congrArg AccessQualifier.ofNat hi.symm).trans (AccessQualifier.ofNat_ctorIdx y)), hf⟩
  start _ x := tuple_start x.debugName_ident _
  line _ x := tuple_line x.debugName_ident none_line

instance : Law MemoryAccess where
  law _ x y _ _ _ _ h := by
    obtain ⟨a0, a1, a2⟩ := x
    obtain ⟨b0, b1, b2⟩ := y
    obtain ⟨rfl, h1⟩ := struct_first h
    obtain ⟨rfl, h2⟩ := struct_next h1
    obtain ⟨rfl, h3⟩ := struct_next h2
    exact ⟨rfl, struct_last h3⟩
  start _ _ := struct_start (n := "MemoryAccess") (by decide) _
  line _ _ := struct_line (n := "MemoryAccess") (by decide) (cons_named (by decide) (cons_named (by decide) (cons_named (by decide) none_named)))

instance : Law FunctionControl where
  law _ x y _ _ _ _ h := by
    obtain ⟨a0, a1, a2, a3⟩ := x
    obtain ⟨b0, b1, b2, b3⟩ := y
    obtain ⟨rfl, h1⟩ := struct_first h
    obtain ⟨rfl, h2⟩ := struct_next h1
    obtain ⟨rfl, h3⟩ := struct_next h2
    obtain ⟨rfl, h4⟩ := struct_next h3
    exact ⟨rfl, struct_last h4⟩
  start _ _ := struct_start (n := "FunctionControl") (by decide) _
  line _ _ := struct_line (n := "FunctionControl") (by decide) (cons_named (by decide) (cons_named (by decide) (cons_named (by decide) (cons_named (by decide) none_named))))

instance : Law LoopControl where
  law _ x y _ _ _ _ h := by
    obtain ⟨a0, a1, a2, a3⟩ := x
    obtain ⟨b0, b1, b2, b3⟩ := y
    obtain ⟨rfl, h1⟩ := struct_first h
    obtain ⟨rfl, h2⟩ := struct_next h1
    obtain ⟨rfl, h3⟩ := struct_next h2
    obtain ⟨rfl, h4⟩ := struct_next h3
    exact ⟨rfl, struct_last h4⟩
  start _ _ := struct_start (n := "LoopControl") (by decide) _
  line _ _ := struct_line (n := "LoopControl") (by decide) (cons_named (by decide) (cons_named (by decide) (cons_named (by decide) (cons_named (by decide) none_named))))

instance : Law SelectionControl where
  law _ x y _ _ _ _ h := by
    obtain ⟨a0, a1⟩ := x
    obtain ⟨b0, b1⟩ := y
    obtain ⟨rfl, h1⟩ := struct_first h
    obtain ⟨rfl, h2⟩ := struct_next h1
    exact ⟨rfl, struct_last h2⟩
  start _ _ := struct_start (n := "SelectionControl") (by decide) _
  line _ _ := struct_line (n := "SelectionControl") (by decide) (cons_named (by decide) (cons_named (by decide) none_named))

instance : Law PhiArg where
  law _ x y _ _ _ _ h := by
    obtain ⟨a0, a1⟩ := x
    obtain ⟨b0, b1⟩ := y
    obtain ⟨rfl, h1⟩ := struct_first h
    obtain ⟨rfl, h2⟩ := struct_next h1
    exact ⟨rfl, struct_last h2⟩
  start _ _ := struct_start (n := "PhiArg") (by decide) _
  line _ _ := struct_line (n := "PhiArg") (by decide) (cons_named (by decide) (cons_named (by decide) none_named))

instance : Law BranchWeights where
  law _ x y _ _ _ _ h := by
    obtain ⟨a0, a1⟩ := x
    obtain ⟨b0, b1⟩ := y
    obtain ⟨rfl, h1⟩ := struct_first h
    obtain ⟨rfl, h2⟩ := struct_next h1
    exact ⟨rfl, struct_last h2⟩
  start _ _ := struct_start (n := "BranchWeights") (by decide) _
  line _ _ := struct_line (n := "BranchWeights") (by decide) (cons_named (by decide) (cons_named (by decide) none_named))

/-- The names of the variants of `ReadError` -/
def ReadError.debugNames : List String :=
  ["UnexpectedEndOfStream",
    "UnexpectedStreamAlignment",
    "BadMagic",
    "UnknownVersionBytes",
    "UnknownVersion",
    "UnknownReservedSchema",
    "UnknownOp",
    "UnimplementedOp",
    "WrongWordCountForOp",
    "InvalidString",
    "UnexpectedEndOfInstruction",
    "InstructionHadExcessData",
    "UnknownInstSet",
    "UnknownInstSetId",
    "UnknownExtInstOp",
    "DuplicateResultId",
    "UnknownAddressingModel",
    "UnknownMemoryModel",
    "UnknownExecutionModel",
    "UnknownExecutionMode",
    "UnknownCapability",
    "UnknownDecoration",
    "UnknownBuiltIn",
    "UnknownFpRoundingMode",
    "UnknownFpFastMathMode",
    "UnknownLinkageType",
    "UnknownSignedness",
    "UnknownStorageClass",
    "UnknownFunctionParameterAttribute",
    "UnknownMemoryAccess",
    "UnknownDim",
    "UnknownDepthStatus",
    "UnknownArrayed",
    "UnknownMS",
    "UnknownSampledStatus",
    "UnknownImageFormat",
    "UnknownAccessQualifier",
    "UnknownLoopControl",
    "UnknownSelectionControl"]

theorem ReadError.debugNames_get (x : ReadError) : ReadError.debugNames[x.ctorIdx]? = some x.debugName := by
  cases x <;> rfl

theorem ReadError.debugNames_nodup : ReadError.debugNames.Nodup := by decide +kernel

theorem ReadError.debugNames_ident : ∀ n ∈ ReadError.debugNames, ident n = true := by decide +kernel

theorem ReadError.debugName_ident (x : ReadError) : ident x.debugName = true :=
  ReadError.debugNames_ident _ (List.mem_of_getElem? (debugNames_get x))

instance : Law ReadError where
  law _ x y _ _ hs ht h := by
    obtain ⟨hn, hf⟩ := tuple_name x.debugName_ident y.debugName_ident hs ht h
    have hi : y.ctorIdx = x.ctorIdx :=
      same_variant ReadError.debugNames_nodup (ReadError.debugNames_get y) (hn ▸ ReadError.debugNames_get x)
    clear h hn
    revert hf
    cases x with
    | UnexpectedEndOfStream =>
      exact ReadError.UnexpectedEndOfStream.elim y hi fun hf => ⟨rfl, hf⟩
    | UnexpectedStreamAlignment =>
      exact ReadError.UnexpectedStreamAlignment.elim y hi fun hf => ⟨rfl, hf⟩
    | BadMagic =>
      exact ReadError.BadMagic.elim y hi fun hf => ⟨rfl, hf⟩
    | UnknownVersionBytes a0 a1 a2 a3 =>
      refine ReadError.UnknownVersionBytes.elim y hi fun b0 b1 b2 b3 hf => ?_
      obtain ⟨rfl, h1⟩ := tuple_first hf
      obtain ⟨rfl, h2⟩ := tuple_next (by decide) h1
      obtain ⟨rfl, h3⟩ := tuple_next (by decide) h2
      obtain ⟨rfl, h4⟩ := tuple_next (by decide) h3
      exact ⟨rfl, tuple_last h4⟩
    | UnknownVersion a0 =>
      refine ReadError.UnknownVersion.elim y hi fun b0 hf => ?_
      obtain ⟨rfl, h1⟩ := tuple_first hf
      exact ⟨rfl, tuple_last h1⟩
    | UnknownReservedSchema =>
      exact ReadError.UnknownReservedSchema.elim y hi fun hf => ⟨rfl, hf⟩
    | UnknownOp a0 a1 =>
      refine ReadError.UnknownOp.elim y hi fun b0 b1 hf => ?_
      obtain ⟨rfl, h1⟩ := tuple_first hf
      obtain ⟨rfl, h2⟩ := tuple_next (by decide) h1
      exact ⟨rfl, tuple_last h2⟩
    | UnimplementedOp a0 =>
      refine ReadError.UnimplementedOp.elim y hi fun b0 hf => ?_
      obtain ⟨rfl, h1⟩ := tuple_first hf
      exact ⟨rfl, tuple_last h1⟩
    | WrongWordCountForOp =>
      exact ReadError.WrongWordCountForOp.elim y hi fun hf => ⟨rfl, hf⟩
    | InvalidString =>
      exact ReadError.InvalidString.elim y hi fun hf => ⟨rfl, hf⟩
    | UnexpectedEndOfInstruction =>
      exact ReadError.UnexpectedEndOfInstruction.elim y hi fun hf => ⟨rfl, hf⟩
    | InstructionHadExcessData =>
      exact ReadError.InstructionHadExcessData.elim y hi fun hf => ⟨rfl, hf⟩
    | UnknownInstSet a0 =>
      refine ReadError.UnknownInstSet.elim y hi fun b0 hf => ?_
      obtain ⟨rfl, h1⟩ := tuple_first hf
      exact ⟨rfl, tuple_last h1⟩
    | UnknownInstSetId a0 =>
      refine ReadError.UnknownInstSetId.elim y hi fun b0 hf => ?_
      obtain ⟨rfl, h1⟩ := tuple_first hf
      exact ⟨rfl, tuple_last h1⟩
    | UnknownExtInstOp a0 a1 =>
      refine ReadError.UnknownExtInstOp.elim y hi fun b0 b1 hf => ?_
      obtain ⟨rfl, h1⟩ := tuple_first hf
      obtain ⟨rfl, h2⟩ := tuple_next (by decide) h1
      exact ⟨rfl, tuple_last h2⟩
    | DuplicateResultId a0 =>
      refine ReadError.DuplicateResultId.elim y hi fun b0 hf => ?_
      obtain ⟨rfl, h1⟩ := tuple_first hf
      exact ⟨rfl, tuple_last h1⟩
    | UnknownAddressingModel a0 =>
      refine ReadError.UnknownAddressingModel.elim y hi fun b0 hf => ?_
      obtain ⟨rfl, h1⟩ := tuple_first hf
      exact ⟨rfl, tuple_last h1⟩
    | UnknownMemoryModel a0 =>
      refine ReadError.UnknownMemoryModel.elim y hi fun b0 hf => ?_
      obtain ⟨rfl, h1⟩ := tuple_first hf
      exact ⟨rfl, tuple_last h1⟩
    | UnknownExecutionModel a0 =>
      refine ReadError.UnknownExecutionModel.elim y hi fun b0 hf => ?_
      obtain ⟨rfl, h1⟩ := tuple_first hf
      exact ⟨rfl, tuple_last h1⟩
    | UnknownExecutionMode a0 =>
      refine ReadError.UnknownExecutionMode.elim y hi fun b0 hf => ?_
      obtain ⟨rfl, h1⟩ := tuple_first hf
      exact ⟨rfl, tuple_last h1⟩
    | UnknownCapability a0 =>
      refine ReadError.UnknownCapability.elim y hi fun b0 hf => ?_
      obtain ⟨rfl, h1⟩ := tuple_first hf
      exact ⟨rfl, tuple_last h1⟩
    | UnknownDecoration a0 =>
      refine ReadError.UnknownDecoration.elim y hi fun b0 hf => ?_
      obtain ⟨rfl, h1⟩ := tuple_first hf
      exact ⟨rfl, tuple_last h1⟩
    | UnknownBuiltIn a0 =>
      refine ReadError.UnknownBuiltIn.elim y hi fun b0 hf => ?_
      obtain ⟨rfl, h1⟩ := tuple_first hf
      exact ⟨rfl, tuple_last h1⟩
    | UnknownFpRoundingMode a0 =>
      refine ReadError.UnknownFpRoundingMode.elim y hi fun b0 hf => ?_
      obtain ⟨rfl, h1⟩ := tuple_first hf
      exact ⟨rfl, tuple_last h1⟩
    | UnknownFpFastMathMode a0 =>
      refine ReadError.UnknownFpFastMathMode.elim y hi fun b0 hf => ?_
      obtain ⟨rfl, h1⟩ := tuple_first hf
      exact ⟨rfl, tuple_last h1⟩
    | UnknownLinkageType a0 =>
      refine ReadError.UnknownLinkageType.elim y hi fun b0 hf => ?_
      obtain ⟨rfl, h1⟩ := tuple_first hf
      exact ⟨rfl, tuple_last h1⟩
    | UnknownSignedness a0 =>
      refine ReadError.UnknownSignedness.elim y hi fun b0 hf => ?_
      obtain ⟨rfl, h1⟩ := tuple_first hf
      exact ⟨rfl, tuple_last h1⟩
    | UnknownStorageClass a0 =>
      refine ReadError.UnknownStorageClass.elim y hi fun b0 hf => ?_
      obtain ⟨rfl, h1⟩ := tuple_first hf
      exact ⟨rfl, tuple_last h1⟩
    | UnknownFunctionParameterAttribute a0 =>
      refine ReadError.UnknownFunctionParameterAttribute.elim y hi fun b0 hf => ?_
      obtain ⟨rfl, h1⟩ := tuple_first hf
      exact ⟨rfl, tuple_last h1⟩
    | UnknownMemoryAccess a0 =>
      refine ReadError.UnknownMemoryAccess.elim y hi fun b0 hf => ?_
      obtain ⟨rfl, h1⟩ := tuple_first hf
      exact ⟨rfl, tuple_last h1⟩
    | UnknownDim a0 =>
      refine ReadError.UnknownDim.elim y hi fun b0 hf => ?_
      obtain ⟨rfl, h1⟩ := tuple_first hf
      exact ⟨rfl, tuple_last h1⟩
    | UnknownDepthStatus a0 =>
      refine ReadError.UnknownDepthStatus.elim y hi fun b0 hf => ?_
      obtain ⟨rfl, h1⟩ := tuple_first hf
      exact ⟨rfl, tuple_last h1⟩
    | UnknownArrayed a0 =>
      refine ReadError.UnknownArrayed.elim y hi fun b0 hf => ?_
      obtain ⟨rfl, h1⟩ := tuple_first hf
      exact ⟨rfl, tuple_last h1⟩
    | UnknownMS a0 =>
      refine ReadError.UnknownMS.elim y hi fun b0 hf => ?_
      obtain ⟨rfl, h1⟩ := tuple_first hf
      exact ⟨rfl, tuple_last h1⟩
    | UnknownSampledStatus a0 =>
      refine ReadError.UnknownSampledStatus.elim y hi fun b0 hf => ?_
      obtain ⟨rfl, h1⟩ := tuple_first hf
      exact ⟨rfl, tuple_last h1⟩
    | UnknownImageFormat a0 =>
      refine ReadError.UnknownImageFormat.elim y hi fun b0 hf => ?_
      obtain ⟨rfl, h1⟩ := tuple_first hf
      exact ⟨rfl, tuple_last h1⟩
    | UnknownAccessQualifier a0 =>
      refine ReadError.UnknownAccessQualifier.elim y hi fun b0 hf => ?_
      obtain ⟨rfl, h1⟩ := tuple_first hf
      exact ⟨rfl, tuple_last h1⟩
    | UnknownLoopControl a0 =>
      refine ReadError.UnknownLoopControl.elim y hi fun b0 hf => ?_
      obtain ⟨rfl, h1⟩ := tuple_first hf
      exact ⟨rfl, tuple_last h1⟩
    | UnknownSelectionControl a0 =>
      refine ReadError.UnknownSelectionControl.elim y hi fun b0 hf => ?_
      obtain ⟨rfl, h1⟩ := tuple_first hf
      exact ⟨rfl, tuple_last h1⟩
  start _ x := tuple_start x.debugName_ident _
  line _ x := by
    refine tuple_line x.debugName_ident ?_
    cases x with
    | UnexpectedEndOfStream => exact none_line
    | UnexpectedStreamAlignment => exact none_line
    | BadMagic => exact none_line
    | UnknownVersionBytes _ _ _ _ => exact (cons_line (cons_line (cons_line (cons_line none_line))))
    | UnknownVersion _ => exact (cons_line none_line)
    | UnknownReservedSchema => exact none_line
    | UnknownOp _ _ => exact (cons_line (cons_line none_line))
    | UnimplementedOp _ => exact (cons_line none_line)
    | WrongWordCountForOp => exact none_line
    | InvalidString => exact none_line
    | UnexpectedEndOfInstruction => exact none_line
    | InstructionHadExcessData => exact none_line
    | UnknownInstSet _ => exact (cons_line none_line)
    | UnknownInstSetId _ => exact (cons_line none_line)
    | UnknownExtInstOp _ _ => exact (cons_line (cons_line none_line))
    | DuplicateResultId _ => exact (cons_line none_line)
    | UnknownAddressingModel _ => exact (cons_line none_line)
    | UnknownMemoryModel _ => exact (cons_line none_line)
    | UnknownExecutionModel _ => exact (cons_line none_line)
    | UnknownExecutionMode _ => exact (cons_line none_line)
    | UnknownCapability _ => exact (cons_line none_line)
    | UnknownDecoration _ => exact (cons_line none_line)
    | UnknownBuiltIn _ => exact (cons_line none_line)
    | UnknownFpRoundingMode _ => exact (cons_line none_line)
    | UnknownFpFastMathMode _ => exact (cons_line none_line)
    | UnknownLinkageType _ => exact (cons_line none_line)
    | UnknownSignedness _ => exact (cons_line none_line)
    | UnknownStorageClass _ => exact (cons_line none_line)
    | UnknownFunctionParameterAttribute _ => exact (cons_line none_line)
    | UnknownMemoryAccess _ => exact (cons_line none_line)
    | UnknownDim _ => exact (cons_line none_line)
    | UnknownDepthStatus _ => exact (cons_line none_line)
    | UnknownArrayed _ => exact (cons_line none_line)
    | UnknownMS _ => exact (cons_line none_line)
    | UnknownSampledStatus _ => exact (cons_line none_line)
    | UnknownImageFormat _ => exact (cons_line none_line)
    | UnknownAccessQualifier _ => exact (cons_line none_line)
    | UnknownLoopControl _ => exact (cons_line none_line)
    | UnknownSelectionControl _ => exact (cons_line none_line)

end Magma
