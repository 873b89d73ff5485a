import Verif.Model.DebugModules
import Verif.Proofs.DebugOps
/-! Generated by `tools/gen_debug.py`: derived debug output can be read back. -/

namespace Magma
open Dbg

instance : Law Glsl.Sin where
  law _ x y _ _ _ _ h := by
    obtain ⟨a0⟩ := x
    obtain ⟨b0⟩ := y
    obtain ⟨rfl, h1⟩ := struct_first h
    exact ⟨rfl, struct_last h1⟩
  start _ _ := struct_start (n := "Sin") (by decide) _
  line _ _ := struct_line (n := "Sin") (by decide) (cons_named (by decide) none_named)

instance : Law Glsl.Cos where
  law _ x y _ _ _ _ h := by
    obtain ⟨a0⟩ := x
    obtain ⟨b0⟩ := y
    obtain ⟨rfl, h1⟩ := struct_first h
    exact ⟨rfl, struct_last h1⟩
  start _ _ := struct_start (n := "Cos") (by decide) _
  line _ _ := struct_line (n := "Cos") (by decide) (cons_named (by decide) none_named)

/-- The names of the variants of `Glsl.Inst` -/
def Glsl.Inst.debugNames : List String :=
  ["Sin",
    "Cos"]

theorem Glsl.Inst.debugNames_get (x : Glsl.Inst) : Glsl.Inst.debugNames[x.ctorIdx]? = some x.debugName := by
  cases x <;> rfl

theorem Glsl.Inst.debugNames_nodup : Glsl.Inst.debugNames.Nodup := by decide +kernel

theorem Glsl.Inst.debugNames_ident : ∀ n ∈ Glsl.Inst.debugNames, ident n = true := by decide +kernel

theorem Glsl.Inst.debugName_ident (x : Glsl.Inst) : ident x.debugName = true :=
  Glsl.Inst.debugNames_ident _ (List.mem_of_getElem? (debugNames_get x))

instance : Law Glsl.Inst where
  law _ x y _ _ hs ht h := by
    obtain ⟨hn, hf⟩ := tuple_name x.debugName_ident y.debugName_ident hs ht h
    have hi : y.ctorIdx = x.ctorIdx :=
      same_variant Glsl.Inst.debugNames_nodup (Glsl.Inst.debugNames_get y) (hn ▸ Glsl.Inst.debugNames_get x)
    clear h hn
    revert hf
    cases x with
    | Sin a0 =>
      refine Glsl.Inst.Sin.elim y hi fun b0 hf => ?_
      obtain ⟨rfl, h1⟩ := tuple_first hf
      exact ⟨rfl, tuple_last h1⟩
    | Cos a0 =>
      refine Glsl.Inst.Cos.elim y hi fun b0 hf => ?_
      obtain ⟨rfl, h1⟩ := tuple_first hf
      exact ⟨rfl, tuple_last h1⟩
  start _ x := tuple_start x.debugName_ident _
  line _ x := by
    refine tuple_line x.debugName_ident ?_
    cases x with
    | Sin _ => exact (cons_line none_line)
    | Cos _ => exact (cons_line none_line)

/-- The names of the variants of `GroupDebug` -/
def GroupDebug.debugNames : List String :=
  ["OpSourceContinued",
    "OpSource",
    "OpSourceExtension",
    "OpName",
    "OpMemberName",
    "OpString"]

theorem GroupDebug.debugNames_get (x : GroupDebug) : GroupDebug.debugNames[x.ctorIdx]? = some x.debugName := by
  cases x <;> rfl

theorem GroupDebug.debugNames_nodup : GroupDebug.debugNames.Nodup := by decide +kernel

theorem GroupDebug.debugNames_ident : ∀ n ∈ GroupDebug.debugNames, ident n = true := by decide +kernel

theorem GroupDebug.debugName_ident (x : GroupDebug) : ident x.debugName = true :=
  GroupDebug.debugNames_ident _ (List.mem_of_getElem? (debugNames_get x))

instance : Law GroupDebug where
  law _ x y _ _ hs ht h := by
    obtain ⟨hn, hf⟩ := tuple_name x.debugName_ident y.debugName_ident hs ht h
    have hi : y.ctorIdx = x.ctorIdx :=
      same_variant GroupDebug.debugNames_nodup (GroupDebug.debugNames_get y) (hn ▸ GroupDebug.debugNames_get x)
    clear h hn
    revert hf
    cases x with
    | OpSourceContinued a0 =>
      refine GroupDebug.OpSourceContinued.elim y hi fun b0 hf => ?_
      obtain ⟨rfl, h1⟩ := tuple_first hf
      exact ⟨rfl, tuple_last h1⟩
    | OpSource a0 =>
      refine GroupDebug.OpSource.elim y hi fun b0 hf => ?_
      obtain ⟨rfl, h1⟩ := tuple_first hf
      exact ⟨rfl, tuple_last h1⟩
    | OpSourceExtension a0 =>
      refine GroupDebug.OpSourceExtension.elim y hi fun b0 hf => ?_
      obtain ⟨rfl, h1⟩ := tuple_first hf
      exact ⟨rfl, tuple_last h1⟩
    | OpName a0 =>
      refine GroupDebug.OpName.elim y hi fun b0 hf => ?_
      obtain ⟨rfl, h1⟩ := tuple_first hf
      exact ⟨rfl, tuple_last h1⟩
    | OpMemberName a0 =>
      refine GroupDebug.OpMemberName.elim y hi fun b0 hf => ?_
      obtain ⟨rfl, h1⟩ := tuple_first hf
      exact ⟨rfl, tuple_last h1⟩
    | OpString a0 =>
      refine GroupDebug.OpString.elim y hi fun b0 hf => ?_
      obtain ⟨rfl, h1⟩ := tuple_first hf
      exact ⟨rfl, tuple_last h1⟩
  start _ x := tuple_start x.debugName_ident _
  line _ x := by
    refine tuple_line x.debugName_ident ?_
    cases x with
    | OpSourceContinued _ => exact (cons_line none_line)
    | OpSource _ => exact (cons_line none_line)
    | OpSourceExtension _ => exact (cons_line none_line)
    | OpName _ => exact (cons_line none_line)
    | OpMemberName _ => exact (cons_line none_line)
    | OpString _ => exact (cons_line none_line)

/-- The names of the variants of `GroupAnnotation` -/
def GroupAnnotation.debugNames : List String :=
  ["OpDecorate",
    "OpMemberDecorate"]

theorem GroupAnnotation.debugNames_get (x : GroupAnnotation) : GroupAnnotation.debugNames[x.ctorIdx]? = some x.debugName := by
  cases x <;> rfl

theorem GroupAnnotation.debugNames_nodup : GroupAnnotation.debugNames.Nodup := by decide +kernel

theorem GroupAnnotation.debugNames_ident : ∀ n ∈ GroupAnnotation.debugNames, ident n = true := by decide +kernel

theorem GroupAnnotation.debugName_ident (x : GroupAnnotation) : ident x.debugName = true :=
  GroupAnnotation.debugNames_ident _ (List.mem_of_getElem? (debugNames_get x))

instance : Law GroupAnnotation where
  law _ x y _ _ hs ht h := by
    obtain ⟨hn, hf⟩ := tuple_name x.debugName_ident y.debugName_ident hs ht h
    have hi : y.ctorIdx = x.ctorIdx :=
      same_variant GroupAnnotation.debugNames_nodup (GroupAnnotation.debugNames_get y) (hn ▸ GroupAnnotation.debugNames_get x)
    clear h hn
    revert hf
    cases x with
    | OpDecorate a0 =>
      refine GroupAnnotation.OpDecorate.elim y hi fun b0 hf => ?_
      obtain ⟨rfl, h1⟩ := tuple_first hf
      exact ⟨rfl, tuple_last h1⟩
    | OpMemberDecorate a0 =>
      refine GroupAnnotation.OpMemberDecorate.elim y hi fun b0 hf => ?_
      obtain ⟨rfl, h1⟩ := tuple_first hf
      exact ⟨rfl, tuple_last h1⟩
  start _ x := tuple_start x.debugName_ident _
  line _ x := by
    refine tuple_line x.debugName_ident ?_
    cases x with
    | OpDecorate _ => exact (cons_line none_line)
    | OpMemberDecorate _ => exact (cons_line none_line)

/-- The names of the variants of `GroupType` -/
def GroupType.debugNames : List String :=
  ["OpTypeVoid",
    "OpTypeBool",
    "OpTypeInt",
    "OpTypeFloat",
    "OpTypeVector",
    "OpTypeMatrix",
    "OpTypeImage",
    "OpTypeSampler",
    "OpTypeSampledImage",
    "OpTypeArray",
    "OpTypeRuntimeArray",
    "OpTypeStruct",
    "OpTypeOpaque",
    "OpTypePointer",
    "OpTypeFunction",
    "OpTypeEvent",
    "OpTypeDeviceEvent",
    "OpTypeQueue",
    "OpTypePipe",
    "OpTypeForwardPointer"]

theorem GroupType.debugNames_get (x : GroupType) : GroupType.debugNames[x.ctorIdx]? = some x.debugName := by
  cases x <;> rfl

theorem GroupType.debugNames_nodup : GroupType.debugNames.Nodup := by decide +kernel

theorem GroupType.debugNames_ident : ∀ n ∈ GroupType.debugNames, ident n = true := by decide +kernel

theorem GroupType.debugName_ident (x : GroupType) : ident x.debugName = true :=
  GroupType.debugNames_ident _ (List.mem_of_getElem? (debugNames_get x))

instance : Law GroupType where
  law _ x y _ _ hs ht h := by
    obtain ⟨hn, hf⟩ := tuple_name x.debugName_ident y.debugName_ident hs ht h
    have hi : y.ctorIdx = x.ctorIdx :=
      same_variant GroupType.debugNames_nodup (GroupType.debugNames_get y) (hn ▸ GroupType.debugNames_get x)
    clear h hn
    revert hf
    cases x with
    | OpTypeVoid a0 =>
      refine GroupType.OpTypeVoid.elim y hi fun b0 hf => ?_
      obtain ⟨rfl, h1⟩ := tuple_first hf
      exact ⟨rfl, tuple_last h1⟩
    | OpTypeBool a0 =>
      refine GroupType.OpTypeBool.elim y hi fun b0 hf => ?_
      obtain ⟨rfl, h1⟩ := tuple_first hf
      exact ⟨rfl, tuple_last h1⟩
    | OpTypeInt a0 =>
      refine GroupType.OpTypeInt.elim y hi fun b0 hf => ?_
      obtain ⟨rfl, h1⟩ := tuple_first hf
      exact ⟨rfl, tuple_last h1⟩
    | OpTypeFloat a0 =>
      refine GroupType.OpTypeFloat.elim y hi fun b0 hf => ?_
      obtain ⟨rfl, h1⟩ := tuple_first hf
      exact ⟨rfl, tuple_last h1⟩
    | OpTypeVector a0 =>
      refine GroupType.OpTypeVector.elim y hi fun b0 hf => ?_
      obtain ⟨rfl, h1⟩ := tuple_first hf
      exact ⟨rfl, tuple_last h1⟩
    | OpTypeMatrix a0 =>
      refine GroupType.OpTypeMatrix.elim y hi fun b0 hf => ?_
      obtain ⟨rfl, h1⟩ := tuple_first hf
      exact ⟨rfl, tuple_last h1⟩
    | OpTypeImage a0 =>
      refine GroupType.OpTypeImage.elim y hi fun b0 hf => ?_
      obtain ⟨rfl, h1⟩ := tuple_first hf
      exact ⟨rfl, tuple_last h1⟩
    | OpTypeSampler a0 =>
      refine GroupType.OpTypeSampler.elim y hi fun b0 hf => ?_
      obtain ⟨rfl, h1⟩ := tuple_first hf
      exact ⟨rfl, tuple_last h1⟩
    | OpTypeSampledImage a0 =>
      refine GroupType.OpTypeSampledImage.elim y hi fun b0 hf => ?_
      obtain ⟨rfl, h1⟩ := tuple_first hf
      exact ⟨rfl, tuple_last h1⟩
    | OpTypeArray a0 =>
      refine GroupType.OpTypeArray.elim y hi fun b0 hf => ?_
      obtain ⟨rfl, h1⟩ := tuple_first hf
      exact ⟨rfl, tuple_last h1⟩
    | OpTypeRuntimeArray a0 =>
      refine GroupType.OpTypeRuntimeArray.elim y hi fun b0 hf => ?_
      obtain ⟨rfl, h1⟩ := tuple_first hf
      exact ⟨rfl, tuple_last h1⟩
    | OpTypeStruct a0 =>
      refine GroupType.OpTypeStruct.elim y hi fun b0 hf => ?_
      obtain ⟨rfl, h1⟩ := tuple_first hf
      exact ⟨rfl, tuple_last h1⟩
    | OpTypeOpaque a0 =>
      refine GroupType.OpTypeOpaque.elim y hi fun b0 hf => ?_
      obtain ⟨rfl, h1⟩ := tuple_first hf
      exact ⟨rfl, tuple_last h1⟩
    | OpTypePointer a0 =>
      refine GroupType.OpTypePointer.elim y hi fun b0 hf => ?_
      obtain ⟨rfl, h1⟩ := tuple_first hf
      exact ⟨rfl, tuple_last h1⟩
    | OpTypeFunction a0 =>
      refine GroupType.OpTypeFunction.elim y hi fun b0 hf => ?_
      obtain ⟨rfl, h1⟩ := tuple_first hf
      exact ⟨rfl, tuple_last h1⟩
    | OpTypeEvent a0 =>
      refine GroupType.OpTypeEvent.elim y hi fun b0 hf => ?_
      obtain ⟨rfl, h1⟩ := tuple_first hf
      exact ⟨rfl, tuple_last h1⟩
    | OpTypeDeviceEvent a0 =>
      refine GroupType.OpTypeDeviceEvent.elim y hi fun b0 hf => ?_
      obtain ⟨rfl, h1⟩ := tuple_first hf
      exact ⟨rfl, tuple_last h1⟩
    | OpTypeQueue a0 =>
      refine GroupType.OpTypeQueue.elim y hi fun b0 hf => ?_
      obtain ⟨rfl, h1⟩ := tuple_first hf
      exact ⟨rfl, tuple_last h1⟩
    | OpTypePipe a0 =>
      refine GroupType.OpTypePipe.elim y hi fun b0 hf => ?_
      obtain ⟨rfl, h1⟩ := tuple_first hf
      exact ⟨rfl, tuple_last h1⟩
    | OpTypeForwardPointer a0 =>
      refine GroupType.OpTypeForwardPointer.elim y hi fun b0 hf => ?_
      obtain ⟨rfl, h1⟩ := tuple_first hf
      exact ⟨rfl, tuple_last h1⟩
  start _ x := tuple_start x.debugName_ident _
  line _ x := by
    refine tuple_line x.debugName_ident ?_
    cases x with
    | OpTypeVoid _ => exact (cons_line none_line)
    | OpTypeBool _ => exact (cons_line none_line)
    | OpTypeInt _ => exact (cons_line none_line)
    | OpTypeFloat _ => exact (cons_line none_line)
    | OpTypeVector _ => exact (cons_line none_line)
    | OpTypeMatrix _ => exact (cons_line none_line)
    | OpTypeImage _ => exact (cons_line none_line)
    | OpTypeSampler _ => exact (cons_line none_line)
    | OpTypeSampledImage _ => exact (cons_line none_line)
    | OpTypeArray _ => exact (cons_line none_line)
    | OpTypeRuntimeArray _ => exact (cons_line none_line)
    | OpTypeStruct _ => exact (cons_line none_line)
    | OpTypeOpaque _ => exact (cons_line none_line)
    | OpTypePointer _ => exact (cons_line none_line)
    | OpTypeFunction _ => exact (cons_line none_line)
    | OpTypeEvent _ => exact (cons_line none_line)
    | OpTypeDeviceEvent _ => exact (cons_line none_line)
    | OpTypeQueue _ => exact (cons_line none_line)
    | OpTypePipe _ => exact (cons_line none_line)
    | OpTypeForwardPointer _ => exact (cons_line none_line)

/-- The names of the variants of `GroupConstant` -/
def GroupConstant.debugNames : List String :=
  ["OpConstant",
    "OpConstantComposite"]

theorem GroupConstant.debugNames_get (x : GroupConstant) : GroupConstant.debugNames[x.ctorIdx]? = some x.debugName := by
  cases x <;> rfl

theorem GroupConstant.debugNames_nodup : GroupConstant.debugNames.Nodup := by decide +kernel

theorem GroupConstant.debugNames_ident : ∀ n ∈ GroupConstant.debugNames, ident n = true := by decide +kernel

theorem GroupConstant.debugName_ident (x : GroupConstant) : ident x.debugName = true :=
  GroupConstant.debugNames_ident _ (List.mem_of_getElem? (debugNames_get x))

instance : Law GroupConstant where
  law _ x y _ _ hs ht h := by
    obtain ⟨hn, hf⟩ := tuple_name x.debugName_ident y.debugName_ident hs ht h
    have hi : y.ctorIdx = x.ctorIdx :=
      same_variant GroupConstant.debugNames_nodup (GroupConstant.debugNames_get y) (hn ▸ GroupConstant.debugNames_get x)
    clear h hn
    revert hf
    cases x with
    | OpConstant a0 =>
      refine GroupConstant.OpConstant.elim y hi fun b0 hf => ?_
      obtain ⟨rfl, h1⟩ := tuple_first hf
      exact ⟨rfl, tuple_last h1⟩
    | OpConstantComposite a0 =>
      refine GroupConstant.OpConstantComposite.elim y hi fun b0 hf => ?_
      obtain ⟨rfl, h1⟩ := tuple_first hf
      exact ⟨rfl, tuple_last h1⟩
  start _ x := tuple_start x.debugName_ident _
  line _ x := by
    refine tuple_line x.debugName_ident ?_
    cases x with
    | OpConstant _ => exact (cons_line none_line)
    | OpConstantComposite _ => exact (cons_line none_line)

/-- The names of the variants of `GroupGlobal` -/
def GroupGlobal.debugNames : List String :=
  ["GroupType",
    "GroupConstant",
    "OpVariable"]

theorem GroupGlobal.debugNames_get (x : GroupGlobal) : GroupGlobal.debugNames[x.ctorIdx]? = some x.debugName := by
  cases x <;> rfl

theorem GroupGlobal.debugNames_nodup : GroupGlobal.debugNames.Nodup := by decide +kernel

theorem GroupGlobal.debugNames_ident : ∀ n ∈ GroupGlobal.debugNames, ident n = true := by decide +kernel

theorem GroupGlobal.debugName_ident (x : GroupGlobal) : ident x.debugName = true :=
  GroupGlobal.debugNames_ident _ (List.mem_of_getElem? (debugNames_get x))

instance : Law GroupGlobal where
  law _ x y _ _ hs ht h := by
    obtain ⟨hn, hf⟩ := tuple_name x.debugName_ident y.debugName_ident hs ht h
    have hi : y.ctorIdx = x.ctorIdx :=
      same_variant GroupGlobal.debugNames_nodup (GroupGlobal.debugNames_get y) (hn ▸ GroupGlobal.debugNames_get x)
    clear h hn
    revert hf
    cases x with
    | GroupType a0 =>
      refine GroupGlobal.GroupType.elim y hi fun b0 hf => ?_
      obtain ⟨rfl, h1⟩ := tuple_first hf
      exact ⟨rfl, tuple_last h1⟩
    | GroupConstant a0 =>
      refine GroupGlobal.GroupConstant.elim y hi fun b0 hf => ?_
      obtain ⟨rfl, h1⟩ := tuple_first hf
      exact ⟨rfl, tuple_last h1⟩
    | OpVariable a0 =>
      refine GroupGlobal.OpVariable.elim y hi fun b0 hf => ?_
      obtain ⟨rfl, h1⟩ := tuple_first hf
      exact ⟨rfl, tuple_last h1⟩
  start _ x := tuple_start x.debugName_ident _
  line _ x := by
    refine tuple_line x.debugName_ident ?_
    cases x with
    | GroupType _ => exact (cons_line none_line)
    | GroupConstant _ => exact (cons_line none_line)
    | OpVariable _ => exact (cons_line none_line)

/-- The names of the variants of `GroupCode` -/
def GroupCode.debugNames : List String :=
  ["OpNop",
    "OpUndef",
    "OpExtInst",
    "OpVariable",
    "OpLoad",
    "OpStore",
    "OpAccessChain",
    "OpConvertUToF",
    "OpBitcast",
    "OpIAdd",
    "OpFAdd",
    "OpISub",
    "OpFSub",
    "OpIMul",
    "OpFMul",
    "OpUDiv",
    "OpSDiv",
    "OpFDiv",
    "OpUMod",
    "OpSRem",
    "OpSMod",
    "OpFRem",
    "OpFMod",
    "OpIAddCarry",
    "OpISubBorrow",
    "OpUMulExtended",
    "OpSMulExtended",
    "OpBitwiseOr",
    "OpBitwiseXor",
    "OpBitwiseAnd",
    "OpIEqual",
    "OpINotEqual",
    "OpUGreaterThan",
    "OpSGreaterThan",
    "OpUGreaterThanEqual",
    "OpSGreaterThanEqual",
    "OpULessThan",
    "OpSLessThan",
    "OpULessThanEqual",
    "OpSLessThanEqual",
    "OpFOrdEqual",
    "OpFUnordEqual",
    "OpFOrdNotEqual",
    "OpFUnordNotEqual",
    "OpFOrdLessThan",
    "OpFUnordLessThan",
    "OpFOrdGreaterThan",
    "OpFUnordGreaterThan",
    "OpFOrdLessThanEqual",
    "OpFUnordLessThanEqual",
    "OpFOrdGreaterThanEqual",
    "OpFUnordGreaterThanEqual",
    "OpPhi"]

theorem GroupCode.debugNames_get {X : Type} (x : GroupCode X) : GroupCode.debugNames[x.ctorIdx]? = some x.debugName := by
  cases x <;> rfl

theorem GroupCode.debugNames_nodup : GroupCode.debugNames.Nodup := by decide +kernel

theorem GroupCode.debugNames_ident : ∀ n ∈ GroupCode.debugNames, ident n = true := by decide +kernel

theorem GroupCode.debugName_ident {X : Type} (x : GroupCode X) : ident x.debugName = true :=
  GroupCode.debugNames_ident _ (List.mem_of_getElem? (debugNames_get x))

instance {X : Type} [Debug X] [Law X] : Law (GroupCode X) where
  law _ x y _ _ hs ht h := by
    obtain ⟨hn, hf⟩ := tuple_name x.debugName_ident y.debugName_ident hs ht h
    have hi : y.ctorIdx = x.ctorIdx :=
      same_variant GroupCode.debugNames_nodup (GroupCode.debugNames_get y) (hn ▸ GroupCode.debugNames_get x)
    clear h hn
    revert hf
    cases x with
    | OpNop a0 =>
      refine GroupCode.OpNop.elim y hi fun b0 hf => ?_
      obtain ⟨rfl, h1⟩ := tuple_first hf
      exact ⟨rfl, tuple_last h1⟩
    | OpUndef a0 =>
      refine GroupCode.OpUndef.elim y hi fun b0 hf => ?_
      obtain ⟨rfl, h1⟩ := tuple_first hf
      exact ⟨rfl, tuple_last h1⟩
    | OpExtInst a0 =>
      refine GroupCode.OpExtInst.elim y hi fun b0 hf => ?_
      obtain ⟨rfl, h1⟩ := tuple_first hf
      exact ⟨rfl, tuple_last h1⟩
    | OpVariable a0 =>
      refine GroupCode.OpVariable.elim y hi fun b0 hf => ?_
      obtain ⟨rfl, h1⟩ := tuple_first hf
      exact ⟨rfl, tuple_last h1⟩
    | OpLoad a0 =>
      refine GroupCode.OpLoad.elim y hi fun b0 hf => ?_
      obtain ⟨rfl, h1⟩ := tuple_first hf
      exact ⟨rfl, tuple_last h1⟩
    | OpStore a0 =>
      refine GroupCode.OpStore.elim y hi fun b0 hf => ?_
      obtain ⟨rfl, h1⟩ := tuple_first hf
      exact ⟨rfl, tuple_last h1⟩
    | OpAccessChain a0 =>
      refine GroupCode.OpAccessChain.elim y hi fun b0 hf => ?_
      obtain ⟨rfl, h1⟩ := tuple_first hf
      exact ⟨rfl, tuple_last h1⟩
    | OpConvertUToF a0 =>
      refine GroupCode.OpConvertUToF.elim y hi fun b0 hf => ?_
      obtain ⟨rfl, h1⟩ := tuple_first hf
      exact ⟨rfl, tuple_last h1⟩
    | OpBitcast a0 =>
      refine GroupCode.OpBitcast.elim y hi fun b0 hf => ?_
      obtain ⟨rfl, h1⟩ := tuple_first hf
      exact ⟨rfl, tuple_last h1⟩
    | OpIAdd a0 =>
      refine GroupCode.OpIAdd.elim y hi fun b0 hf => ?_
      obtain ⟨rfl, h1⟩ := tuple_first hf
      exact ⟨rfl, tuple_last h1⟩
    | OpFAdd a0 =>
      refine GroupCode.OpFAdd.elim y hi fun b0 hf => ?_
      obtain ⟨rfl, h1⟩ := tuple_first hf
      exact ⟨rfl, tuple_last h1⟩
    | OpISub a0 =>
      refine GroupCode.OpISub.elim y hi fun b0 hf => ?_
      obtain ⟨rfl, h1⟩ := tuple_first hf
      exact ⟨rfl, tuple_last h1⟩
    | OpFSub a0 =>
      refine GroupCode.OpFSub.elim y hi fun b0 hf => ?_
      obtain ⟨rfl, h1⟩ := tuple_first hf
      exact ⟨rfl, tuple_last h1⟩
    | OpIMul a0 =>
      refine GroupCode.OpIMul.elim y hi fun b0 hf => ?_
      obtain ⟨rfl, h1⟩ := tuple_first hf
      exact ⟨rfl, tuple_last h1⟩
    | OpFMul a0 =>
      refine GroupCode.OpFMul.elim y hi fun b0 hf => ?_
      obtain ⟨rfl, h1⟩ := tuple_first hf
      exact ⟨rfl, tuple_last h1⟩
    | OpUDiv a0 =>
      refine GroupCode.OpUDiv.elim y hi fun b0 hf => ?_
      obtain ⟨rfl, h1⟩ := tuple_first hf
      exact ⟨rfl, tuple_last h1⟩
    | OpSDiv a0 =>
      refine GroupCode.OpSDiv.elim y hi fun b0 hf => ?_
      obtain ⟨rfl, h1⟩ := tuple_first hf
      exact ⟨rfl, tuple_last h1⟩
    | OpFDiv a0 =>
      refine GroupCode.OpFDiv.elim y hi fun b0 hf => ?_
      obtain ⟨rfl, h1⟩ := tuple_first hf
      exact ⟨rfl, tuple_last h1⟩
    | OpUMod a0 =>
      refine GroupCode.OpUMod.elim y hi fun b0 hf => ?_
      obtain ⟨rfl, h1⟩ := tuple_first hf
      exact ⟨rfl, tuple_last h1⟩
    | OpSRem a0 =>
      refine GroupCode.OpSRem.elim y hi fun b0 hf => ?_
      obtain ⟨rfl, h1⟩ := tuple_first hf
      exact ⟨rfl, tuple_last h1⟩
    | OpSMod a0 =>
      refine GroupCode.OpSMod.elim y hi fun b0 hf => ?_
      obtain ⟨rfl, h1⟩ := tuple_first hf
      exact ⟨rfl, tuple_last h1⟩
    | OpFRem a0 =>
      refine GroupCode.OpFRem.elim y hi fun b0 hf => ?_
      obtain ⟨rfl, h1⟩ := tuple_first hf
      exact ⟨rfl, tuple_last h1⟩
    | OpFMod a0 =>
      refine GroupCode.OpFMod.elim y hi fun b0 hf => ?_
      obtain ⟨rfl, h1⟩ := tuple_first hf
      exact ⟨rfl, tuple_last h1⟩
    | OpIAddCarry a0 =>
      refine GroupCode.OpIAddCarry.elim y hi fun b0 hf => ?_
      obtain ⟨rfl, h1⟩ := tuple_first hf
      exact ⟨rfl, tuple_last h1⟩
    | OpISubBorrow a0 =>
      refine GroupCode.OpISubBorrow.elim y hi fun b0 hf => ?_
      obtain ⟨rfl, h1⟩ := tuple_first hf
      exact ⟨rfl, tuple_last h1⟩
    | OpUMulExtended a0 =>
      refine GroupCode.OpUMulExtended.elim y hi fun b0 hf => ?_
      obtain ⟨rfl, h1⟩ := tuple_first hf
      exact ⟨rfl, tuple_last h1⟩
    | OpSMulExtended a0 =>
      refine GroupCode.OpSMulExtended.elim y hi fun b0 hf => ?_
      obtain ⟨rfl, h1⟩ := tuple_first hf
      exact ⟨rfl, tuple_last h1⟩
    | OpBitwiseOr a0 =>
      refine GroupCode.OpBitwiseOr.elim y hi fun b0 hf => ?_
      obtain ⟨rfl, h1⟩ := tuple_first hf
      exact ⟨rfl, tuple_last h1⟩
    | OpBitwiseXor a0 =>
      refine GroupCode.OpBitwiseXor.elim y hi fun b0 hf => ?_
      obtain ⟨rfl, h1⟩ := tuple_first hf
      exact ⟨rfl, tuple_last h1⟩
    | OpBitwiseAnd a0 =>
      refine GroupCode.OpBitwiseAnd.elim y hi fun b0 hf => ?_
      obtain ⟨rfl, h1⟩ := tuple_first hf
      exact ⟨rfl, tuple_last h1⟩
    | OpIEqual a0 =>
      refine GroupCode.OpIEqual.elim y hi fun b0 hf => ?_
      obtain ⟨rfl, h1⟩ := tuple_first hf
      exact ⟨rfl, tuple_last h1⟩
    | OpINotEqual a0 =>
      refine GroupCode.OpINotEqual.elim y hi fun b0 hf => ?_
      obtain ⟨rfl, h1⟩ := tuple_first hf
      exact ⟨rfl, tuple_last h1⟩
    | OpUGreaterThan a0 =>
      refine GroupCode.OpUGreaterThan.elim y hi fun b0 hf => ?_
      obtain ⟨rfl, h1⟩ := tuple_first hf
      exact ⟨rfl, tuple_last h1⟩
    | OpSGreaterThan a0 =>
      refine GroupCode.OpSGreaterThan.elim y hi fun b0 hf => ?_
      obtain ⟨rfl, h1⟩ := tuple_first hf
      exact ⟨rfl, tuple_last h1⟩
    | OpUGreaterThanEqual a0 =>
      refine GroupCode.OpUGreaterThanEqual.elim y hi fun b0 hf => ?_
      obtain ⟨rfl, h1⟩ := tuple_first hf
      exact ⟨rfl, tuple_last h1⟩
    | OpSGreaterThanEqual a0 =>
      refine GroupCode.OpSGreaterThanEqual.elim y hi fun b0 hf => ?_
      obtain ⟨rfl, h1⟩ := tuple_first hf
      exact ⟨rfl, tuple_last h1⟩
    | OpULessThan a0 =>
      refine GroupCode.OpULessThan.elim y hi fun b0 hf => ?_
      obtain ⟨rfl, h1⟩ := tuple_first hf
      exact ⟨rfl, tuple_last h1⟩
    | OpSLessThan a0 =>
      refine GroupCode.OpSLessThan.elim y hi fun b0 hf => ?_
      obtain ⟨rfl, h1⟩ := tuple_first hf
      exact ⟨rfl, tuple_last h1⟩
    | OpULessThanEqual a0 =>
      refine GroupCode.OpULessThanEqual.elim y hi fun b0 hf => ?_
      obtain ⟨rfl, h1⟩ := tuple_first hf
      exact ⟨rfl, tuple_last h1⟩
    | OpSLessThanEqual a0 =>
      refine GroupCode.OpSLessThanEqual.elim y hi fun b0 hf => ?_
      obtain ⟨rfl, h1⟩ := tuple_first hf
      exact ⟨rfl, tuple_last h1⟩
    | OpFOrdEqual a0 =>
      refine GroupCode.OpFOrdEqual.elim y hi fun b0 hf => ?_
      obtain ⟨rfl, h1⟩ := tuple_first hf
      exact ⟨rfl, tuple_last h1⟩
    | OpFUnordEqual a0 =>
      refine GroupCode.OpFUnordEqual.elim y hi fun b0 hf => ?_
      obtain ⟨rfl, h1⟩ := tuple_first hf
      exact ⟨rfl, tuple_last h1⟩
    | OpFOrdNotEqual a0 =>
      refine GroupCode.OpFOrdNotEqual.elim y hi fun b0 hf => ?_
      obtain ⟨rfl, h1⟩ := tuple_first hf
      exact ⟨rfl, tuple_last h1⟩
    | OpFUnordNotEqual a0 =>
      refine GroupCode.OpFUnordNotEqual.elim y hi fun b0 hf => ?_
      obtain ⟨rfl, h1⟩ := tuple_first hf
      exact ⟨rfl, tuple_last h1⟩
    | OpFOrdLessThan a0 =>
      refine GroupCode.OpFOrdLessThan.elim y hi fun b0 hf => ?_
      obtain ⟨rfl, h1⟩ := tuple_first hf
      exact ⟨rfl, tuple_last h1⟩
    | OpFUnordLessThan a0 =>
      refine GroupCode.OpFUnordLessThan.elim y hi fun b0 hf => ?_
      obtain ⟨rfl, h1⟩ := tuple_first hf
      exact ⟨rfl, tuple_last h1⟩
    | OpFOrdGreaterThan a0 =>
      refine GroupCode.OpFOrdGreaterThan.elim y hi fun b0 hf => ?_
      obtain ⟨rfl, h1⟩ := tuple_first hf
      exact ⟨rfl, tuple_last h1⟩
    | OpFUnordGreaterThan a0 =>
      refine GroupCode.OpFUnordGreaterThan.elim y hi fun b0 hf => ?_
      obtain ⟨rfl, h1⟩ := tuple_first hf
      exact ⟨rfl, tuple_last h1⟩
    | OpFOrdLessThanEqual a0 =>
      refine GroupCode.OpFOrdLessThanEqual.elim y hi fun b0 hf => ?_
      obtain ⟨rfl, h1⟩ := tuple_first hf
      exact ⟨rfl, tuple_last h1⟩
    | OpFUnordLessThanEqual a0 =>
      refine GroupCode.OpFUnordLessThanEqual.elim y hi fun b0 hf => ?_
      obtain ⟨rfl, h1⟩ := tuple_first hf
      exact ⟨rfl, tuple_last h1⟩
    | OpFOrdGreaterThanEqual a0 =>
      refine GroupCode.OpFOrdGreaterThanEqual.elim y hi fun b0 hf => ?_
      obtain ⟨rfl, h1⟩ := tuple_first hf
      exact ⟨rfl, tuple_last h1⟩
    | OpFUnordGreaterThanEqual a0 =>
      refine GroupCode.OpFUnordGreaterThanEqual.elim y hi fun b0 hf => ?_
      obtain ⟨rfl, h1⟩ := tuple_first hf
      exact ⟨rfl, tuple_last h1⟩
    | OpPhi a0 =>
      refine GroupCode.OpPhi.elim y hi fun b0 hf => ?_
      obtain ⟨rfl, h1⟩ := tuple_first hf
      exact ⟨rfl, tuple_last h1⟩
  start _ x := tuple_start x.debugName_ident _
  line _ x := by
    refine tuple_line x.debugName_ident ?_
    cases x with
    | OpNop _ => exact (cons_line none_line)
    | OpUndef _ => exact (cons_line none_line)
    | OpExtInst _ => exact (cons_line none_line)
    | OpVariable _ => exact (cons_line none_line)
    | OpLoad _ => exact (cons_line none_line)
    | OpStore _ => exact (cons_line none_line)
    | OpAccessChain _ => exact (cons_line none_line)
    | OpConvertUToF _ => exact (cons_line none_line)
    | OpBitcast _ => exact (cons_line none_line)
    | OpIAdd _ => exact (cons_line none_line)
    | OpFAdd _ => exact (cons_line none_line)
    | OpISub _ => exact (cons_line none_line)
    | OpFSub _ => exact (cons_line none_line)
    | OpIMul _ => exact (cons_line none_line)
    | OpFMul _ => exact (cons_line none_line)
    | OpUDiv _ => exact (cons_line none_line)
    | OpSDiv _ => exact (cons_line none_line)
    | OpFDiv _ => exact (cons_line none_line)
    | OpUMod _ => exact (cons_line none_line)
    | OpSRem _ => exact (cons_line none_line)
    | OpSMod _ => exact (cons_line none_line)
    | OpFRem _ => exact (cons_line none_line)
    | OpFMod _ => exact (cons_line none_line)
    | OpIAddCarry _ => exact (cons_line none_line)
    | OpISubBorrow _ => exact (cons_line none_line)
    | OpUMulExtended _ => exact (cons_line none_line)
    | OpSMulExtended _ => exact (cons_line none_line)
    | OpBitwiseOr _ => exact (cons_line none_line)
    | OpBitwiseXor _ => exact (cons_line none_line)
    | OpBitwiseAnd _ => exact (cons_line none_line)
    | OpIEqual _ => exact (cons_line none_line)
    | OpINotEqual _ => exact (cons_line none_line)
    | OpUGreaterThan _ => exact (cons_line none_line)
    | OpSGreaterThan _ => exact (cons_line none_line)
    | OpUGreaterThanEqual _ => exact (cons_line none_line)
    | OpSGreaterThanEqual _ => exact (cons_line none_line)
    | OpULessThan _ => exact (cons_line none_line)
    | OpSLessThan _ => exact (cons_line none_line)
    | OpULessThanEqual _ => exact (cons_line none_line)
    | OpSLessThanEqual _ => exact (cons_line none_line)
    | OpFOrdEqual _ => exact (cons_line none_line)
    | OpFUnordEqual _ => exact (cons_line none_line)
    | OpFOrdNotEqual _ => exact (cons_line none_line)
    | OpFUnordNotEqual _ => exact (cons_line none_line)
    | OpFOrdLessThan _ => exact (cons_line none_line)
    | OpFUnordLessThan _ => exact (cons_line none_line)
    | OpFOrdGreaterThan _ => exact (cons_line none_line)
    | OpFUnordGreaterThan _ => exact (cons_line none_line)
    | OpFOrdLessThanEqual _ => exact (cons_line none_line)
    | OpFUnordLessThanEqual _ => exact (cons_line none_line)
    | OpFOrdGreaterThanEqual _ => exact (cons_line none_line)
    | OpFUnordGreaterThanEqual _ => exact (cons_line none_line)
    | OpPhi _ => exact (cons_line none_line)

/-- The names of the variants of `GroupMerge` -/
def GroupMerge.debugNames : List String :=
  ["OpLoopMerge",
    "OpSelectionMerge"]

theorem GroupMerge.debugNames_get (x : GroupMerge) : GroupMerge.debugNames[x.ctorIdx]? = some x.debugName := by
  cases x <;> rfl

theorem GroupMerge.debugNames_nodup : GroupMerge.debugNames.Nodup := by decide +kernel

theorem GroupMerge.debugNames_ident : ∀ n ∈ GroupMerge.debugNames, ident n = true := by decide +kernel

theorem GroupMerge.debugName_ident (x : GroupMerge) : ident x.debugName = true :=
  GroupMerge.debugNames_ident _ (List.mem_of_getElem? (debugNames_get x))

instance : Law GroupMerge where
  law _ x y _ _ hs ht h := by
    obtain ⟨hn, hf⟩ := tuple_name x.debugName_ident y.debugName_ident hs ht h
    have hi : y.ctorIdx = x.ctorIdx :=
      same_variant GroupMerge.debugNames_nodup (GroupMerge.debugNames_get y) (hn ▸ GroupMerge.debugNames_get x)
    clear h hn
    revert hf
    cases x with
    | OpLoopMerge a0 =>
      refine GroupMerge.OpLoopMerge.elim y hi fun b0 hf => ?_
      obtain ⟨rfl, h1⟩ := tuple_first hf
      exact ⟨rfl, tuple_last h1⟩
    | OpSelectionMerge a0 =>
      refine GroupMerge.OpSelectionMerge.elim y hi fun b0 hf => ?_
      obtain ⟨rfl, h1⟩ := tuple_first hf
      exact ⟨rfl, tuple_last h1⟩
  start _ x := tuple_start x.debugName_ident _
  line _ x := by
    refine tuple_line x.debugName_ident ?_
    cases x with
    | OpLoopMerge _ => exact (cons_line none_line)
    | OpSelectionMerge _ => exact (cons_line none_line)

/-- The names of the variants of `GroupBranch` -/
def GroupBranch.debugNames : List String :=
  ["OpBranch",
    "OpBranchConditional",
    "OpReturn"]

theorem GroupBranch.debugNames_get (x : GroupBranch) : GroupBranch.debugNames[x.ctorIdx]? = some x.debugName := by
  cases x <;> rfl

theorem GroupBranch.debugNames_nodup : GroupBranch.debugNames.Nodup := by decide +kernel

theorem GroupBranch.debugNames_ident : ∀ n ∈ GroupBranch.debugNames, ident n = true := by decide +kernel

theorem GroupBranch.debugName_ident (x : GroupBranch) : ident x.debugName = true :=
  GroupBranch.debugNames_ident _ (List.mem_of_getElem? (debugNames_get x))

instance : Law GroupBranch where
  law _ x y _ _ hs ht h := by
    obtain ⟨hn, hf⟩ := tuple_name x.debugName_ident y.debugName_ident hs ht h
    have hi : y.ctorIdx = x.ctorIdx :=
      same_variant GroupBranch.debugNames_nodup (GroupBranch.debugNames_get y) (hn ▸ GroupBranch.debugNames_get x)
    clear h hn
    revert hf
    cases x with
    | OpBranch a0 =>
      refine GroupBranch.OpBranch.elim y hi fun b0 hf => ?_
      obtain ⟨rfl, h1⟩ := tuple_first hf
      exact ⟨rfl, tuple_last h1⟩
    | OpBranchConditional a0 =>
      refine GroupBranch.OpBranchConditional.elim y hi fun b0 hf => ?_
      obtain ⟨rfl, h1⟩ := tuple_first hf
      exact ⟨rfl, tuple_last h1⟩
    | OpReturn a0 =>
      refine GroupBranch.OpReturn.elim y hi fun b0 hf => ?_
      obtain ⟨rfl, h1⟩ := tuple_first hf
      exact ⟨rfl, tuple_last h1⟩
  start _ x := tuple_start x.debugName_ident _
  line _ x := by
    refine tuple_line x.debugName_ident ?_
    cases x with
    | OpBranch _ => exact (cons_line none_line)
    | OpBranchConditional _ => exact (cons_line none_line)
    | OpReturn _ => exact (cons_line none_line)

/-- The names of the variants of `OpByBlock` -/
def OpByBlock.debugNames : List String :=
  ["OpCapability",
    "OpExtension",
    "OpExtInstImport",
    "OpMemoryModel",
    "OpEntryPoint",
    "OpExecutionMode",
    "GroupDebug",
    "GroupAnnotation",
    "GroupGlobal",
    "OpFunction",
    "OpFunctionParameter",
    "OpFunctionEnd",
    "OpLabel",
    "GroupCode",
    "GroupMerge",
    "GroupBranch"]

theorem OpByBlock.debugNames_get {X : Type} (x : OpByBlock X) : OpByBlock.debugNames[x.ctorIdx]? = some x.debugName := by
  cases x <;> rfl

theorem OpByBlock.debugNames_nodup : OpByBlock.debugNames.Nodup := by decide +kernel

theorem OpByBlock.debugNames_ident : ∀ n ∈ OpByBlock.debugNames, ident n = true := by decide +kernel

theorem OpByBlock.debugName_ident {X : Type} (x : OpByBlock X) : ident x.debugName = true :=
  OpByBlock.debugNames_ident _ (List.mem_of_getElem? (debugNames_get x))

instance {X : Type} [Debug X] [Law X] : Law (OpByBlock X) where
  law _ x y _ _ hs ht h := by
    obtain ⟨hn, hf⟩ := tuple_name x.debugName_ident y.debugName_ident hs ht h
    have hi : y.ctorIdx = x.ctorIdx :=
      same_variant OpByBlock.debugNames_nodup (OpByBlock.debugNames_get y) (hn ▸ OpByBlock.debugNames_get x)
    clear h hn
    revert hf
    cases x with
    | OpCapability a0 =>
      refine OpByBlock.OpCapability.elim y hi fun b0 hf => ?_
      obtain ⟨rfl, h1⟩ := tuple_first hf
      exact ⟨rfl, tuple_last h1⟩
    | OpExtension a0 =>
      refine OpByBlock.OpExtension.elim y hi fun b0 hf => ?_
      obtain ⟨rfl, h1⟩ := tuple_first hf
      exact ⟨rfl, tuple_last h1⟩
    | OpExtInstImport a0 =>
      refine OpByBlock.OpExtInstImport.elim y hi fun b0 hf => ?_
      obtain ⟨rfl, h1⟩ := tuple_first hf
      exact ⟨rfl, tuple_last h1⟩
    | OpMemoryModel a0 =>
      refine OpByBlock.OpMemoryModel.elim y hi fun b0 hf => ?_
      obtain ⟨rfl, h1⟩ := tuple_first hf
      exact ⟨rfl, tuple_last h1⟩
    | OpEntryPoint a0 =>
      refine OpByBlock.OpEntryPoint.elim y hi fun b0 hf => ?_
      obtain ⟨rfl, h1⟩ := tuple_first hf
      exact ⟨rfl, tuple_last h1⟩
    | OpExecutionMode a0 =>
      refine OpByBlock.OpExecutionMode.elim y hi fun b0 hf => ?_
      obtain ⟨rfl, h1⟩ := tuple_first hf
      exact ⟨rfl, tuple_last h1⟩
    | GroupDebug a0 =>
      refine OpByBlock.GroupDebug.elim y hi fun b0 hf => ?_
      obtain ⟨rfl, h1⟩ := tuple_first hf
      exact ⟨rfl, tuple_last h1⟩
    | GroupAnnotation a0 =>
      refine OpByBlock.GroupAnnotation.elim y hi fun b0 hf => ?_
      obtain ⟨rfl, h1⟩ := tuple_first hf
      exact ⟨rfl, tuple_last h1⟩
    | GroupGlobal a0 =>
      refine OpByBlock.GroupGlobal.elim y hi fun b0 hf => ?_
      obtain ⟨rfl, h1⟩ := tuple_first hf
      exact ⟨rfl, tuple_last h1⟩
    | OpFunction a0 =>
      refine OpByBlock.OpFunction.elim y hi fun b0 hf => ?_
      obtain ⟨rfl, h1⟩ := tuple_first hf
      exact ⟨rfl, tuple_last h1⟩
    | OpFunctionParameter a0 =>
      refine OpByBlock.OpFunctionParameter.elim y hi fun b0 hf => ?_
      obtain ⟨rfl, h1⟩ := tuple_first hf
      exact ⟨rfl, tuple_last h1⟩
    | OpFunctionEnd a0 =>
      refine OpByBlock.OpFunctionEnd.elim y hi fun b0 hf => ?_
      obtain ⟨rfl, h1⟩ := tuple_first hf
      exact ⟨rfl, tuple_last h1⟩
    | OpLabel a0 =>
      refine OpByBlock.OpLabel.elim y hi fun b0 hf => ?_
      obtain ⟨rfl, h1⟩ := tuple_first hf
      exact ⟨rfl, tuple_last h1⟩
    | GroupCode a0 =>
      refine OpByBlock.GroupCode.elim y hi fun b0 hf => ?_
      obtain ⟨rfl, h1⟩ := tuple_first hf
      exact ⟨rfl, tuple_last h1⟩
    | GroupMerge a0 =>
      refine OpByBlock.GroupMerge.elim y hi fun b0 hf => ?_
      obtain ⟨rfl, h1⟩ := tuple_first hf
      exact ⟨rfl, tuple_last h1⟩
    | GroupBranch a0 =>
      refine OpByBlock.GroupBranch.elim y hi fun b0 hf => ?_
      obtain ⟨rfl, h1⟩ := tuple_first hf
      exact ⟨rfl, tuple_last h1⟩
  start _ x := tuple_start x.debugName_ident _
  line _ x := by
    refine tuple_line x.debugName_ident ?_
    cases x with
    | OpCapability _ => exact (cons_line none_line)
    | OpExtension _ => exact (cons_line none_line)
    | OpExtInstImport _ => exact (cons_line none_line)
    | OpMemoryModel _ => exact (cons_line none_line)
    | OpEntryPoint _ => exact (cons_line none_line)
    | OpExecutionMode _ => exact (cons_line none_line)
    | GroupDebug _ => exact (cons_line none_line)
    | GroupAnnotation _ => exact (cons_line none_line)
    | GroupGlobal _ => exact (cons_line none_line)
    | OpFunction _ => exact (cons_line none_line)
    | OpFunctionParameter _ => exact (cons_line none_line)
    | OpFunctionEnd _ => exact (cons_line none_line)
    | OpLabel _ => exact (cons_line none_line)
    | GroupCode _ => exact (cons_line none_line)
    | GroupMerge _ => exact (cons_line none_line)
    | GroupBranch _ => exact (cons_line none_line)

instance : Law FunctionDeclaration where
  law _ x y _ _ _ _ h := by
    obtain ⟨a0, a1⟩ := x
    obtain ⟨b0, b1⟩ := y
    obtain ⟨rfl, h1⟩ := struct_first h
    obtain ⟨rfl, h2⟩ := struct_next h1
    exact ⟨rfl, struct_last h2⟩
  start _ _ := struct_start (n := "FunctionDeclaration") (by decide) _
  line _ _ := struct_line (n := "FunctionDeclaration") (by decide) (cons_named (by decide) (cons_named (by decide) none_named))

instance {X : Type} [Debug X] [Law X] : Law (BasicBlock X) where
  law _ x y _ _ _ _ h := by
    obtain ⟨a0, a1, a2, a3⟩ := x
    obtain ⟨b0, b1, b2, b3⟩ := y
    obtain ⟨rfl, h1⟩ := struct_first h
    obtain ⟨rfl, h2⟩ := struct_next h1
    obtain ⟨rfl, h3⟩ := struct_next h2
    obtain ⟨rfl, h4⟩ := struct_next h3
    exact ⟨rfl, struct_last h4⟩
  start _ _ := struct_start (n := "BasicBlock") (by decide) _
  line _ _ := struct_line (n := "BasicBlock") (by decide) (cons_named (by decide) (cons_named (by decide) (cons_named (by decide) (cons_named (by decide) none_named))))

instance {X : Type} [Debug X] [Law X] : Law (FunctionDefinition X) where
  law _ x y _ _ _ _ h := by
    obtain ⟨a0, a1, a2⟩ := x
    obtain ⟨b0, b1, b2⟩ := y
    obtain ⟨rfl, h1⟩ := struct_first h
    obtain ⟨rfl, h2⟩ := struct_next h1
    obtain ⟨rfl, h3⟩ := struct_next h2
    exact ⟨rfl, struct_last h3⟩
  start _ _ := struct_start (n := "FunctionDefinition") (by decide) _
  line _ _ := struct_line (n := "FunctionDefinition") (by decide) (cons_named (by decide) (cons_named (by decide) (cons_named (by decide) none_named)))

instance {X : Type} [Debug X] [Law X] : Law (LogicalModule X) where
  law _ x y _ _ _ _ h := by
    obtain ⟨a0, a1, a2, a3, a4, a5, a6, a7, a8, a9, a10⟩ := x
    obtain ⟨b0, b1, b2, b3, b4, b5, b6, b7, b8, b9, b10⟩ := y
    obtain ⟨rfl, h1⟩ := struct_first h
    obtain ⟨rfl, h2⟩ := struct_next h1
    obtain ⟨rfl, h3⟩ := struct_next h2
    obtain ⟨rfl, h4⟩ := struct_next h3
    obtain ⟨rfl, h5⟩ := struct_next h4
    obtain ⟨rfl, h6⟩ := struct_next h5
    obtain ⟨rfl, h7⟩ := struct_next h6
    obtain ⟨rfl, h8⟩ := struct_next h7
    obtain ⟨rfl, h9⟩ := struct_next h8
    obtain ⟨rfl, h10⟩ := struct_next h9
    obtain ⟨rfl, h11⟩ := struct_next h10
    exact ⟨rfl, struct_last h11⟩
  start _ _ := struct_start (n := "LogicalModule") (by decide) _
  line _ _ := struct_line (n := "LogicalModule") (by decide) (cons_named (by decide) (cons_named (by decide) (cons_named (by decide) (cons_named (by decide) (cons_named (by decide) (cons_named (by decide) (cons_named (by decide) (cons_named (by decide) (cons_named (by decide) (cons_named (by decide) (cons_named (by decide) none_named)))))))))))

/-- The names of the variants of `ValidationError` -/
def ValidationError.debugNames : List String :=
  ["MemoryModelMissing",
    "ExpectedOpFunction",
    "ExpectedOpFunctionEnd",
    "ExpectedBranch",
    "UnexpectedInstruction"]

theorem ValidationError.debugNames_get (x : ValidationError) : ValidationError.debugNames[x.ctorIdx]? = some x.debugName := by
  cases x <;> rfl

theorem ValidationError.debugNames_nodup : ValidationError.debugNames.Nodup := by decide +kernel

theorem ValidationError.debugNames_ident : ∀ n ∈ ValidationError.debugNames, ident n = true := by decide +kernel

theorem ValidationError.debugName_ident (x : ValidationError) : ident x.debugName = true :=
  ValidationError.debugNames_ident _ (List.mem_of_getElem? (debugNames_get x))

instance : Law ValidationError where
  law _ x y _ _ hs ht h := by
    obtain ⟨hn, hf⟩ := tuple_name x.debugName_ident y.debugName_ident hs ht h
    have hi : y.ctorIdx = x.ctorIdx :=
      same_variant ValidationError.debugNames_nodup (ValidationError.debugNames_get y) (hn ▸ ValidationError.debugNames_get x)
    clear h hn
    revert hf
    cases x with
    | MemoryModelMissing =>
      exact ValidationError.MemoryModelMissing.elim y hi fun hf => ⟨rfl, hf⟩
    | ExpectedOpFunction a0 =>
      refine ValidationError.ExpectedOpFunction.elim y hi fun b0 hf => ?_
      obtain ⟨rfl, h1⟩ := tuple_first hf
      exact ⟨rfl, tuple_last h1⟩
    | ExpectedOpFunctionEnd a0 =>
      refine ValidationError.ExpectedOpFunctionEnd.elim y hi fun b0 hf => ?_
      obtain ⟨rfl, h1⟩ := tuple_first hf
      exact ⟨rfl, tuple_last h1⟩
    | ExpectedBranch a0 =>
      refine ValidationError.ExpectedBranch.elim y hi fun b0 hf => ?_
      obtain ⟨rfl, h1⟩ := tuple_first hf
      exact ⟨rfl, tuple_last h1⟩
    | UnexpectedInstruction a0 =>
      refine ValidationError.UnexpectedInstruction.elim y hi fun b0 hf => ?_
      obtain ⟨rfl, h1⟩ := tuple_first hf
      exact ⟨rfl, tuple_last h1⟩
  start _ x := tuple_start x.debugName_ident _
  line _ x := by
    refine tuple_line x.debugName_ident ?_
    cases x with
    | MemoryModelMissing => exact none_line
    | ExpectedOpFunction _ => exact (cons_line none_line)
    | ExpectedOpFunctionEnd _ => exact (cons_line none_line)
    | ExpectedBranch _ => exact (cons_line none_line)
    | UnexpectedInstruction _ => exact (cons_line none_line)

instance : Law BlockId where
  law _ x y _ _ _ _ h := by
    obtain ⟨a0⟩ := x
    obtain ⟨b0⟩ := y
    obtain ⟨rfl, h1⟩ := tuple_first (tuple_same h)
    exact ⟨rfl, tuple_last h1⟩
  start _ _ := tuple_start (n := "BlockId") (by decide) _
  line _ _ := tuple_line (n := "BlockId") (by decide) (cons_line none_line)

/-- The names of the variants of `ControlType` -/
def ControlType.debugNames : List String :=
  ["Selection",
    "Loop"]

theorem ControlType.debugNames_get (x : ControlType) : ControlType.debugNames[x.ctorIdx]? = some x.debugName := by
  cases x <;> rfl

theorem ControlType.debugNames_nodup : ControlType.debugNames.Nodup := by decide +kernel

theorem ControlType.debugNames_ident : ∀ n ∈ ControlType.debugNames, ident n = true := by decide +kernel

theorem ControlType.debugName_ident (x : ControlType) : ident x.debugName = true :=
  ControlType.debugNames_ident _ (List.mem_of_getElem? (debugNames_get x))

instance : Law ControlType where
  law _ x y _ _ hs ht h := by
    obtain ⟨hn, hf⟩ := tuple_name x.debugName_ident y.debugName_ident hs ht h
    have hi : y.ctorIdx = x.ctorIdx :=
      same_variant ControlType.debugNames_nodup (ControlType.debugNames_get y) (hn ▸ ControlType.debugNames_get x)
    exact ⟨(ControlType.ofNat_ctorIdx x).symm.trans ((congrArg ControlType.ofNat hi.symm).trans (ControlType.ofNat_ctorIdx y)), hf⟩
  start _ x := tuple_start x.debugName_ident _
  line _ x := tuple_line x.debugName_ident none_line

/-- The names of the variants of `ControlFlowError` -/
def ControlFlowError.debugNames : List String :=
  ["DuplicateBlockId",
    "NoBlocks",
    "UnknownBlockId",
    "CouldNotPredictConverge",
    "InvalidConvergePrediction",
    "Failed"]

theorem ControlFlowError.debugNames_get (x : ControlFlowError) : ControlFlowError.debugNames[x.ctorIdx]? = some x.debugName := by
  cases x <;> rfl

theorem ControlFlowError.debugNames_nodup : ControlFlowError.debugNames.Nodup := by decide +kernel

theorem ControlFlowError.debugNames_ident : ∀ n ∈ ControlFlowError.debugNames, ident n = true := by decide +kernel

theorem ControlFlowError.debugName_ident (x : ControlFlowError) : ident x.debugName = true :=
  ControlFlowError.debugNames_ident _ (List.mem_of_getElem? (debugNames_get x))

instance : Law ControlFlowError where
  law _ x y _ _ hs ht h := by
    obtain ⟨hn, hf⟩ := tuple_name x.debugName_ident y.debugName_ident hs ht h
    have hi : y.ctorIdx = x.ctorIdx :=
      same_variant ControlFlowError.debugNames_nodup (ControlFlowError.debugNames_get y) (hn ▸ ControlFlowError.debugNames_get x)
    clear h hn
    revert hf
    cases x with
    | DuplicateBlockId a0 =>
      refine ControlFlowError.DuplicateBlockId.elim y hi fun b0 hf => ?_
      obtain ⟨rfl, h1⟩ := tuple_first hf
      exact ⟨rfl, tuple_last h1⟩
    | NoBlocks =>
      exact ControlFlowError.NoBlocks.elim y hi fun hf => ⟨rfl, hf⟩
    | UnknownBlockId a0 =>
      refine ControlFlowError.UnknownBlockId.elim y hi fun b0 hf => ?_
      obtain ⟨rfl, h1⟩ := tuple_first hf
      exact ⟨rfl, tuple_last h1⟩
    | CouldNotPredictConverge a0 =>
      refine ControlFlowError.CouldNotPredictConverge.elim y hi fun b0 hf => ?_
      obtain ⟨rfl, h1⟩ := tuple_first hf
      exact ⟨rfl, tuple_last h1⟩
    | InvalidConvergePrediction a0 a1 =>
      refine ControlFlowError.InvalidConvergePrediction.elim y hi fun b0 b1 hf => ?_
      obtain ⟨rfl, h1⟩ := tuple_first hf
      obtain ⟨rfl, h2⟩ := tuple_next (by decide) h1
      exact ⟨rfl, tuple_last h2⟩
    | Failed =>
      exact ControlFlowError.Failed.elim y hi fun hf => ⟨rfl, hf⟩
  start _ x := tuple_start x.debugName_ident _
  line _ x := by
    refine tuple_line x.debugName_ident ?_
    cases x with
    | DuplicateBlockId _ => exact (cons_line none_line)
    | NoBlocks => exact none_line
    | UnknownBlockId _ => exact (cons_line none_line)
    | CouldNotPredictConverge _ => exact (cons_line none_line)
    | InvalidConvergePrediction _ _ => exact (cons_line (cons_line none_line))
    | Failed => exact none_line

/-- The names of the variants of `Continue` -/
def Continue.debugNames : List String :=
  ["Next",
    "Return"]

theorem Continue.debugNames_get (x : Continue) : Continue.debugNames[x.ctorIdx]? = some x.debugName := by
  cases x <;> rfl

theorem Continue.debugNames_nodup : Continue.debugNames.Nodup := by decide +kernel

theorem Continue.debugNames_ident : ∀ n ∈ Continue.debugNames, ident n = true := by decide +kernel

theorem Continue.debugName_ident (x : Continue) : ident x.debugName = true :=
  Continue.debugNames_ident _ (List.mem_of_getElem? (debugNames_get x))

instance : Law Continue where
  law _ x y _ _ hs ht h := by
    obtain ⟨hn, hf⟩ := tuple_name x.debugName_ident y.debugName_ident hs ht h
    have hi : y.ctorIdx = x.ctorIdx :=
      same_variant Continue.debugNames_nodup (Continue.debugNames_get y) (hn ▸ Continue.debugNames_get x)
    clear h hn
    revert hf
    cases x with
    | Next a0 =>
      refine Continue.Next.elim y hi fun b0 hf => ?_
      obtain ⟨rfl, h1⟩ := tuple_first hf
      exact ⟨rfl, tuple_last h1⟩
    | Return =>
      exact Continue.Return.elim y hi fun hf => ⟨rfl, hf⟩
  start _ x := tuple_start x.debugName_ident _
  line _ x := by
    refine tuple_line x.debugName_ident ?_
    cases x with
    | Next _ => exact (cons_line none_line)
    | Return => exact none_line

/-- The names of the variants of `Converge` -/
def Converge.debugNames : List String :=
  ["If",
    "Loop"]

theorem Converge.debugNames_get (x : Converge) : Converge.debugNames[x.ctorIdx]? = some x.debugName := by
  cases x <;> rfl

theorem Converge.debugNames_nodup : Converge.debugNames.Nodup := by decide +kernel

theorem Converge.debugNames_ident : ∀ n ∈ Converge.debugNames, ident n = true := by decide +kernel

theorem Converge.debugName_ident (x : Converge) : ident x.debugName = true :=
  Converge.debugNames_ident _ (List.mem_of_getElem? (debugNames_get x))

instance : Law Converge where
  law _ x y _ _ hs ht h := by
    obtain ⟨hn, hf⟩ := tuple_name x.debugName_ident y.debugName_ident hs ht h
    have hi : y.ctorIdx = x.ctorIdx :=
      same_variant Converge.debugNames_nodup (Converge.debugNames_get y) (hn ▸ Converge.debugNames_get x)
    clear h hn
    revert hf
    cases x with
    | If a0 a1 =>
      refine Converge.If.elim y hi fun b0 b1 hf => ?_
      obtain ⟨rfl, h1⟩ := tuple_first hf
      obtain ⟨rfl, h2⟩ := tuple_next (by decide) h1
      exact ⟨rfl, tuple_last h2⟩
    | Loop a0 a1 a2 =>
      refine Converge.Loop.elim y hi fun b0 b1 b2 hf => ?_
      obtain ⟨rfl, h1⟩ := tuple_first hf
      obtain ⟨rfl, h2⟩ := tuple_next (by decide) h1
      obtain ⟨rfl, h3⟩ := tuple_next (by decide) h2
      exact ⟨rfl, tuple_last h3⟩
  start _ x := tuple_start x.debugName_ident _
  line _ x := by
    refine tuple_line x.debugName_ident ?_
    cases x with
    | If _ _ => exact (cons_line (cons_line none_line))
    | Loop _ _ _ => exact (cons_line (cons_line (cons_line none_line)))

end Magma
