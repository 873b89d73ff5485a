import Verif.Spec.Ids
import Verif.Model.Logical
/-! Generated by `tools/gen_ids.py`: replacing the ids of instructions, field by field. -/

namespace Magma.Spec

/-- The ids of `OpNop` -/
instance : Renames OpNop :=
  ⟨fun _ a => a⟩

/-- The ids of `OpUndef` -/
instance : Renames OpUndef :=
  ⟨fun σ a =>
    { result_type := ren σ a.result_type,
      result_id := ren σ a.result_id }⟩

/-- The ids of `OpSourceContinued` -/
instance : Renames OpSourceContinued :=
  ⟨fun σ a =>
    { continued_source := ren σ a.continued_source }⟩

/-- The ids of `OpSource` -/
instance : Renames OpSource :=
  ⟨fun σ a =>
    { language := ren σ a.language,
      version := ren σ a.version,
      file := ren σ a.file,
      source := ren σ a.source }⟩

/-- The ids of `OpSourceExtension` -/
instance : Renames OpSourceExtension :=
  ⟨fun σ a =>
    { extension := ren σ a.extension }⟩

/-- The ids of `OpName` -/
instance : Renames OpName :=
  ⟨fun σ a =>
    { target := ren σ a.target,
      name := ren σ a.name }⟩

/-- The ids of `OpMemberName` -/
instance : Renames OpMemberName :=
  ⟨fun σ a =>
    { struct_type := ren σ a.struct_type,
      member := ren σ a.member,
      name := ren σ a.name }⟩

/-- The ids of `OpString` -/
instance : Renames OpString :=
  ⟨fun σ a =>
    { result_id := ren σ a.result_id,
      string := ren σ a.string }⟩

/-- The ids of `OpExtension` -/
instance : Renames OpExtension :=
  ⟨fun σ a =>
    { name := ren σ a.name }⟩

/-- The ids of `OpExtInstImport` -/
instance : Renames OpExtInstImport :=
  ⟨fun σ a =>
    { result_id := ren σ a.result_id,
      name := ren σ a.name }⟩

/-- The ids of `OpExtInst` -/
instance {X : Type} [Renames X] : Renames (OpExtInst X) :=
  ⟨fun σ a =>
    { result_type := ren σ a.result_type,
      result_id := ren σ a.result_id,
      set := ren σ a.set,
      instruction := ren σ a.instruction }⟩

/-- The ids of `OpMemoryModel` -/
instance : Renames OpMemoryModel :=
  ⟨fun σ a =>
    { addressing_model := ren σ a.addressing_model,
      memory_model := ren σ a.memory_model }⟩

/-- The ids of `OpEntryPoint` -/
instance : Renames OpEntryPoint :=
  ⟨fun σ a =>
    { execution_model := ren σ a.execution_model,
      entry_point := ren σ a.entry_point,
      name := ren σ a.name,
      interface := ren σ a.interface }⟩

/-- The ids of `OpExecutionMode` -/
instance : Renames OpExecutionMode :=
  ⟨fun σ a =>
    { entry_point := ren σ a.entry_point,
      mode := ren σ a.mode }⟩

/-- The ids of `OpCapability` -/
instance : Renames OpCapability :=
  ⟨fun σ a =>
    { capability := ren σ a.capability }⟩

/-- The ids of `OpTypeVoid` -/
instance : Renames OpTypeVoid :=
  ⟨fun σ a =>
    { result_id := ren σ a.result_id }⟩

/-- The ids of `OpTypeBool` -/
instance : Renames OpTypeBool :=
  ⟨fun σ a =>
    { result_id := ren σ a.result_id }⟩

/-- The ids of `OpTypeInt` -/
instance : Renames OpTypeInt :=
  ⟨fun σ a =>
    { result_id := ren σ a.result_id,
      width := ren σ a.width,
      signedness := ren σ a.signedness }⟩

/-- The ids of `OpTypeFloat` -/
instance : Renames OpTypeFloat :=
  ⟨fun σ a =>
    { result_id := ren σ a.result_id,
      width := ren σ a.width }⟩

/-- The ids of `OpTypeVector` -/
instance : Renames OpTypeVector :=
  ⟨fun σ a =>
    { result_id := ren σ a.result_id,
      component_type := ren σ a.component_type,
      component_count := ren σ a.component_count }⟩

/-- The ids of `OpTypeMatrix` -/
instance : Renames OpTypeMatrix :=
  ⟨fun σ a =>
    { result_id := ren σ a.result_id,
      column_type := ren σ a.column_type,
      column_count := ren σ a.column_count }⟩

/-- The ids of `OpTypeImage` -/
instance : Renames OpTypeImage :=
  ⟨fun σ a =>
    { result_id := ren σ a.result_id,
      sampled_type := ren σ a.sampled_type,
      dim := ren σ a.dim,
      depth := ren σ a.depth,
      arrayed := ren σ a.arrayed,
      ms := ren σ a.ms,
      sampled := ren σ a.sampled,
      format := ren σ a.format,
      access_qualifier := ren σ a.access_qualifier }⟩

/-- The ids of `OpTypeSampler` -/
instance : Renames OpTypeSampler :=
  ⟨fun σ a =>
    { result_id := ren σ a.result_id }⟩

/-- The ids of `OpTypeSampledImage` -/
instance : Renames OpTypeSampledImage :=
  ⟨fun σ a =>
    { result_id := ren σ a.result_id,
      image_type := ren σ a.image_type }⟩

/-- The ids of `OpTypeArray` -/
instance : Renames OpTypeArray :=
  ⟨fun σ a =>
    { result_id := ren σ a.result_id,
      element_type := ren σ a.element_type,
      length := ren σ a.length }⟩

/-- The ids of `OpTypeRuntimeArray` -/
instance : Renames OpTypeRuntimeArray :=
  ⟨fun σ a =>
    { result_id := ren σ a.result_id,
      element_type := ren σ a.element_type }⟩

/-- The ids of `OpTypeStruct` -/
instance : Renames OpTypeStruct :=
  ⟨fun σ a =>
    { result_id := ren σ a.result_id,
      member_types := ren σ a.member_types }⟩

/-- The ids of `OpTypeOpaque` -/
instance : Renames OpTypeOpaque :=
  ⟨fun σ a =>
    { result_id := ren σ a.result_id,
      name := ren σ a.name }⟩

/-- The ids of `OpTypePointer` -/
instance : Renames OpTypePointer :=
  ⟨fun σ a =>
    { result_id := ren σ a.result_id,
      storage_class := ren σ a.storage_class,
      pointed_type := ren σ a.pointed_type }⟩

/-- The ids of `OpTypeFunction` -/
instance : Renames OpTypeFunction :=
  ⟨fun σ a =>
    { result_id := ren σ a.result_id,
      return_type := ren σ a.return_type,
      parameter_types := ren σ a.parameter_types }⟩

/-- The ids of `OpTypeEvent` -/
instance : Renames OpTypeEvent :=
  ⟨fun σ a =>
    { result_id := ren σ a.result_id }⟩

/-- The ids of `OpTypeDeviceEvent` -/
instance : Renames OpTypeDeviceEvent :=
  ⟨fun σ a =>
    { result_id := ren σ a.result_id }⟩

/-- The ids of `OpTypeQueue` -/
instance : Renames OpTypeQueue :=
  ⟨fun σ a =>
    { result_id := ren σ a.result_id }⟩

/-- The ids of `OpTypePipe` -/
instance : Renames OpTypePipe :=
  ⟨fun σ a =>
    { result_id := ren σ a.result_id,
      access_qualifier := ren σ a.access_qualifier }⟩

/-- The ids of `OpTypeForwardPointer` -/
instance : Renames OpTypeForwardPointer :=
  ⟨fun σ a =>
    { pointer_type := ren σ a.pointer_type,
      storage_class := ren σ a.storage_class }⟩

/-- The ids of `OpConstant` -/
instance : Renames OpConstant :=
  ⟨fun σ a =>
    { result_type := ren σ a.result_type,
      result_id := ren σ a.result_id,
      value := ren σ a.value }⟩

/-- The ids of `OpConstantComposite` -/
instance : Renames OpConstantComposite :=
  ⟨fun σ a =>
    { result_type := ren σ a.result_type,
      result_id := ren σ a.result_id,
      constituents := ren σ a.constituents }⟩

/-- The ids of `OpFunction` -/
instance : Renames OpFunction :=
  ⟨fun σ a =>
    { result_type := ren σ a.result_type,
      result_id := ren σ a.result_id,
      function_control := ren σ a.function_control,
      function_type := ren σ a.function_type }⟩

/-- The ids of `OpFunctionParameter` -/
instance : Renames OpFunctionParameter :=
  ⟨fun σ a =>
    { result_type := ren σ a.result_type,
      result_id := ren σ a.result_id }⟩

/-- The ids of `OpFunctionEnd` -/
instance : Renames OpFunctionEnd :=
  ⟨fun _ a => a⟩

/-- The ids of `OpVariable` -/
instance : Renames OpVariable :=
  ⟨fun σ a =>
    { result_type := ren σ a.result_type,
      result_id := ren σ a.result_id,
      storage_class := ren σ a.storage_class,
      initializer := ren σ a.initializer }⟩

/-- The ids of `OpLoad` -/
instance : Renames OpLoad :=
  ⟨fun σ a =>
    { result_type := ren σ a.result_type,
      result_id := ren σ a.result_id,
      pointer := ren σ a.pointer,
      memory_access := ren σ a.memory_access }⟩

/-- The ids of `OpStore` -/
instance : Renames OpStore :=
  ⟨fun σ a =>
    { pointer := ren σ a.pointer,
      object := ren σ a.object,
      memory_access := ren σ a.memory_access }⟩

/-- The ids of `OpAccessChain` -/
instance : Renames OpAccessChain :=
  ⟨fun σ a =>
    { result_type := ren σ a.result_type,
      result_id := ren σ a.result_id,
      base := ren σ a.base,
      indexes := ren σ a.indexes }⟩

/-- The ids of `OpDecorate` -/
instance : Renames OpDecorate :=
  ⟨fun σ a =>
    { target := ren σ a.target,
      decoration := ren σ a.decoration }⟩

/-- The ids of `OpMemberDecorate` -/
instance : Renames OpMemberDecorate :=
  ⟨fun σ a =>
    { structure_type := ren σ a.structure_type,
      member := ren σ a.member,
      decoration := ren σ a.decoration }⟩

/-- The ids of `OpConvertUToF` -/
instance : Renames OpConvertUToF :=
  ⟨fun σ a =>
    { result_type := ren σ a.result_type,
      result_id := ren σ a.result_id,
      unsigned_value := ren σ a.unsigned_value }⟩

/-- The ids of `OpBitcast` -/
instance : Renames OpBitcast :=
  ⟨fun σ a =>
    { result_type := ren σ a.result_type,
      result_id := ren σ a.result_id,
      operand := ren σ a.operand }⟩

/-- The ids of `OpIAdd` -/
instance : Renames OpIAdd :=
  ⟨fun σ a =>
    { result_type := ren σ a.result_type,
      result_id := ren σ a.result_id,
      operand1 := ren σ a.operand1,
      operand2 := ren σ a.operand2 }⟩

/-- The ids of `OpFAdd` -/
instance : Renames OpFAdd :=
  ⟨fun σ a =>
    { result_type := ren σ a.result_type,
      result_id := ren σ a.result_id,
      operand1 := ren σ a.operand1,
      operand2 := ren σ a.operand2 }⟩

/-- The ids of `OpISub` -/
instance : Renames OpISub :=
  ⟨fun σ a =>
    { result_type := ren σ a.result_type,
      result_id := ren σ a.result_id,
      operand1 := ren σ a.operand1,
      operand2 := ren σ a.operand2 }⟩

/-- The ids of `OpFSub` -/
instance : Renames OpFSub :=
  ⟨fun σ a =>
    { result_type := ren σ a.result_type,
      result_id := ren σ a.result_id,
      operand1 := ren σ a.operand1,
      operand2 := ren σ a.operand2 }⟩

/-- The ids of `OpIMul` -/
instance : Renames OpIMul :=
  ⟨fun σ a =>
    { result_type := ren σ a.result_type,
      result_id := ren σ a.result_id,
      operand1 := ren σ a.operand1,
      operand2 := ren σ a.operand2 }⟩

/-- The ids of `OpFMul` -/
instance : Renames OpFMul :=
  ⟨fun σ a =>
    { result_type := ren σ a.result_type,
      result_id := ren σ a.result_id,
      operand1 := ren σ a.operand1,
      operand2 := ren σ a.operand2 }⟩

/-- The ids of `OpUDiv` -/
instance : Renames OpUDiv :=
  ⟨fun σ a =>
    { result_type := ren σ a.result_type,
      result_id := ren σ a.result_id,
      operand1 := ren σ a.operand1,
      operand2 := ren σ a.operand2 }⟩

/-- The ids of `OpSDiv` -/
instance : Renames OpSDiv :=
  ⟨fun σ a =>
    { result_type := ren σ a.result_type,
      result_id := ren σ a.result_id,
      operand1 := ren σ a.operand1,
      operand2 := ren σ a.operand2 }⟩

/-- The ids of `OpFDiv` -/
instance : Renames OpFDiv :=
  ⟨fun σ a =>
    { result_type := ren σ a.result_type,
      result_id := ren σ a.result_id,
      operand1 := ren σ a.operand1,
      operand2 := ren σ a.operand2 }⟩

/-- The ids of `OpUMod` -/
instance : Renames OpUMod :=
  ⟨fun σ a =>
    { result_type := ren σ a.result_type,
      result_id := ren σ a.result_id,
      operand1 := ren σ a.operand1,
      operand2 := ren σ a.operand2 }⟩

/-- The ids of `OpSRem` -/
instance : Renames OpSRem :=
  ⟨fun σ a =>
    { result_type := ren σ a.result_type,
      result_id := ren σ a.result_id,
      operand1 := ren σ a.operand1,
      operand2 := ren σ a.operand2 }⟩

/-- The ids of `OpSMod` -/
instance : Renames OpSMod :=
  ⟨fun σ a =>
    { result_type := ren σ a.result_type,
      result_id := ren σ a.result_id,
      operand1 := ren σ a.operand1,
      operand2 := ren σ a.operand2 }⟩

/-- The ids of `OpFRem` -/
instance : Renames OpFRem :=
  ⟨fun σ a =>
    { result_type := ren σ a.result_type,
      result_id := ren σ a.result_id,
      operand1 := ren σ a.operand1,
      operand2 := ren σ a.operand2 }⟩

/-- The ids of `OpFMod` -/
instance : Renames OpFMod :=
  ⟨fun σ a =>
    { result_type := ren σ a.result_type,
      result_id := ren σ a.result_id,
      operand1 := ren σ a.operand1,
      operand2 := ren σ a.operand2 }⟩

/-- The ids of `OpIAddCarry` -/
instance : Renames OpIAddCarry :=
  ⟨fun σ a =>
    { result_type := ren σ a.result_type,
      result_id := ren σ a.result_id,
      operand1 := ren σ a.operand1,
      operand2 := ren σ a.operand2 }⟩

/-- The ids of `OpISubBorrow` -/
instance : Renames OpISubBorrow :=
  ⟨fun σ a =>
    { result_type := ren σ a.result_type,
      result_id := ren σ a.result_id,
      operand1 := ren σ a.operand1,
      operand2 := ren σ a.operand2 }⟩

/-- The ids of `OpUMulExtended` -/
instance : Renames OpUMulExtended :=
  ⟨fun σ a =>
    { result_type := ren σ a.result_type,
      result_id := ren σ a.result_id,
      operand1 := ren σ a.operand1,
      operand2 := ren σ a.operand2 }⟩

/-- The ids of `OpSMulExtended` -/
instance : Renames OpSMulExtended :=
  ⟨fun σ a =>
    { result_type := ren σ a.result_type,
      result_id := ren σ a.result_id,
      operand1 := ren σ a.operand1,
      operand2 := ren σ a.operand2 }⟩

/-- The ids of `OpBitwiseOr` -/
instance : Renames OpBitwiseOr :=
  ⟨fun σ a =>
    { result_type := ren σ a.result_type,
      result_id := ren σ a.result_id,
      operand1 := ren σ a.operand1,
      operand2 := ren σ a.operand2 }⟩

/-- The ids of `OpBitwiseXor` -/
instance : Renames OpBitwiseXor :=
  ⟨fun σ a =>
    { result_type := ren σ a.result_type,
      result_id := ren σ a.result_id,
      operand1 := ren σ a.operand1,
      operand2 := ren σ a.operand2 }⟩

/-- The ids of `OpBitwiseAnd` -/
instance : Renames OpBitwiseAnd :=
  ⟨fun σ a =>
    { result_type := ren σ a.result_type,
      result_id := ren σ a.result_id,
      operand1 := ren σ a.operand1,
      operand2 := ren σ a.operand2 }⟩

/-- The ids of `OpIEqual` -/
instance : Renames OpIEqual :=
  ⟨fun σ a =>
    { result_type := ren σ a.result_type,
      result_id := ren σ a.result_id,
      operand1 := ren σ a.operand1,
      operand2 := ren σ a.operand2 }⟩

/-- The ids of `OpINotEqual` -/
instance : Renames OpINotEqual :=
  ⟨fun σ a =>
    { result_type := ren σ a.result_type,
      result_id := ren σ a.result_id,
      operand1 := ren σ a.operand1,
      operand2 := ren σ a.operand2 }⟩

/-- The ids of `OpUGreaterThan` -/
instance : Renames OpUGreaterThan :=
  ⟨fun σ a =>
    { result_type := ren σ a.result_type,
      result_id := ren σ a.result_id,
      operand1 := ren σ a.operand1,
      operand2 := ren σ a.operand2 }⟩

/-- The ids of `OpSGreaterThan` -/
instance : Renames OpSGreaterThan :=
  ⟨fun σ a =>
    { result_type := ren σ a.result_type,
      result_id := ren σ a.result_id,
      operand1 := ren σ a.operand1,
      operand2 := ren σ a.operand2 }⟩

/-- The ids of `OpUGreaterThanEqual` -/
instance : Renames OpUGreaterThanEqual :=
  ⟨fun σ a =>
    { result_type := ren σ a.result_type,
      result_id := ren σ a.result_id,
      operand1 := ren σ a.operand1,
      operand2 := ren σ a.operand2 }⟩

/-- The ids of `OpSGreaterThanEqual` -/
instance : Renames OpSGreaterThanEqual :=
  ⟨fun σ a =>
    { result_type := ren σ a.result_type,
      result_id := ren σ a.result_id,
      operand1 := ren σ a.operand1,
      operand2 := ren σ a.operand2 }⟩

/-- The ids of `OpULessThan` -/
instance : Renames OpULessThan :=
  ⟨fun σ a =>
    { result_type := ren σ a.result_type,
      result_id := ren σ a.result_id,
      operand1 := ren σ a.operand1,
      operand2 := ren σ a.operand2 }⟩

/-- The ids of `OpSLessThan` -/
instance : Renames OpSLessThan :=
  ⟨fun σ a =>
    { result_type := ren σ a.result_type,
      result_id := ren σ a.result_id,
      operand1 := ren σ a.operand1,
      operand2 := ren σ a.operand2 }⟩

/-- The ids of `OpULessThanEqual` -/
instance : Renames OpULessThanEqual :=
  ⟨fun σ a =>
    { result_type := ren σ a.result_type,
      result_id := ren σ a.result_id,
      operand1 := ren σ a.operand1,
      operand2 := ren σ a.operand2 }⟩

/-- The ids of `OpSLessThanEqual` -/
instance : Renames OpSLessThanEqual :=
  ⟨fun σ a =>
    { result_type := ren σ a.result_type,
      result_id := ren σ a.result_id,
      operand1 := ren σ a.operand1,
      operand2 := ren σ a.operand2 }⟩

/-- The ids of `OpFOrdEqual` -/
instance : Renames OpFOrdEqual :=
  ⟨fun σ a =>
    { result_type := ren σ a.result_type,
      result_id := ren σ a.result_id,
      operand1 := ren σ a.operand1,
      operand2 := ren σ a.operand2 }⟩

/-- The ids of `OpFUnordEqual` -/
instance : Renames OpFUnordEqual :=
  ⟨fun σ a =>
    { result_type := ren σ a.result_type,
      result_id := ren σ a.result_id,
      operand1 := ren σ a.operand1,
      operand2 := ren σ a.operand2 }⟩

/-- The ids of `OpFOrdNotEqual` -/
instance : Renames OpFOrdNotEqual :=
  ⟨fun σ a =>
    { result_type := ren σ a.result_type,
      result_id := ren σ a.result_id,
      operand1 := ren σ a.operand1,
      operand2 := ren σ a.operand2 }⟩

/-- The ids of `OpFUnordNotEqual` -/
instance : Renames OpFUnordNotEqual :=
  ⟨fun σ a =>
    { result_type := ren σ a.result_type,
      result_id := ren σ a.result_id,
      operand1 := ren σ a.operand1,
      operand2 := ren σ a.operand2 }⟩

/-- The ids of `OpFOrdLessThan` -/
instance : Renames OpFOrdLessThan :=
  ⟨fun σ a =>
    { result_type := ren σ a.result_type,
      result_id := ren σ a.result_id,
      operand1 := ren σ a.operand1,
      operand2 := ren σ a.operand2 }⟩

/-- The ids of `OpFUnordLessThan` -/
instance : Renames OpFUnordLessThan :=
  ⟨fun σ a =>
    { result_type := ren σ a.result_type,
      result_id := ren σ a.result_id,
      operand1 := ren σ a.operand1,
      operand2 := ren σ a.operand2 }⟩

/-- The ids of `OpFOrdGreaterThan` -/
instance : Renames OpFOrdGreaterThan :=
  ⟨fun σ a =>
    { result_type := ren σ a.result_type,
      result_id := ren σ a.result_id,
      operand1 := ren σ a.operand1,
      operand2 := ren σ a.operand2 }⟩

/-- The ids of `OpFUnordGreaterThan` -/
instance : Renames OpFUnordGreaterThan :=
  ⟨fun σ a =>
    { result_type := ren σ a.result_type,
      result_id := ren σ a.result_id,
      operand1 := ren σ a.operand1,
      operand2 := ren σ a.operand2 }⟩

/-- The ids of `OpFOrdLessThanEqual` -/
instance : Renames OpFOrdLessThanEqual :=
  ⟨fun σ a =>
    { result_type := ren σ a.result_type,
      result_id := ren σ a.result_id,
      operand1 := ren σ a.operand1,
      operand2 := ren σ a.operand2 }⟩

/-- The ids of `OpFUnordLessThanEqual` -/
instance : Renames OpFUnordLessThanEqual :=
  ⟨fun σ a =>
    { result_type := ren σ a.result_type,
      result_id := ren σ a.result_id,
      operand1 := ren σ a.operand1,
      operand2 := ren σ a.operand2 }⟩

/-- The ids of `OpFOrdGreaterThanEqual` -/
instance : Renames OpFOrdGreaterThanEqual :=
  ⟨fun σ a =>
    { result_type := ren σ a.result_type,
      result_id := ren σ a.result_id,
      operand1 := ren σ a.operand1,
      operand2 := ren σ a.operand2 }⟩

/-- The ids of `OpFUnordGreaterThanEqual` -/
instance : Renames OpFUnordGreaterThanEqual :=
  ⟨fun σ a =>
    { result_type := ren σ a.result_type,
      result_id := ren σ a.result_id,
      operand1 := ren σ a.operand1,
      operand2 := ren σ a.operand2 }⟩

/-- The ids of `OpPhi` -/
instance : Renames OpPhi :=
  ⟨fun σ a =>
    { result_type := ren σ a.result_type,
      result_id := ren σ a.result_id,
      variables := ren σ a.variables }⟩

/-- The ids of `OpLoopMerge` -/
instance : Renames OpLoopMerge :=
  ⟨fun σ a =>
    { merge_block := ren σ a.merge_block,
      continue_target := ren σ a.continue_target,
      loop_control := ren σ a.loop_control }⟩

/-- The ids of `OpSelectionMerge` -/
instance : Renames OpSelectionMerge :=
  ⟨fun σ a =>
    { merge_block := ren σ a.merge_block,
      selection_control := ren σ a.selection_control }⟩

/-- The ids of `OpLabel` -/
instance : Renames OpLabel :=
  ⟨fun σ a =>
    { result_id := ren σ a.result_id }⟩

/-- The ids of `OpBranch` -/
instance : Renames OpBranch :=
  ⟨fun σ a =>
    { target_label := ren σ a.target_label }⟩

/-- The ids of `OpBranchConditional` -/
instance : Renames OpBranchConditional :=
  ⟨fun σ a =>
    { condition := ren σ a.condition,
      true_label := ren σ a.true_label,
      false_label := ren σ a.false_label,
      weights := ren σ a.weights }⟩

/-- The ids of `OpReturn` -/
instance : Renames OpReturn :=
  ⟨fun _ a => a⟩

/-- The ids of an instruction -/
def renameInst {X : Type} [Renames X] (σ : UInt32 → UInt32) : Core X → Core X
  | .OpNop op => .OpNop (ren σ op)
  | .OpUndef op => .OpUndef (ren σ op)
  | .OpSourceContinued op => .OpSourceContinued (ren σ op)
  | .OpSource op => .OpSource (ren σ op)
  | .OpSourceExtension op => .OpSourceExtension (ren σ op)
  | .OpName op => .OpName (ren σ op)
  | .OpMemberName op => .OpMemberName (ren σ op)
  | .OpString op => .OpString (ren σ op)
  | .OpExtension op => .OpExtension (ren σ op)
  | .OpExtInstImport op => .OpExtInstImport (ren σ op)
  | .OpExtInst op => .OpExtInst (ren σ op)
  | .OpMemoryModel op => .OpMemoryModel (ren σ op)
  | .OpEntryPoint op => .OpEntryPoint (ren σ op)
  | .OpExecutionMode op => .OpExecutionMode (ren σ op)
  | .OpCapability op => .OpCapability (ren σ op)
  | .OpTypeVoid op => .OpTypeVoid (ren σ op)
  | .OpTypeBool op => .OpTypeBool (ren σ op)
  | .OpTypeInt op => .OpTypeInt (ren σ op)
  | .OpTypeFloat op => .OpTypeFloat (ren σ op)
  | .OpTypeVector op => .OpTypeVector (ren σ op)
  | .OpTypeMatrix op => .OpTypeMatrix (ren σ op)
  | .OpTypeImage op => .OpTypeImage (ren σ op)
  | .OpTypeSampler op => .OpTypeSampler (ren σ op)
  | .OpTypeSampledImage op => .OpTypeSampledImage (ren σ op)
  | .OpTypeArray op => .OpTypeArray (ren σ op)
  | .OpTypeRuntimeArray op => .OpTypeRuntimeArray (ren σ op)
  | .OpTypeStruct op => .OpTypeStruct (ren σ op)
  | .OpTypeOpaque op => .OpTypeOpaque (ren σ op)
  | .OpTypePointer op => .OpTypePointer (ren σ op)
  | .OpTypeFunction op => .OpTypeFunction (ren σ op)
  | .OpTypeEvent op => .OpTypeEvent (ren σ op)
  | .OpTypeDeviceEvent op => .OpTypeDeviceEvent (ren σ op)
  | .OpTypeQueue op => .OpTypeQueue (ren σ op)
  | .OpTypePipe op => .OpTypePipe (ren σ op)
  | .OpTypeForwardPointer op => .OpTypeForwardPointer (ren σ op)
  | .OpConstant op => .OpConstant (ren σ op)
  | .OpConstantComposite op => .OpConstantComposite (ren σ op)
  | .OpFunction op => .OpFunction (ren σ op)
  | .OpFunctionParameter op => .OpFunctionParameter (ren σ op)
  | .OpFunctionEnd op => .OpFunctionEnd (ren σ op)
  | .OpVariable op => .OpVariable (ren σ op)
  | .OpLoad op => .OpLoad (ren σ op)
  | .OpStore op => .OpStore (ren σ op)
  | .OpAccessChain op => .OpAccessChain (ren σ op)
  | .OpDecorate op => .OpDecorate (ren σ op)
  | .OpMemberDecorate op => .OpMemberDecorate (ren σ op)
  | .OpConvertUToF op => .OpConvertUToF (ren σ op)
  | .OpBitcast op => .OpBitcast (ren σ op)
  | .OpIAdd op => .OpIAdd (ren σ op)
  | .OpFAdd op => .OpFAdd (ren σ op)
  | .OpISub op => .OpISub (ren σ op)
  | .OpFSub op => .OpFSub (ren σ op)
  | .OpIMul op => .OpIMul (ren σ op)
  | .OpFMul op => .OpFMul (ren σ op)
  | .OpUDiv op => .OpUDiv (ren σ op)
  | .OpSDiv op => .OpSDiv (ren σ op)
  | .OpFDiv op => .OpFDiv (ren σ op)
  | .OpUMod op => .OpUMod (ren σ op)
  | .OpSRem op => .OpSRem (ren σ op)
  | .OpSMod op => .OpSMod (ren σ op)
  | .OpFRem op => .OpFRem (ren σ op)
  | .OpFMod op => .OpFMod (ren σ op)
  | .OpIAddCarry op => .OpIAddCarry (ren σ op)
  | .OpISubBorrow op => .OpISubBorrow (ren σ op)
  | .OpUMulExtended op => .OpUMulExtended (ren σ op)
  | .OpSMulExtended op => .OpSMulExtended (ren σ op)
  | .OpBitwiseOr op => .OpBitwiseOr (ren σ op)
  | .OpBitwiseXor op => .OpBitwiseXor (ren σ op)
  | .OpBitwiseAnd op => .OpBitwiseAnd (ren σ op)
  | .OpIEqual op => .OpIEqual (ren σ op)
  | .OpINotEqual op => .OpINotEqual (ren σ op)
  | .OpUGreaterThan op => .OpUGreaterThan (ren σ op)
  | .OpSGreaterThan op => .OpSGreaterThan (ren σ op)
  | .OpUGreaterThanEqual op => .OpUGreaterThanEqual (ren σ op)
  | .OpSGreaterThanEqual op => .OpSGreaterThanEqual (ren σ op)
  | .OpULessThan op => .OpULessThan (ren σ op)
  | .OpSLessThan op => .OpSLessThan (ren σ op)
  | .OpULessThanEqual op => .OpULessThanEqual (ren σ op)
  | .OpSLessThanEqual op => .OpSLessThanEqual (ren σ op)
  | .OpFOrdEqual op => .OpFOrdEqual (ren σ op)
  | .OpFUnordEqual op => .OpFUnordEqual (ren σ op)
  | .OpFOrdNotEqual op => .OpFOrdNotEqual (ren σ op)
  | .OpFUnordNotEqual op => .OpFUnordNotEqual (ren σ op)
  | .OpFOrdLessThan op => .OpFOrdLessThan (ren σ op)
  | .OpFUnordLessThan op => .OpFUnordLessThan (ren σ op)
  | .OpFOrdGreaterThan op => .OpFOrdGreaterThan (ren σ op)
  | .OpFUnordGreaterThan op => .OpFUnordGreaterThan (ren σ op)
  | .OpFOrdLessThanEqual op => .OpFOrdLessThanEqual (ren σ op)
  | .OpFUnordLessThanEqual op => .OpFUnordLessThanEqual (ren σ op)
  | .OpFOrdGreaterThanEqual op => .OpFOrdGreaterThanEqual (ren σ op)
  | .OpFUnordGreaterThanEqual op => .OpFUnordGreaterThanEqual (ren σ op)
  | .OpPhi op => .OpPhi (ren σ op)
  | .OpLoopMerge op => .OpLoopMerge (ren σ op)
  | .OpSelectionMerge op => .OpSelectionMerge (ren σ op)
  | .OpLabel op => .OpLabel (ren σ op)
  | .OpBranch op => .OpBranch (ren σ op)
  | .OpBranchConditional op => .OpBranchConditional (ren σ op)
  | .OpReturn op => .OpReturn (ren σ op)

/-- The ids of a module. The bound is not an id of the module. -/
def renameModule {X : Type} [Renames X] (σ : UInt32 → UInt32) (m : RawModule X) : RawModule X :=
  { m with instructions := m.instructions.map (renameInst σ) }

/-- The ids of `GroupDebug` -/
instance : Renames GroupDebug :=
  ⟨fun σ a => match a with
    | .OpSourceContinued op => .OpSourceContinued (ren σ op)
    | .OpSource op => .OpSource (ren σ op)
    | .OpSourceExtension op => .OpSourceExtension (ren σ op)
    | .OpName op => .OpName (ren σ op)
    | .OpMemberName op => .OpMemberName (ren σ op)
    | .OpString op => .OpString (ren σ op)⟩

/-- The ids of `GroupAnnotation` -/
instance : Renames GroupAnnotation :=
  ⟨fun σ a => match a with
    | .OpDecorate op => .OpDecorate (ren σ op)
    | .OpMemberDecorate op => .OpMemberDecorate (ren σ op)⟩

/-- The ids of `GroupType` -/
instance : Renames GroupType :=
  ⟨fun σ a => match a with
    | .OpTypeVoid op => .OpTypeVoid (ren σ op)
    | .OpTypeBool op => .OpTypeBool (ren σ op)
    | .OpTypeInt op => .OpTypeInt (ren σ op)
    | .OpTypeFloat op => .OpTypeFloat (ren σ op)
    | .OpTypeVector op => .OpTypeVector (ren σ op)
    | .OpTypeMatrix op => .OpTypeMatrix (ren σ op)
    | .OpTypeImage op => .OpTypeImage (ren σ op)
    | .OpTypeSampler op => .OpTypeSampler (ren σ op)
    | .OpTypeSampledImage op => .OpTypeSampledImage (ren σ op)
    | .OpTypeArray op => .OpTypeArray (ren σ op)
    | .OpTypeRuntimeArray op => .OpTypeRuntimeArray (ren σ op)
    | .OpTypeStruct op => .OpTypeStruct (ren σ op)
    | .OpTypeOpaque op => .OpTypeOpaque (ren σ op)
    | .OpTypePointer op => .OpTypePointer (ren σ op)
    | .OpTypeFunction op => .OpTypeFunction (ren σ op)
    | .OpTypeEvent op => .OpTypeEvent (ren σ op)
    | .OpTypeDeviceEvent op => .OpTypeDeviceEvent (ren σ op)
    | .OpTypeQueue op => .OpTypeQueue (ren σ op)
    | .OpTypePipe op => .OpTypePipe (ren σ op)
    | .OpTypeForwardPointer op => .OpTypeForwardPointer (ren σ op)⟩

/-- The ids of `GroupConstant` -/
instance : Renames GroupConstant :=
  ⟨fun σ a => match a with
    | .OpConstant op => .OpConstant (ren σ op)
    | .OpConstantComposite op => .OpConstantComposite (ren σ op)⟩

/-- The ids of `GroupGlobal` -/
instance : Renames GroupGlobal :=
  ⟨fun σ a => match a with
    | .GroupType op => .GroupType (ren σ op)
    | .GroupConstant op => .GroupConstant (ren σ op)
    | .OpVariable op => .OpVariable (ren σ op)⟩

/-- The ids of `GroupCode` -/
instance {X : Type} [Renames X] : Renames (GroupCode X) :=
  ⟨fun σ a => match a with
    | .OpNop op => .OpNop (ren σ op)
    | .OpUndef op => .OpUndef (ren σ op)
    | .OpExtInst op => .OpExtInst (ren σ op)
    | .OpVariable op => .OpVariable (ren σ op)
    | .OpLoad op => .OpLoad (ren σ op)
    | .OpStore op => .OpStore (ren σ op)
    | .OpAccessChain op => .OpAccessChain (ren σ op)
    | .OpConvertUToF op => .OpConvertUToF (ren σ op)
    | .OpBitcast op => .OpBitcast (ren σ op)
    | .OpIAdd op => .OpIAdd (ren σ op)
    | .OpFAdd op => .OpFAdd (ren σ op)
    | .OpISub op => .OpISub (ren σ op)
    | .OpFSub op => .OpFSub (ren σ op)
    | .OpIMul op => .OpIMul (ren σ op)
    | .OpFMul op => .OpFMul (ren σ op)
    | .OpUDiv op => .OpUDiv (ren σ op)
    | .OpSDiv op => .OpSDiv (ren σ op)
    | .OpFDiv op => .OpFDiv (ren σ op)
    | .OpUMod op => .OpUMod (ren σ op)
    | .OpSRem op => .OpSRem (ren σ op)
    | .OpSMod op => .OpSMod (ren σ op)
    | .OpFRem op => .OpFRem (ren σ op)
    | .OpFMod op => .OpFMod (ren σ op)
    | .OpIAddCarry op => .OpIAddCarry (ren σ op)
    | .OpISubBorrow op => .OpISubBorrow (ren σ op)
    | .OpUMulExtended op => .OpUMulExtended (ren σ op)
    | .OpSMulExtended op => .OpSMulExtended (ren σ op)
    | .OpBitwiseOr op => .OpBitwiseOr (ren σ op)
    | .OpBitwiseXor op => .OpBitwiseXor (ren σ op)
    | .OpBitwiseAnd op => .OpBitwiseAnd (ren σ op)
    | .OpIEqual op => .OpIEqual (ren σ op)
    | .OpINotEqual op => .OpINotEqual (ren σ op)
    | .OpUGreaterThan op => .OpUGreaterThan (ren σ op)
    | .OpSGreaterThan op => .OpSGreaterThan (ren σ op)
    | .OpUGreaterThanEqual op => .OpUGreaterThanEqual (ren σ op)
    | .OpSGreaterThanEqual op => .OpSGreaterThanEqual (ren σ op)
    | .OpULessThan op => .OpULessThan (ren σ op)
    | .OpSLessThan op => .OpSLessThan (ren σ op)
    | .OpULessThanEqual op => .OpULessThanEqual (ren σ op)
    | .OpSLessThanEqual op => .OpSLessThanEqual (ren σ op)
    | .OpFOrdEqual op => .OpFOrdEqual (ren σ op)
    | .OpFUnordEqual op => .OpFUnordEqual (ren σ op)
    | .OpFOrdNotEqual op => .OpFOrdNotEqual (ren σ op)
    | .OpFUnordNotEqual op => .OpFUnordNotEqual (ren σ op)
    | .OpFOrdLessThan op => .OpFOrdLessThan (ren σ op)
    | .OpFUnordLessThan op => .OpFUnordLessThan (ren σ op)
    | .OpFOrdGreaterThan op => .OpFOrdGreaterThan (ren σ op)
    | .OpFUnordGreaterThan op => .OpFUnordGreaterThan (ren σ op)
    | .OpFOrdLessThanEqual op => .OpFOrdLessThanEqual (ren σ op)
    | .OpFUnordLessThanEqual op => .OpFUnordLessThanEqual (ren σ op)
    | .OpFOrdGreaterThanEqual op => .OpFOrdGreaterThanEqual (ren σ op)
    | .OpFUnordGreaterThanEqual op => .OpFUnordGreaterThanEqual (ren σ op)
    | .OpPhi op => .OpPhi (ren σ op)⟩

/-- The ids of `GroupMerge` -/
instance : Renames GroupMerge :=
  ⟨fun σ a => match a with
    | .OpLoopMerge op => .OpLoopMerge (ren σ op)
    | .OpSelectionMerge op => .OpSelectionMerge (ren σ op)⟩

/-- The ids of `GroupBranch` -/
instance : Renames GroupBranch :=
  ⟨fun σ a => match a with
    | .OpBranch op => .OpBranch (ren σ op)
    | .OpBranchConditional op => .OpBranchConditional (ren σ op)
    | .OpReturn op => .OpReturn (ren σ op)⟩

/-- The ids of a function declaration -/
instance : Renames FunctionDeclaration :=
  ⟨fun σ d => { function := ren σ d.function, parameters := ren σ d.parameters }⟩

/-- The ids of a block -/
instance {X : Type} [Renames X] : Renames (BasicBlock X) :=
  ⟨fun σ b => { label := ren σ b.label, code := ren σ b.code, merge := ren σ b.merge, branch := ren σ b.branch }⟩

/-- The ids of a function definition -/
instance {X : Type} [Renames X] : Renames (FunctionDefinition X) :=
  ⟨fun σ d => { function := ren σ d.function, parameters := ren σ d.parameters, blocks := ren σ d.blocks }⟩

/-- The ids of a logical module -/
instance {X : Type} [Renames X] : Renames (LogicalModule X) :=
  ⟨fun σ m =>
    { capabilities := m.capabilities,
      extensions := m.extensions,
      ext_inst_imports := ren σ m.ext_inst_imports,
      memory_model := m.memory_model,
      entry_points := ren σ m.entry_points,
      execution_modes := ren σ m.execution_modes,
      debug := ren σ m.debug,
      annotations := ren σ m.annotations,
      globals := ren σ m.globals,
      function_declarations := ren σ m.function_declarations,
      function_definitions := ren σ m.function_definitions }⟩

end Magma.Spec
