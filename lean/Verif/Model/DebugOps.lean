import Verif.Model.DebugTypes
/-! Generated by `tools/gen_debug.py`: derived debug output; citations are to `/repo`. -/

namespace Magma

/-- src/spv/mod.rs:54-55. In the rest of the model the box is left out. -/
structure ExtInstBox (X : Type) where
  inst : X

/-- src/spv/mod.rs:54-55 -/
instance {X : Type} [Debug X] : Debug (ExtInstBox X) :=
  ⟨fun shown ⟨x⟩ => debugTuple "ExtInstBox" [Debug.debug shown x]⟩

/-- src/spv/op.rs:11-12 -/
instance : Debug OpNop :=
  ⟨fun _ _ =>
    debugTuple "OpNop" []⟩

/-- src/spv/op.rs:16-20 -/
instance : Debug OpUndef :=
  ⟨fun shown ⟨a0, a1⟩ =>
    debugStruct "OpUndef" [("result_type", Debug.debug shown a0), ("result_id", Debug.debug shown a1)]⟩

/-- src/spv/op.rs:26-29 -/
instance : Debug OpSourceContinued :=
  ⟨fun shown ⟨a0⟩ =>
    debugStruct "OpSourceContinued" [("continued_source", Debug.debug shown a0)]⟩

/-- src/spv/op.rs:33-39 -/
instance : Debug OpSource :=
  ⟨fun shown ⟨a0, a1, a2, a3⟩ =>
    debugStruct "OpSource" [("language", Debug.debug shown a0), ("version", Debug.debug shown a1), ("file", Debug.debug shown a2), ("source", Debug.debug shown a3)]⟩

/-- src/spv/op.rs:43-46 -/
instance : Debug OpSourceExtension :=
  ⟨fun shown ⟨a0⟩ =>
    debugStruct "OpSourceExtension" [("extension", Debug.debug shown a0)]⟩

/-- src/spv/op.rs:50-54 -/
instance : Debug OpName :=
  ⟨fun shown ⟨a0, a1⟩ =>
    debugStruct "OpName" [("target", Debug.debug shown a0), ("name", Debug.debug shown a1)]⟩

/-- src/spv/op.rs:58-63 -/
instance : Debug OpMemberName :=
  ⟨fun shown ⟨a0, a1, a2⟩ =>
    debugStruct "OpMemberName" [("struct_type", Debug.debug shown a0), ("member", Debug.debug shown a1), ("name", Debug.debug shown a2)]⟩

/-- src/spv/op.rs:67-71 -/
instance : Debug OpString :=
  ⟨fun shown ⟨a0, a1⟩ =>
    debugStruct "OpString" [("result_id", Debug.debug shown a0), ("string", Debug.debug shown a1)]⟩

/-- src/spv/op.rs:131-134 -/
instance : Debug OpExtension :=
  ⟨fun shown ⟨a0⟩ =>
    debugStruct "OpExtension" [("name", Debug.debug shown a0)]⟩

/-- src/spv/op.rs:138-142 -/
instance : Debug OpExtInstImport :=
  ⟨fun shown ⟨a0, a1⟩ =>
    debugStruct "OpExtInstImport" [("result_id", Debug.debug shown a0), ("name", Debug.debug shown a1)]⟩

/-- src/spv/op.rs:146-152 -/
instance {X : Type} [Debug X] : Debug (OpExtInst X) :=
  ⟨fun shown ⟨a0, a1, a2, a3⟩ =>
    debugStruct "OpExtInst" [("result_type", Debug.debug shown a0), ("result_id", Debug.debug shown a1), ("set", Debug.debug shown a2), ("instruction", Debug.debug shown (ExtInstBox.mk a3))]⟩

/-- src/spv/op.rs:158-162 -/
instance : Debug OpMemoryModel :=
  ⟨fun shown ⟨a0, a1⟩ =>
    debugStruct "OpMemoryModel" [("addressing_model", Debug.debug shown a0), ("memory_model", Debug.debug shown a1)]⟩

/-- src/spv/op.rs:166-172 -/
instance : Debug OpEntryPoint :=
  ⟨fun shown ⟨a0, a1, a2, a3⟩ =>
    debugStruct "OpEntryPoint" [("execution_model", Debug.debug shown a0), ("entry_point", Debug.debug shown a1), ("name", Debug.debug shown a2), ("interface", Debug.debug shown a3)]⟩

/-- src/spv/op.rs:176-180 -/
instance : Debug OpExecutionMode :=
  ⟨fun shown ⟨a0, a1⟩ =>
    debugStruct "OpExecutionMode" [("entry_point", Debug.debug shown a0), ("mode", Debug.debug shown a1)]⟩

/-- src/spv/op.rs:184-187 -/
instance : Debug OpCapability :=
  ⟨fun shown ⟨a0⟩ =>
    debugStruct "OpCapability" [("capability", Debug.debug shown a0)]⟩

/-- src/spv/op.rs:193-196 -/
instance : Debug OpTypeVoid :=
  ⟨fun shown ⟨a0⟩ =>
    debugStruct "OpTypeVoid" [("result_id", Debug.debug shown a0)]⟩

/-- src/spv/op.rs:200-203 -/
instance : Debug OpTypeBool :=
  ⟨fun shown ⟨a0⟩ =>
    debugStruct "OpTypeBool" [("result_id", Debug.debug shown a0)]⟩

/-- src/spv/op.rs:207-212 -/
instance : Debug OpTypeInt :=
  ⟨fun shown ⟨a0, a1, a2⟩ =>
    debugStruct "OpTypeInt" [("result_id", Debug.debug shown a0), ("width", Debug.debug shown a1), ("signedness", Debug.debug shown a2)]⟩

/-- src/spv/op.rs:216-220 -/
instance : Debug OpTypeFloat :=
  ⟨fun shown ⟨a0, a1⟩ =>
    debugStruct "OpTypeFloat" [("result_id", Debug.debug shown a0), ("width", Debug.debug shown a1)]⟩

/-- src/spv/op.rs:224-229 -/
instance : Debug OpTypeVector :=
  ⟨fun shown ⟨a0, a1, a2⟩ =>
    debugStruct "OpTypeVector" [("result_id", Debug.debug shown a0), ("component_type", Debug.debug shown a1), ("component_count", Debug.debug shown a2)]⟩

/-- src/spv/op.rs:233-238 -/
instance : Debug OpTypeMatrix :=
  ⟨fun shown ⟨a0, a1, a2⟩ =>
    debugStruct "OpTypeMatrix" [("result_id", Debug.debug shown a0), ("column_type", Debug.debug shown a1), ("column_count", Debug.debug shown a2)]⟩

/-- src/spv/op.rs:242-253 -/
instance : Debug OpTypeImage :=
  ⟨fun shown ⟨a0, a1, a2, a3, a4, a5, a6, a7, a8⟩ =>
    debugStruct "OpTypeImage" [("result_id", Debug.debug shown a0), ("sampled_type", Debug.debug shown a1), ("dim", Debug.debug shown a2), ("depth", Debug.debug shown a3), ("arrayed", Debug.debug shown a4), ("ms", Debug.debug shown a5), ("sampled", Debug.debug shown a6), ("format", Debug.debug shown a7), ("access_qualifier", Debug.debug shown a8)]⟩

/-- src/spv/op.rs:266-269 -/
instance : Debug OpTypeSampler :=
  ⟨fun shown ⟨a0⟩ =>
    debugStruct "OpTypeSampler" [("result_id", Debug.debug shown a0)]⟩

/-- src/spv/op.rs:273-277 -/
instance : Debug OpTypeSampledImage :=
  ⟨fun shown ⟨a0, a1⟩ =>
    debugStruct "OpTypeSampledImage" [("result_id", Debug.debug shown a0), ("image_type", Debug.debug shown a1)]⟩

/-- src/spv/op.rs:281-286 -/
instance : Debug OpTypeArray :=
  ⟨fun shown ⟨a0, a1, a2⟩ =>
    debugStruct "OpTypeArray" [("result_id", Debug.debug shown a0), ("element_type", Debug.debug shown a1), ("length", Debug.debug shown a2)]⟩

/-- src/spv/op.rs:290-294 -/
instance : Debug OpTypeRuntimeArray :=
  ⟨fun shown ⟨a0, a1⟩ =>
    debugStruct "OpTypeRuntimeArray" [("result_id", Debug.debug shown a0), ("element_type", Debug.debug shown a1)]⟩

/-- src/spv/op.rs:298-302 -/
instance : Debug OpTypeStruct :=
  ⟨fun shown ⟨a0, a1⟩ =>
    debugStruct "OpTypeStruct" [("result_id", Debug.debug shown a0), ("member_types", Debug.debug shown a1)]⟩

/-- src/spv/op.rs:306-310 -/
instance : Debug OpTypeOpaque :=
  ⟨fun shown ⟨a0, a1⟩ =>
    debugStruct "OpTypeOpaque" [("result_id", Debug.debug shown a0), ("name", Debug.debug shown a1)]⟩

/-- src/spv/op.rs:314-319 -/
instance : Debug OpTypePointer :=
  ⟨fun shown ⟨a0, a1, a2⟩ =>
    debugStruct "OpTypePointer" [("result_id", Debug.debug shown a0), ("storage_class", Debug.debug shown a1), ("pointed_type", Debug.debug shown a2)]⟩

/-- src/spv/op.rs:323-328 -/
instance : Debug OpTypeFunction :=
  ⟨fun shown ⟨a0, a1, a2⟩ =>
    debugStruct "OpTypeFunction" [("result_id", Debug.debug shown a0), ("return_type", Debug.debug shown a1), ("parameter_types", Debug.debug shown a2)]⟩

/-- src/spv/op.rs:332-335 -/
instance : Debug OpTypeEvent :=
  ⟨fun shown ⟨a0⟩ =>
    debugStruct "OpTypeEvent" [("result_id", Debug.debug shown a0)]⟩

/-- src/spv/op.rs:339-342 -/
instance : Debug OpTypeDeviceEvent :=
  ⟨fun shown ⟨a0⟩ =>
    debugStruct "OpTypeDeviceEvent" [("result_id", Debug.debug shown a0)]⟩

/-- src/spv/op.rs:353-356 -/
instance : Debug OpTypeQueue :=
  ⟨fun shown ⟨a0⟩ =>
    debugStruct "OpTypeQueue" [("result_id", Debug.debug shown a0)]⟩

/-- src/spv/op.rs:360-364 -/
instance : Debug OpTypePipe :=
  ⟨fun shown ⟨a0, a1⟩ =>
    debugStruct "OpTypePipe" [("result_id", Debug.debug shown a0), ("access_qualifier", Debug.debug shown a1)]⟩

/-- src/spv/op.rs:368-372 -/
instance : Debug OpTypeForwardPointer :=
  ⟨fun shown ⟨a0, a1⟩ =>
    debugStruct "OpTypeForwardPointer" [("pointer_type", Debug.debug shown a0), ("storage_class", Debug.debug shown a1)]⟩

/-- src/spv/op.rs:394-399 -/
instance : Debug OpConstant :=
  ⟨fun shown ⟨a0, a1, a2⟩ =>
    debugStruct "OpConstant" [("result_type", Debug.debug shown a0), ("result_id", Debug.debug shown a1), ("value", Debug.debug shown a2)]⟩

/-- src/spv/op.rs:403-408 -/
instance : Debug OpConstantComposite :=
  ⟨fun shown ⟨a0, a1, a2⟩ =>
    debugStruct "OpConstantComposite" [("result_type", Debug.debug shown a0), ("result_id", Debug.debug shown a1), ("constituents", Debug.debug shown a2)]⟩

/-- src/spv/op.rs:589-595 -/
instance : Debug OpFunction :=
  ⟨fun shown ⟨a0, a1, a2, a3⟩ =>
    debugStruct "OpFunction" [("result_type", Debug.debug shown a0), ("result_id", Debug.debug shown a1), ("function_control", Debug.debug shown a2), ("function_type", Debug.debug shown a3)]⟩

/-- src/spv/op.rs:599-603 -/
instance : Debug OpFunctionParameter :=
  ⟨fun shown ⟨a0, a1⟩ =>
    debugStruct "OpFunctionParameter" [("result_type", Debug.debug shown a0), ("result_id", Debug.debug shown a1)]⟩

/-- src/spv/op.rs:607-608 -/
instance : Debug OpFunctionEnd :=
  ⟨fun _ _ =>
    debugTuple "OpFunctionEnd" []⟩

/-- src/spv/op.rs:467-473 -/
instance : Debug OpVariable :=
  ⟨fun shown ⟨a0, a1, a2, a3⟩ =>
    debugStruct "OpVariable" [("result_type", Debug.debug shown a0), ("result_id", Debug.debug shown a1), ("storage_class", Debug.debug shown a2), ("initializer", Debug.debug shown a3)]⟩

/-- src/spv/op.rs:488-494 -/
instance : Debug OpLoad :=
  ⟨fun shown ⟨a0, a1, a2, a3⟩ =>
    debugStruct "OpLoad" [("result_type", Debug.debug shown a0), ("result_id", Debug.debug shown a1), ("pointer", Debug.debug shown a2), ("memory_access", Debug.debug shown a3)]⟩

/-- src/spv/op.rs:498-503 -/
instance : Debug OpStore :=
  ⟨fun shown ⟨a0, a1, a2⟩ =>
    debugStruct "OpStore" [("pointer", Debug.debug shown a0), ("object", Debug.debug shown a1), ("memory_access", Debug.debug shown a2)]⟩

/-- src/spv/op.rs:526-532 -/
instance : Debug OpAccessChain :=
  ⟨fun shown ⟨a0, a1, a2, a3⟩ =>
    debugStruct "OpAccessChain" [("result_type", Debug.debug shown a0), ("result_id", Debug.debug shown a1), ("base", Debug.debug shown a2), ("indexes", Debug.debug shown a3)]⟩

/-- src/spv/op.rs:91-95 -/
instance : Debug OpDecorate :=
  ⟨fun shown ⟨a0, a1⟩ =>
    debugStruct "OpDecorate" [("target", Debug.debug shown a0), ("decoration", Debug.debug shown a1)]⟩

/-- src/spv/op.rs:99-104 -/
instance : Debug OpMemberDecorate :=
  ⟨fun shown ⟨a0, a1, a2⟩ =>
    debugStruct "OpMemberDecorate" [("structure_type", Debug.debug shown a0), ("member", Debug.debug shown a1), ("decoration", Debug.debug shown a2)]⟩

/-- src/spv/op.rs:858-863 -/
instance : Debug OpConvertUToF :=
  ⟨fun shown ⟨a0, a1, a2⟩ =>
    debugStruct "OpConvertUToF" [("result_type", Debug.debug shown a0), ("result_id", Debug.debug shown a1), ("unsigned_value", Debug.debug shown a2)]⟩

/-- src/spv/op.rs:967-972 -/
instance : Debug OpBitcast :=
  ⟨fun shown ⟨a0, a1, a2⟩ =>
    debugStruct "OpBitcast" [("result_type", Debug.debug shown a0), ("result_id", Debug.debug shown a1), ("operand", Debug.debug shown a2)]⟩

/-- src/spv/op.rs:1078-1084 -/
instance : Debug OpIAdd :=
  ⟨fun shown ⟨a0, a1, a2, a3⟩ =>
    debugStruct "OpIAdd" [("result_type", Debug.debug shown a0), ("result_id", Debug.debug shown a1), ("operand1", Debug.debug shown a2), ("operand2", Debug.debug shown a3)]⟩

/-- src/spv/op.rs:1088-1094 -/
instance : Debug OpFAdd :=
  ⟨fun shown ⟨a0, a1, a2, a3⟩ =>
    debugStruct "OpFAdd" [("result_type", Debug.debug shown a0), ("result_id", Debug.debug shown a1), ("operand1", Debug.debug shown a2), ("operand2", Debug.debug shown a3)]⟩

/-- src/spv/op.rs:1098-1104 -/
instance : Debug OpISub :=
  ⟨fun shown ⟨a0, a1, a2, a3⟩ =>
    debugStruct "OpISub" [("result_type", Debug.debug shown a0), ("result_id", Debug.debug shown a1), ("operand1", Debug.debug shown a2), ("operand2", Debug.debug shown a3)]⟩

/-- src/spv/op.rs:1108-1114 -/
instance : Debug OpFSub :=
  ⟨fun shown ⟨a0, a1, a2, a3⟩ =>
    debugStruct "OpFSub" [("result_type", Debug.debug shown a0), ("result_id", Debug.debug shown a1), ("operand1", Debug.debug shown a2), ("operand2", Debug.debug shown a3)]⟩

/-- src/spv/op.rs:1118-1124 -/
instance : Debug OpIMul :=
  ⟨fun shown ⟨a0, a1, a2, a3⟩ =>
    debugStruct "OpIMul" [("result_type", Debug.debug shown a0), ("result_id", Debug.debug shown a1), ("operand1", Debug.debug shown a2), ("operand2", Debug.debug shown a3)]⟩

/-- src/spv/op.rs:1128-1134 -/
instance : Debug OpFMul :=
  ⟨fun shown ⟨a0, a1, a2, a3⟩ =>
    debugStruct "OpFMul" [("result_type", Debug.debug shown a0), ("result_id", Debug.debug shown a1), ("operand1", Debug.debug shown a2), ("operand2", Debug.debug shown a3)]⟩

/-- src/spv/op.rs:1138-1144 -/
instance : Debug OpUDiv :=
  ⟨fun shown ⟨a0, a1, a2, a3⟩ =>
    debugStruct "OpUDiv" [("result_type", Debug.debug shown a0), ("result_id", Debug.debug shown a1), ("operand1", Debug.debug shown a2), ("operand2", Debug.debug shown a3)]⟩

/-- src/spv/op.rs:1148-1154 -/
instance : Debug OpSDiv :=
  ⟨fun shown ⟨a0, a1, a2, a3⟩ =>
    debugStruct "OpSDiv" [("result_type", Debug.debug shown a0), ("result_id", Debug.debug shown a1), ("operand1", Debug.debug shown a2), ("operand2", Debug.debug shown a3)]⟩

/-- src/spv/op.rs:1158-1164 -/
instance : Debug OpFDiv :=
  ⟨fun shown ⟨a0, a1, a2, a3⟩ =>
    debugStruct "OpFDiv" [("result_type", Debug.debug shown a0), ("result_id", Debug.debug shown a1), ("operand1", Debug.debug shown a2), ("operand2", Debug.debug shown a3)]⟩

/-- src/spv/op.rs:1168-1174 -/
instance : Debug OpUMod :=
  ⟨fun shown ⟨a0, a1, a2, a3⟩ =>
    debugStruct "OpUMod" [("result_type", Debug.debug shown a0), ("result_id", Debug.debug shown a1), ("operand1", Debug.debug shown a2), ("operand2", Debug.debug shown a3)]⟩

/-- src/spv/op.rs:1178-1184 -/
instance : Debug OpSRem :=
  ⟨fun shown ⟨a0, a1, a2, a3⟩ =>
    debugStruct "OpSRem" [("result_type", Debug.debug shown a0), ("result_id", Debug.debug shown a1), ("operand1", Debug.debug shown a2), ("operand2", Debug.debug shown a3)]⟩

/-- src/spv/op.rs:1188-1194 -/
instance : Debug OpSMod :=
  ⟨fun shown ⟨a0, a1, a2, a3⟩ =>
    debugStruct "OpSMod" [("result_type", Debug.debug shown a0), ("result_id", Debug.debug shown a1), ("operand1", Debug.debug shown a2), ("operand2", Debug.debug shown a3)]⟩

/-- src/spv/op.rs:1198-1204 -/
instance : Debug OpFRem :=
  ⟨fun shown ⟨a0, a1, a2, a3⟩ =>
    debugStruct "OpFRem" [("result_type", Debug.debug shown a0), ("result_id", Debug.debug shown a1), ("operand1", Debug.debug shown a2), ("operand2", Debug.debug shown a3)]⟩

/-- src/spv/op.rs:1208-1214 -/
instance : Debug OpFMod :=
  ⟨fun shown ⟨a0, a1, a2, a3⟩ =>
    debugStruct "OpFMod" [("result_type", Debug.debug shown a0), ("result_id", Debug.debug shown a1), ("operand1", Debug.debug shown a2), ("operand2", Debug.debug shown a3)]⟩

/-- src/spv/op.rs:1288-1294 -/
instance : Debug OpIAddCarry :=
  ⟨fun shown ⟨a0, a1, a2, a3⟩ =>
    debugStruct "OpIAddCarry" [("result_type", Debug.debug shown a0), ("result_id", Debug.debug shown a1), ("operand1", Debug.debug shown a2), ("operand2", Debug.debug shown a3)]⟩

/-- src/spv/op.rs:1298-1304 -/
instance : Debug OpISubBorrow :=
  ⟨fun shown ⟨a0, a1, a2, a3⟩ =>
    debugStruct "OpISubBorrow" [("result_type", Debug.debug shown a0), ("result_id", Debug.debug shown a1), ("operand1", Debug.debug shown a2), ("operand2", Debug.debug shown a3)]⟩

/-- src/spv/op.rs:1308-1314 -/
instance : Debug OpUMulExtended :=
  ⟨fun shown ⟨a0, a1, a2, a3⟩ =>
    debugStruct "OpUMulExtended" [("result_type", Debug.debug shown a0), ("result_id", Debug.debug shown a1), ("operand1", Debug.debug shown a2), ("operand2", Debug.debug shown a3)]⟩

/-- src/spv/op.rs:1318-1324 -/
instance : Debug OpSMulExtended :=
  ⟨fun shown ⟨a0, a1, a2, a3⟩ =>
    debugStruct "OpSMulExtended" [("result_type", Debug.debug shown a0), ("result_id", Debug.debug shown a1), ("operand1", Debug.debug shown a2), ("operand2", Debug.debug shown a3)]⟩

/-- src/spv/op.rs:1360-1366 -/
instance : Debug OpBitwiseOr :=
  ⟨fun shown ⟨a0, a1, a2, a3⟩ =>
    debugStruct "OpBitwiseOr" [("result_type", Debug.debug shown a0), ("result_id", Debug.debug shown a1), ("operand1", Debug.debug shown a2), ("operand2", Debug.debug shown a3)]⟩

/-- src/spv/op.rs:1370-1376 -/
instance : Debug OpBitwiseXor :=
  ⟨fun shown ⟨a0, a1, a2, a3⟩ =>
    debugStruct "OpBitwiseXor" [("result_type", Debug.debug shown a0), ("result_id", Debug.debug shown a1), ("operand1", Debug.debug shown a2), ("operand2", Debug.debug shown a3)]⟩

/-- src/spv/op.rs:1380-1386 -/
instance : Debug OpBitwiseAnd :=
  ⟨fun shown ⟨a0, a1, a2, a3⟩ =>
    debugStruct "OpBitwiseAnd" [("result_type", Debug.debug shown a0), ("result_id", Debug.debug shown a1), ("operand1", Debug.debug shown a2), ("operand2", Debug.debug shown a3)]⟩

/-- src/spv/op.rs:1464-1470 -/
instance : Debug OpIEqual :=
  ⟨fun shown ⟨a0, a1, a2, a3⟩ =>
    debugStruct "OpIEqual" [("result_type", Debug.debug shown a0), ("result_id", Debug.debug shown a1), ("operand1", Debug.debug shown a2), ("operand2", Debug.debug shown a3)]⟩

/-- src/spv/op.rs:1474-1480 -/
instance : Debug OpINotEqual :=
  ⟨fun shown ⟨a0, a1, a2, a3⟩ =>
    debugStruct "OpINotEqual" [("result_type", Debug.debug shown a0), ("result_id", Debug.debug shown a1), ("operand1", Debug.debug shown a2), ("operand2", Debug.debug shown a3)]⟩

/-- src/spv/op.rs:1484-1490 -/
instance : Debug OpUGreaterThan :=
  ⟨fun shown ⟨a0, a1, a2, a3⟩ =>
    debugStruct "OpUGreaterThan" [("result_type", Debug.debug shown a0), ("result_id", Debug.debug shown a1), ("operand1", Debug.debug shown a2), ("operand2", Debug.debug shown a3)]⟩

/-- src/spv/op.rs:1494-1500 -/
instance : Debug OpSGreaterThan :=
  ⟨fun shown ⟨a0, a1, a2, a3⟩ =>
    debugStruct "OpSGreaterThan" [("result_type", Debug.debug shown a0), ("result_id", Debug.debug shown a1), ("operand1", Debug.debug shown a2), ("operand2", Debug.debug shown a3)]⟩

/-- src/spv/op.rs:1504-1510 -/
instance : Debug OpUGreaterThanEqual :=
  ⟨fun shown ⟨a0, a1, a2, a3⟩ =>
    debugStruct "OpUGreaterThanEqual" [("result_type", Debug.debug shown a0), ("result_id", Debug.debug shown a1), ("operand1", Debug.debug shown a2), ("operand2", Debug.debug shown a3)]⟩

/-- src/spv/op.rs:1514-1520 -/
instance : Debug OpSGreaterThanEqual :=
  ⟨fun shown ⟨a0, a1, a2, a3⟩ =>
    debugStruct "OpSGreaterThanEqual" [("result_type", Debug.debug shown a0), ("result_id", Debug.debug shown a1), ("operand1", Debug.debug shown a2), ("operand2", Debug.debug shown a3)]⟩

/-- src/spv/op.rs:1524-1530 -/
instance : Debug OpULessThan :=
  ⟨fun shown ⟨a0, a1, a2, a3⟩ =>
    debugStruct "OpULessThan" [("result_type", Debug.debug shown a0), ("result_id", Debug.debug shown a1), ("operand1", Debug.debug shown a2), ("operand2", Debug.debug shown a3)]⟩

/-- src/spv/op.rs:1534-1540 -/
instance : Debug OpSLessThan :=
  ⟨fun shown ⟨a0, a1, a2, a3⟩ =>
    debugStruct "OpSLessThan" [("result_type", Debug.debug shown a0), ("result_id", Debug.debug shown a1), ("operand1", Debug.debug shown a2), ("operand2", Debug.debug shown a3)]⟩

/-- src/spv/op.rs:1544-1550 -/
instance : Debug OpULessThanEqual :=
  ⟨fun shown ⟨a0, a1, a2, a3⟩ =>
    debugStruct "OpULessThanEqual" [("result_type", Debug.debug shown a0), ("result_id", Debug.debug shown a1), ("operand1", Debug.debug shown a2), ("operand2", Debug.debug shown a3)]⟩

/-- src/spv/op.rs:1554-1560 -/
instance : Debug OpSLessThanEqual :=
  ⟨fun shown ⟨a0, a1, a2, a3⟩ =>
    debugStruct "OpSLessThanEqual" [("result_type", Debug.debug shown a0), ("result_id", Debug.debug shown a1), ("operand1", Debug.debug shown a2), ("operand2", Debug.debug shown a3)]⟩

/-- src/spv/op.rs:1564-1570 -/
instance : Debug OpFOrdEqual :=
  ⟨fun shown ⟨a0, a1, a2, a3⟩ =>
    debugStruct "OpFOrdEqual" [("result_type", Debug.debug shown a0), ("result_id", Debug.debug shown a1), ("operand1", Debug.debug shown a2), ("operand2", Debug.debug shown a3)]⟩

/-- src/spv/op.rs:1574-1580 -/
instance : Debug OpFUnordEqual :=
  ⟨fun shown ⟨a0, a1, a2, a3⟩ =>
    debugStruct "OpFUnordEqual" [("result_type", Debug.debug shown a0), ("result_id", Debug.debug shown a1), ("operand1", Debug.debug shown a2), ("operand2", Debug.debug shown a3)]⟩

/-- src/spv/op.rs:1584-1590 -/
instance : Debug OpFOrdNotEqual :=
  ⟨fun shown ⟨a0, a1, a2, a3⟩ =>
    debugStruct "OpFOrdNotEqual" [("result_type", Debug.debug shown a0), ("result_id", Debug.debug shown a1), ("operand1", Debug.debug shown a2), ("operand2", Debug.debug shown a3)]⟩

/-- src/spv/op.rs:1594-1600 -/
instance : Debug OpFUnordNotEqual :=
  ⟨fun shown ⟨a0, a1, a2, a3⟩ =>
    debugStruct "OpFUnordNotEqual" [("result_type", Debug.debug shown a0), ("result_id", Debug.debug shown a1), ("operand1", Debug.debug shown a2), ("operand2", Debug.debug shown a3)]⟩

/-- src/spv/op.rs:1604-1610 -/
instance : Debug OpFOrdLessThan :=
  ⟨fun shown ⟨a0, a1, a2, a3⟩ =>
    debugStruct "OpFOrdLessThan" [("result_type", Debug.debug shown a0), ("result_id", Debug.debug shown a1), ("operand1", Debug.debug shown a2), ("operand2", Debug.debug shown a3)]⟩

/-- src/spv/op.rs:1614-1620 -/
instance : Debug OpFUnordLessThan :=
  ⟨fun shown ⟨a0, a1, a2, a3⟩ =>
    debugStruct "OpFUnordLessThan" [("result_type", Debug.debug shown a0), ("result_id", Debug.debug shown a1), ("operand1", Debug.debug shown a2), ("operand2", Debug.debug shown a3)]⟩

/-- src/spv/op.rs:1624-1630 -/
instance : Debug OpFOrdGreaterThan :=
  ⟨fun shown ⟨a0, a1, a2, a3⟩ =>
    debugStruct "OpFOrdGreaterThan" [("result_type", Debug.debug shown a0), ("result_id", Debug.debug shown a1), ("operand1", Debug.debug shown a2), ("operand2", Debug.debug shown a3)]⟩

/-- src/spv/op.rs:1634-1640 -/
instance : Debug OpFUnordGreaterThan :=
  ⟨fun shown ⟨a0, a1, a2, a3⟩ =>
    debugStruct "OpFUnordGreaterThan" [("result_type", Debug.debug shown a0), ("result_id", Debug.debug shown a1), ("operand1", Debug.debug shown a2), ("operand2", Debug.debug shown a3)]⟩

/-- src/spv/op.rs:1644-1650 -/
instance : Debug OpFOrdLessThanEqual :=
  ⟨fun shown ⟨a0, a1, a2, a3⟩ =>
    debugStruct "OpFOrdLessThanEqual" [("result_type", Debug.debug shown a0), ("result_id", Debug.debug shown a1), ("operand1", Debug.debug shown a2), ("operand2", Debug.debug shown a3)]⟩

/-- src/spv/op.rs:1654-1660 -/
instance : Debug OpFUnordLessThanEqual :=
  ⟨fun shown ⟨a0, a1, a2, a3⟩ =>
    debugStruct "OpFUnordLessThanEqual" [("result_type", Debug.debug shown a0), ("result_id", Debug.debug shown a1), ("operand1", Debug.debug shown a2), ("operand2", Debug.debug shown a3)]⟩

/-- src/spv/op.rs:1664-1670 -/
instance : Debug OpFOrdGreaterThanEqual :=
  ⟨fun shown ⟨a0, a1, a2, a3⟩ =>
    debugStruct "OpFOrdGreaterThanEqual" [("result_type", Debug.debug shown a0), ("result_id", Debug.debug shown a1), ("operand1", Debug.debug shown a2), ("operand2", Debug.debug shown a3)]⟩

/-- src/spv/op.rs:1674-1680 -/
instance : Debug OpFUnordGreaterThanEqual :=
  ⟨fun shown ⟨a0, a1, a2, a3⟩ =>
    debugStruct "OpFUnordGreaterThanEqual" [("result_type", Debug.debug shown a0), ("result_id", Debug.debug shown a1), ("operand1", Debug.debug shown a2), ("operand2", Debug.debug shown a3)]⟩

/-- src/spv/op.rs:1715-1720 -/
instance : Debug OpPhi :=
  ⟨fun shown ⟨a0, a1, a2⟩ =>
    debugStruct "OpPhi" [("result_type", Debug.debug shown a0), ("result_id", Debug.debug shown a1), ("variables", Debug.debug shown a2)]⟩

/-- src/spv/op.rs:1724-1729 -/
instance : Debug OpLoopMerge :=
  ⟨fun shown ⟨a0, a1, a2⟩ =>
    debugStruct "OpLoopMerge" [("merge_block", Debug.debug shown a0), ("continue_target", Debug.debug shown a1), ("loop_control", Debug.debug shown a2)]⟩

/-- src/spv/op.rs:1733-1737 -/
instance : Debug OpSelectionMerge :=
  ⟨fun shown ⟨a0, a1⟩ =>
    debugStruct "OpSelectionMerge" [("merge_block", Debug.debug shown a0), ("selection_control", Debug.debug shown a1)]⟩

/-- src/spv/op.rs:1741-1744 -/
instance : Debug OpLabel :=
  ⟨fun shown ⟨a0⟩ =>
    debugStruct "OpLabel" [("result_id", Debug.debug shown a0)]⟩

/-- src/spv/op.rs:1748-1751 -/
instance : Debug OpBranch :=
  ⟨fun shown ⟨a0⟩ =>
    debugStruct "OpBranch" [("target_label", Debug.debug shown a0)]⟩

/-- src/spv/op.rs:1755-1761 -/
instance : Debug OpBranchConditional :=
  ⟨fun shown ⟨a0, a1, a2, a3⟩ =>
    debugStruct "OpBranchConditional" [("condition", Debug.debug shown a0), ("true_label", Debug.debug shown a1), ("false_label", Debug.debug shown a2), ("weights", Debug.debug shown a3)]⟩

/-- src/spv/op.rs:1771-1772 -/
instance : Debug OpReturn :=
  ⟨fun _ _ =>
    debugTuple "OpReturn" []⟩

/-- src/spv/raw/mod.rs:52-152: the names of the variants -/
def Core.debugName {X : Type} : Core X → String
  | .OpNop _ => "OpNop"
  | .OpUndef _ => "OpUndef"
  | .OpSourceContinued _ => "OpSourceContinued"
  | .OpSource _ => "OpSource"
  | .OpSourceExtension _ => "OpSourceExtension"
  | .OpName _ => "OpName"
  | .OpMemberName _ => "OpMemberName"
  | .OpString _ => "OpString"
  | .OpExtension _ => "OpExtension"
  | .OpExtInstImport _ => "OpExtInstImport"
  | .OpExtInst _ => "OpExtInst"
  | .OpMemoryModel _ => "OpMemoryModel"
  | .OpEntryPoint _ => "OpEntryPoint"
  | .OpExecutionMode _ => "OpExecutionMode"
  | .OpCapability _ => "OpCapability"
  | .OpTypeVoid _ => "OpTypeVoid"
  | .OpTypeBool _ => "OpTypeBool"
  | .OpTypeInt _ => "OpTypeInt"
  | .OpTypeFloat _ => "OpTypeFloat"
  | .OpTypeVector _ => "OpTypeVector"
  | .OpTypeMatrix _ => "OpTypeMatrix"
  | .OpTypeImage _ => "OpTypeImage"
  | .OpTypeSampler _ => "OpTypeSampler"
  | .OpTypeSampledImage _ => "OpTypeSampledImage"
  | .OpTypeArray _ => "OpTypeArray"
  | .OpTypeRuntimeArray _ => "OpTypeRuntimeArray"
  | .OpTypeStruct _ => "OpTypeStruct"
  | .OpTypeOpaque _ => "OpTypeOpaque"
  | .OpTypePointer _ => "OpTypePointer"
  | .OpTypeFunction _ => "OpTypeFunction"
  | .OpTypeEvent _ => "OpTypeEvent"
  | .OpTypeDeviceEvent _ => "OpTypeDeviceEvent"
  | .OpTypeQueue _ => "OpTypeQueue"
  | .OpTypePipe _ => "OpTypePipe"
  | .OpTypeForwardPointer _ => "OpTypeForwardPointer"
  | .OpConstant _ => "OpConstant"
  | .OpConstantComposite _ => "OpConstantComposite"
  | .OpFunction _ => "OpFunction"
  | .OpFunctionParameter _ => "OpFunctionParameter"
  | .OpFunctionEnd _ => "OpFunctionEnd"
  | .OpVariable _ => "OpVariable"
  | .OpLoad _ => "OpLoad"
  | .OpStore _ => "OpStore"
  | .OpAccessChain _ => "OpAccessChain"
  | .OpDecorate _ => "OpDecorate"
  | .OpMemberDecorate _ => "OpMemberDecorate"
  | .OpConvertUToF _ => "OpConvertUToF"
  | .OpBitcast _ => "OpBitcast"
  | .OpIAdd _ => "OpIAdd"
  | .OpFAdd _ => "OpFAdd"
  | .OpISub _ => "OpISub"
  | .OpFSub _ => "OpFSub"
  | .OpIMul _ => "OpIMul"
  | .OpFMul _ => "OpFMul"
  | .OpUDiv _ => "OpUDiv"
  | .OpSDiv _ => "OpSDiv"
  | .OpFDiv _ => "OpFDiv"
  | .OpUMod _ => "OpUMod"
  | .OpSRem _ => "OpSRem"
  | .OpSMod _ => "OpSMod"
  | .OpFRem _ => "OpFRem"
  | .OpFMod _ => "OpFMod"
  | .OpIAddCarry _ => "OpIAddCarry"
  | .OpISubBorrow _ => "OpISubBorrow"
  | .OpUMulExtended _ => "OpUMulExtended"
  | .OpSMulExtended _ => "OpSMulExtended"
  | .OpBitwiseOr _ => "OpBitwiseOr"
  | .OpBitwiseXor _ => "OpBitwiseXor"
  | .OpBitwiseAnd _ => "OpBitwiseAnd"
  | .OpIEqual _ => "OpIEqual"
  | .OpINotEqual _ => "OpINotEqual"
  | .OpUGreaterThan _ => "OpUGreaterThan"
  | .OpSGreaterThan _ => "OpSGreaterThan"
  | .OpUGreaterThanEqual _ => "OpUGreaterThanEqual"
  | .OpSGreaterThanEqual _ => "OpSGreaterThanEqual"
  | .OpULessThan _ => "OpULessThan"
  | .OpSLessThan _ => "OpSLessThan"
  | .OpULessThanEqual _ => "OpULessThanEqual"
  | .OpSLessThanEqual _ => "OpSLessThanEqual"
  | .OpFOrdEqual _ => "OpFOrdEqual"
  | .OpFUnordEqual _ => "OpFUnordEqual"
  | .OpFOrdNotEqual _ => "OpFOrdNotEqual"
  | .OpFUnordNotEqual _ => "OpFUnordNotEqual"
  | .OpFOrdLessThan _ => "OpFOrdLessThan"
  | .OpFUnordLessThan _ => "OpFUnordLessThan"
  | .OpFOrdGreaterThan _ => "OpFOrdGreaterThan"
  | .OpFUnordGreaterThan _ => "OpFUnordGreaterThan"
  | .OpFOrdLessThanEqual _ => "OpFOrdLessThanEqual"
  | .OpFUnordLessThanEqual _ => "OpFUnordLessThanEqual"
  | .OpFOrdGreaterThanEqual _ => "OpFOrdGreaterThanEqual"
  | .OpFUnordGreaterThanEqual _ => "OpFUnordGreaterThanEqual"
  | .OpPhi _ => "OpPhi"
  | .OpLoopMerge _ => "OpLoopMerge"
  | .OpSelectionMerge _ => "OpSelectionMerge"
  | .OpLabel _ => "OpLabel"
  | .OpBranch _ => "OpBranch"
  | .OpBranchConditional _ => "OpBranchConditional"
  | .OpReturn _ => "OpReturn"

/-- src/spv/raw/mod.rs:52-152: the fields of the variants -/
def Core.debugFields {X : Type} [Debug X] (shown : Char → Bool) : Core X → List Text
  | .OpNop a0 => [Debug.debug shown a0]
  | .OpUndef a0 => [Debug.debug shown a0]
  | .OpSourceContinued a0 => [Debug.debug shown a0]
  | .OpSource a0 => [Debug.debug shown a0]
  | .OpSourceExtension a0 => [Debug.debug shown a0]
  | .OpName a0 => [Debug.debug shown a0]
  | .OpMemberName a0 => [Debug.debug shown a0]
  | .OpString a0 => [Debug.debug shown a0]
  | .OpExtension a0 => [Debug.debug shown a0]
  | .OpExtInstImport a0 => [Debug.debug shown a0]
  | .OpExtInst a0 => [Debug.debug shown a0]
  | .OpMemoryModel a0 => [Debug.debug shown a0]
  | .OpEntryPoint a0 => [Debug.debug shown a0]
  | .OpExecutionMode a0 => [Debug.debug shown a0]
  | .OpCapability a0 => [Debug.debug shown a0]
  | .OpTypeVoid a0 => [Debug.debug shown a0]
  | .OpTypeBool a0 => [Debug.debug shown a0]
  | .OpTypeInt a0 => [Debug.debug shown a0]
  | .OpTypeFloat a0 => [Debug.debug shown a0]
  | .OpTypeVector a0 => [Debug.debug shown a0]
  | .OpTypeMatrix a0 => [Debug.debug shown a0]
  | .OpTypeImage a0 => [Debug.debug shown a0]
  | .OpTypeSampler a0 => [Debug.debug shown a0]
  | .OpTypeSampledImage a0 => [Debug.debug shown a0]
  | .OpTypeArray a0 => [Debug.debug shown a0]
  | .OpTypeRuntimeArray a0 => [Debug.debug shown a0]
  | .OpTypeStruct a0 => [Debug.debug shown a0]
  | .OpTypeOpaque a0 => [Debug.debug shown a0]
  | .OpTypePointer a0 => [Debug.debug shown a0]
  | .OpTypeFunction a0 => [Debug.debug shown a0]
  | .OpTypeEvent a0 => [Debug.debug shown a0]
  | .OpTypeDeviceEvent a0 => [Debug.debug shown a0]
  | .OpTypeQueue a0 => [Debug.debug shown a0]
  | .OpTypePipe a0 => [Debug.debug shown a0]
  | .OpTypeForwardPointer a0 => [Debug.debug shown a0]
  | .OpConstant a0 => [Debug.debug shown a0]
  | .OpConstantComposite a0 => [Debug.debug shown a0]
  | .OpFunction a0 => [Debug.debug shown a0]
  | .OpFunctionParameter a0 => [Debug.debug shown a0]
  | .OpFunctionEnd a0 => [Debug.debug shown a0]
  | .OpVariable a0 => [Debug.debug shown a0]
  | .OpLoad a0 => [Debug.debug shown a0]
  | .OpStore a0 => [Debug.debug shown a0]
  | .OpAccessChain a0 => [Debug.debug shown a0]
  | .OpDecorate a0 => [Debug.debug shown a0]
  | .OpMemberDecorate a0 => [Debug.debug shown a0]
  | .OpConvertUToF a0 => [Debug.debug shown a0]
  | .OpBitcast a0 => [Debug.debug shown a0]
  | .OpIAdd a0 => [Debug.debug shown a0]
  | .OpFAdd a0 => [Debug.debug shown a0]
  | .OpISub a0 => [Debug.debug shown a0]
  | .OpFSub a0 => [Debug.debug shown a0]
  | .OpIMul a0 => [Debug.debug shown a0]
  | .OpFMul a0 => [Debug.debug shown a0]
  | .OpUDiv a0 => [Debug.debug shown a0]
  | .OpSDiv a0 => [Debug.debug shown a0]
  | .OpFDiv a0 => [Debug.debug shown a0]
  | .OpUMod a0 => [Debug.debug shown a0]
  | .OpSRem a0 => [Debug.debug shown a0]
  | .OpSMod a0 => [Debug.debug shown a0]
  | .OpFRem a0 => [Debug.debug shown a0]
  | .OpFMod a0 => [Debug.debug shown a0]
  | .OpIAddCarry a0 => [Debug.debug shown a0]
  | .OpISubBorrow a0 => [Debug.debug shown a0]
  | .OpUMulExtended a0 => [Debug.debug shown a0]
  | .OpSMulExtended a0 => [Debug.debug shown a0]
  | .OpBitwiseOr a0 => [Debug.debug shown a0]
  | .OpBitwiseXor a0 => [Debug.debug shown a0]
  | .OpBitwiseAnd a0 => [Debug.debug shown a0]
  | .OpIEqual a0 => [Debug.debug shown a0]
  | .OpINotEqual a0 => [Debug.debug shown a0]
  | .OpUGreaterThan a0 => [Debug.debug shown a0]
  | .OpSGreaterThan a0 => [Debug.debug shown a0]
  | .OpUGreaterThanEqual a0 => [Debug.debug shown a0]
  | .OpSGreaterThanEqual a0 => [Debug.debug shown a0]
  | .OpULessThan a0 => [Debug.debug shown a0]
  | .OpSLessThan a0 => [Debug.debug shown a0]
  | .OpULessThanEqual a0 => [Debug.debug shown a0]
  | .OpSLessThanEqual a0 => [Debug.debug shown a0]
  | .OpFOrdEqual a0 => [Debug.debug shown a0]
  | .OpFUnordEqual a0 => [Debug.debug shown a0]
  | .OpFOrdNotEqual a0 => [Debug.debug shown a0]
  | .OpFUnordNotEqual a0 => [Debug.debug shown a0]
  | .OpFOrdLessThan a0 => [Debug.debug shown a0]
  | .OpFUnordLessThan a0 => [Debug.debug shown a0]
  | .OpFOrdGreaterThan a0 => [Debug.debug shown a0]
  | .OpFUnordGreaterThan a0 => [Debug.debug shown a0]
  | .OpFOrdLessThanEqual a0 => [Debug.debug shown a0]
  | .OpFUnordLessThanEqual a0 => [Debug.debug shown a0]
  | .OpFOrdGreaterThanEqual a0 => [Debug.debug shown a0]
  | .OpFUnordGreaterThanEqual a0 => [Debug.debug shown a0]
  | .OpPhi a0 => [Debug.debug shown a0]
  | .OpLoopMerge a0 => [Debug.debug shown a0]
  | .OpSelectionMerge a0 => [Debug.debug shown a0]
  | .OpLabel a0 => [Debug.debug shown a0]
  | .OpBranch a0 => [Debug.debug shown a0]
  | .OpBranchConditional a0 => [Debug.debug shown a0]
  | .OpReturn a0 => [Debug.debug shown a0]

/-- src/spv/raw/mod.rs:52-152 -/
instance {X : Type} [Debug X] : Debug (Core X) := ⟨fun shown x => debugTuple x.debugName (x.debugFields shown)⟩

/-- src/spv/raw/mod.rs:15-25 -/
instance {X : Type} [Debug X] : Debug (RawModule X) :=
  ⟨fun shown ⟨a0, a1, a2, a3⟩ =>
    debugStruct "RawModule" [("version", Debug.debug shown a0), ("generator", Debug.debug shown a1), ("bound", Debug.debug shown a2), ("instructions", Debug.debug shown a3)]⟩

end Magma
