import Verif.Model.Types
/-! Generated by `tools/gen.py` from the Rust source; citations are to `/repo`. -/

namespace Magma

/-- src/spv/op.rs:12 -/
structure OpNop where
  deriving DecidableEq, Repr

/-- src/spv/op.rs:17-20 -/
structure OpUndef where
  result_type : OpId
  result_id : ResultId
  deriving DecidableEq, Repr

/-- src/spv/op.rs:27-29 -/
structure OpSourceContinued where
  continued_source : String
  deriving DecidableEq, Repr

/-- src/spv/op.rs:34-39 -/
structure OpSource where
  language : SourceLanguage
  version : SourceVersion
  file : Option OpId
  source : Option String
  deriving DecidableEq, Repr

/-- src/spv/op.rs:44-46 -/
structure OpSourceExtension where
  extension : String
  deriving DecidableEq, Repr

/-- src/spv/op.rs:51-54 -/
structure OpName where
  target : OpId
  name : String
  deriving DecidableEq, Repr

/-- src/spv/op.rs:59-63 -/
structure OpMemberName where
  struct_type : OpId
  member : MemberIndex
  name : String
  deriving DecidableEq, Repr

/-- src/spv/op.rs:68-71 -/
structure OpString where
  result_id : ResultId
  string : String
  deriving DecidableEq, Repr

/-- src/spv/op.rs:132-134 -/
structure OpExtension where
  name : String
  deriving DecidableEq, Repr

/-- src/spv/op.rs:139-142 -/
structure OpExtInstImport where
  result_id : ResultId
  name : String
  deriving DecidableEq, Repr

/-- src/spv/op.rs:147-152 -/
structure OpExtInst (X : Type) where
  result_type : OpId
  result_id : ResultId
  set : OpId
  instruction : X
  deriving DecidableEq, Repr

/-- src/spv/op.rs:159-162 -/
structure OpMemoryModel where
  addressing_model : AddressingModel
  memory_model : MemoryModel
  deriving DecidableEq, Repr

/-- src/spv/op.rs:167-172 -/
structure OpEntryPoint where
  execution_model : ExecutionModel
  entry_point : OpId
  name : String
  interface : List OpId
  deriving DecidableEq, Repr

/-- src/spv/op.rs:177-180 -/
structure OpExecutionMode where
  entry_point : OpId
  mode : ExecutionMode
  deriving DecidableEq, Repr

/-- src/spv/op.rs:185-187 -/
structure OpCapability where
  capability : Capability
  deriving DecidableEq, Repr

/-- src/spv/op.rs:194-196 -/
structure OpTypeVoid where
  result_id : ResultId
  deriving DecidableEq, Repr

/-- src/spv/op.rs:201-203 -/
structure OpTypeBool where
  result_id : ResultId
  deriving DecidableEq, Repr

/-- src/spv/op.rs:208-212 -/
structure OpTypeInt where
  result_id : ResultId
  width : UInt32
  signedness : Signedness
  deriving DecidableEq, Repr

/-- src/spv/op.rs:217-220 -/
structure OpTypeFloat where
  result_id : ResultId
  width : UInt32
  deriving DecidableEq, Repr

/-- src/spv/op.rs:225-229 -/
structure OpTypeVector where
  result_id : ResultId
  component_type : OpId
  component_count : UInt32
  deriving DecidableEq, Repr

/-- src/spv/op.rs:234-238 -/
structure OpTypeMatrix where
  result_id : ResultId
  column_type : OpId
  column_count : UInt32
  deriving DecidableEq, Repr

/-- src/spv/op.rs:243-253 -/
structure OpTypeImage where
  result_id : ResultId
  sampled_type : OpId
  dim : Dim
  depth : DepthStatus
  arrayed : Arrayed
  ms : MS
  sampled : SampledStatus
  format : ImageFormat
  access_qualifier : Option AccessQualifier
  deriving DecidableEq, Repr

/-- src/spv/op.rs:267-269 -/
structure OpTypeSampler where
  result_id : ResultId
  deriving DecidableEq, Repr

/-- src/spv/op.rs:274-277 -/
structure OpTypeSampledImage where
  result_id : ResultId
  image_type : OpId
  deriving DecidableEq, Repr

/-- src/spv/op.rs:282-286 -/
structure OpTypeArray where
  result_id : ResultId
  element_type : OpId
  length : OpId
  deriving DecidableEq, Repr

/-- src/spv/op.rs:291-294 -/
structure OpTypeRuntimeArray where
  result_id : ResultId
  element_type : OpId
  deriving DecidableEq, Repr

/-- src/spv/op.rs:299-302 -/
structure OpTypeStruct where
  result_id : ResultId
  member_types : List OpId
  deriving DecidableEq, Repr

/-- src/spv/op.rs:307-310 -/
structure OpTypeOpaque where
  result_id : ResultId
  name : String
  deriving DecidableEq, Repr

/-- src/spv/op.rs:315-319 -/
structure OpTypePointer where
  result_id : ResultId
  storage_class : StorageClass
  pointed_type : OpId
  deriving DecidableEq, Repr

/-- src/spv/op.rs:324-328 -/
structure OpTypeFunction where
  result_id : ResultId
  return_type : OpId
  parameter_types : List OpId
  deriving DecidableEq, Repr

/-- src/spv/op.rs:333-335 -/
structure OpTypeEvent where
  result_id : ResultId
  deriving DecidableEq, Repr

/-- src/spv/op.rs:340-342 -/
structure OpTypeDeviceEvent where
  result_id : ResultId
  deriving DecidableEq, Repr

/-- src/spv/op.rs:354-356 -/
structure OpTypeQueue where
  result_id : ResultId
  deriving DecidableEq, Repr

/-- src/spv/op.rs:361-364 -/
structure OpTypePipe where
  result_id : ResultId
  access_qualifier : AccessQualifier
  deriving DecidableEq, Repr

/-- src/spv/op.rs:369-372 -/
structure OpTypeForwardPointer where
  pointer_type : OpId
  storage_class : StorageClass
  deriving DecidableEq, Repr

/-- src/spv/op.rs:395-399 -/
structure OpConstant where
  result_type : OpId
  result_id : ResultId
  value : List UInt32
  deriving DecidableEq, Repr

/-- src/spv/op.rs:404-408 -/
structure OpConstantComposite where
  result_type : OpId
  result_id : ResultId
  constituents : List OpId
  deriving DecidableEq, Repr

/-- src/spv/op.rs:590-595 -/
structure OpFunction where
  result_type : OpId
  result_id : ResultId
  function_control : FunctionControl
  function_type : OpId
  deriving DecidableEq, Repr

/-- src/spv/op.rs:600-603 -/
structure OpFunctionParameter where
  result_type : OpId
  result_id : ResultId
  deriving DecidableEq, Repr

/-- src/spv/op.rs:608 -/
structure OpFunctionEnd where
  deriving DecidableEq, Repr

/-- src/spv/op.rs:468-473 -/
structure OpVariable where
  result_type : OpId
  result_id : ResultId
  storage_class : StorageClass
  initializer : Option OpId
  deriving DecidableEq, Repr

/-- src/spv/op.rs:489-494 -/
structure OpLoad where
  result_type : OpId
  result_id : ResultId
  pointer : OpId
  memory_access : Option MemoryAccess
  deriving DecidableEq, Repr

/-- src/spv/op.rs:499-503 -/
structure OpStore where
  pointer : OpId
  object : OpId
  memory_access : Option MemoryAccess
  deriving DecidableEq, Repr

/-- src/spv/op.rs:527-532 -/
structure OpAccessChain where
  result_type : OpId
  result_id : ResultId
  base : OpId
  indexes : List OpId
  deriving DecidableEq, Repr

/-- src/spv/op.rs:92-95 -/
structure OpDecorate where
  target : OpId
  decoration : Decoration
  deriving DecidableEq, Repr

/-- src/spv/op.rs:100-104 -/
structure OpMemberDecorate where
  structure_type : OpId
  member : MemberIndex
  decoration : Decoration
  deriving DecidableEq, Repr

/-- src/spv/op.rs:859-863 -/
structure OpConvertUToF where
  result_type : OpId
  result_id : ResultId
  unsigned_value : OpId
  deriving DecidableEq, Repr

/-- src/spv/op.rs:968-972 -/
structure OpBitcast where
  result_type : OpId
  result_id : ResultId
  operand : OpId
  deriving DecidableEq, Repr

/-- src/spv/op.rs:1079-1084 -/
structure OpIAdd where
  result_type : OpId
  result_id : ResultId
  operand1 : OpId
  operand2 : OpId
  deriving DecidableEq, Repr

/-- src/spv/op.rs:1089-1094 -/
structure OpFAdd where
  result_type : OpId
  result_id : ResultId
  operand1 : OpId
  operand2 : OpId
  deriving DecidableEq, Repr

/-- src/spv/op.rs:1099-1104 -/
structure OpISub where
  result_type : OpId
  result_id : ResultId
  operand1 : OpId
  operand2 : OpId
  deriving DecidableEq, Repr

/-- src/spv/op.rs:1109-1114 -/
structure OpFSub where
  result_type : OpId
  result_id : ResultId
  operand1 : OpId
  operand2 : OpId
  deriving DecidableEq, Repr

/-- src/spv/op.rs:1119-1124 -/
structure OpIMul where
  result_type : OpId
  result_id : ResultId
  operand1 : OpId
  operand2 : OpId
  deriving DecidableEq, Repr

/-- src/spv/op.rs:1129-1134 -/
structure OpFMul where
  result_type : OpId
  result_id : ResultId
  operand1 : OpId
  operand2 : OpId
  deriving DecidableEq, Repr

/-- src/spv/op.rs:1139-1144 -/
structure OpUDiv where
  result_type : OpId
  result_id : ResultId
  operand1 : OpId
  operand2 : OpId
  deriving DecidableEq, Repr

/-- src/spv/op.rs:1149-1154 -/
structure OpSDiv where
  result_type : OpId
  result_id : ResultId
  operand1 : OpId
  operand2 : OpId
  deriving DecidableEq, Repr

/-- src/spv/op.rs:1159-1164 -/
structure OpFDiv where
  result_type : OpId
  result_id : ResultId
  operand1 : OpId
  operand2 : OpId
  deriving DecidableEq, Repr

/-- src/spv/op.rs:1169-1174 -/
structure OpUMod where
  result_type : OpId
  result_id : ResultId
  operand1 : OpId
  operand2 : OpId
  deriving DecidableEq, Repr

/-- src/spv/op.rs:1179-1184 -/
structure OpSRem where
  result_type : OpId
  result_id : ResultId
  operand1 : OpId
  operand2 : OpId
  deriving DecidableEq, Repr

/-- src/spv/op.rs:1189-1194 -/
structure OpSMod where
  result_type : OpId
  result_id : ResultId
  operand1 : OpId
  operand2 : OpId
  deriving DecidableEq, Repr

/-- src/spv/op.rs:1199-1204 -/
structure OpFRem where
  result_type : OpId
  result_id : ResultId
  operand1 : OpId
  operand2 : OpId
  deriving DecidableEq, Repr

/-- src/spv/op.rs:1209-1214 -/
structure OpFMod where
  result_type : OpId
  result_id : ResultId
  operand1 : OpId
  operand2 : OpId
  deriving DecidableEq, Repr

/-- src/spv/op.rs:1289-1294 -/
structure OpIAddCarry where
  result_type : OpId
  result_id : ResultId
  operand1 : OpId
  operand2 : OpId
  deriving DecidableEq, Repr

/-- src/spv/op.rs:1299-1304 -/
structure OpISubBorrow where
  result_type : OpId
  result_id : ResultId
  operand1 : OpId
  operand2 : OpId
  deriving DecidableEq, Repr

/-- src/spv/op.rs:1309-1314 -/
structure OpUMulExtended where
  result_type : OpId
  result_id : ResultId
  operand1 : OpId
  operand2 : OpId
  deriving DecidableEq, Repr

/-- src/spv/op.rs:1319-1324 -/
structure OpSMulExtended where
  result_type : OpId
  result_id : ResultId
  operand1 : OpId
  operand2 : OpId
  deriving DecidableEq, Repr

/-- src/spv/op.rs:1361-1366 -/
structure OpBitwiseOr where
  result_type : OpId
  result_id : ResultId
  operand1 : OpId
  operand2 : OpId
  deriving DecidableEq, Repr

/-- src/spv/op.rs:1371-1376 -/
structure OpBitwiseXor where
  result_type : OpId
  result_id : ResultId
  operand1 : OpId
  operand2 : OpId
  deriving DecidableEq, Repr

/-- src/spv/op.rs:1381-1386 -/
structure OpBitwiseAnd where
  result_type : OpId
  result_id : ResultId
  operand1 : OpId
  operand2 : OpId
  deriving DecidableEq, Repr

/-- src/spv/op.rs:1465-1470 -/
structure OpIEqual where
  result_type : OpId
  result_id : ResultId
  operand1 : OpId
  operand2 : OpId
  deriving DecidableEq, Repr

/-- src/spv/op.rs:1475-1480 -/
structure OpINotEqual where
  result_type : OpId
  result_id : ResultId
  operand1 : OpId
  operand2 : OpId
  deriving DecidableEq, Repr

/-- src/spv/op.rs:1485-1490 -/
structure OpUGreaterThan where
  result_type : OpId
  result_id : ResultId
  operand1 : OpId
  operand2 : OpId
  deriving DecidableEq, Repr

/-- src/spv/op.rs:1495-1500 -/
structure OpSGreaterThan where
  result_type : OpId
  result_id : ResultId
  operand1 : OpId
  operand2 : OpId
  deriving DecidableEq, Repr

/-- src/spv/op.rs:1505-1510 -/
structure OpUGreaterThanEqual where
  result_type : OpId
  result_id : ResultId
  operand1 : OpId
  operand2 : OpId
  deriving DecidableEq, Repr

/-- src/spv/op.rs:1515-1520 -/
structure OpSGreaterThanEqual where
  result_type : OpId
  result_id : ResultId
  operand1 : OpId
  operand2 : OpId
  deriving DecidableEq, Repr

/-- src/spv/op.rs:1525-1530 -/
structure OpULessThan where
  result_type : OpId
  result_id : ResultId
  operand1 : OpId
  operand2 : OpId
  deriving DecidableEq, Repr

/-- src/spv/op.rs:1535-1540 -/
structure OpSLessThan where
  result_type : OpId
  result_id : ResultId
  operand1 : OpId
  operand2 : OpId
  deriving DecidableEq, Repr

/-- src/spv/op.rs:1545-1550 -/
structure OpULessThanEqual where
  result_type : OpId
  result_id : ResultId
  operand1 : OpId
  operand2 : OpId
  deriving DecidableEq, Repr

/-- src/spv/op.rs:1555-1560 -/
structure OpSLessThanEqual where
  result_type : OpId
  result_id : ResultId
  operand1 : OpId
  operand2 : OpId
  deriving DecidableEq, Repr

/-- src/spv/op.rs:1565-1570 -/
structure OpFOrdEqual where
  result_type : OpId
  result_id : ResultId
  operand1 : OpId
  operand2 : OpId
  deriving DecidableEq, Repr

/-- src/spv/op.rs:1575-1580 -/
structure OpFUnordEqual where
  result_type : OpId
  result_id : ResultId
  operand1 : OpId
  operand2 : OpId
  deriving DecidableEq, Repr

/-- src/spv/op.rs:1585-1590 -/
structure OpFOrdNotEqual where
  result_type : OpId
  result_id : ResultId
  operand1 : OpId
  operand2 : OpId
  deriving DecidableEq, Repr

/-- src/spv/op.rs:1595-1600 -/
structure OpFUnordNotEqual where
  result_type : OpId
  result_id : ResultId
  operand1 : OpId
  operand2 : OpId
  deriving DecidableEq, Repr

/-- src/spv/op.rs:1605-1610 -/
structure OpFOrdLessThan where
  result_type : OpId
  result_id : ResultId
  operand1 : OpId
  operand2 : OpId
  deriving DecidableEq, Repr

/-- src/spv/op.rs:1615-1620 -/
structure OpFUnordLessThan where
  result_type : OpId
  result_id : ResultId
  operand1 : OpId
  operand2 : OpId
  deriving DecidableEq, Repr

/-- src/spv/op.rs:1625-1630 -/
structure OpFOrdGreaterThan where
  result_type : OpId
  result_id : ResultId
  operand1 : OpId
  operand2 : OpId
  deriving DecidableEq, Repr

/-- src/spv/op.rs:1635-1640 -/
structure OpFUnordGreaterThan where
  result_type : OpId
  result_id : ResultId
  operand1 : OpId
  operand2 : OpId
  deriving DecidableEq, Repr

/-- src/spv/op.rs:1645-1650 -/
structure OpFOrdLessThanEqual where
  result_type : OpId
  result_id : ResultId
  operand1 : OpId
  operand2 : OpId
  deriving DecidableEq, Repr

/-- src/spv/op.rs:1655-1660 -/
structure OpFUnordLessThanEqual where
  result_type : OpId
  result_id : ResultId
  operand1 : OpId
  operand2 : OpId
  deriving DecidableEq, Repr

/-- src/spv/op.rs:1665-1670 -/
structure OpFOrdGreaterThanEqual where
  result_type : OpId
  result_id : ResultId
  operand1 : OpId
  operand2 : OpId
  deriving DecidableEq, Repr

/-- src/spv/op.rs:1675-1680 -/
structure OpFUnordGreaterThanEqual where
  result_type : OpId
  result_id : ResultId
  operand1 : OpId
  operand2 : OpId
  deriving DecidableEq, Repr

/-- src/spv/op.rs:1716-1720 -/
structure OpPhi where
  result_type : OpId
  result_id : ResultId
  variables : List PhiArg
  deriving DecidableEq, Repr

/-- src/spv/op.rs:1725-1729 -/
structure OpLoopMerge where
  merge_block : OpId
  continue_target : OpId
  loop_control : LoopControl
  deriving DecidableEq, Repr

/-- src/spv/op.rs:1734-1737 -/
structure OpSelectionMerge where
  merge_block : OpId
  selection_control : SelectionControl
  deriving DecidableEq, Repr

/-- src/spv/op.rs:1742-1744 -/
structure OpLabel where
  result_id : ResultId
  deriving DecidableEq, Repr

/-- src/spv/op.rs:1749-1751 -/
structure OpBranch where
  target_label : OpId
  deriving DecidableEq, Repr

/-- src/spv/op.rs:1756-1761 -/
structure OpBranchConditional where
  condition : OpId
  true_label : OpId
  false_label : OpId
  weights : Option BranchWeights
  deriving DecidableEq, Repr

/-- src/spv/op.rs:1772 -/
structure OpReturn where
  deriving DecidableEq, Repr

/-- src/spv/raw/mod.rs:53-152; `X` is the type of boxed extended instructions (`ExtInstBox`) -/
inductive Core (X : Type) where
  | OpNop (op : OpNop)
  | OpUndef (op : OpUndef)
  | OpSourceContinued (op : OpSourceContinued)
  | OpSource (op : OpSource)
  | OpSourceExtension (op : OpSourceExtension)
  | OpName (op : OpName)
  | OpMemberName (op : OpMemberName)
  | OpString (op : OpString)
  | OpExtension (op : OpExtension)
  | OpExtInstImport (op : OpExtInstImport)
  | OpExtInst (op : OpExtInst X)
  | OpMemoryModel (op : OpMemoryModel)
  | OpEntryPoint (op : OpEntryPoint)
  | OpExecutionMode (op : OpExecutionMode)
  | OpCapability (op : OpCapability)
  | OpTypeVoid (op : OpTypeVoid)
  | OpTypeBool (op : OpTypeBool)
  | OpTypeInt (op : OpTypeInt)
  | OpTypeFloat (op : OpTypeFloat)
  | OpTypeVector (op : OpTypeVector)
  | OpTypeMatrix (op : OpTypeMatrix)
  | OpTypeImage (op : OpTypeImage)
  | OpTypeSampler (op : OpTypeSampler)
  | OpTypeSampledImage (op : OpTypeSampledImage)
  | OpTypeArray (op : OpTypeArray)
  | OpTypeRuntimeArray (op : OpTypeRuntimeArray)
  | OpTypeStruct (op : OpTypeStruct)
  | OpTypeOpaque (op : OpTypeOpaque)
  | OpTypePointer (op : OpTypePointer)
  | OpTypeFunction (op : OpTypeFunction)
  | OpTypeEvent (op : OpTypeEvent)
  | OpTypeDeviceEvent (op : OpTypeDeviceEvent)
  | OpTypeQueue (op : OpTypeQueue)
  | OpTypePipe (op : OpTypePipe)
  | OpTypeForwardPointer (op : OpTypeForwardPointer)
  | OpConstant (op : OpConstant)
  | OpConstantComposite (op : OpConstantComposite)
  | OpFunction (op : OpFunction)
  | OpFunctionParameter (op : OpFunctionParameter)
  | OpFunctionEnd (op : OpFunctionEnd)
  | OpVariable (op : OpVariable)
  | OpLoad (op : OpLoad)
  | OpStore (op : OpStore)
  | OpAccessChain (op : OpAccessChain)
  | OpDecorate (op : OpDecorate)
  | OpMemberDecorate (op : OpMemberDecorate)
  | OpConvertUToF (op : OpConvertUToF)
  | OpBitcast (op : OpBitcast)
  | OpIAdd (op : OpIAdd)
  | OpFAdd (op : OpFAdd)
  | OpISub (op : OpISub)
  | OpFSub (op : OpFSub)
  | OpIMul (op : OpIMul)
  | OpFMul (op : OpFMul)
  | OpUDiv (op : OpUDiv)
  | OpSDiv (op : OpSDiv)
  | OpFDiv (op : OpFDiv)
  | OpUMod (op : OpUMod)
  | OpSRem (op : OpSRem)
  | OpSMod (op : OpSMod)
  | OpFRem (op : OpFRem)
  | OpFMod (op : OpFMod)
  | OpIAddCarry (op : OpIAddCarry)
  | OpISubBorrow (op : OpISubBorrow)
  | OpUMulExtended (op : OpUMulExtended)
  | OpSMulExtended (op : OpSMulExtended)
  | OpBitwiseOr (op : OpBitwiseOr)
  | OpBitwiseXor (op : OpBitwiseXor)
  | OpBitwiseAnd (op : OpBitwiseAnd)
  | OpIEqual (op : OpIEqual)
  | OpINotEqual (op : OpINotEqual)
  | OpUGreaterThan (op : OpUGreaterThan)
  | OpSGreaterThan (op : OpSGreaterThan)
  | OpUGreaterThanEqual (op : OpUGreaterThanEqual)
  | OpSGreaterThanEqual (op : OpSGreaterThanEqual)
  | OpULessThan (op : OpULessThan)
  | OpSLessThan (op : OpSLessThan)
  | OpULessThanEqual (op : OpULessThanEqual)
  | OpSLessThanEqual (op : OpSLessThanEqual)
  | OpFOrdEqual (op : OpFOrdEqual)
  | OpFUnordEqual (op : OpFUnordEqual)
  | OpFOrdNotEqual (op : OpFOrdNotEqual)
  | OpFUnordNotEqual (op : OpFUnordNotEqual)
  | OpFOrdLessThan (op : OpFOrdLessThan)
  | OpFUnordLessThan (op : OpFUnordLessThan)
  | OpFOrdGreaterThan (op : OpFOrdGreaterThan)
  | OpFUnordGreaterThan (op : OpFUnordGreaterThan)
  | OpFOrdLessThanEqual (op : OpFOrdLessThanEqual)
  | OpFUnordLessThanEqual (op : OpFUnordLessThanEqual)
  | OpFOrdGreaterThanEqual (op : OpFOrdGreaterThanEqual)
  | OpFUnordGreaterThanEqual (op : OpFUnordGreaterThanEqual)
  | OpPhi (op : OpPhi)
  | OpLoopMerge (op : OpLoopMerge)
  | OpSelectionMerge (op : OpSelectionMerge)
  | OpLabel (op : OpLabel)
  | OpBranch (op : OpBranch)
  | OpBranchConditional (op : OpBranchConditional)
  | OpReturn (op : OpReturn)
  deriving DecidableEq

/-- src/spv/raw/mod.rs:16-25 -/
structure RawModule (X : Type) where
  version : Version
  generator : Generator
  bound : UInt32
  instructions : List (Core X)
  deriving DecidableEq

end Magma
