import Verif.Model.Display
/-! Generated by `tools/gen_unread.py` from the Rust source; citations are to `/repo`. The instructions that have a
printer but are not in `Core`: `read_module` never returns them, a client of the crate can build and print them. -/

namespace Magma

/-- src/spv/types.rs:126-128 -/
structure Line where
  val : UInt32
  deriving DecidableEq, Repr

/-- src/spv/types.rs:130-134 -/
instance : Display Line := ⟨fun x => Display.fmt x.val⟩

/-- src/spv/types.rs:138-140 -/
structure Column where
  val : UInt32
  deriving DecidableEq, Repr

/-- src/spv/types.rs:142-146 -/
instance : Display Column := ⟨fun x => Display.fmt x.val⟩

/-- src/spv/types.rs:1035-1042 -/
inductive SamplerAddressingMode where
  | None
  | ClampToEdge
  | Clamp
  | Repeat
  | RepeatMirrored
  deriving DecidableEq, Repr

/-- src/spv/types.rs:1044-1055 -/
instance : Display SamplerAddressingMode where
  fmt x := match x with
    | .None => "None".toList
    | .ClampToEdge => "ClampToEdge".toList
    | .Clamp => "Clamp".toList
    | .Repeat => "Repeat".toList
    | .RepeatMirrored => "RepeatMirrored".toList

/-- src/spv/types.rs:1059-1063 -/
inductive SamplerParam where
  | NonNormalized
  | Normalized
  deriving DecidableEq, Repr

/-- src/spv/types.rs:1065-1073 -/
instance : Display SamplerParam where
  fmt x := match x with
    | .NonNormalized => "0".toList
    | .Normalized => "1".toList

/-- src/spv/types.rs:1077-1081 -/
inductive SamplerFilterMode where
  | Nearest
  | Linear
  deriving DecidableEq, Repr

/-- src/spv/types.rs:1083-1091 -/
instance : Display SamplerFilterMode where
  fmt x := match x with
    | .Nearest => "Nearest".toList
    | .Linear => "Linear".toList

/-- src/spv/op.rs:76-80 -/
structure OpLine where
  file : OpId
  line : Line
  column : Column
  deriving DecidableEq, Repr

/-- src/spv/op.rs:82 (macro src/spv/dis.rs:92-119) -/
instance : Display OpLine where
  fmt op := fmtNoResult ++ "OpLine".toList ++ FormatArg.formatArg op.file ++ FormatArg.formatArg op.line ++ FormatArg.formatArg op.column

/-- src/spv/op.rs:85-85 -/
structure OpNoLine where
  deriving DecidableEq, Repr

/-- src/spv/op.rs:87 (macro src/spv/dis.rs:92-119) -/
instance : Display OpNoLine where
  fmt _ := fmtNoResult ++ "OpNoLine".toList

/-- src/spv/op.rs:109-111 -/
structure OpDecorationGroup where
  result_id : ResultId
  deriving DecidableEq, Repr

/-- src/spv/op.rs:113 (macro src/spv/dis.rs:92-119) -/
instance : Display OpDecorationGroup where
  fmt op := fmtResult op.result_id ++ "OpDecorationGroup".toList

/-- src/spv/op.rs:116-119 -/
structure OpGroupDecorate where
  decoration_group : OpId
  targets : List OpId
  deriving DecidableEq, Repr

/-- src/spv/op.rs:121 (macro src/spv/dis.rs:92-119) -/
instance : Display OpGroupDecorate where
  fmt op := fmtNoResult ++ "OpGroupDecorate".toList ++ FormatArg.formatArg op.decoration_group ++ FormatArg.formatArg op.targets

/-- src/spv/op.rs:347-349 -/
structure OpTypeReserveId where
  result_id : ResultId
  deriving DecidableEq, Repr

/-- src/spv/op.rs:351 (macro src/spv/dis.rs:92-119) -/
instance : Display OpTypeReserveId where
  fmt op := fmtResult op.result_id ++ "OpTypeReserveId".toList

/-- src/spv/op.rs:379-382 -/
structure OpConstantTrue where
  result_type : OpId
  result_id : ResultId
  deriving DecidableEq, Repr

/-- src/spv/op.rs:384 (macro src/spv/dis.rs:92-119) -/
instance : Display OpConstantTrue where
  fmt op := fmtResult op.result_id ++ "OpConstantTrue".toList ++ FormatArg.formatArg op.result_type

/-- src/spv/op.rs:387-390 -/
structure OpConstantFalse where
  result_type : OpId
  result_id : ResultId
  deriving DecidableEq, Repr

/-- src/spv/op.rs:392 (macro src/spv/dis.rs:92-119) -/
instance : Display OpConstantFalse where
  fmt op := fmtResult op.result_id ++ "OpConstantFalse".toList ++ FormatArg.formatArg op.result_type

/-- src/spv/op.rs:413-419 -/
structure OpConstantSampler where
  result_type : OpId
  result_id : ResultId
  addressing_mode : SamplerAddressingMode
  param : SamplerParam
  filter_mode : SamplerFilterMode
  deriving DecidableEq, Repr

/-- src/spv/op.rs:421 (macro src/spv/dis.rs:92-119) -/
instance : Display OpConstantSampler where
  fmt op := fmtResult op.result_id ++ "OpConstantSampler".toList ++ FormatArg.formatArg op.result_type ++ FormatArg.formatArg op.addressing_mode ++ FormatArg.formatArg op.param ++ FormatArg.formatArg op.filter_mode

/-- src/spv/op.rs:424-427 -/
structure OpConstantNull where
  result_type : OpId
  result_id : ResultId
  deriving DecidableEq, Repr

/-- src/spv/op.rs:429 (macro src/spv/dis.rs:92-119) -/
instance : Display OpConstantNull where
  fmt op := fmtResult op.result_id ++ "OpConstantNull".toList ++ FormatArg.formatArg op.result_type

/-- src/spv/op.rs:432-435 -/
structure OpSpecConstantTrue where
  result_type : OpId
  result_id : ResultId
  deriving DecidableEq, Repr

/-- src/spv/op.rs:437 (macro src/spv/dis.rs:92-119) -/
instance : Display OpSpecConstantTrue where
  fmt op := fmtResult op.result_id ++ "OpSpecConstantTrue".toList ++ FormatArg.formatArg op.result_type

/-- src/spv/op.rs:440-443 -/
structure OpSpecConstantFalse where
  result_type : OpId
  result_id : ResultId
  deriving DecidableEq, Repr

/-- src/spv/op.rs:445 (macro src/spv/dis.rs:92-119) -/
instance : Display OpSpecConstantFalse where
  fmt op := fmtResult op.result_id ++ "OpSpecConstantFalse".toList ++ FormatArg.formatArg op.result_type

/-- src/spv/op.rs:448-452 -/
structure OpSpecConstant where
  result_type : OpId
  result_id : ResultId
  value : List UInt32
  deriving DecidableEq, Repr

/-- src/spv/op.rs:454 (macro src/spv/dis.rs:92-119) -/
instance : Display OpSpecConstant where
  fmt op := fmtResult op.result_id ++ "OpSpecConstant".toList ++ FormatArg.formatArg op.result_type ++ FormatArg.formatArg op.value

/-- src/spv/op.rs:457-461 -/
structure OpSpecConstantComposite where
  result_type : OpId
  result_id : ResultId
  constituents : List OpId
  deriving DecidableEq, Repr

/-- src/spv/op.rs:463 (macro src/spv/dis.rs:92-119) -/
instance : Display OpSpecConstantComposite where
  fmt op := fmtResult op.result_id ++ "OpSpecConstantComposite".toList ++ FormatArg.formatArg op.result_type ++ FormatArg.formatArg op.constituents

/-- src/spv/op.rs:478-484 -/
structure OpImageTexelPointer where
  result_type : OpId
  result_id : ResultId
  image : OpId
  coordinate : OpId
  sample : OpId
  deriving DecidableEq, Repr

/-- src/spv/op.rs:486 (macro src/spv/dis.rs:92-119) -/
instance : Display OpImageTexelPointer where
  fmt op := fmtResult op.result_id ++ "OpImageTexelPointer".toList ++ FormatArg.formatArg op.result_type ++ FormatArg.formatArg op.image ++ FormatArg.formatArg op.coordinate ++ FormatArg.formatArg op.sample

/-- src/spv/op.rs:508-512 -/
structure OpCopyMemory where
  target : OpId
  source : OpId
  memory_access : Option MemoryAccess
  deriving DecidableEq, Repr

/-- src/spv/op.rs:514 (macro src/spv/dis.rs:92-119) -/
instance : Display OpCopyMemory where
  fmt op := fmtNoResult ++ "OpCopyMemory".toList ++ FormatArg.formatArg op.target ++ FormatArg.formatArg op.source ++ FormatArg.formatArg op.memory_access

/-- src/spv/op.rs:517-522 -/
structure OpCopyMemorySized where
  target : OpId
  source : OpId
  size : OpId
  memory_access : Option MemoryAccess
  deriving DecidableEq, Repr

/-- src/spv/op.rs:524 (macro src/spv/dis.rs:92-119) -/
instance : Display OpCopyMemorySized where
  fmt op := fmtNoResult ++ "OpCopyMemorySized".toList ++ FormatArg.formatArg op.target ++ FormatArg.formatArg op.source ++ FormatArg.formatArg op.size ++ FormatArg.formatArg op.memory_access

/-- src/spv/op.rs:537-542 -/
structure OpInBoundsAccessChain where
  result_type : OpId
  result_id : ResultId
  base : OpId
  indexes : List OpId
  deriving DecidableEq, Repr

/-- src/spv/op.rs:544 (macro src/spv/dis.rs:92-119) -/
instance : Display OpInBoundsAccessChain where
  fmt op := fmtResult op.result_id ++ "OpInBoundsAccessChain".toList ++ FormatArg.formatArg op.result_type ++ FormatArg.formatArg op.base ++ FormatArg.formatArg op.indexes

/-- src/spv/op.rs:547-553 -/
structure OpPtrAccessChain where
  result_type : OpId
  result_id : ResultId
  base : OpId
  element : OpId
  indexes : List OpId
  deriving DecidableEq, Repr

/-- src/spv/op.rs:555 (macro src/spv/dis.rs:92-119) -/
instance : Display OpPtrAccessChain where
  fmt op := fmtResult op.result_id ++ "OpPtrAccessChain".toList ++ FormatArg.formatArg op.result_type ++ FormatArg.formatArg op.base ++ FormatArg.formatArg op.element ++ FormatArg.formatArg op.indexes

/-- src/spv/op.rs:558-563 -/
structure OpArrayLength where
  result_type : OpId
  result_id : ResultId
  «structure» : OpId
  array_member : MemberIndex
  deriving DecidableEq, Repr

/-- src/spv/op.rs:565 (macro src/spv/dis.rs:92-119) -/
instance : Display OpArrayLength where
  fmt op := fmtResult op.result_id ++ "OpArrayLength".toList ++ FormatArg.formatArg op.result_type ++ FormatArg.formatArg op.«structure» ++ FormatArg.formatArg op.array_member

/-- src/spv/op.rs:568-572 -/
structure OpGenericPtrMemSemantics where
  result_type : OpId
  result_id : ResultId
  pointer : OpId
  deriving DecidableEq, Repr

/-- src/spv/op.rs:574 (macro src/spv/dis.rs:92-119) -/
instance : Display OpGenericPtrMemSemantics where
  fmt op := fmtResult op.result_id ++ "OpGenericPtrMemSemantics".toList ++ FormatArg.formatArg op.result_type ++ FormatArg.formatArg op.pointer

/-- src/spv/op.rs:577-583 -/
structure OpInBoundsPtrAccessChain where
  result_type : OpId
  result_id : ResultId
  base : OpId
  element : OpId
  indexes : List OpId
  deriving DecidableEq, Repr

/-- src/spv/op.rs:585 (macro src/spv/dis.rs:92-119) -/
instance : Display OpInBoundsPtrAccessChain where
  fmt op := fmtResult op.result_id ++ "OpInBoundsPtrAccessChain".toList ++ FormatArg.formatArg op.result_type ++ FormatArg.formatArg op.base ++ FormatArg.formatArg op.element ++ FormatArg.formatArg op.indexes

/-- src/spv/op.rs:613-618 -/
structure OpFunctionCall where
  result_type : OpId
  result_id : ResultId
  function : OpId
  arguments : List OpId
  deriving DecidableEq, Repr

/-- src/spv/op.rs:620 (macro src/spv/dis.rs:92-119) -/
instance : Display OpFunctionCall where
  fmt op := fmtResult op.result_id ++ "OpFunctionCall".toList ++ FormatArg.formatArg op.result_type ++ FormatArg.formatArg op.function ++ FormatArg.formatArg op.arguments

/-- src/spv/op.rs:625-630 -/
structure OpSampledImage where
  result_type : OpId
  result_id : ResultId
  image : OpId
  sampler : OpId
  deriving DecidableEq, Repr

/-- src/spv/op.rs:632 (macro src/spv/dis.rs:92-119) -/
instance : Display OpSampledImage where
  fmt op := fmtResult op.result_id ++ "OpSampledImage".toList ++ FormatArg.formatArg op.result_type ++ FormatArg.formatArg op.image ++ FormatArg.formatArg op.sampler

/-- src/spv/op.rs:832-836 -/
structure OpConvertFToU where
  result_type : OpId
  result_id : ResultId
  float_value : OpId
  deriving DecidableEq, Repr

/-- src/spv/op.rs:838 (macro src/spv/dis.rs:92-119) -/
instance : Display OpConvertFToU where
  fmt op := fmtResult op.result_id ++ "OpConvertFToU".toList ++ FormatArg.formatArg op.result_type ++ FormatArg.formatArg op.float_value

/-- src/spv/op.rs:841-845 -/
structure OpConvertFToS where
  result_type : OpId
  result_id : ResultId
  float_value : OpId
  deriving DecidableEq, Repr

/-- src/spv/op.rs:847 (macro src/spv/dis.rs:92-119) -/
instance : Display OpConvertFToS where
  fmt op := fmtResult op.result_id ++ "OpConvertFToS".toList ++ FormatArg.formatArg op.result_type ++ FormatArg.formatArg op.float_value

/-- src/spv/op.rs:850-854 -/
structure OpConvertSToF where
  result_type : OpId
  result_id : ResultId
  signed_value : OpId
  deriving DecidableEq, Repr

/-- src/spv/op.rs:856 (macro src/spv/dis.rs:92-119) -/
instance : Display OpConvertSToF where
  fmt op := fmtResult op.result_id ++ "OpConvertSToF".toList ++ FormatArg.formatArg op.result_type ++ FormatArg.formatArg op.signed_value

/-- src/spv/op.rs:868-872 -/
structure OpUConvert where
  result_type : OpId
  result_id : ResultId
  unsigned_value : OpId
  deriving DecidableEq, Repr

/-- src/spv/op.rs:874 (macro src/spv/dis.rs:92-119) -/
instance : Display OpUConvert where
  fmt op := fmtResult op.result_id ++ "OpUConvert".toList ++ FormatArg.formatArg op.result_type ++ FormatArg.formatArg op.unsigned_value

/-- src/spv/op.rs:877-881 -/
structure OpSConvert where
  result_type : OpId
  result_id : ResultId
  signed_value : OpId
  deriving DecidableEq, Repr

/-- src/spv/op.rs:883 (macro src/spv/dis.rs:92-119) -/
instance : Display OpSConvert where
  fmt op := fmtResult op.result_id ++ "OpSConvert".toList ++ FormatArg.formatArg op.result_type ++ FormatArg.formatArg op.signed_value

/-- src/spv/op.rs:886-890 -/
structure OpFConvert where
  result_type : OpId
  result_id : ResultId
  float_value : OpId
  deriving DecidableEq, Repr

/-- src/spv/op.rs:892 (macro src/spv/dis.rs:92-119) -/
instance : Display OpFConvert where
  fmt op := fmtResult op.result_id ++ "OpFConvert".toList ++ FormatArg.formatArg op.result_type ++ FormatArg.formatArg op.float_value

/-- src/spv/op.rs:895-899 -/
structure OpQuantizeToF16 where
  result_type : OpId
  result_id : ResultId
  value : OpId
  deriving DecidableEq, Repr

/-- src/spv/op.rs:901 (macro src/spv/dis.rs:92-119) -/
instance : Display OpQuantizeToF16 where
  fmt op := fmtResult op.result_id ++ "OpQuantizeToF16".toList ++ FormatArg.formatArg op.result_type ++ FormatArg.formatArg op.value

/-- src/spv/op.rs:904-908 -/
structure OpConvertPtrToU where
  result_type : OpId
  result_id : ResultId
  pointer : OpId
  deriving DecidableEq, Repr

/-- src/spv/op.rs:910 (macro src/spv/dis.rs:92-119) -/
instance : Display OpConvertPtrToU where
  fmt op := fmtResult op.result_id ++ "OpConvertPtrToU".toList ++ FormatArg.formatArg op.result_type ++ FormatArg.formatArg op.pointer

/-- src/spv/op.rs:913-917 -/
structure OpSatConvertSToU where
  result_type : OpId
  result_id : ResultId
  signed_value : OpId
  deriving DecidableEq, Repr

/-- src/spv/op.rs:919 (macro src/spv/dis.rs:92-119) -/
instance : Display OpSatConvertSToU where
  fmt op := fmtResult op.result_id ++ "OpSatConvertSToU".toList ++ FormatArg.formatArg op.result_type ++ FormatArg.formatArg op.signed_value

/-- src/spv/op.rs:922-926 -/
structure OpSatConvertUToS where
  result_type : OpId
  result_id : ResultId
  unsigned_value : OpId
  deriving DecidableEq, Repr

/-- src/spv/op.rs:928 (macro src/spv/dis.rs:92-119) -/
instance : Display OpSatConvertUToS where
  fmt op := fmtResult op.result_id ++ "OpSatConvertUToS".toList ++ FormatArg.formatArg op.result_type ++ FormatArg.formatArg op.unsigned_value

/-- src/spv/op.rs:931-935 -/
structure OpConvertUToPtr where
  result_type : OpId
  result_id : ResultId
  integer_value : OpId
  deriving DecidableEq, Repr

/-- src/spv/op.rs:937 (macro src/spv/dis.rs:92-119) -/
instance : Display OpConvertUToPtr where
  fmt op := fmtResult op.result_id ++ "OpConvertUToPtr".toList ++ FormatArg.formatArg op.result_type ++ FormatArg.formatArg op.integer_value

/-- src/spv/op.rs:940-944 -/
structure OpPtrCastToGeneric where
  result_type : OpId
  result_id : ResultId
  pointer : OpId
  deriving DecidableEq, Repr

/-- src/spv/op.rs:946 (macro src/spv/dis.rs:92-119) -/
instance : Display OpPtrCastToGeneric where
  fmt op := fmtResult op.result_id ++ "OpPtrCastToGeneric".toList ++ FormatArg.formatArg op.result_type ++ FormatArg.formatArg op.pointer

/-- src/spv/op.rs:949-953 -/
structure OpGenericCastToPtr where
  result_type : OpId
  result_id : ResultId
  pointer : OpId
  deriving DecidableEq, Repr

/-- src/spv/op.rs:955 (macro src/spv/dis.rs:92-119) -/
instance : Display OpGenericCastToPtr where
  fmt op := fmtResult op.result_id ++ "OpGenericCastToPtr".toList ++ FormatArg.formatArg op.result_type ++ FormatArg.formatArg op.pointer

/-- src/spv/op.rs:958-963 -/
structure OpGenericCastToPtrExplicit where
  result_type : OpId
  result_id : ResultId
  pointer : OpId
  storage_class : StorageClass
  deriving DecidableEq, Repr

/-- src/spv/op.rs:965 (macro src/spv/dis.rs:92-119) -/
instance : Display OpGenericCastToPtrExplicit where
  fmt op := fmtResult op.result_id ++ "OpGenericCastToPtrExplicit".toList ++ FormatArg.formatArg op.result_type ++ FormatArg.formatArg op.pointer ++ FormatArg.formatArg op.storage_class

/-- src/spv/op.rs:979-984 -/
structure OpVectorExtractDynamic where
  result_type : OpId
  result_id : ResultId
  vector : OpId
  index : OpId
  deriving DecidableEq, Repr

/-- src/spv/op.rs:986 (macro src/spv/dis.rs:92-119) -/
instance : Display OpVectorExtractDynamic where
  fmt op := fmtResult op.result_id ++ "OpVectorExtractDynamic".toList ++ FormatArg.formatArg op.result_type ++ FormatArg.formatArg op.vector ++ FormatArg.formatArg op.index

/-- src/spv/op.rs:989-995 -/
structure OpVectorInsertDynamic where
  result_type : OpId
  result_id : ResultId
  vector : OpId
  component : OpId
  index : OpId
  deriving DecidableEq, Repr

/-- src/spv/op.rs:997 (macro src/spv/dis.rs:92-119) -/
instance : Display OpVectorInsertDynamic where
  fmt op := fmtResult op.result_id ++ "OpVectorInsertDynamic".toList ++ FormatArg.formatArg op.result_type ++ FormatArg.formatArg op.vector ++ FormatArg.formatArg op.component ++ FormatArg.formatArg op.index

/-- src/spv/op.rs:1000-1006 -/
structure OpVectorShuffle where
  result_type : OpId
  result_id : ResultId
  operand1 : OpId
  operand2 : OpId
  components : List MemberIndex
  deriving DecidableEq, Repr

/-- src/spv/op.rs:1008 (macro src/spv/dis.rs:92-119) -/
instance : Display OpVectorShuffle where
  fmt op := fmtResult op.result_id ++ "OpVectorShuffle".toList ++ FormatArg.formatArg op.result_type ++ FormatArg.formatArg op.operand1 ++ FormatArg.formatArg op.operand2 ++ FormatArg.formatArg op.components

/-- src/spv/op.rs:1011-1015 -/
structure OpCompositeConstruct where
  result_type : OpId
  result_id : ResultId
  constituents : List MemberIndex
  deriving DecidableEq, Repr

/-- src/spv/op.rs:1017 (macro src/spv/dis.rs:92-119) -/
instance : Display OpCompositeConstruct where
  fmt op := fmtResult op.result_id ++ "OpCompositeConstruct".toList ++ FormatArg.formatArg op.result_type ++ FormatArg.formatArg op.constituents

/-- src/spv/op.rs:1020-1025 -/
structure OpCompositeExtract where
  result_type : OpId
  result_id : ResultId
  composite : OpId
  indexes : List MemberIndex
  deriving DecidableEq, Repr

/-- src/spv/op.rs:1027 (macro src/spv/dis.rs:92-119) -/
instance : Display OpCompositeExtract where
  fmt op := fmtResult op.result_id ++ "OpCompositeExtract".toList ++ FormatArg.formatArg op.result_type ++ FormatArg.formatArg op.composite ++ FormatArg.formatArg op.indexes

/-- src/spv/op.rs:1030-1036 -/
structure OpCompositeInsert where
  result_type : OpId
  result_id : ResultId
  object : OpId
  composite : OpId
  indexes : List MemberIndex
  deriving DecidableEq, Repr

/-- src/spv/op.rs:1038 (macro src/spv/dis.rs:92-119) -/
instance : Display OpCompositeInsert where
  fmt op := fmtResult op.result_id ++ "OpCompositeInsert".toList ++ FormatArg.formatArg op.result_type ++ FormatArg.formatArg op.object ++ FormatArg.formatArg op.composite ++ FormatArg.formatArg op.indexes

/-- src/spv/op.rs:1041-1045 -/
structure OpCopyObject where
  result_type : OpId
  result_id : ResultId
  operand : OpId
  deriving DecidableEq, Repr

/-- src/spv/op.rs:1047 (macros src/spv/dis.rs:92-133) -/
instance : Display OpCopyObject where
  fmt op := fmtResult op.result_id ++ "OpCopyObject".toList ++ FormatArg.formatArg op.result_type ++ FormatArg.formatArg op.operand

/-- src/spv/op.rs:1050-1054 -/
structure OpTranspose where
  result_type : OpId
  result_id : ResultId
  matrix : OpId
  deriving DecidableEq, Repr

/-- src/spv/op.rs:1056 (macro src/spv/dis.rs:92-119) -/
instance : Display OpTranspose where
  fmt op := fmtResult op.result_id ++ "OpTranspose".toList ++ FormatArg.formatArg op.result_type ++ FormatArg.formatArg op.matrix

/-- src/spv/op.rs:1061-1065 -/
structure OpSNegate where
  result_type : OpId
  result_id : ResultId
  operand : OpId
  deriving DecidableEq, Repr

/-- src/spv/op.rs:1067 (macros src/spv/dis.rs:92-133) -/
instance : Display OpSNegate where
  fmt op := fmtResult op.result_id ++ "OpSNegate".toList ++ FormatArg.formatArg op.result_type ++ FormatArg.formatArg op.operand

/-- src/spv/op.rs:1070-1074 -/
structure OpFNegate where
  result_type : OpId
  result_id : ResultId
  operand : OpId
  deriving DecidableEq, Repr

/-- src/spv/op.rs:1076 (macros src/spv/dis.rs:92-133) -/
instance : Display OpFNegate where
  fmt op := fmtResult op.result_id ++ "OpFNegate".toList ++ FormatArg.formatArg op.result_type ++ FormatArg.formatArg op.operand

/-- src/spv/op.rs:1219-1224 -/
structure OpVectorTimesScalar where
  result_type : OpId
  result_id : ResultId
  vector : OpId
  scalar : OpId
  deriving DecidableEq, Repr

/-- src/spv/op.rs:1226 (macro src/spv/dis.rs:92-119) -/
instance : Display OpVectorTimesScalar where
  fmt op := fmtResult op.result_id ++ "OpVectorTimesScalar".toList ++ FormatArg.formatArg op.result_type ++ FormatArg.formatArg op.vector ++ FormatArg.formatArg op.scalar

/-- src/spv/op.rs:1229-1234 -/
structure OpMatrixTimesScalar where
  result_type : OpId
  result_id : ResultId
  matrix : OpId
  scalar : OpId
  deriving DecidableEq, Repr

/-- src/spv/op.rs:1236 (macro src/spv/dis.rs:92-119) -/
instance : Display OpMatrixTimesScalar where
  fmt op := fmtResult op.result_id ++ "OpMatrixTimesScalar".toList ++ FormatArg.formatArg op.result_type ++ FormatArg.formatArg op.matrix ++ FormatArg.formatArg op.scalar

/-- src/spv/op.rs:1239-1244 -/
structure OpVectorTimesMatrix where
  result_type : OpId
  result_id : ResultId
  vector : OpId
  matrix : OpId
  deriving DecidableEq, Repr

/-- src/spv/op.rs:1246 (macro src/spv/dis.rs:92-119) -/
instance : Display OpVectorTimesMatrix where
  fmt op := fmtResult op.result_id ++ "OpVectorTimesMatrix".toList ++ FormatArg.formatArg op.result_type ++ FormatArg.formatArg op.vector ++ FormatArg.formatArg op.matrix

/-- src/spv/op.rs:1249-1254 -/
structure OpMatrixTimesVector where
  result_type : OpId
  result_id : ResultId
  matrix : OpId
  vector : OpId
  deriving DecidableEq, Repr

/-- src/spv/op.rs:1256 (macro src/spv/dis.rs:92-119) -/
instance : Display OpMatrixTimesVector where
  fmt op := fmtResult op.result_id ++ "OpMatrixTimesVector".toList ++ FormatArg.formatArg op.result_type ++ FormatArg.formatArg op.matrix ++ FormatArg.formatArg op.vector

/-- src/spv/op.rs:1259-1264 -/
structure OpMatrixTimesMatrix where
  result_type : OpId
  result_id : ResultId
  left_matrix : OpId
  right_matrix : OpId
  deriving DecidableEq, Repr

/-- src/spv/op.rs:1266 (macro src/spv/dis.rs:92-119) -/
instance : Display OpMatrixTimesMatrix where
  fmt op := fmtResult op.result_id ++ "OpMatrixTimesMatrix".toList ++ FormatArg.formatArg op.result_type ++ FormatArg.formatArg op.left_matrix ++ FormatArg.formatArg op.right_matrix

/-- src/spv/op.rs:1269-1274 -/
structure OpOuterProduct where
  result_type : OpId
  result_id : ResultId
  vector1 : OpId
  vector2 : OpId
  deriving DecidableEq, Repr

/-- src/spv/op.rs:1276 (macro src/spv/dis.rs:92-119) -/
instance : Display OpOuterProduct where
  fmt op := fmtResult op.result_id ++ "OpOuterProduct".toList ++ FormatArg.formatArg op.result_type ++ FormatArg.formatArg op.vector1 ++ FormatArg.formatArg op.vector2

/-- src/spv/op.rs:1279-1284 -/
structure OpDot where
  result_type : OpId
  result_id : ResultId
  vector1 : OpId
  vector2 : OpId
  deriving DecidableEq, Repr

/-- src/spv/op.rs:1286 (macro src/spv/dis.rs:92-119) -/
instance : Display OpDot where
  fmt op := fmtResult op.result_id ++ "OpDot".toList ++ FormatArg.formatArg op.result_type ++ FormatArg.formatArg op.vector1 ++ FormatArg.formatArg op.vector2

/-- src/spv/op.rs:1331-1336 -/
structure OpShiftRightLogical where
  result_type : OpId
  result_id : ResultId
  base : OpId
  shift : OpId
  deriving DecidableEq, Repr

/-- src/spv/op.rs:1338 (macro src/spv/dis.rs:92-119) -/
instance : Display OpShiftRightLogical where
  fmt op := fmtResult op.result_id ++ "OpShiftRightLogical".toList ++ FormatArg.formatArg op.result_type ++ FormatArg.formatArg op.base ++ FormatArg.formatArg op.shift

/-- src/spv/op.rs:1341-1346 -/
structure OpShiftRightArithmetic where
  result_type : OpId
  result_id : ResultId
  base : OpId
  shift : OpId
  deriving DecidableEq, Repr

/-- src/spv/op.rs:1348 (macro src/spv/dis.rs:92-119) -/
instance : Display OpShiftRightArithmetic where
  fmt op := fmtResult op.result_id ++ "OpShiftRightArithmetic".toList ++ FormatArg.formatArg op.result_type ++ FormatArg.formatArg op.base ++ FormatArg.formatArg op.shift

/-- src/spv/op.rs:1351-1356 -/
structure OpShiftLeftLogical where
  result_type : OpId
  result_id : ResultId
  base : OpId
  shift : OpId
  deriving DecidableEq, Repr

/-- src/spv/op.rs:1358 (macro src/spv/dis.rs:92-119) -/
instance : Display OpShiftLeftLogical where
  fmt op := fmtResult op.result_id ++ "OpShiftLeftLogical".toList ++ FormatArg.formatArg op.result_type ++ FormatArg.formatArg op.base ++ FormatArg.formatArg op.shift

/-- src/spv/op.rs:1391-1395 -/
structure OpNot where
  result_type : OpId
  result_id : ResultId
  operand : OpId
  deriving DecidableEq, Repr

/-- src/spv/op.rs:1397 (macros src/spv/dis.rs:92-133) -/
instance : Display OpNot where
  fmt op := fmtResult op.result_id ++ "OpNot".toList ++ FormatArg.formatArg op.result_type ++ FormatArg.formatArg op.operand

/-- The instructions of src/spv/op.rs that are printed but not read. The Rust code has no enum of them; each has
its own `impl Display`. -/
inductive Unread where
  | OpLine (op : OpLine)
  | OpNoLine (op : OpNoLine)
  | OpDecorationGroup (op : OpDecorationGroup)
  | OpGroupDecorate (op : OpGroupDecorate)
  | OpTypeReserveId (op : OpTypeReserveId)
  | OpConstantTrue (op : OpConstantTrue)
  | OpConstantFalse (op : OpConstantFalse)
  | OpConstantSampler (op : OpConstantSampler)
  | OpConstantNull (op : OpConstantNull)
  | OpSpecConstantTrue (op : OpSpecConstantTrue)
  | OpSpecConstantFalse (op : OpSpecConstantFalse)
  | OpSpecConstant (op : OpSpecConstant)
  | OpSpecConstantComposite (op : OpSpecConstantComposite)
  | OpImageTexelPointer (op : OpImageTexelPointer)
  | OpCopyMemory (op : OpCopyMemory)
  | OpCopyMemorySized (op : OpCopyMemorySized)
  | OpInBoundsAccessChain (op : OpInBoundsAccessChain)
  | OpPtrAccessChain (op : OpPtrAccessChain)
  | OpArrayLength (op : OpArrayLength)
  | OpGenericPtrMemSemantics (op : OpGenericPtrMemSemantics)
  | OpInBoundsPtrAccessChain (op : OpInBoundsPtrAccessChain)
  | OpFunctionCall (op : OpFunctionCall)
  | OpSampledImage (op : OpSampledImage)
  | OpConvertFToU (op : OpConvertFToU)
  | OpConvertFToS (op : OpConvertFToS)
  | OpConvertSToF (op : OpConvertSToF)
  | OpUConvert (op : OpUConvert)
  | OpSConvert (op : OpSConvert)
  | OpFConvert (op : OpFConvert)
  | OpQuantizeToF16 (op : OpQuantizeToF16)
  | OpConvertPtrToU (op : OpConvertPtrToU)
  | OpSatConvertSToU (op : OpSatConvertSToU)
  | OpSatConvertUToS (op : OpSatConvertUToS)
  | OpConvertUToPtr (op : OpConvertUToPtr)
  | OpPtrCastToGeneric (op : OpPtrCastToGeneric)
  | OpGenericCastToPtr (op : OpGenericCastToPtr)
  | OpGenericCastToPtrExplicit (op : OpGenericCastToPtrExplicit)
  | OpVectorExtractDynamic (op : OpVectorExtractDynamic)
  | OpVectorInsertDynamic (op : OpVectorInsertDynamic)
  | OpVectorShuffle (op : OpVectorShuffle)
  | OpCompositeConstruct (op : OpCompositeConstruct)
  | OpCompositeExtract (op : OpCompositeExtract)
  | OpCompositeInsert (op : OpCompositeInsert)
  | OpCopyObject (op : OpCopyObject)
  | OpTranspose (op : OpTranspose)
  | OpSNegate (op : OpSNegate)
  | OpFNegate (op : OpFNegate)
  | OpVectorTimesScalar (op : OpVectorTimesScalar)
  | OpMatrixTimesScalar (op : OpMatrixTimesScalar)
  | OpVectorTimesMatrix (op : OpVectorTimesMatrix)
  | OpMatrixTimesVector (op : OpMatrixTimesVector)
  | OpMatrixTimesMatrix (op : OpMatrixTimesMatrix)
  | OpOuterProduct (op : OpOuterProduct)
  | OpDot (op : OpDot)
  | OpShiftRightLogical (op : OpShiftRightLogical)
  | OpShiftRightArithmetic (op : OpShiftRightArithmetic)
  | OpShiftLeftLogical (op : OpShiftLeftLogical)
  | OpNot (op : OpNot)
  deriving DecidableEq

/-- Calls the `impl Display` of each -/
instance : Display Unread where
  fmt u := match u with
    | .OpLine op => Display.fmt op
    | .OpNoLine op => Display.fmt op
    | .OpDecorationGroup op => Display.fmt op
    | .OpGroupDecorate op => Display.fmt op
    | .OpTypeReserveId op => Display.fmt op
    | .OpConstantTrue op => Display.fmt op
    | .OpConstantFalse op => Display.fmt op
    | .OpConstantSampler op => Display.fmt op
    | .OpConstantNull op => Display.fmt op
    | .OpSpecConstantTrue op => Display.fmt op
    | .OpSpecConstantFalse op => Display.fmt op
    | .OpSpecConstant op => Display.fmt op
    | .OpSpecConstantComposite op => Display.fmt op
    | .OpImageTexelPointer op => Display.fmt op
    | .OpCopyMemory op => Display.fmt op
    | .OpCopyMemorySized op => Display.fmt op
    | .OpInBoundsAccessChain op => Display.fmt op
    | .OpPtrAccessChain op => Display.fmt op
    | .OpArrayLength op => Display.fmt op
    | .OpGenericPtrMemSemantics op => Display.fmt op
    | .OpInBoundsPtrAccessChain op => Display.fmt op
    | .OpFunctionCall op => Display.fmt op
    | .OpSampledImage op => Display.fmt op
    | .OpConvertFToU op => Display.fmt op
    | .OpConvertFToS op => Display.fmt op
    | .OpConvertSToF op => Display.fmt op
    | .OpUConvert op => Display.fmt op
    | .OpSConvert op => Display.fmt op
    | .OpFConvert op => Display.fmt op
    | .OpQuantizeToF16 op => Display.fmt op
    | .OpConvertPtrToU op => Display.fmt op
    | .OpSatConvertSToU op => Display.fmt op
    | .OpSatConvertUToS op => Display.fmt op
    | .OpConvertUToPtr op => Display.fmt op
    | .OpPtrCastToGeneric op => Display.fmt op
    | .OpGenericCastToPtr op => Display.fmt op
    | .OpGenericCastToPtrExplicit op => Display.fmt op
    | .OpVectorExtractDynamic op => Display.fmt op
    | .OpVectorInsertDynamic op => Display.fmt op
    | .OpVectorShuffle op => Display.fmt op
    | .OpCompositeConstruct op => Display.fmt op
    | .OpCompositeExtract op => Display.fmt op
    | .OpCompositeInsert op => Display.fmt op
    | .OpCopyObject op => Display.fmt op
    | .OpTranspose op => Display.fmt op
    | .OpSNegate op => Display.fmt op
    | .OpFNegate op => Display.fmt op
    | .OpVectorTimesScalar op => Display.fmt op
    | .OpMatrixTimesScalar op => Display.fmt op
    | .OpVectorTimesMatrix op => Display.fmt op
    | .OpMatrixTimesVector op => Display.fmt op
    | .OpMatrixTimesMatrix op => Display.fmt op
    | .OpOuterProduct op => Display.fmt op
    | .OpDot op => Display.fmt op
    | .OpShiftRightLogical op => Display.fmt op
    | .OpShiftRightArithmetic op => Display.fmt op
    | .OpShiftLeftLogical op => Display.fmt op
    | .OpNot op => Display.fmt op

end Magma
