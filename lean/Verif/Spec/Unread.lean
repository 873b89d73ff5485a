import Verif.Model.OpUnread
import Verif.Spec.Listing
/-! What the text of the instructions looks like that are printed but not read: a table of the operands that the standard
gives to each opcode, and the words of each instruction in the order of the standard. Nothing here calls the printers of
the model. -/

namespace Magma.Spec

/-- The names of the standard for the opcodes of these instructions -/
def unreadNames : List (Nat × String) :=
  [(8, "OpLine"), (36, "OpTypeReserveId"), (41, "OpConstantTrue"), (42, "OpConstantFalse"),
   (45, "OpConstantSampler"), (46, "OpConstantNull"), (48, "OpSpecConstantTrue"), (49, "OpSpecConstantFalse"),
   (50, "OpSpecConstant"), (51, "OpSpecConstantComposite"), (57, "OpFunctionCall"), (60, "OpImageTexelPointer"),
   (63, "OpCopyMemory"), (64, "OpCopyMemorySized"), (66, "OpInBoundsAccessChain"), (67, "OpPtrAccessChain"),
   (68, "OpArrayLength"), (69, "OpGenericPtrMemSemantics"), (70, "OpInBoundsPtrAccessChain"), (73, "OpDecorationGroup"),
   (74, "OpGroupDecorate"), (77, "OpVectorExtractDynamic"), (78, "OpVectorInsertDynamic"), (79, "OpVectorShuffle"),
   (80, "OpCompositeConstruct"), (81, "OpCompositeExtract"), (82, "OpCompositeInsert"), (83, "OpCopyObject"),
   (84, "OpTranspose"), (86, "OpSampledImage"), (109, "OpConvertFToU"), (110, "OpConvertFToS"),
   (111, "OpConvertSToF"), (113, "OpUConvert"), (114, "OpSConvert"), (115, "OpFConvert"),
   (116, "OpQuantizeToF16"), (117, "OpConvertPtrToU"), (118, "OpSatConvertSToU"), (119, "OpSatConvertUToS"),
   (120, "OpConvertUToPtr"), (121, "OpPtrCastToGeneric"), (122, "OpGenericCastToPtr"), (123, "OpGenericCastToPtrExplicit"),
   (126, "OpSNegate"), (127, "OpFNegate"), (142, "OpVectorTimesScalar"), (143, "OpMatrixTimesScalar"),
   (144, "OpVectorTimesMatrix"), (145, "OpMatrixTimesVector"), (146, "OpMatrixTimesMatrix"), (147, "OpOuterProduct"),
   (148, "OpDot"), (194, "OpShiftRightLogical"), (195, "OpShiftRightArithmetic"), (196, "OpShiftLeftLogical"),
   (200, "OpNot"), (317, "OpNoLine")]

/-- Sampler addressing modes, section 3.12 of the standard -/
def samplerAddressingModeNames : Table :=
  [(0, "None"), (1, "ClampToEdge"), (2, "Clamp"), (3, "Repeat"), (4, "RepeatMirrored")]

/-- Sampler filter modes, section 3.13 of the standard -/
def samplerFilterModeNames : Table := [(0, "Nearest"), (1, "Linear")]

/-- The form of each of these instructions and its operands, apart from result and type -/
def unreadOperands : Nat → Form × List Shown
  | 8 => (.plain, [anId, aNumber, aNumber])  -- OpLine: the file, line and column
  | 36 => (.result, [])  -- OpTypeReserveId
  | 41 | 42 | 46 | 48 | 49 => (.typed, [])  -- constants that are true, false or null
  | 45 => (.typed, [aName samplerAddressingModeNames, aNumber, aName samplerFilterModeNames])  -- OpConstantSampler
  | 50 => (.typed, [theNumbers])  -- OpSpecConstant
  | 51 => (.typed, [theIds])  -- OpSpecConstantComposite
  | 57 => (.typed, [anId, theIds])  -- OpFunctionCall
  | 60 => (.typed, [anId, anId, anId])  -- OpImageTexelPointer
  | 63 => (.plain, [anId, anId, ifAny (aMask memoryAccessBits)])  -- OpCopyMemory
  | 64 => (.plain, [anId, anId, anId, ifAny (aMask memoryAccessBits)])  -- OpCopyMemorySized
  | 66 => (.typed, [anId, theIds])  -- OpInBoundsAccessChain
  | 67 | 70 => (.typed, [anId, anId, theIds])  -- OpPtrAccessChain and OpInBoundsPtrAccessChain
  | 68 => (.typed, [anId, aNumber])  -- OpArrayLength: the structure and the number of the member
  | 73 => (.result, [])  -- OpDecorationGroup
  | 74 => (.plain, [anId, theIds])  -- OpGroupDecorate
  | 78 => (.typed, [anId, anId, anId])  -- OpVectorInsertDynamic
  | 79 | 82 => (.typed, [anId, anId, theNumbers])  -- OpVectorShuffle and OpCompositeInsert
  | 80 => (.typed, [theIds])  -- OpCompositeConstruct: the constituents are ids
  | 81 => (.typed, [anId, theNumbers])  -- OpCompositeExtract
  | 123 => (.typed, [anId, aName storageClassNames])  -- OpGenericCastToPtrExplicit
  | 77 | 86 => (.typed, [anId, anId])  -- OpVectorExtractDynamic and OpSampledImage
  | 142 | 143 | 144 | 145 | 146 | 147 | 148 => (.typed, [anId, anId])  -- products
  | 194 | 195 | 196 => (.typed, [anId, anId])  -- shifts
  | 317 => (.plain, [])  -- OpNoLine
  | _ => (.typed, [anId])  -- one operand: conversions, copies, transposition, negation

/-- The line of such an instruction, from its opcode and the words after the first -/
def unreadLine (code : Nat) (ops : List UInt32) : Text :=
  let name := ((unreadNames.lookup code).getD "").toList
  match unreadOperands code, ops with
  | (.plain, ss), ws => leftColumn none ++ name ++ inLine (eachOf ss ws).1
  | (.result, ss), r :: ws => leftColumn (some r) ++ name ++ inLine (eachOf ss ws).1
  | (.typed, ss), t :: r :: ws => leftColumn (some r) ++ name ++ inLine (idText t :: (eachOf ss ws).1)
  | _, _ => []

/-- The words of an operand -/
class Words (α : Type) where
  words : α → List UInt32

export Words (words)

instance : Words UInt32 := ⟨fun w => [w]⟩
instance : Words OpId := ⟨fun i => [i.val]⟩
instance : Words ResultId := ⟨fun i => [i.val]⟩
instance : Words MemberIndex := ⟨fun i => [i.val]⟩
instance : Words Line := ⟨fun i => [i.val]⟩
instance : Words Column := ⟨fun i => [i.val]⟩
instance : Words StorageClass := ⟨fun a => [storageClassCode a]⟩
instance : Words MemoryAccess := ⟨fun c => [bit c.volatile 1 ||| bit c.aligned 2 ||| bit c.non_temporal 4]⟩
instance : Words SamplerAddressingMode := ⟨fun a => match a with
  | .None => [0]
  | .ClampToEdge => [1]
  | .Clamp => [2]
  | .Repeat => [3]
  | .RepeatMirrored => [4]⟩
instance : Words SamplerParam := ⟨fun a => match a with
  | .NonNormalized => [0]
  | .Normalized => [1]⟩
instance : Words SamplerFilterMode := ⟨fun a => match a with
  | .Nearest => [0]
  | .Linear => [1]⟩
instance {α : Type} [Words α] : Words (Option α) := ⟨fun o => o.toList.flatMap words⟩
instance {α : Type} [Words α] : Words (List α) := ⟨fun l => l.flatMap words⟩

/-- The opcode -/
def unreadCode : Unread → Nat
  | .OpLine _ => 8
  | .OpNoLine _ => 317
  | .OpDecorationGroup _ => 73
  | .OpGroupDecorate _ => 74
  | .OpTypeReserveId _ => 36
  | .OpConstantTrue _ => 41
  | .OpConstantFalse _ => 42
  | .OpConstantSampler _ => 45
  | .OpConstantNull _ => 46
  | .OpSpecConstantTrue _ => 48
  | .OpSpecConstantFalse _ => 49
  | .OpSpecConstant _ => 50
  | .OpSpecConstantComposite _ => 51
  | .OpImageTexelPointer _ => 60
  | .OpCopyMemory _ => 63
  | .OpCopyMemorySized _ => 64
  | .OpInBoundsAccessChain _ => 66
  | .OpPtrAccessChain _ => 67
  | .OpArrayLength _ => 68
  | .OpGenericPtrMemSemantics _ => 69
  | .OpInBoundsPtrAccessChain _ => 70
  | .OpFunctionCall _ => 57
  | .OpSampledImage _ => 86
  | .OpConvertFToU _ => 109
  | .OpConvertFToS _ => 110
  | .OpConvertSToF _ => 111
  | .OpUConvert _ => 113
  | .OpSConvert _ => 114
  | .OpFConvert _ => 115
  | .OpQuantizeToF16 _ => 116
  | .OpConvertPtrToU _ => 117
  | .OpSatConvertSToU _ => 118
  | .OpSatConvertUToS _ => 119
  | .OpConvertUToPtr _ => 120
  | .OpPtrCastToGeneric _ => 121
  | .OpGenericCastToPtr _ => 122
  | .OpGenericCastToPtrExplicit _ => 123
  | .OpVectorExtractDynamic _ => 77
  | .OpVectorInsertDynamic _ => 78
  | .OpVectorShuffle _ => 79
  | .OpCompositeConstruct _ => 80
  | .OpCompositeExtract _ => 81
  | .OpCompositeInsert _ => 82
  | .OpCopyObject _ => 83
  | .OpTranspose _ => 84
  | .OpSNegate _ => 126
  | .OpFNegate _ => 127
  | .OpVectorTimesScalar _ => 142
  | .OpMatrixTimesScalar _ => 143
  | .OpVectorTimesMatrix _ => 144
  | .OpMatrixTimesVector _ => 145
  | .OpMatrixTimesMatrix _ => 146
  | .OpOuterProduct _ => 147
  | .OpDot _ => 148
  | .OpShiftRightLogical _ => 194
  | .OpShiftRightArithmetic _ => 195
  | .OpShiftLeftLogical _ => 196
  | .OpNot _ => 200

/-- The words after the first, in the order of the standard: the type, the result, the operands -/
def unreadWords : Unread → List UInt32
  | .OpLine op => words op.file ++ words op.line ++ words op.column
  | .OpNoLine _ => []
  | .OpDecorationGroup op => words op.result_id
  | .OpGroupDecorate op => words op.decoration_group ++ words op.targets
  | .OpTypeReserveId op => words op.result_id
  | .OpConstantTrue op => words op.result_type ++ words op.result_id
  | .OpConstantFalse op => words op.result_type ++ words op.result_id
  | .OpConstantSampler op => words op.result_type ++ words op.result_id ++ words op.addressing_mode ++ words op.param ++ words op.filter_mode
  | .OpConstantNull op => words op.result_type ++ words op.result_id
  | .OpSpecConstantTrue op => words op.result_type ++ words op.result_id
  | .OpSpecConstantFalse op => words op.result_type ++ words op.result_id
  | .OpSpecConstant op => words op.result_type ++ words op.result_id ++ words op.value
  | .OpSpecConstantComposite op => words op.result_type ++ words op.result_id ++ words op.constituents
  | .OpImageTexelPointer op => words op.result_type ++ words op.result_id ++ words op.image ++ words op.coordinate ++ words op.sample
  | .OpCopyMemory op => words op.target ++ words op.source ++ words op.memory_access
  | .OpCopyMemorySized op => words op.target ++ words op.source ++ words op.size ++ words op.memory_access
  | .OpInBoundsAccessChain op => words op.result_type ++ words op.result_id ++ words op.base ++ words op.indexes
  | .OpPtrAccessChain op => words op.result_type ++ words op.result_id ++ words op.base ++ words op.element ++ words op.indexes
  | .OpArrayLength op => words op.result_type ++ words op.result_id ++ words op.«structure» ++ words op.array_member
  | .OpGenericPtrMemSemantics op => words op.result_type ++ words op.result_id ++ words op.pointer
  | .OpInBoundsPtrAccessChain op => words op.result_type ++ words op.result_id ++ words op.base ++ words op.element ++ words op.indexes
  | .OpFunctionCall op => words op.result_type ++ words op.result_id ++ words op.function ++ words op.arguments
  | .OpSampledImage op => words op.result_type ++ words op.result_id ++ words op.image ++ words op.sampler
  | .OpConvertFToU op => words op.result_type ++ words op.result_id ++ words op.float_value
  | .OpConvertFToS op => words op.result_type ++ words op.result_id ++ words op.float_value
  | .OpConvertSToF op => words op.result_type ++ words op.result_id ++ words op.signed_value
  | .OpUConvert op => words op.result_type ++ words op.result_id ++ words op.unsigned_value
  | .OpSConvert op => words op.result_type ++ words op.result_id ++ words op.signed_value
  | .OpFConvert op => words op.result_type ++ words op.result_id ++ words op.float_value
  | .OpQuantizeToF16 op => words op.result_type ++ words op.result_id ++ words op.value
  | .OpConvertPtrToU op => words op.result_type ++ words op.result_id ++ words op.pointer
  | .OpSatConvertSToU op => words op.result_type ++ words op.result_id ++ words op.signed_value
  | .OpSatConvertUToS op => words op.result_type ++ words op.result_id ++ words op.unsigned_value
  | .OpConvertUToPtr op => words op.result_type ++ words op.result_id ++ words op.integer_value
  | .OpPtrCastToGeneric op => words op.result_type ++ words op.result_id ++ words op.pointer
  | .OpGenericCastToPtr op => words op.result_type ++ words op.result_id ++ words op.pointer
  | .OpGenericCastToPtrExplicit op => words op.result_type ++ words op.result_id ++ words op.pointer ++ words op.storage_class
  | .OpVectorExtractDynamic op => words op.result_type ++ words op.result_id ++ words op.vector ++ words op.index
  | .OpVectorInsertDynamic op => words op.result_type ++ words op.result_id ++ words op.vector ++ words op.component ++ words op.index
  | .OpVectorShuffle op => words op.result_type ++ words op.result_id ++ words op.operand1 ++ words op.operand2 ++ words op.components
  | .OpCompositeConstruct op => words op.result_type ++ words op.result_id ++ words op.constituents
  | .OpCompositeExtract op => words op.result_type ++ words op.result_id ++ words op.composite ++ words op.indexes
  | .OpCompositeInsert op => words op.result_type ++ words op.result_id ++ words op.object ++ words op.composite ++ words op.indexes
  | .OpCopyObject op => words op.result_type ++ words op.result_id ++ words op.operand
  | .OpTranspose op => words op.result_type ++ words op.result_id ++ words op.matrix
  | .OpSNegate op => words op.result_type ++ words op.result_id ++ words op.operand
  | .OpFNegate op => words op.result_type ++ words op.result_id ++ words op.operand
  | .OpVectorTimesScalar op => words op.result_type ++ words op.result_id ++ words op.vector ++ words op.scalar
  | .OpMatrixTimesScalar op => words op.result_type ++ words op.result_id ++ words op.matrix ++ words op.scalar
  | .OpVectorTimesMatrix op => words op.result_type ++ words op.result_id ++ words op.vector ++ words op.matrix
  | .OpMatrixTimesVector op => words op.result_type ++ words op.result_id ++ words op.matrix ++ words op.vector
  | .OpMatrixTimesMatrix op => words op.result_type ++ words op.result_id ++ words op.left_matrix ++ words op.right_matrix
  | .OpOuterProduct op => words op.result_type ++ words op.result_id ++ words op.vector1 ++ words op.vector2
  | .OpDot op => words op.result_type ++ words op.result_id ++ words op.vector1 ++ words op.vector2
  | .OpShiftRightLogical op => words op.result_type ++ words op.result_id ++ words op.base ++ words op.shift
  | .OpShiftRightArithmetic op => words op.result_type ++ words op.result_id ++ words op.base ++ words op.shift
  | .OpShiftLeftLogical op => words op.result_type ++ words op.result_id ++ words op.base ++ words op.shift
  | .OpNot op => words op.result_type ++ words op.result_id ++ words op.operand

end Magma.Spec
