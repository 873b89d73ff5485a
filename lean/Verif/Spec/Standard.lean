import Verif.Spec.Serialise
/-! The grammar of instructions after the SPIR-V 1.0 standard (section 3), in the form of its tables: the operands of
each opcode, and the values of each kind of operand. The tables are the same for the standard and for the crate; they
differ in what some kinds of operand mean. Nothing here refers to the reader. -/

namespace Magma.Standard
open Spec

/-- The kinds of operands -/
inductive Kind where
  | id | number | value | string | phiPair | weights
  | sourceLanguage | addressingModel | memoryModel | executionModel | capability | signedness
  | dim | depth | arrayed | multisampled | sampled | imageFormat | accessQualifier | storageClass
  | builtIn | parameterAttribute | roundingMode | linkageType
  | functionControl | memoryAccess | fastMath | loopControl | selectionControl
  deriving DecidableEq

/-- An operand in the table of an opcode -/
inductive Item where
  | one (k : Kind)
  /-- it may be left out, but then all that follows is left out too -/
  | opt (k : Kind)
  /-- any number of them -/
  | many (k : Kind)
  /-- one of these words, with the operands that belong to it -/
  | choice (table : List (Nat × List Kind))

/-- What the words of an operand are -/
abbrev Meaning := Kind → List UInt32 → Prop

/-- Operands one after the other -/
def allOf (M : Meaning) : List Kind → List UInt32 → Prop
  | [], ws => ws = []
  | k :: ks, ws => ∃ us vs, ws = us ++ vs ∧ M k us ∧ allOf M ks vs

/-- Any number of operands of a kind -/
def manyOf (M : Meaning) (k : Kind) (ws : List UInt32) : Prop :=
  ∃ parts : List (List UInt32), ws = parts.flatten ∧ ∀ p ∈ parts, M k p

/-- The words `ws` are operands as the table says. -/
def Fit (M : Meaning) : List Item → List UInt32 → Prop
  | [], ws => ws = []
  | .one k :: items, ws => ∃ us vs, ws = us ++ vs ∧ M k us ∧ Fit M items vs
  | .opt k :: items, ws => ws = [] ∨ ∃ us vs, ws = us ++ vs ∧ M k us ∧ Fit M items vs
  | .many k :: items, ws => ∃ us vs, ws = us ++ vs ∧ manyOf M k us ∧ Fit M items vs
  | .choice table :: items, ws => ∃ w ks us vs, (UInt32.toNat w, ks) ∈ table ∧ ws = w :: us ++ vs ∧ allOf M ks us ∧
      Fit M items vs

/-- The values of the enumerations: sections 3.2, 3.4, 3.5, 3.3, 3.31, 3.32 (`OpTypeInt`, `OpTypeImage`), 3.8, 3.11, 3.18,
3.7, 3.21, 3.19, 3.16, 3.17 -/
def values : Kind → List Nat
  | .sourceLanguage => [0, 1, 2, 3, 4]  -- Unknown, ESSL, GLSL, OpenCL_C, OpenCL_CPP
  | .addressingModel => [0, 1, 2]  -- Logical, Physical32, Physical64
  | .memoryModel => [0, 1, 2]  -- Simple, GLSL450, OpenCL
  | .executionModel => [0, 1, 2, 3, 4, 5, 6]  -- Vertex to Kernel
  | .capability =>  -- Matrix to MultiViewport
    [0, 1, 2, 3, 4, 5, 6, 7, 8, 9, 10, 11, 12, 13, 14, 15, 17, 18, 19, 20, 21, 22, 23, 24, 25, 27, 28, 29, 30, 31, 32, 33,
     34, 35, 36, 37, 38, 39, 40, 41, 42, 43, 44, 45, 46, 47, 48, 49, 50, 51, 52, 53, 54, 55, 56, 57]
  | .signedness => [0, 1]
  | .dim => [0, 1, 2, 3, 4, 5, 6]  -- 1D to SubpassData
  | .depth => [0, 1, 2]
  | .arrayed => [0, 1]
  | .multisampled => [0, 1]
  | .sampled => [0, 1, 2]
  | .imageFormat =>  -- Unknown to R8ui
    [0, 1, 2, 3, 4, 5, 6, 7, 8, 9, 10, 11, 12, 13, 14, 15, 16, 17, 18, 19, 20, 21, 22, 23, 24, 25, 26, 27, 28, 29, 30, 31,
     32, 33, 34, 35, 36, 37, 38, 39]
  | .accessQualifier => [0, 1, 2]  -- ReadOnly, WriteOnly, ReadWrite
  | .storageClass => [0, 1, 2, 3, 4, 5, 6, 7, 8, 9, 10, 11]  -- UniformConstant to Image
  | .builtIn =>  -- Position to InstanceIndex
    [0, 1, 3, 4, 5, 6, 7, 8, 9, 10, 11, 12, 13, 14, 15, 16, 17, 18, 19, 20, 22, 23, 24, 25, 26, 27, 28, 29, 30, 31, 32, 33,
     34, 36, 37, 38, 39, 40, 41, 42, 43]
  | .parameterAttribute => [0, 1, 2, 3, 4, 5, 6, 7]  -- Zext to NoReadWrite
  | .roundingMode => [0, 1, 2, 3]  -- RTE, RTZ, RTP, RTN
  | .linkageType => [0, 1]  -- Export, Import
  | _ => []

/-- The words of a string, with padding bytes that are `ok` -/
def SpellsWith (ok : UInt8 → Prop) (s : String) (ws : List UInt32) : Prop :=
  ∃ pad, ws.flatMap wordBytes = stringBytes s ++ 0 :: pad ∧ pad.length ≤ 3 ∧ 0 ∉ stringBytes s ∧ ∀ b ∈ pad, ok b

/-- What the standard says about operands -/
def standard : Meaning
  | .id, ws => ∃ w, ws = [w]
  | .number, ws => ∃ w, ws = [w]
  | .value, ws => ws ≠ []  -- as many words as the type asks for
  | .string, ws => ∃ s, SpellsWith (· = 0) s ws
  | .phiPair, ws => ∃ v w, ws = [v, w]
  | .weights, ws => ∃ v w, ws = [v, w]
  | .functionControl, ws => ∃ w : UInt32, ws = [w] ∧ w.toNat < 16
  | .memoryAccess, ws => ∃ w : UInt32, w.toNat < 8 ∧ (if w.toNat.testBit 1 then ∃ a, ws = [w, a] else ws = [w])
  | .fastMath, ws => ∃ w : UInt32, ws = [w] ∧ w.toNat < 32
  | .loopControl, ws => ∃ w : UInt32, ws = [w] ∧ w.toNat < 4
  | .selectionControl, ws => ∃ w : UInt32, ws = [w] ∧ w.toNat < 4
  | k, ws => ∃ w : UInt32, ws = [w] ∧ w.toNat ∈ values k

/-- What the crate makes of them: it ignores the padding of strings and the upper halves of masks, takes any source
language and function control, constants without a value and an undefined bit of the fast math mode, knows the
dependencies of loops of later versions of the standard, and does not know of the alignment of memory accesses. -/
def crate : Meaning
  | .value, _ => True
  | .string, ws => ∃ s, SpellsWith (fun _ => True) s ws
  | .sourceLanguage, ws => ∃ w, ws = [w]
  | .functionControl, ws => ∃ w, ws = [w]
  | .memoryAccess, ws => ∃ w : UInt32, ws = [w] ∧ w.toNat % 65536 < 8
  | .fastMath, ws => ∃ w : UInt32, ws = [w] ∧ w.toNat % 65536 < 64
  | .loopControl, ws => ∃ w : UInt32, w.toNat % 65536 < 16 ∧ (if w.toNat.testBit 3 then ∃ n, ws = [w, n] else ws = [w])
  | .selectionControl, ws => ∃ w : UInt32, ws = [w] ∧ w.toNat % 65536 < 4
  | k, ws => standard k ws

/-- Section 3.6 -/
def executionModes : List (Nat × List Kind) :=
  [(0, [.number]),  -- Invocations
   (1, []), (2, []), (3, []), (4, []), (5, []), (6, []), (7, []), (8, []), (9, []), (10, []), (11, []), (12, []),
   (14, []), (15, []), (16, []),
   (17, [.number, .number, .number]),  -- LocalSize
   (18, [.number, .number, .number]),  -- LocalSizeHint
   (19, []), (20, []), (21, []), (22, []), (23, []), (24, []), (25, []),
   (26, [.number]),  -- OutputVertices
   (27, []), (28, []), (29, []),
   (30, [.number]),  -- VecTypeHint
   (31, [])]

/-- Section 3.20 -/
def decorations : List (Nat × List Kind) :=
  [(0, []),
   (1, [.number]),  -- SpecId
   (2, []), (3, []), (4, []), (5, []),
   (6, [.number]),  -- ArrayStride
   (7, [.number]),  -- MatrixStride
   (8, []), (9, []), (10, []),
   (11, [.builtIn]),  -- BuiltIn
   (13, []), (14, []), (15, []), (16, []), (17, []), (18, []), (19, []), (20, []), (21, []), (22, []), (23, []), (24, []),
   (25, []), (26, []), (28, []),
   (29, [.number]),  -- Stream
   (30, [.number]),  -- Location
   (31, [.number]),  -- Component
   (32, [.number]),  -- Index
   (33, [.number]),  -- Binding
   (34, [.number]),  -- DescriptorSet
   (35, [.number]),  -- Offset
   (36, [.number]),  -- XfbBuffer
   (37, [.number]),  -- XfbStride
   (38, [.parameterAttribute]),  -- FuncParamAttr
   (39, [.roundingMode]),  -- FPRoundingMode
   (40, [.fastMath]),  -- FPFastMathMode
   (41, [.string, .linkageType]),  -- LinkageAttributes
   (42, []),
   (43, [.number]),  -- InputAttachmentIndex
   (44, [.number])]  -- Alignment

/-- The two operands of arithmetic, comparisons and bit operations, after the type and the id of the result -/
def binary : List Item := [.one .id, .one .id, .one .id, .one .id]

/-- Section 3.32: the opcodes that are implemented, apart from `OpExtInstImport` and `OpExtInst`, with their operands -/
def grammar : List (Nat × List Item) :=
  [(0, []),  -- OpNop
   (1, [.one .id, .one .id]),  -- OpUndef
   (2, [.one .string]),  -- OpSourceContinued
   (3, [.one .sourceLanguage, .one .number, .opt .id, .opt .string]),  -- OpSource
   (4, [.one .string]),  -- OpSourceExtension
   (5, [.one .id, .one .string]),  -- OpName
   (6, [.one .id, .one .number, .one .string]),  -- OpMemberName
   (7, [.one .id, .one .string]),  -- OpString
   (10, [.one .string]),  -- OpExtension
   (14, [.one .addressingModel, .one .memoryModel]),  -- OpMemoryModel
   (15, [.one .executionModel, .one .id, .one .string, .many .id]),  -- OpEntryPoint
   (16, [.one .id, .choice executionModes]),  -- OpExecutionMode
   (17, [.one .capability]),  -- OpCapability
   (19, [.one .id]),  -- OpTypeVoid
   (20, [.one .id]),  -- OpTypeBool
   (21, [.one .id, .one .number, .one .signedness]),  -- OpTypeInt
   (22, [.one .id, .one .number]),  -- OpTypeFloat
   (23, [.one .id, .one .id, .one .number]),  -- OpTypeVector
   (24, [.one .id, .one .id, .one .number]),  -- OpTypeMatrix
   (25, [.one .id, .one .id, .one .dim, .one .depth, .one .arrayed, .one .multisampled, .one .sampled, .one .imageFormat,
     .opt .accessQualifier]),  -- OpTypeImage
   (26, [.one .id]),  -- OpTypeSampler
   (27, [.one .id, .one .id]),  -- OpTypeSampledImage
   (28, [.one .id, .one .id, .one .id]),  -- OpTypeArray
   (29, [.one .id, .one .id]),  -- OpTypeRuntimeArray
   (30, [.one .id, .many .id]),  -- OpTypeStruct
   (31, [.one .id, .one .string]),  -- OpTypeOpaque
   (32, [.one .id, .one .storageClass, .one .id]),  -- OpTypePointer
   (33, [.one .id, .one .id, .many .id]),  -- OpTypeFunction
   (43, [.one .id, .one .id, .one .value]),  -- OpConstant
   (44, [.one .id, .one .id, .many .id]),  -- OpConstantComposite
   (54, [.one .id, .one .id, .one .functionControl, .one .id]),  -- OpFunction
   (55, [.one .id, .one .id]),  -- OpFunctionParameter
   (56, []),  -- OpFunctionEnd
   (59, [.one .id, .one .id, .one .storageClass, .opt .id]),  -- OpVariable
   (61, [.one .id, .one .id, .one .id, .opt .memoryAccess]),  -- OpLoad
   (62, [.one .id, .one .id, .opt .memoryAccess]),  -- OpStore
   (65, [.one .id, .one .id, .one .id, .many .id]),  -- OpAccessChain
   (71, [.one .id, .choice decorations]),  -- OpDecorate
   (72, [.one .id, .one .number, .choice decorations]),  -- OpMemberDecorate
   (112, [.one .id, .one .id, .one .id]),  -- OpConvertUToF
   (124, [.one .id, .one .id, .one .id]),  -- OpBitcast
   -- OpIAdd, OpFAdd, OpISub, OpFSub, OpIMul, OpFMul, OpUDiv, OpSDiv, OpFDiv, OpUMod, OpSRem, OpSMod, OpFRem, OpFMod
   (128, binary), (129, binary), (130, binary), (131, binary), (132, binary), (133, binary), (134, binary), (135, binary),
   (136, binary), (137, binary), (138, binary), (139, binary), (140, binary), (141, binary),
   -- OpIAddCarry, OpISubBorrow, OpUMulExtended, OpSMulExtended
   (149, binary), (150, binary), (151, binary), (152, binary),
   -- OpIEqual to OpFUnordGreaterThanEqual
   (170, binary), (171, binary), (172, binary), (173, binary), (174, binary), (175, binary), (176, binary), (177, binary),
   (178, binary), (179, binary), (180, binary), (181, binary), (182, binary), (183, binary), (184, binary), (185, binary),
   (186, binary), (187, binary), (188, binary), (189, binary), (190, binary), (191, binary),
   -- OpBitwiseOr, OpBitwiseXor, OpBitwiseAnd
   (197, binary), (198, binary), (199, binary),
   (245, [.one .id, .one .id, .many .phiPair]),  -- OpPhi
   (246, [.one .id, .one .id, .one .loopControl]),  -- OpLoopMerge
   (247, [.one .id, .one .selectionControl]),  -- OpSelectionMerge
   (248, [.one .id]),  -- OpLabel
   (249, [.one .id]),  -- OpBranch
   (250, [.one .id, .one .id, .one .id, .opt .weights]),  -- OpBranchConditional
   (253, [])]  -- OpReturn

/-- A load or store with an alignment: the last operand is there, and bit 1 of its first word is set. -/
def Aligned (opcode : Nat) (ops : List UInt32) : Prop :=
  ∃ w : UInt32, ops[if opcode = 61 then 3 else 2]? = some w ∧ (opcode = 61 ∨ opcode = 62) ∧ w.toNat.testBit 1 = true

/-- What the standard and the crate differ in -/
structure Rules where
  /-- the version words -/
  version : UInt32 → Prop
  /-- whether an instruction without operands may have the word count 0 -/
  zero : Prop
  /-- the padding of strings -/
  padding : UInt8 → Prop
  /-- the operands -/
  meaning : Meaning

/-- Version 1.0, with all bytes in their places -/
def byStandard : Rules := ⟨(· = 0x00010000), False, (· = 0), standard⟩

/-- Of three bytes of the version the crate looks only at the lower halves. -/
def byCrate : Rules :=
  ⟨fun w => w.toNat / 16777216 = 0 ∧ w.toNat / 65536 % 16 = 1 ∧ w.toNat / 256 % 16 = 0 ∧ w.toNat % 16 = 0, True,
    fun _ => True, crate⟩

variable {X : Type}

/-- Instructions, each with its head word and its operand words. `imports` are the sets imported before. -/
def Body (rules : Rules) (known : List (ExtInstSet X)) :
    List (UInt32 × ExtInstSet X) → List (UInt32 × List UInt32) → Prop
  | _, [] => True
  | imports, (head, ops) :: insts =>
    (head.toNat / 65536 = ops.length + 1 ∨ rules.zero ∧ head.toNat / 65536 = 0 ∧ ops = []) ∧
    if head.toNat % 65536 = 11 then  -- OpExtInstImport: a set that is known, with an id that no import has
      ∃ id us name set, ops = id :: us ∧ SpellsWith rules.padding name us ∧
        known.find? (fun s => s.name == name) = some set ∧ (∀ p ∈ imports, p.1 ≠ id) ∧
        Body rules known ((id, set) :: imports) insts
    else if head.toNat % 65536 = 12 then  -- OpExtInst: an instruction of an imported set
      (∃ type result id number args set inst, ops = type :: result :: id :: number :: args ∧ (id, set) ∈ imports ∧
        set.readInstruction number args = .ok ([], inst)) ∧ Body rules known imports insts
    else (∃ items, (head.toNat % 65536, items) ∈ grammar ∧ Fit rules.meaning items ops) ∧ Body rules known imports insts

/-- The words of instructions -/
def wordsOf (insts : List (UInt32 × List UInt32)) : List UInt32 := insts.flatMap fun i => i.1 :: i.2

/-- The words of a module, with these instructions -/
def Conforms (rules : Rules) (known : List (ExtInstSet X)) (words : List UInt32) (insts : List (UInt32 × List UInt32)) :
    Prop :=
  ∃ version generator bound, words = 0x07230203 :: version :: generator :: bound :: 0 :: wordsOf insts ∧
    rules.version version ∧ Body rules known [] insts

end Magma.Standard
