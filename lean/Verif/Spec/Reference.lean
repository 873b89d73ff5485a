import Verif.Spec.Opcodes
import Verif.Model.Reader
/-! A reference for what the reader accepts and which error it reports. It is a table of the operands of each
opcode (SPIR-V 1.0, section 3.32) and builds no module. Where the crate departs from the standard, the table says
so. -/

namespace Magma.Spec

/-- Looks at the operand words from the front: an error, or the words that are left -/
abbrev Check := List UInt32 → Except ReadError (List UInt32)

/-- Any word: ids, numbers -/
def anyWord : Check
  | [] => .error .UnexpectedEndOfInstruction
  | _ :: ws => .ok ws

/-- A word with a condition on it -/
def wordWith (ok : UInt32 → Bool) (e : UInt32 → ReadError) : Check
  | [] => .error .UnexpectedEndOfInstruction
  | w :: ws => if ok w then .ok ws else .error (e w)

/-- One of the numbers up to `last`, apart from some that are reserved -/
def upTo (last : Nat) (reserved : List Nat) (e : UInt32 → ReadError) : Check :=
  wordWith (fun w => w.toNat ≤ last && !reserved.contains w.toNat) e

/-- A mask. The crate does not look at the bits from 16 on (see C11). -/
def maskBelow (bits : Nat) (e : UInt32 → ReadError) : Check :=
  wordWith (fun w => w.toNat % 65536 < 2 ^ bits) e

/-- One after the other, each with the words the one before leaves -/
def inTurn : List Check → Check
  | [], ws => .ok ws
  | c :: cs, ws => c ws >>= inTurn cs

/-- Nothing, or the operand -/
def optionally (c : Check) : Check
  | [] => .ok []
  | w :: ws => c (w :: ws)

/-- Any words up to the end -/
def anyWords : Check := fun _ => .ok []

/-- Pairs of words up to the end -/
def anyPairs : Check := fun ws => if ws.length % 2 = 0 then .ok [] else .error .UnexpectedEndOfInstruction

/-- The bytes of the words up to the first NUL -/
def textBytes (ws : List UInt32) : List UInt8 := (ws.flatMap wordBytes).takeWhile (· ≠ 0)

/-- The string that starts here, if there is one -/
def textOf (ws : List UInt32) : Option String := String.fromUTF8? ⟨(textBytes ws).toArray⟩

/-- The words after the first that has a NUL in it -/
def afterText : List UInt32 → Option (List UInt32)
  | [] => none
  | w :: ws => if (wordBytes w).contains 0 then some ws else afterText ws

/-- A string: words up to the first that has a NUL in it. The bytes before are UTF-8. -/
def text : Check := fun ws =>
  match afterText ws with
  | none => .error .UnexpectedEndOfInstruction
  | some rest => if (textOf ws).isSome then .ok rest else .error .InvalidString

/-- A word that says which operands follow -/
def selects (follow : Nat → Option (List Check)) (e : UInt32 → ReadError) : Check
  | [] => .error .UnexpectedEndOfInstruction
  | w :: ws =>
    match follow w.toNat with
    | some cs => inTurn cs ws
    | none => .error (e w)

/-- Section 3.6 -/
def executionModeOperands : Nat → Option (List Check)
  | 0 | 26 | 30 => some [anyWord]
  | 13 => none
  | 17 | 18 => some [anyWord, anyWord, anyWord]
  | n => if n ≤ 31 then some [] else none

/-- Section 3.20. Bit 5 of the fast math mode is not defined, but the crate accepts it (see C11). -/
def decorationOperands : Nat → Option (List Check)
  | 11 => some [upTo 43 [2, 21, 35] .UnknownBuiltIn]
  | 12 | 27 => none
  | 1 | 6 | 7 | 29 | 30 | 31 | 32 | 33 | 34 | 35 | 36 | 37 | 43 | 44 => some [anyWord]
  | 38 => some [upTo 7 [] .UnknownFunctionParameterAttribute]
  | 39 => some [upTo 3 [] .UnknownFpRoundingMode]
  | 40 => some [maskBelow 6 .UnknownFpFastMathMode]
  | 41 => some [text, upTo 1 [] .UnknownLinkageType]
  | n => if n ≤ 42 then some [] else none

/-- The number of dependent iterations follows the mask if bit 3 is set. -/
def loopControl : Check := fun ws => do
  let rest ← maskBelow 4 .UnknownLoopControl ws
  if (ws.headD 0).toNat.testBit 3 then anyWord rest else .ok rest

/-- The mask is not followed by the alignment (see C47). -/
def memoryAccess : Check := maskBelow 3 .UnknownMemoryAccess

/-- The operands of the instruction with this opcode (section 3.32), for the opcodes that are implemented, apart
from `OpExtInstImport` and `OpExtInst` -/
def operandsOf : Nat → Option (List Check)
  | 0 => some []  -- OpNop
  | 1 => some [anyWord, anyWord]  -- OpUndef
  | 2 => some [text]  -- OpSourceContinued
  | 3 => some [anyWord, anyWord, optionally anyWord, optionally text]  -- OpSource
  | 4 => some [text]  -- OpSourceExtension
  | 5 => some [anyWord, text]  -- OpName
  | 6 => some [anyWord, anyWord, text]  -- OpMemberName
  | 7 => some [anyWord, text]  -- OpString
  | 10 => some [text]  -- OpExtension
  | 14 => some [upTo 2 [] .UnknownAddressingModel, upTo 2 [] .UnknownMemoryModel]  -- OpMemoryModel
  | 15 => some [upTo 6 [] .UnknownExecutionModel, anyWord, text, anyWords]  -- OpEntryPoint
  | 16 => some [anyWord, selects executionModeOperands .UnknownExecutionMode]  -- OpExecutionMode
  | 17 => some [upTo 57 [16, 26] .UnknownCapability]  -- OpCapability
  | 19 => some [anyWord]  -- OpTypeVoid
  | 20 => some [anyWord]  -- OpTypeBool
  | 21 => some [anyWord, anyWord, upTo 1 [] .UnknownSignedness]  -- OpTypeInt
  | 22 => some [anyWord, anyWord]  -- OpTypeFloat
  | 23 => some [anyWord, anyWord, anyWord]  -- OpTypeVector
  | 24 => some [anyWord, anyWord, anyWord]  -- OpTypeMatrix
  | 25 => some [anyWord, anyWord, upTo 6 [] .UnknownDim, upTo 2 [] .UnknownDepthStatus, upTo 1 [] .UnknownArrayed,
      upTo 1 [] .UnknownMS, upTo 2 [] .UnknownSampledStatus, upTo 39 [] .UnknownImageFormat,
      optionally (upTo 2 [] .UnknownAccessQualifier)]  -- OpTypeImage
  | 26 => some [anyWord]  -- OpTypeSampler
  | 27 => some [anyWord, anyWord]  -- OpTypeSampledImage
  | 28 => some [anyWord, anyWord, anyWord]  -- OpTypeArray
  | 29 => some [anyWord, anyWord]  -- OpTypeRuntimeArray
  | 30 => some [anyWord, anyWords]  -- OpTypeStruct
  | 31 => some [anyWord, text]  -- OpTypeOpaque
  | 32 => some [anyWord, upTo 11 [] .UnknownStorageClass, anyWord]  -- OpTypePointer
  | 33 => some [anyWord, anyWord, anyWords]  -- OpTypeFunction
  | 43 => some [anyWord, anyWord, anyWords]  -- OpConstant
  | 44 => some [anyWord, anyWord, anyWords]  -- OpConstantComposite
  | 54 => some [anyWord, anyWord, anyWord, anyWord]  -- OpFunction; no bit of the function control is refused
  | 55 => some [anyWord, anyWord]  -- OpFunctionParameter
  | 56 => some []  -- OpFunctionEnd
  | 59 => some [anyWord, anyWord, upTo 11 [] .UnknownStorageClass, optionally anyWord]  -- OpVariable
  | 61 => some [anyWord, anyWord, anyWord, optionally memoryAccess]  -- OpLoad
  | 62 => some [anyWord, anyWord, optionally memoryAccess]  -- OpStore
  | 65 => some [anyWord, anyWord, anyWord, anyWords]  -- OpAccessChain
  | 71 => some [anyWord, selects decorationOperands .UnknownDecoration]  -- OpDecorate
  | 72 => some [anyWord, anyWord, selects decorationOperands .UnknownDecoration]  -- OpMemberDecorate
  | 112 => some [anyWord, anyWord, anyWord]  -- OpConvertUToF
  | 124 => some [anyWord, anyWord, anyWord]  -- OpBitcast
  | 245 => some [anyWord, anyWord, anyPairs]  -- OpPhi
  | 246 => some [anyWord, anyWord, loopControl]  -- OpLoopMerge
  | 247 => some [anyWord, maskBelow 2 .UnknownSelectionControl]  -- OpSelectionMerge
  | 248 => some [anyWord]  -- OpLabel
  | 249 => some [anyWord]  -- OpBranch
  | 250 => some [anyWord, anyWord, anyWord, optionally (inTurn [anyWord, anyWord])]  -- OpBranchConditional
  | 253 => some []  -- OpReturn
  | n =>  -- two operands: arithmetic, with carry, comparison, bitwise
    if 128 ≤ n ∧ n ≤ 141 ∨ 149 ≤ n ∧ n ≤ 152 ∨ 170 ≤ n ∧ n ≤ 191 ∨ 197 ≤ n ∧ n ≤ 199 then
      some [anyWord, anyWord, anyWord, anyWord]
    else none

/-- What can come of reading without a value -/
abbrev Verdict (α : Type) := Except (Fault ReadError) α

/-- An error of the crate -/
def refuse {α : Type} (e : ReadError) : Verdict α := .error (.err e)

/-- A check as a verdict -/
def asVerdict {α : Type} : Except ReadError α → Verdict α
  | .ok a => .ok a
  | .error e => refuse e

/-- No words are left. -/
def atEnd {α : Type} (a : α) : List UInt32 → Verdict α
  | [] => .ok a
  | _ :: _ => refuse .InstructionHadExcessData

/-- The sets that are imported, with the ids of the imports -/
abbrev Imports (X : Type) := List (UInt32 × ExtInstSet X)

/-- The import of a set: the name is that of a known set, and the id has not been used for an import. -/
def checkImport {X : Type} (known : List (ExtInstSet X)) (imports : Imports X) (ops : List UInt32) :
    Verdict (Imports X) := do
  let rest ← asVerdict (inTurn [anyWord, text] ops)
  let id := ops.headD 0
  match textOf (ops.drop 1) with
  | none => refuse .InvalidString
  | some name =>
    match known.find? (fun s => s.name == name) with
    | none => refuse (.UnknownInstSet name)
    | some s =>
      if imports.any (fun p => p.1 == id) then refuse (.DuplicateResultId ⟨id⟩)
      else atEnd ((id, s) :: imports) rest

/-- An instruction of an imported set -/
def checkExtInst {X : Type} (imports : Imports X) : List UInt32 → Verdict (Imports X)
  | _ :: _ :: id :: number :: args =>
    match imports.lookup id with
    | none => refuse (.UnknownInstSetId ⟨id⟩)
    | some s => do
      let (rest, _) ← s.readInstruction number args
      atEnd imports rest
  | _ => refuse .UnexpectedEndOfInstruction

/-- One instruction -/
def checkInst {X : Type} (known : List (ExtInstSet X)) (imports : Imports X) (head : UInt32) (ops : List UInt32) :
    Verdict (Imports X) :=
  let code := head.toNat % 65536
  if code = 11 then checkImport known imports ops
  else if code = 12 then checkExtInst imports ops
  else
    match operandsOf code with
    | some cs => asVerdict (inTurn cs ops) >>= atEnd imports
    | none =>
      match unimplementedOpcodes.lookup code with
      | some name => refuse (.UnimplementedOp name)
      | none => refuse (.UnknownOp (UInt16.ofNat code) (UInt16.ofNat (head.toNat / 65536)))

/-- The input ends where a word should be; `left` are the bytes that are no word. -/
def tooShort {α : Type} (left : List UInt8) : Verdict α :=
  if left.isEmpty then refuse .UnexpectedEndOfStream else refuse .UnexpectedStreamAlignment

/-- The instructions. A word count of 0 is taken for 1 (see C06). -/
def checkBody {X : Type} (known : List (ExtInstSet X)) (left : List UInt8) (imports : Imports X) :
    List UInt32 → Verdict Unit
  | [] => if left.isEmpty then .ok () else refuse .UnexpectedStreamAlignment
  | head :: ws =>
    let n := head.toNat / 65536 - 1
    if ws.length < n then tooShort left
    else do
      let imports ← checkInst known imports head (ws.take n)
      checkBody known left imports (ws.drop n)
  termination_by ws => ws.length
  decreasing_by simp; omega

/-- The version word is that of SPIR-V 1.0. Of three of its bytes the crate looks only at the lower halves
(see C09). -/
def checkVersion (w : UInt32) : Verdict Unit :=
  let n := w.toNat
  if n / 16777216 = 0 ∧ n / 65536 % 16 = 1 ∧ n / 256 % 16 = 0 ∧ n % 16 = 0 then .ok ()
  else refuse (.UnknownVersionBytes (UInt8.ofNat (n / 16777216)) (UInt8.ofNat (n / 65536 % 16))
    (UInt8.ofNat (n / 256 % 16)) (UInt8.ofNat (n % 16)))

/-- What follows the magic number: version, generator, bound, schema, instructions -/
def checkModule {X : Type} (known : List (ExtInstSet X)) (left : List UInt8) : List UInt32 → Verdict Unit
  | [] => tooShort left
  | ver :: ws => do
    checkVersion ver
    match ws with
    | _ :: _ :: schema :: ws => if schema = 0 then checkBody known left [] ws else refuse .UnknownReservedSchema
    | _ => tooShort left

/-- The words and the bytes that are left -/
def wordsOf (le : Bool) : List UInt8 → List UInt32 × List UInt8
  | a :: b :: c :: d :: rest =>
    let (ws, left) := wordsOf le rest
    let n := if le then a.toNat + 256 * (b.toNat + 256 * (c.toNat + 256 * d.toNat))
      else d.toNat + 256 * (c.toNat + 256 * (b.toNat + 256 * a.toNat))
    (UInt32.ofNat n :: ws, left)
  | left => ([], left)

/-- The reference: whether the bytes are accepted, and if not, with which error -/
def reference {X : Type} (known : List (ExtInstSet X)) : List UInt8 → Verdict Unit
  | 0x03 :: 0x02 :: 0x23 :: 0x07 :: rest => checkModule known (wordsOf true rest).2 (wordsOf true rest).1
  | 0x07 :: 0x23 :: 0x02 :: 0x03 :: rest => checkModule known (wordsOf false rest).2 (wordsOf false rest).1
  | _ :: _ :: _ :: _ :: _ => refuse .BadMagic
  | left => tooShort left

/-- The instructions of `GLSL.std.450` that the crate knows, `Sin` and `Cos`, have one operand. -/
def checkGlsl (number : UInt32) (args : List UInt32) : Verdict (List UInt32) :=
  if number.toNat ∈ [13, 14] then asVerdict (inTurn [anyWord] args)
  else refuse (.UnknownExtInstOp "GLSL.std.450" number)

end Magma.Spec
