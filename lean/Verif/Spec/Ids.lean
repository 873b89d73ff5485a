import Verif.Spec.Encoding
import Verif.Spec.GlslEncoding
/-! Ids as names: which words of an instruction are ids, by the standard (section 3.32), and what it means to
replace the ids of a module by others. -/

namespace Magma.Spec

/-- What a word of an instruction, or the words of a string, or all the words that are left, stand for -/
inductive Part where
  /-- an id -/
  | id
  /-- a number, an enumerant or a mask -/
  | word
  /-- a string -/
  | string
  /-- ids up to the end of the instruction -/
  | ids

open Part in
/-- The operands of the instruction with this opcode. What is not listed, at the end of an instruction, has no
ids in it. -/
def parts : Nat → List Part
  | 1 => [id, id]  -- OpUndef
  | 3 => [word, word, id]  -- OpSource
  | 5 => [id]  -- OpName
  | 6 => [id]  -- OpMemberName
  | 7 => [id]  -- OpString
  | 11 => [id]  -- OpExtInstImport
  | 12 => [id, id, id, word, ids]  -- OpExtInst
  | 15 => [word, id, string, ids]  -- OpEntryPoint
  | 16 => [id]  -- OpExecutionMode
  | 19 => [id]  -- OpTypeVoid
  | 20 => [id]  -- OpTypeBool
  | 21 => [id]  -- OpTypeInt
  | 22 => [id]  -- OpTypeFloat
  | 23 => [id, id]  -- OpTypeVector
  | 24 => [id, id]  -- OpTypeMatrix
  | 25 => [id, id]  -- OpTypeImage
  | 26 => [id]  -- OpTypeSampler
  | 27 => [id, id]  -- OpTypeSampledImage
  | 28 => [id, id, id]  -- OpTypeArray
  | 29 => [id, id]  -- OpTypeRuntimeArray
  | 30 => [id, ids]  -- OpTypeStruct
  | 31 => [id]  -- OpTypeOpaque
  | 32 => [id, word, id]  -- OpTypePointer
  | 33 => [id, id, ids]  -- OpTypeFunction
  | 43 => [id, id]  -- OpConstant
  | 44 => [id, id, ids]  -- OpConstantComposite
  | 54 => [id, id, word, id]  -- OpFunction
  | 55 => [id, id]  -- OpFunctionParameter
  | 59 => [id, id, word, id]  -- OpVariable
  | 61 => [id, id, id]  -- OpLoad
  | 62 => [id, id]  -- OpStore
  | 65 => [id, id, id, ids]  -- OpAccessChain
  | 71 => [id]  -- OpDecorate
  | 72 => [id]  -- OpMemberDecorate
  | 112 => [id, id, id]  -- OpConvertUToF
  | 124 => [id, id, id]  -- OpBitcast
  | 245 => [id, id, ids]  -- OpPhi
  | 246 => [id, id]  -- OpLoopMerge
  | 247 => [id]  -- OpSelectionMerge
  | 248 => [id]  -- OpLabel
  | 249 => [id]  -- OpBranch
  | 250 => [id, id, id]  -- OpBranchConditional
  | n =>  -- two operands: arithmetic, with carry, comparison, bitwise
    if 128 ≤ n ∧ n ≤ 141 ∨ 149 ≤ n ∧ n ≤ 152 ∨ 170 ≤ n ∧ n ≤ 191 ∨ 197 ≤ n ∧ n ≤ 199 then [id, id, id, id] else []

/-- Whether a literal string ends in this word -/
def endsString (w : UInt32) : Bool := (wordBytes w).contains 0

/-- The operand words with the ids replaced -/
def renameParts (σ : UInt32 → UInt32) : List Part → List UInt32 → List UInt32
  | _, [] => []
  | [], ws => ws
  | .id :: ps, w :: ws => σ w :: renameParts σ ps ws
  | .word :: ps, w :: ws => w :: renameParts σ ps ws
  | .string :: ps, w :: ws => w :: renameParts σ (if endsString w then ps else .string :: ps) ws
  | .ids :: _, ws => ws.map σ

/-- Instructions one after the other, each with its ids replaced. The head word gives the opcode and the
number of words. -/
def renameWords (σ : UInt32 → UInt32) : List UInt32 → List UInt32
  | [] => []
  | head :: ws =>
    let n := head.toNat / 65536 - 1
    head :: (renameParts σ (parts (head.toNat % 65536)) (ws.take n) ++ renameWords σ (ws.drop n))
  termination_by ws => ws.length
  decreasing_by simp; omega

/-- Replacing the ids of a value -/
class Renames (α : Type) where
  ren : (UInt32 → UInt32) → α → α

export Renames (ren)

instance : Renames OpId := ⟨fun σ i => ⟨σ i.val⟩⟩
instance : Renames ResultId := ⟨fun σ i => ⟨σ i.val⟩⟩
instance : Renames PhiArg := ⟨fun σ a => ⟨ren σ a.1, ren σ a.2⟩⟩
instance {α : Type} [Renames α] : Renames (Option α) := ⟨fun σ => Option.map (ren σ)⟩
instance {α : Type} [Renames α] : Renames (List α) := ⟨fun σ => List.map (ren σ)⟩
instance : Renames Glsl.Inst :=
  ⟨fun σ i => match i with
    | .Sin op => .Sin ⟨ren σ op.x⟩
    | .Cos op => .Cos ⟨ren σ op.x⟩⟩
instance : Renames Empty := ⟨fun _ e => e⟩

/-- The ids in an error -/
def renameReadError (σ : UInt32 → UInt32) : ReadError → ReadError
  | .UnknownInstSetId id => .UnknownInstSetId (ren σ id)
  | .DuplicateResultId id => .DuplicateResultId (ren σ id)
  | e => e

/-- The ids in an outcome -/
def renameRead {α : Type} (σ : UInt32 → UInt32) (f : α → α) : R α → R α
  | .ok a => .ok (f a)
  | .error (.err e) => .error (.err (renameReadError σ e))
  | .error f => .error f

/-- The instructions of the set take their operands for ids, as the standard demands (3.32.4), and ids for
names: nothing depends on which they are. -/
def TakesIds {X : Type} [Renames X] (σ : UInt32 → UInt32) (s : ExtInstSet X) : Prop :=
  ∀ n ws, s.readInstruction n (ws.map σ) = renameRead σ (fun p => (p.1.map σ, ren σ p.2)) (s.readInstruction n ws)

/-- A type of values without ids -/
class NoIds (α : Type) : Prop
instance : NoIds UInt32 where
instance : NoIds String where
instance : NoIds SourceLanguage where
instance : NoIds SourceVersion where
instance : NoIds MemberIndex where
instance : NoIds Decoration where
instance : NoIds AddressingModel where
instance : NoIds MemoryModel where
instance : NoIds ExecutionModel where
instance : NoIds ExecutionMode where
instance : NoIds Capability where
instance : NoIds Signedness where
instance : NoIds StorageClass where
instance : NoIds Dim where
instance : NoIds DepthStatus where
instance : NoIds Arrayed where
instance : NoIds MS where
instance : NoIds SampledStatus where
instance : NoIds ImageFormat where
instance : NoIds AccessQualifier where
instance : NoIds MemoryAccess where
instance : NoIds FunctionControl where
instance : NoIds LoopControl where
instance : NoIds SelectionControl where
instance : NoIds BranchWeights where
instance {α : Type} [NoIds α] : Renames α := ⟨fun _ a => a⟩

end Magma.Spec
