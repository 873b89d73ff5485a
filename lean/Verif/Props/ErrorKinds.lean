import Verif.Props.Blame
/-! C54: which errors the reader returns. -/

namespace Magma.Props
open Spec

/-! ### C54 -/

/-- Some input makes the reader return an error of that kind. -/
def Returned (e : ReadError) : Prop :=
  ∃ bytes e', readModule bytes [Glsl.instSet] = .error (.err e') ∧ e'.ctorIdx = e.ctorIdx

/-- The instruction with the opcode and operand words, after a header and the import of GLSL.std.450 -/
def afterImport (opcode : UInt32) (ops : List UInt32) : List UInt8 :=
  Samples.header ++ Samples.importWords ++ bytesOf true ((UInt32.ofNat (ops.length + 1) * 65536 + opcode) :: ops)

/-- C54 as stated is false: there is no input for which `WrongWordCountForOp` or `UnknownVersion` is
returned. -/
theorem C54_violated (v : Version) : ¬ Returned .WrongWordCountForOp ∧ ¬ Returned (.UnknownVersion v) := by
  constructor
  · rintro ⟨bytes, e, h, he⟩
    cases e <;> simp only [ReadError.ctorIdx] at he <;> first | (exact absurd he (by decide)) | skip
    rcases C53_justified_glsl h with h | ⟨_, _, _, _, _, _, _, _, h⟩ <;> exact h
  · rintro ⟨bytes, e, h, he⟩
    cases e <;> simp only [ReadError.ctorIdx] at he <;> first | (exact absurd he (by decide)) | skip
    rcases C53_justified_glsl h with h | ⟨_, _, _, _, _, _, _, _, h⟩ <;> exact h

/-- C54 for all kinds but those two, which are missing: each is returned for some input. -/
theorem C54_returned_partial (e : ReadError) (h1 : e.ctorIdx ≠ (ReadError.WrongWordCountForOp).ctorIdx)
    (h2 : e.ctorIdx ≠ (ReadError.UnknownVersion ⟨1, 0⟩).ctorIdx) : Returned e := by
  cases e with
  | UnexpectedEndOfStream => exact ⟨[], _, rfl, rfl⟩
  | UnexpectedStreamAlignment => exact ⟨[1], _, rfl, rfl⟩
  | BadMagic => exact ⟨[1, 2, 3, 4], _, rfl, rfl⟩
  | UnknownVersionBytes a b c d => exact ⟨bytesOf true [0x07230203, 0x00010100], _, rfl, rfl⟩
  | UnknownVersion v => exact absurd rfl h2
  | UnknownReservedSchema => exact ⟨bytesOf true [0x07230203, 0x00010000, 0, 9, 1], _, rfl, rfl⟩
  | UnknownOp id wc => exact ⟨afterImport 999 [], _, rfl, rfl⟩
  | UnimplementedOp name => exact ⟨afterImport 8 [], _, rfl, rfl⟩
  | WrongWordCountForOp => exact absurd rfl h1
  | InvalidString => exact ⟨afterImport 7 [1, 0xFF], _, rfl, rfl⟩
  | UnexpectedEndOfInstruction => exact ⟨afterImport 19 [], _, rfl, rfl⟩
  | InstructionHadExcessData => exact ⟨afterImport 19 [2, 3], _, rfl, rfl⟩
  | UnknownInstSet name => exact ⟨afterImport 11 [2, 0], _, rfl, rfl⟩
  | UnknownInstSetId id => exact ⟨afterImport 12 [1, 2, 3, 4], _, rfl, rfl⟩
  | UnknownExtInstOp set inst => exact ⟨afterImport 12 [1, 2, 1, 4], _, rfl, rfl⟩
  | DuplicateResultId id => exact ⟨Samples.header ++ Samples.importWords ++ Samples.importWords, _, rfl, rfl⟩
  | UnknownAddressingModel w => exact ⟨afterImport 14 [9, 1], _, rfl, rfl⟩
  | UnknownMemoryModel w => exact ⟨afterImport 14 [0, 9], _, rfl, rfl⟩
  | UnknownExecutionModel w => exact ⟨afterImport 15 [99, 1, 0], _, rfl, rfl⟩
  | UnknownExecutionMode w => exact ⟨afterImport 16 [1, 99], _, rfl, rfl⟩
  | UnknownCapability w => exact ⟨afterImport 17 [999], _, rfl, rfl⟩
  | UnknownDecoration w => exact ⟨afterImport 71 [1, 99], _, rfl, rfl⟩
  | UnknownBuiltIn w => exact ⟨afterImport 71 [1, 11, 99], _, rfl, rfl⟩
  | UnknownFpRoundingMode w => exact ⟨afterImport 71 [1, 39, 99], _, rfl, rfl⟩
  | UnknownFpFastMathMode w => exact ⟨afterImport 71 [1, 40, 64], _, rfl, rfl⟩
  | UnknownLinkageType w => exact ⟨afterImport 71 [1, 41, 0, 99], _, rfl, rfl⟩
  | UnknownSignedness w => exact ⟨afterImport 21 [1, 32, 2], _, rfl, rfl⟩
  | UnknownStorageClass w => exact ⟨afterImport 59 [1, 2, 99], _, rfl, rfl⟩
  | UnknownFunctionParameterAttribute w => exact ⟨afterImport 71 [1, 38, 99], _, rfl, rfl⟩
  | UnknownMemoryAccess w => exact ⟨afterImport 61 [1, 2, 3, 8], _, rfl, rfl⟩
  | UnknownDim w => exact ⟨afterImport 25 [1, 2, 99, 0, 0, 0, 0, 0], _, rfl, rfl⟩
  | UnknownDepthStatus w => exact ⟨afterImport 25 [1, 2, 0, 99, 0, 0, 0, 0], _, rfl, rfl⟩
  | UnknownArrayed w => exact ⟨afterImport 25 [1, 2, 0, 0, 99, 0, 0, 0], _, rfl, rfl⟩
  | UnknownMS w => exact ⟨afterImport 25 [1, 2, 0, 0, 0, 99, 0, 0], _, rfl, rfl⟩
  | UnknownSampledStatus w => exact ⟨afterImport 25 [1, 2, 0, 0, 0, 0, 99, 0], _, rfl, rfl⟩
  | UnknownImageFormat w => exact ⟨afterImport 25 [1, 2, 0, 0, 0, 0, 0, 99], _, rfl, rfl⟩
  | UnknownAccessQualifier w => exact ⟨afterImport 25 [1, 2, 0, 0, 0, 0, 0, 0, 99], _, rfl, rfl⟩
  | UnknownLoopControl w => exact ⟨afterImport 246 [1, 2, 16], _, rfl, rfl⟩
  | UnknownSelectionControl w => exact ⟨afterImport 247 [1, 4], _, rfl, rfl⟩

example : Returned (.UnknownDim 5) := C54_returned_partial _ (by decide) (by decide)

end Magma.Props
