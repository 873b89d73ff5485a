import Verif.Model.Fmt
/-! The messages of read errors. -/

namespace Magma

/-- src/spv/raw/mod.rs:310-355 -/
def ReadError.description : ReadError → String
  | .UnexpectedEndOfStream => "unexpected end of stream"
  | .UnexpectedStreamAlignment => "stream is not word aligned"
  | .BadMagic => "invalid magic number"
  | .UnknownVersionBytes _ _ _ _ => "unknown version bytes"
  | .UnknownVersion _ => "unknown version"
  | .UnknownReservedSchema => "unknown reserved schema field"
  | .UnknownOp _ _ => "unknown op"
  | .UnimplementedOp _ => "unimplemented op"
  | .WrongWordCountForOp => "op has invalid word count"
  | .InvalidString => "invalid string literal"
  | .UnexpectedEndOfInstruction => "instruction didn't have enough data"
  | .InstructionHadExcessData => "instruction didn't require all data"
  | .UnknownInstSet _ => "unknown instruction set"
  | .UnknownInstSetId _ => "extended instruction referenced unknown instruction set"
  | .UnknownExtInstOp _ _ => "unknown op in extended instruction set"
  | .DuplicateResultId _ => "duplicate result id"
  | .UnknownAddressingModel _ => "unknown addressing model"
  | .UnknownMemoryModel _ => "unknown memory model"
  | .UnknownExecutionModel _ => "unknown execution model"
  | .UnknownExecutionMode _ => "unknown execution mode"
  | .UnknownCapability _ => "unknown capability"
  | .UnknownDecoration _ => "unknown decoration"
  | .UnknownBuiltIn _ => "unknown built in"
  | .UnknownFpRoundingMode _ => "unknown fp rounding mode"
  | .UnknownFpFastMathMode _ => "unknown fp fast math mode"
  | .UnknownLinkageType _ => "unknown linkage type"
  | .UnknownSignedness _ => "unknown signedness"
  | .UnknownStorageClass _ => "unknown storage class"
  | .UnknownFunctionParameterAttribute _ => "unknown function parameter attribute"
  | .UnknownMemoryAccess _ => "unknown memory access"
  | .UnknownDim _ => "unknown image dimension"
  | .UnknownDepthStatus _ => "unknown image depth hint"
  | .UnknownArrayed _ => "unknown image arrayed status"
  | .UnknownMS _ => "unknown multisampled status"
  | .UnknownSampledStatus _ => "unknown sampled hint"
  | .UnknownImageFormat _ => "unknown image format"
  | .UnknownAccessQualifier _ => "unknown access qualifier"
  | .UnknownLoopControl _ => "unknown loop control"
  | .UnknownSelectionControl _ => "unknown selection control"

/-- src/spv/raw/mod.rs:304-308 -/
instance : Display ReadError := ⟨fun e => e.description.toList⟩

end Magma
