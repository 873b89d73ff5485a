import Verif.Spec.DeadCode
import Verif.Spec.Assignment
import Verif.Spec.Layout
/-! Which values the instructions of blocks read, by the standard (section 3.32), and machines that compute values. -/

namespace Magma.Spec
variable {W : Type}

/-- The ids of an instruction that stand for values it reads -/
def valuesRead : GroupCode Glsl.Inst → List UInt32
  | .OpNop _ => []
  | .OpUndef _ => []
  | .OpExtInst op => match op.instruction with
    | .Sin op => [op.x.val]
    | .Cos op => [op.x.val]
  | .OpVariable op => (op.initializer.map (·.val)).toList
  | .OpLoad op => [op.pointer.val]
  | .OpStore op => [op.pointer.val, op.object.val]
  | .OpAccessChain op => op.base.val :: op.indexes.map (·.val)
  | .OpConvertUToF op => [op.unsigned_value.val]
  | .OpBitcast op => [op.operand.val]
  | .OpIAdd op => [op.operand1.val, op.operand2.val]
  | .OpFAdd op => [op.operand1.val, op.operand2.val]
  | .OpISub op => [op.operand1.val, op.operand2.val]
  | .OpFSub op => [op.operand1.val, op.operand2.val]
  | .OpIMul op => [op.operand1.val, op.operand2.val]
  | .OpFMul op => [op.operand1.val, op.operand2.val]
  | .OpUDiv op => [op.operand1.val, op.operand2.val]
  | .OpSDiv op => [op.operand1.val, op.operand2.val]
  | .OpFDiv op => [op.operand1.val, op.operand2.val]
  | .OpUMod op => [op.operand1.val, op.operand2.val]
  | .OpSRem op => [op.operand1.val, op.operand2.val]
  | .OpSMod op => [op.operand1.val, op.operand2.val]
  | .OpFRem op => [op.operand1.val, op.operand2.val]
  | .OpFMod op => [op.operand1.val, op.operand2.val]
  | .OpIAddCarry op => [op.operand1.val, op.operand2.val]
  | .OpISubBorrow op => [op.operand1.val, op.operand2.val]
  | .OpUMulExtended op => [op.operand1.val, op.operand2.val]
  | .OpSMulExtended op => [op.operand1.val, op.operand2.val]
  | .OpBitwiseOr op => [op.operand1.val, op.operand2.val]
  | .OpBitwiseXor op => [op.operand1.val, op.operand2.val]
  | .OpBitwiseAnd op => [op.operand1.val, op.operand2.val]
  | .OpIEqual op => [op.operand1.val, op.operand2.val]
  | .OpINotEqual op => [op.operand1.val, op.operand2.val]
  | .OpUGreaterThan op => [op.operand1.val, op.operand2.val]
  | .OpSGreaterThan op => [op.operand1.val, op.operand2.val]
  | .OpUGreaterThanEqual op => [op.operand1.val, op.operand2.val]
  | .OpSGreaterThanEqual op => [op.operand1.val, op.operand2.val]
  | .OpULessThan op => [op.operand1.val, op.operand2.val]
  | .OpSLessThan op => [op.operand1.val, op.operand2.val]
  | .OpULessThanEqual op => [op.operand1.val, op.operand2.val]
  | .OpSLessThanEqual op => [op.operand1.val, op.operand2.val]
  | .OpFOrdEqual op => [op.operand1.val, op.operand2.val]
  | .OpFUnordEqual op => [op.operand1.val, op.operand2.val]
  | .OpFOrdNotEqual op => [op.operand1.val, op.operand2.val]
  | .OpFUnordNotEqual op => [op.operand1.val, op.operand2.val]
  | .OpFOrdLessThan op => [op.operand1.val, op.operand2.val]
  | .OpFUnordLessThan op => [op.operand1.val, op.operand2.val]
  | .OpFOrdGreaterThan op => [op.operand1.val, op.operand2.val]
  | .OpFUnordGreaterThan op => [op.operand1.val, op.operand2.val]
  | .OpFOrdLessThanEqual op => [op.operand1.val, op.operand2.val]
  | .OpFUnordLessThanEqual op => [op.operand1.val, op.operand2.val]
  | .OpFOrdGreaterThanEqual op => [op.operand1.val, op.operand2.val]
  | .OpFUnordGreaterThanEqual op => [op.operand1.val, op.operand2.val]
  | .OpPhi op => op.variables.map (·.1.val)

/-- The ids of an instruction that stand for something else: its type, an instruction set, or the blocks control can come
from -/
def otherIds : GroupCode Glsl.Inst → List UInt32
  | .OpNop _ => []
  | .OpUndef op => [op.result_type.val]
  | .OpExtInst op => [op.result_type.val, op.set.val]
  | .OpVariable op => [op.result_type.val]
  | .OpLoad op => [op.result_type.val]
  | .OpStore _ => []
  | .OpAccessChain op => [op.result_type.val]
  | .OpConvertUToF op => [op.result_type.val]
  | .OpBitcast op => [op.result_type.val]
  | .OpIAdd op => [op.result_type.val]
  | .OpFAdd op => [op.result_type.val]
  | .OpISub op => [op.result_type.val]
  | .OpFSub op => [op.result_type.val]
  | .OpIMul op => [op.result_type.val]
  | .OpFMul op => [op.result_type.val]
  | .OpUDiv op => [op.result_type.val]
  | .OpSDiv op => [op.result_type.val]
  | .OpFDiv op => [op.result_type.val]
  | .OpUMod op => [op.result_type.val]
  | .OpSRem op => [op.result_type.val]
  | .OpSMod op => [op.result_type.val]
  | .OpFRem op => [op.result_type.val]
  | .OpFMod op => [op.result_type.val]
  | .OpIAddCarry op => [op.result_type.val]
  | .OpISubBorrow op => [op.result_type.val]
  | .OpUMulExtended op => [op.result_type.val]
  | .OpSMulExtended op => [op.result_type.val]
  | .OpBitwiseOr op => [op.result_type.val]
  | .OpBitwiseXor op => [op.result_type.val]
  | .OpBitwiseAnd op => [op.result_type.val]
  | .OpIEqual op => [op.result_type.val]
  | .OpINotEqual op => [op.result_type.val]
  | .OpUGreaterThan op => [op.result_type.val]
  | .OpSGreaterThan op => [op.result_type.val]
  | .OpUGreaterThanEqual op => [op.result_type.val]
  | .OpSGreaterThanEqual op => [op.result_type.val]
  | .OpULessThan op => [op.result_type.val]
  | .OpSLessThan op => [op.result_type.val]
  | .OpULessThanEqual op => [op.result_type.val]
  | .OpSLessThanEqual op => [op.result_type.val]
  | .OpFOrdEqual op => [op.result_type.val]
  | .OpFUnordEqual op => [op.result_type.val]
  | .OpFOrdNotEqual op => [op.result_type.val]
  | .OpFUnordNotEqual op => [op.result_type.val]
  | .OpFOrdLessThan op => [op.result_type.val]
  | .OpFUnordLessThan op => [op.result_type.val]
  | .OpFOrdGreaterThan op => [op.result_type.val]
  | .OpFUnordGreaterThan op => [op.result_type.val]
  | .OpFOrdLessThanEqual op => [op.result_type.val]
  | .OpFUnordLessThanEqual op => [op.result_type.val]
  | .OpFOrdGreaterThanEqual op => [op.result_type.val]
  | .OpFUnordGreaterThanEqual op => [op.result_type.val]
  | .OpPhi op => op.result_type.val :: op.variables.map (·.2.val)

/-- Does the instruction read memory? -/
def loads : GroupCode Glsl.Inst → Bool
  | .OpLoad _ | .OpStore _ | .OpVariable _ => true
  | _ => false

/-- Does the instruction write memory? -/
def stores : GroupCode Glsl.Inst → Bool
  | .OpStore _ | .OpVariable _ => true
  | _ => false

/-- What the instructions read and write: the values of ids, and memory (`none`) -/
def valueAccess : Access Glsl.Inst (Option UInt32) where
  reads i := (valuesRead i).map some ++ if loads i then [none] else []
  writes i := ((resultId (codeInst i)).map some).toList ++ if stores i then [none] else []
  tests id := [some id.val]

/-- A meaning of instructions: the value of the result, and memory, by the block from which control came, the values read
and memory, if it is read; and which values are true. Nothing is assumed about it. -/
structure Denotation (W : Type) where
  value : Option UInt32 → GroupCode Glsl.Inst → List W → Option W → W
  memory : Option UInt32 → GroupCode Glsl.Inst → List W → W → W
  truth : W → Bool

/-- The machine that computes values -/
def Denotation.machine (D : Denotation W) : Machine Glsl.Inst (Option UInt32 → W) where
  run last i st
    | some id =>
      if resultId (codeInst i) = some id then
        D.value last i ((valuesRead i).map fun o => st (some o)) (if loads i then some (st none) else none)
      else st (some id)
    | none => if stores i then D.memory last i ((valuesRead i).map fun o => st (some o)) (st none) else st none
  holds id st := D.truth (st (some id.val))

/-- The blocks without the instructions whose results do not come to memory, by the recovered control flow -/
def memoryPruned (chain : ControlFlowChain) (blocks : List (BasicBlock Glsl.Inst)) : List (BasicBlock Glsl.Inst) :=
  valueAccess.pruneBlocks (outOf (needsOut (valueAccess.usage blocks) chain (· == none) (fun _ => false) (fun _ => false))) blocks

end Magma.Spec
