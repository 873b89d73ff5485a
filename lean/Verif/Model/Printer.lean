import Verif.Model.ControlFlow
import Verif.Model.Module
/-! Printing of control flow chains and functions (`src/spv/logical/control_flow.rs`). -/

namespace Magma

/-- src/spv/logical/control_flow.rs:12-16 -/
instance : Display BlockId := ⟨fun id => Display.fmt (OpId.mk id.val)⟩

/-- The closure `write_indent` (src/spv/logical/control_flow.rs:74-79, 427-432, 454-459) -/
def writeIndent (indent : Nat) : Text := (List.replicate indent "    ".toList).flatten

/-- `**right != ControlFlowChain::Block(vec![])` -/
def ControlFlowChain.isEmptyBlock : ControlFlowChain → Bool
  | .Block [] => true
  | _ => false

/-- ` [hint]` unless it is the default -/
def fmtSelectionHint (hint : SelectionControl) : Text :=
  if SelectionControl.default ≠ hint then " [".toList ++ Display.fmt hint ++ "]".toList else []

/-- ` [hint]` unless it is the default -/
def fmtLoopHint (hint : LoopControl) : Text :=
  if LoopControl.default ≠ hint then " [".toList ++ Display.fmt hint ++ "]".toList else []

/-- ` [weights]` if present -/
def fmtWeights (weights : Option BranchWeights) : Text :=
  match weights with
  | some w => " [".toList ++ Display.fmt w ++ "]".toList
  | none => []

mutual
/-- src/spv/logical/control_flow.rs:73-133 -/
def ControlFlowChain.fmtIndent : ControlFlowChain → Nat → Text
  | .Atom id, indent => writeIndent indent ++ Display.fmt id ++ "\n".toList
  | .Block block, indent => ControlFlowChain.fmtIndentAll block indent
  | .Selection id left right hint weights, indent =>
    writeIndent indent ++ "selection ".toList ++ Display.fmt id ++
    fmtSelectionHint hint ++ fmtWeights weights ++ " {\n".toList ++
    left.fmtIndent (indent + 1) ++
    (if right.isEmptyBlock then []
     else writeIndent indent ++ "} else {\n".toList ++ right.fmtIndent (indent + 1)) ++
    writeIndent indent ++ "}\n".toList
  | .Loop id inner hint weights, indent =>
    writeIndent indent ++ "loop ".toList ++ Display.fmt id ++
    fmtLoopHint hint ++ fmtWeights weights ++ " {\n".toList ++
    inner.fmtIndent (indent + 1) ++
    writeIndent indent ++ "}\n".toList
  | .Break, indent => writeIndent indent ++ "break;\n".toList
  | .Continue, indent => writeIndent indent ++ "continue;\n".toList
/-- The loop of src/spv/logical/control_flow.rs:86-88 -/
def ControlFlowChain.fmtIndentAll : List ControlFlowChain → Nat → Text
  | [], _ => []
  | cfc :: block, indent => cfc.fmtIndent indent ++ ControlFlowChain.fmtIndentAll block indent
end

/-- src/spv/logical/control_flow.rs:33-37 -/
instance : Display ControlFlowChain := ⟨fun c => c.fmtIndent 0⟩

/-- src/spv/logical/mod.rs:126-185: every arm prints the instruction -/
def GroupCode.fmt {X : Type} [Display X] (c : GroupCode X) : Text :=
  match c with
  | .OpNop op => Display.fmt op
  | .OpUndef op => Display.fmt op
  | .OpExtInst op => Display.fmt op
  | .OpVariable op => Display.fmt op
  | .OpLoad op => Display.fmt op
  | .OpStore op => Display.fmt op
  | .OpAccessChain op => Display.fmt op
  | .OpConvertUToF op => Display.fmt op
  | .OpBitcast op => Display.fmt op
  | .OpIAdd op => Display.fmt op
  | .OpFAdd op => Display.fmt op
  | .OpISub op => Display.fmt op
  | .OpFSub op => Display.fmt op
  | .OpIMul op => Display.fmt op
  | .OpFMul op => Display.fmt op
  | .OpUDiv op => Display.fmt op
  | .OpSDiv op => Display.fmt op
  | .OpFDiv op => Display.fmt op
  | .OpUMod op => Display.fmt op
  | .OpSRem op => Display.fmt op
  | .OpSMod op => Display.fmt op
  | .OpFRem op => Display.fmt op
  | .OpFMod op => Display.fmt op
  | .OpIAddCarry op => Display.fmt op
  | .OpISubBorrow op => Display.fmt op
  | .OpUMulExtended op => Display.fmt op
  | .OpSMulExtended op => Display.fmt op
  | .OpBitwiseOr op => Display.fmt op
  | .OpBitwiseXor op => Display.fmt op
  | .OpBitwiseAnd op => Display.fmt op
  | .OpIEqual op => Display.fmt op
  | .OpINotEqual op => Display.fmt op
  | .OpUGreaterThan op => Display.fmt op
  | .OpSGreaterThan op => Display.fmt op
  | .OpUGreaterThanEqual op => Display.fmt op
  | .OpSGreaterThanEqual op => Display.fmt op
  | .OpULessThan op => Display.fmt op
  | .OpSLessThan op => Display.fmt op
  | .OpULessThanEqual op => Display.fmt op
  | .OpSLessThanEqual op => Display.fmt op
  | .OpFOrdEqual op => Display.fmt op
  | .OpFUnordEqual op => Display.fmt op
  | .OpFOrdNotEqual op => Display.fmt op
  | .OpFUnordNotEqual op => Display.fmt op
  | .OpFOrdLessThan op => Display.fmt op
  | .OpFUnordLessThan op => Display.fmt op
  | .OpFOrdGreaterThan op => Display.fmt op
  | .OpFUnordGreaterThan op => Display.fmt op
  | .OpFOrdLessThanEqual op => Display.fmt op
  | .OpFUnordLessThanEqual op => Display.fmt op
  | .OpFOrdGreaterThanEqual op => Display.fmt op
  | .OpFUnordGreaterThanEqual op => Display.fmt op
  | .OpPhi op => Display.fmt op

/-- src/spv/logical/mod.rs:200-209 -/
def GroupBranch.fmt (b : GroupBranch) : Text :=
  match b with
  | .OpBranch op => Display.fmt op
  | .OpBranchConditional op => Display.fmt op
  | .OpReturn op => Display.fmt op

/-- Output or panic of the function printer -/
abbrev P (α : Type) := Except (Fault Empty) α

/-- The search loop of src/spv/logical/control_flow.rs:433-439 with its `assert!` -/
def findPrintedBlock {X : Type} (id : BlockId) :
    List (BasicBlock X) → Option (BasicBlock X) → P (Option (BasicBlock X))
  | [], block => .ok block
  | search :: blocks, block =>
    if search.label.result_id.val = id.val then
      match block with
      | none => findPrintedBlock id blocks (some search)
      | some _ => .error (.panic "Multiple basic blocks with the same id")
    else findPrintedBlock id blocks block

/-- src/spv/logical/control_flow.rs:426-451 -/
def fmtBlockIndent {X : Type} [Display X] (f : FunctionDefinition X) (indent : Nat) (id : BlockId) :
    P Text := do
  match ← findPrintedBlock id f.blocks none with
  | none => .error (.panic "Basic block with given id does not exist")
  | some block =>
    return writeIndent indent ++ "> Begin ".toList ++ Display.fmt id.val ++ "\n".toList ++
      block.code.flatMap (fun code_op =>
        writeIndent indent ++ ">>> ".toList ++ code_op.fmt ++ "\n".toList) ++
      writeIndent indent ++ ">>> ".toList ++ block.branch.fmt ++ "\n".toList ++
      writeIndent indent ++ "> End ".toList ++ Display.fmt id.val ++ "\n".toList

mutual
/-- src/spv/logical/control_flow.rs:453-513 -/
def fmtFunctionIndent {X : Type} [Display X] (f : FunctionDefinition X) :
    ControlFlowChain → Nat → P Text
  | .Atom id, indent => fmtBlockIndent f indent id
  | .Block block, indent => fmtFunctionIndentAll f block indent
  | .Selection id left right hint weights, indent => do
    let b ← fmtBlockIndent f indent id
    let l ← fmtFunctionIndent f left (indent + 1)
    let r ← if right.isEmptyBlock then pure []
      else do
        let r ← fmtFunctionIndent f right (indent + 1)
        pure (writeIndent indent ++ "} else {\n".toList ++ r)
    return b ++ fmtSelectionHint hint ++ fmtWeights weights ++ writeIndent indent ++
      "{\n".toList ++ l ++ r ++ writeIndent indent ++ "}\n".toList
  | .Loop id inner hint weights, indent => do
    let b ← fmtBlockIndent f indent id
    let i ← fmtFunctionIndent f inner (indent + 1)
    return b ++ fmtLoopHint hint ++ fmtWeights weights ++ writeIndent indent ++
      "{\n".toList ++ i ++ writeIndent indent ++ "}\n".toList
  | .Break, indent => return writeIndent indent ++ "break;\n".toList
  | .Continue, indent => return writeIndent indent ++ "continue;\n".toList
/-- The loop of src/spv/logical/control_flow.rs:465-468 -/
def fmtFunctionIndentAll {X : Type} [Display X] (f : FunctionDefinition X) :
    List ControlFlowChain → Nat → P Text
  | [], _ => return []
  | cfc :: block, indent => do
    let a ← fmtFunctionIndent f cfc indent
    let b ← fmtFunctionIndentAll f block indent
    return a ++ b
end

/-- src/spv/logical/control_flow.rs:418-422 -/
def fmtFunction {X : Type} [Display X] (f : FunctionDefinition X) (c : ControlFlowChain) : P Text :=
  fmtFunctionIndent f c 0

end Magma
