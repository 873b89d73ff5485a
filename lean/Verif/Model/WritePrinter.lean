import Verif.Model.Write
import Verif.Model.Errors
/-! Disassembly of a module and printing of control flow, as calls of a writer (`src/spv/raw/mod.rs`,
`src/spv/logical/control_flow.rs`). -/

namespace Magma
variable {σ : Type}

/-- src/spv/raw/mod.rs:304-308 -/
instance : DisplayTo σ ReadError := ⟨fun e => arg (fmtTo e.description)⟩

/-- The loop of src/spv/raw/mod.rs:44-46 -/
def putInstructions {X : Type} [DisplayTo σ X] : List (Core X) → PutM σ Unit
  | [] => pure ()
  | inst :: insts => do
    arg (fmtTo inst); lit "\n"
    putInstructions insts

/-- src/spv/raw/mod.rs:28-48 -/
def RawModule.putModule {X : Type} [DisplayTo σ X] (m : RawModule X) : PutM σ Unit := do
  lit "; SPIR-V\n"
  lit "; Version: "; arg (fmtTo m.version.f0); lit "."; arg (fmtTo m.version.f1); lit "\n"
  lit "; Generator: "; arg (pad m.generator.tool.genName); lit "; "; arg (fmtTo m.generator.version); lit "\n"
  lit "; Bound: "; arg (fmtTo m.bound); lit "\n"
  lit "; Schema: 0\n"
  putInstructions m.instructions

/-- src/spv/raw/mod.rs:27-49 -/
instance {X : Type} [DisplayTo σ X] : DisplayTo σ (RawModule X) := ⟨RawModule.putModule⟩

/-- src/spv/logical/control_flow.rs:12-16 -/
instance : DisplayTo σ BlockId := ⟨fun id => arg (fmtTo (OpId.mk id.val))⟩

/-- The closure `write_indent` (src/spv/logical/control_flow.rs:74-79, 427-432, 454-459) -/
def putIndent : Nat → PutM σ Unit
  | 0 => pure ()
  | n + 1 => do
    writeStr "    ".toList
    putIndent n

/-- ` [hint]` unless it is the default (src/spv/logical/control_flow.rs:94-96, 472-474) -/
def putSelectionHint (hint : SelectionControl) : PutM σ Unit :=
  if SelectionControl.default ≠ hint then do lit " ["; arg (fmtTo hint); lit "]" else pure ()

/-- ` [hint]` unless it is the default (src/spv/logical/control_flow.rs:113-115, 491-493) -/
def putLoopHint (hint : LoopControl) : PutM σ Unit :=
  if LoopControl.default ≠ hint then do lit " ["; arg (fmtTo hint); lit "]" else pure ()

/-- ` [weights]` if present (src/spv/logical/control_flow.rs:97-99, 116-118, 475-477, 494-496) -/
def putWeights (weights : Option BranchWeights) : PutM σ Unit :=
  match weights with
  | some w => do lit " ["; arg (fmtTo w); lit "]"
  | none => pure ()

mutual
/-- src/spv/logical/control_flow.rs:73-133 -/
def ControlFlowChain.putChain : ControlFlowChain → Nat → PutM σ Unit
  | .Atom id, indent => do putIndent indent; arg (fmtTo id); lit "\n"
  | .Block block, indent => ControlFlowChain.putChainAll block indent
  | .Selection id left right hint weights, indent => do
    putIndent indent
    lit "selection "; arg (fmtTo id)
    putSelectionHint hint
    putWeights weights
    lit " {\n"
    left.putChain (indent + 1)
    (if right.isEmptyBlock then pure ()
     else do putIndent indent; lit "} else {\n"; right.putChain (indent + 1))
    putIndent indent
    lit "}\n"
  | .Loop id inner hint weights, indent => do
    putIndent indent
    lit "loop "; arg (fmtTo id)
    putLoopHint hint
    putWeights weights
    lit " {\n"
    inner.putChain (indent + 1)
    putIndent indent
    lit "}\n"
  | .Break, indent => do putIndent indent; lit "break;\n"
  | .Continue, indent => do putIndent indent; lit "continue;\n"
/-- The loop of src/spv/logical/control_flow.rs:86-88 -/
def ControlFlowChain.putChainAll : List ControlFlowChain → Nat → PutM σ Unit
  | [], _ => pure ()
  | cfc :: block, indent => do cfc.putChain indent; ControlFlowChain.putChainAll block indent
end

/-- src/spv/logical/control_flow.rs:33-37 -/
instance : DisplayTo σ ControlFlowChain := ⟨fun c => c.putChain 0⟩

/-- A panic -/
def panics {α : Type} (message : String) : PutM σ α := fun _ _ s => (.error (.panic message), s)

/-- The search loop of src/spv/logical/control_flow.rs:433-439 with its `assert!` -/
def searchPrintedBlock {X : Type} (id : BlockId) :
    List (BasicBlock X) → Option (BasicBlock X) → PutM σ (Option (BasicBlock X))
  | [], block => pure block
  | search :: blocks, block =>
    if search.label.result_id.val = id.val then
      match block with
      | none => searchPrintedBlock id blocks (some search)
      | some _ => panics "Multiple basic blocks with the same id"
    else searchPrintedBlock id blocks block

/-- The loop of src/spv/logical/control_flow.rs:443-446 -/
def putCode {X : Type} [DisplayTo σ X] (indent : Nat) : List (GroupCode X) → PutM σ Unit
  | [] => pure ()
  | code_op :: code => do
    putIndent indent
    lit ">>> "; arg (fmtTo code_op); lit "\n"
    putCode indent code

/-- src/spv/logical/control_flow.rs:426-451 -/
def putBlock {X : Type} [DisplayTo σ X] (f : FunctionDefinition X) (indent : Nat) (id : BlockId) : PutM σ Unit := do
  match ← searchPrintedBlock id f.blocks none with
  | none => panics "Basic block with given id does not exist"
  | some block =>
    putIndent indent
    lit "> Begin "; arg (fmtTo id.val); lit "\n"
    putCode indent block.code
    putIndent indent
    lit ">>> "; arg (fmtTo block.branch); lit "\n"
    putIndent indent
    lit "> End "; arg (fmtTo id.val); lit "\n"

mutual
/-- src/spv/logical/control_flow.rs:453-513 -/
def putFunctionIndent {X : Type} [DisplayTo σ X] (f : FunctionDefinition X) : ControlFlowChain → Nat → PutM σ Unit
  | .Atom id, indent => putBlock f indent id
  | .Block block, indent => putFunctionIndentAll f block indent
  | .Selection id left right hint weights, indent => do
    putBlock f indent id
    putSelectionHint hint
    putWeights weights
    putIndent indent
    lit "{\n"
    putFunctionIndent f left (indent + 1)
    (if right.isEmptyBlock then pure ()
     else do putIndent indent; lit "} else {\n"; putFunctionIndent f right (indent + 1))
    putIndent indent
    lit "}\n"
  | .Loop id inner hint weights, indent => do
    putBlock f indent id
    putLoopHint hint
    putWeights weights
    putIndent indent
    lit "{\n"
    putFunctionIndent f inner (indent + 1)
    putIndent indent
    lit "}\n"
  | .Break, indent => do putIndent indent; lit "break;\n"
  | .Continue, indent => do putIndent indent; lit "continue;\n"
/-- The loop of src/spv/logical/control_flow.rs:465-468 -/
def putFunctionIndentAll {X : Type} [DisplayTo σ X] (f : FunctionDefinition X) :
    List ControlFlowChain → Nat → PutM σ Unit
  | [], _ => pure ()
  | cfc :: block, indent => do putFunctionIndent f cfc indent; putFunctionIndentAll f block indent
end

/-- src/spv/logical/control_flow.rs:418-422 -/
def putFunction {X : Type} [DisplayTo σ X] (f : FunctionDefinition X) (c : ControlFlowChain) : PutM σ Unit :=
  putFunctionIndent f c 0

end Magma
