import Verif.Model.Logical
import Verif.Model.Block
/-! The layout validator (`src/spv/logical/parser/parser.rs`). -/

namespace Magma

/-- src/spv/logical/parser/parser.rs:8-15 -/
inductive ValidationError where
  | MemoryModelMissing
  | ExpectedOpFunction (slot : Nat)
  | ExpectedOpFunctionEnd (slot : Nat)
  | ExpectedBranch (slot : Nat)
  | UnexpectedInstruction (slot : Nat)
  deriving DecidableEq, Repr

/-- src/spv/logical/parser/parser.rs:17 extended with panics and divergence -/
abbrev V (α : Type) := Except (Fault ValidationError) α

/-- src/spv/logical/parser/parser.rs:55-59 -/
structure OpSlice (X : Type) where
  insts : List (OpByBlock X)
  index : Nat

namespace OpSlice
variable {X : Type}

/-- src/spv/logical/parser/parser.rs:62-67 -/
def new (insts : List (OpByBlock X)) : OpSlice X := { insts := insts, index := 0 }

/-- src/spv/logical/parser/parser.rs:68-74 -/
def first (s : OpSlice X) : Option (OpByBlock X) :=
  if h : s.index < s.insts.length then some s.insts[s.index] else none

/-- src/spv/logical/parser/parser.rs:75-81; the `assert!` is the panic -/
def advance (s : OpSlice X) : V (OpSlice X) :=
  if s.index < s.insts.length then .ok { insts := s.insts, index := s.index + 1 }
  else .error (.panic "assertion failed: self.index < self.insts.len()")

/-- src/spv/logical/parser/parser.rs:82-84 -/
def getSlot (s : OpSlice X) : Nat := s.index

/-- src/spv/logical/parser/parser.rs:85-87. The subtraction is on `usize`: it panics in debug
builds if the index is past the end. -/
def getRemaining (s : OpSlice X) : V Nat :=
  if s.index ≤ s.insts.length then .ok (s.insts.length - s.index)
  else .error (.panic "attempt to subtract with overflow")

end OpSlice

/-- src/spv/logical/parser/parser.rs:90-94 -/
inductive PhaseResult (X T : Type) where
  | ok (item : T) (next : OpSlice X)
  | next (insts : OpSlice X)
  | err (e : ValidationError)

/-- src/spv/logical/parser/parser.rs:99-111. `output` is in reverse order. One unit of fuel per
recursive call. -/
def readRest {X T : Type} (f : OpSlice X → V (PhaseResult X T)) :
    Nat → OpSlice X → List T → V (List T × OpSlice X)
  | 0, _, _ => .error .diverge
  | fuel + 1, insts, output => do
    match ← f insts with
    | .ok item next => readRest f fuel next (item :: output)
    | .next next => .ok (output.reverse, next)
    | .err e => .error (.err e)

/-- src/spv/logical/parser/parser.rs:96-113 -/
def readMany {X T : Type} (insts : OpSlice X) (f : OpSlice X → V (PhaseResult X T)) :
    V (List T × OpSlice X) :=
  readRest f (insts.insts.length + 1) insts []

section
variable {X : Type}

/-- src/spv/logical/parser/parser.rs:115-121 -/
def readCapability (insts : OpSlice X) : V (PhaseResult X Capability) := do
  match insts.first with
  | some (.OpCapability op) => return .ok op.capability (← insts.advance)
  | _ => return .next insts

/-- src/spv/logical/parser/parser.rs:123-129 -/
def readExtension (insts : OpSlice X) : V (PhaseResult X String) := do
  match insts.first with
  | some (.OpExtension op) => return .ok op.name (← insts.advance)
  | _ => return .next insts

/-- src/spv/logical/parser/parser.rs:131-137 -/
def readExtInstImport (insts : OpSlice X) : V (PhaseResult X OpExtInstImport) := do
  match insts.first with
  | some (.OpExtInstImport op) => return .ok op (← insts.advance)
  | _ => return .next insts

/-- src/spv/logical/parser/parser.rs:139-145 -/
def readMemoryModel (insts : OpSlice X) : V (OpMemoryModel × OpSlice X) := do
  match insts.first with
  | some (.OpMemoryModel op) => return (op, ← insts.advance)
  | _ => .error (.err .MemoryModelMissing)

/-- src/spv/logical/parser/parser.rs:147-153 -/
def readEntryPoint (insts : OpSlice X) : V (PhaseResult X OpEntryPoint) := do
  match insts.first with
  | some (.OpEntryPoint op) => return .ok op (← insts.advance)
  | _ => return .next insts

/-- src/spv/logical/parser/parser.rs:155-161 -/
def readExecutionMode (insts : OpSlice X) : V (PhaseResult X OpExecutionMode) := do
  match insts.first with
  | some (.OpExecutionMode op) => return .ok op (← insts.advance)
  | _ => return .next insts

/-- src/spv/logical/parser/parser.rs:163-169 -/
def readDebug (insts : OpSlice X) : V (PhaseResult X GroupDebug) := do
  match insts.first with
  | some (.GroupDebug op) => return .ok op (← insts.advance)
  | _ => return .next insts

/-- src/spv/logical/parser/parser.rs:171-177 -/
def readAnnotation (insts : OpSlice X) : V (PhaseResult X GroupAnnotation) := do
  match insts.first with
  | some (.GroupAnnotation op) => return .ok op (← insts.advance)
  | _ => return .next insts

/-- src/spv/logical/parser/parser.rs:179-185 -/
def readGlobal (insts : OpSlice X) : V (PhaseResult X GroupGlobal) := do
  match insts.first with
  | some (.GroupGlobal op) => return .ok op (← insts.advance)
  | _ => return .next insts

/-- src/spv/logical/parser/parser.rs:187-193 -/
def readFunctionParameter (insts : OpSlice X) : V (PhaseResult X OpFunctionParameter) := do
  match insts.first with
  | some (.OpFunctionParameter op) => return .ok op (← insts.advance)
  | _ => return .next insts

/-- src/spv/logical/parser/parser.rs:195-219 (an error of `read_many` is passed on as
`PhaseResult::Err`, which `read_many` turns into the same error, so it is propagated directly) -/
def readFunctionDeclaration (insts : OpSlice X) : V (PhaseResult X FunctionDeclaration) := do
  let start_insts := insts
  let remaining ← insts.getRemaining
  if remaining < 2 then return .next insts
  else
    match insts.first with
    | some (.OpFunction op) => do
      let (params, insts) ← readMany (← insts.advance) readFunctionParameter
      match insts.first with
      | some (.OpFunctionEnd _) =>
        return .ok { function := op, parameters := params } (← insts.advance)
      | _ => return .next start_insts
    | _ => return .err (.ExpectedOpFunction insts.getSlot)

/-- src/spv/logical/parser/parser.rs:221-227 -/
def readCode (insts : OpSlice X) : V (PhaseResult X (GroupCode X)) := do
  match insts.first with
  | some (.GroupCode op) => return .ok op (← insts.advance)
  | _ => return .next insts

/-- src/spv/logical/parser/parser.rs:229-235 -/
def readBranch (insts : OpSlice X) : V (GroupBranch × OpSlice X) := do
  match insts.first with
  | some (.GroupBranch op) => return (op, ← insts.advance)
  | _ => .error (.err (.ExpectedBranch insts.getSlot))

/-- src/spv/logical/parser/parser.rs:237-243 -/
def readMerge (insts : OpSlice X) : V (Option GroupMerge × OpSlice X) := do
  match insts.first with
  | some (.GroupMerge op) => return (some op, ← insts.advance)
  | _ => return (none, insts)

/-- src/spv/logical/parser/parser.rs:245-267 (errors propagated directly, as above) -/
def readBasicBlock (insts : OpSlice X) : V (PhaseResult X (BasicBlock X)) := do
  match insts.first with
  | some (.OpLabel op) => do
    let (code, insts) ← readMany (← insts.advance) readCode
    let (merge, insts) ← readMerge insts
    let (branch, insts) ← readBranch insts
    return .ok { label := op, code := code, merge := merge, branch := branch } insts
  | _ => return .next insts

/-- src/spv/logical/parser/parser.rs:269-297 (errors propagated directly, as above) -/
def readFunctionDefinition (insts : OpSlice X) : V (PhaseResult X (FunctionDefinition X)) := do
  let remaining ← insts.getRemaining
  if remaining < 2 then return .next insts
  else
    match insts.first with
    | some (.OpFunction op) => do
      let (params, insts) ← readMany (← insts.advance) readFunctionParameter
      let (blocks, insts) ← readMany insts readBasicBlock
      match insts.first with
      | some (.OpFunctionEnd _) => do
        let insts ← insts.advance
        return .ok { function := op, parameters := params, blocks := blocks } insts
      | _ => return .err (.ExpectedOpFunctionEnd insts.getSlot)
    | _ => return .err (.ExpectedOpFunction insts.getSlot)

/-- src/spv/logical/parser/parser.rs:19-53 -/
def validate (raw : RawModule X) : V (LogicalModule X) := do
  let insts_storage := raw.instructions.map OpByBlock.ofCore
  let insts := OpSlice.new insts_storage
  let (capabilities, insts) ← readMany insts readCapability
  let (extensions, insts) ← readMany insts readExtension
  let (ext_inst_imports, insts) ← readMany insts readExtInstImport
  let (memory_model, insts) ← readMemoryModel insts
  let (entry_points, insts) ← readMany insts readEntryPoint
  let (execution_modes, insts) ← readMany insts readExecutionMode
  let (debug, insts) ← readMany insts readDebug
  let (annotations, insts) ← readMany insts readAnnotation
  let (globals, insts) ← readMany insts readGlobal
  let (function_declarations, insts) ← readMany insts readFunctionDeclaration
  let (function_definitions, insts) ← readMany insts readFunctionDefinition
  if (← insts.getRemaining) > 0 then
    .error (.err (.UnexpectedInstruction insts.getSlot))
  else
    return { capabilities, extensions, ext_inst_imports, memory_model, entry_points,
             execution_modes, debug, annotations, globals, function_declarations,
             function_definitions }

end

end Magma
