import Verif.Model.Parser
/-! The layout validator (`src/spv/logical/parser/parser.rs`) once more, on a stack that has room for
a limited number of frames of `read_rest` and with a count of the calls of `read_rest`.

`read_many` is not a loop: its helper `read_rest` calls itself once for every item
(parser.rs:99-111), and the phase that reads one item may call `read_many` in turn. The call is in
tail position, but Rust does not promise to reuse the frame. -/

namespace Magma

/-- A computation that is given the number of further frames of `read_rest` there is room for. It
returns its outcome, which is `.error .diverge` when the room is used up (the stack overflow that
ends the process), and the number of calls of `read_rest` it made. -/
def Cost (α : Type) := Nat → V α × Nat

namespace Cost

/-- A step that does not call `read_rest` -/
def free {α : Type} (x : V α) : Cost α := fun _ => (x, 0)

instance : Monad Cost where
  pure a := free (.ok a)
  bind x g := fun d =>
    match x d with
    | (.ok a, n) => ((g a d).1, n + (g a d).2)
    | (.error e, n) => (.error e, n)

end Cost

/-- src/spv/logical/parser/parser.rs:99-111. `output` is in reverse order. The call takes one frame;
the phase `f` and the next call share what is left. -/
def readRestC {X T : Type} (f : OpSlice X → Cost (PhaseResult X T)) :
    Nat → OpSlice X → List T → V (List T × OpSlice X) × Nat
  | 0, _, _ => (.error .diverge, 0)
  | d + 1, insts, output =>
    match f insts d with
    | (.ok (.ok item next), k) =>
      ((readRestC f d next (item :: output)).1, k + (readRestC f d next (item :: output)).2 + 1)
    | (.ok (.next next), k) => (.ok (output.reverse, next), k + 1)
    | (.ok (.err e), k) => (.error (.err e), k + 1)
    | (.error e, k) => (.error e, k + 1)

/-- src/spv/logical/parser/parser.rs:96-113 -/
def readManyC {X T : Type} (insts : OpSlice X) (f : OpSlice X → Cost (PhaseResult X T)) :
    Cost (List T × OpSlice X) :=
  fun d => readRestC f d insts []

section
variable {X : Type}

/-- The phases of src/spv/logical/parser/parser.rs:115-193 and 221-227, none of which calls
`read_many` -/
def light {T : Type} (f : OpSlice X → V (PhaseResult X T)) : OpSlice X → Cost (PhaseResult X T) :=
  fun insts => .free (f insts)

/-- src/spv/logical/parser/parser.rs:195-219 -/
def readFunctionDeclarationC (insts : OpSlice X) : Cost (PhaseResult X FunctionDeclaration) := do
  let start_insts := insts
  let remaining ← .free insts.getRemaining
  if remaining < 2 then return .next insts
  else
    match insts.first with
    | some (.OpFunction op) => do
      let insts ← .free insts.advance
      let (params, insts) ← readManyC insts (light readFunctionParameter)
      match insts.first with
      | some (.OpFunctionEnd _) => do
        let insts ← .free insts.advance
        return .ok { function := op, parameters := params } insts
      | _ => return .next start_insts
    | _ => return .err (.ExpectedOpFunction insts.getSlot)

/-- src/spv/logical/parser/parser.rs:245-267 -/
def readBasicBlockC (insts : OpSlice X) : Cost (PhaseResult X (BasicBlock X)) := do
  match insts.first with
  | some (.OpLabel op) => do
    let insts ← .free insts.advance
    let (code, insts) ← readManyC insts (light readCode)
    let (merge, insts) ← .free (readMerge insts)
    let (branch, insts) ← .free (readBranch insts)
    return .ok { label := op, code := code, merge := merge, branch := branch } insts
  | _ => return .next insts

/-- src/spv/logical/parser/parser.rs:269-297 -/
def readFunctionDefinitionC (insts : OpSlice X) : Cost (PhaseResult X (FunctionDefinition X)) := do
  let remaining ← .free insts.getRemaining
  if remaining < 2 then return .next insts
  else
    match insts.first with
    | some (.OpFunction op) => do
      let insts ← .free insts.advance
      let (params, insts) ← readManyC insts (light readFunctionParameter)
      let (blocks, insts) ← readManyC insts readBasicBlockC
      match insts.first with
      | some (.OpFunctionEnd _) => do
        let insts ← .free insts.advance
        return .ok { function := op, parameters := params, blocks := blocks } insts
      | _ => return .err (.ExpectedOpFunctionEnd insts.getSlot)
    | _ => return .err (.ExpectedOpFunction insts.getSlot)

/-- src/spv/logical/parser/parser.rs:19-53 -/
def validateC (raw : RawModule X) : Cost (LogicalModule X) := do
  let insts_storage := raw.instructions.map OpByBlock.ofCore
  let insts := OpSlice.new insts_storage
  let (capabilities, insts) ← readManyC insts (light readCapability)
  let (extensions, insts) ← readManyC insts (light readExtension)
  let (ext_inst_imports, insts) ← readManyC insts (light readExtInstImport)
  let (memory_model, insts) ← .free (readMemoryModel insts)
  let (entry_points, insts) ← readManyC insts (light readEntryPoint)
  let (execution_modes, insts) ← readManyC insts (light readExecutionMode)
  let (debug, insts) ← readManyC insts (light readDebug)
  let (annotations, insts) ← readManyC insts (light readAnnotation)
  let (globals, insts) ← readManyC insts (light readGlobal)
  let (function_declarations, insts) ← readManyC insts readFunctionDeclarationC
  let (function_definitions, insts) ← readManyC insts readFunctionDefinitionC
  let remaining ← .free insts.getRemaining
  if remaining > 0 then
    .free (.error (.err (.UnexpectedInstruction insts.getSlot)))
  else
    return { capabilities, extensions, ext_inst_imports, memory_model, entry_points,
             execution_modes, debug, annotations, globals, function_declarations,
             function_definitions }

end

end Magma
