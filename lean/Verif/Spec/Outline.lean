import Verif.Spec.Encoding
import Verif.Spec.Layout
/-! The role of an instruction in the logical layout (SPIR-V 1.0, section 2.4), and the outline of a logical
module: how many instructions each of its parts has. -/

namespace Magma.Spec
variable {X : Type}

/-- The parts of the layout an instruction can belong to -/
inductive Role where
  | capability | extension | importing | memoryModel | entryPoint | executionMode | debug | annotation | global
  | function | parameter | functionEnd | label | code | merge | branch
  deriving DecidableEq

/-- The role of an instruction, by its opcode. Variables are global or local by their storage class. -/
def role (c : Core X) : Role :=
  match opcode c with
  | 17 => .capability
  | 10 => .extension
  | 11 => .importing
  | 14 => .memoryModel
  | 15 => .entryPoint
  | 16 => .executionMode
  | 54 => .function
  | 55 => .parameter
  | 56 => .functionEnd
  | 248 => .label
  | 59 => match c with
    | .OpVariable v => if v.storage_class = .Function then .code else .global
    | _ => .global
  | n =>
    if 2 ≤ n ∧ n ≤ 7 then .debug
    else if n = 71 ∨ n = 72 then .annotation
    else if 19 ≤ n ∧ n ≤ 44 then .global
    else if n = 246 ∨ n = 247 then .merge
    else if n = 249 ∨ n = 250 ∨ n = 253 then .branch
    else .code

/-- How many instructions the parts of a module have -/
structure Outline where
  capabilities : Nat
  extensions : Nat
  imports : Nat
  entryPoints : Nat
  executionModes : Nat
  debug : Nat
  annotations : Nat
  globals : Nat
  /-- the number of parameters of each -/
  declarations : List Nat
  /-- the number of parameters, and for each block the number of instructions and whether there is a merge -/
  definitions : List (Nat × List (Nat × Bool))
  deriving DecidableEq

/-- The outline of a function definition -/
def outlineDefinition (d : FunctionDefinition X) : Nat × List (Nat × Bool) :=
  (d.parameters.length, d.blocks.map (fun b => (b.code.length, b.merge.isSome)))

/-- The outline of a module -/
def outline (m : LogicalModule X) : Outline where
  capabilities := m.capabilities.length
  extensions := m.extensions.length
  imports := m.ext_inst_imports.length
  entryPoints := m.entry_points.length
  executionModes := m.execution_modes.length
  debug := m.debug.length
  annotations := m.annotations.length
  globals := m.globals.length
  declarations := m.function_declarations.map (·.parameters.length)
  definitions := m.function_definitions.map outlineDefinition

end Magma.Spec
