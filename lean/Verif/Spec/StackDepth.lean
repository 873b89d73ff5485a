import Verif.Model.Logical
/-! How deep the calls nest, and how many there are, while a module is taken apart by functions that
call themselves once per item: each item is read below the frames of the items before it. -/

namespace Magma.Spec
variable {X : Type}

/-- Frames for a list of items: the frame of the first item is below all others; item `t` itself
takes `need t` frames, and seeing that there is no further item takes `stop`. -/
def nested {T : Type} (need : T → Nat) (stop : Nat) : List T → Nat
  | [] => stop + 1
  | t :: ts => max (need t) (nested need stop ts) + 1

/-- Frames for a block: one for every instruction in it and one for the end -/
def blockDepth (b : BasicBlock X) : Nat := b.code.length + 1

/-- Frames for a function with a body -/
def definitionDepth (f : FunctionDefinition X) : Nat :=
  max (f.parameters.length + 1) (nested blockDepth 0 f.blocks)

/-- Frames for a function without a body -/
def declarationDepth (f : FunctionDeclaration) : Nat := f.parameters.length + 1

/-- Frames to find that the next function has a body: its parameters are read for nothing. -/
def retryDepth : List (FunctionDefinition X) → Nat
  | [] => 0
  | f :: _ => f.parameters.length + 1

/-- Frames for a module: the sections are read one after the other. -/
def moduleDepth (m : LogicalModule X) : Nat :=
  [m.capabilities.length + 1, m.extensions.length + 1, m.ext_inst_imports.length + 1,
   m.entry_points.length + 1, m.execution_modes.length + 1, m.debug.length + 1,
   m.annotations.length + 1, m.globals.length + 1,
   nested declarationDepth (retryDepth m.function_definitions) m.function_declarations,
   nested definitionDepth 0 m.function_definitions].foldr max 0

/-- Calls for a list of items: one for each and what it takes itself, one for the end and what it
takes to see it -/
def callsFor {T : Type} (work : T → Nat) (rest : Nat) : List T → Nat
  | [] => rest + 1
  | t :: ts => work t + callsFor work rest ts + 1

/-- Calls for a block -/
def blockCalls (b : BasicBlock X) : Nat := b.code.length + 1

/-- Calls for a function with a body -/
def definitionCalls (f : FunctionDefinition X) : Nat :=
  f.parameters.length + 1 + callsFor blockCalls 0 f.blocks

/-- Calls for a function without a body -/
def declarationCalls (f : FunctionDeclaration) : Nat := f.parameters.length + 1

/-- Calls to find that the next function has a body -/
def retryCalls : List (FunctionDefinition X) → Nat
  | [] => 0
  | f :: _ => f.parameters.length + 1

/-- Calls for a module -/
def moduleCalls (m : LogicalModule X) : Nat :=
  [m.capabilities.length + 1, m.extensions.length + 1, m.ext_inst_imports.length + 1,
   m.entry_points.length + 1, m.execution_modes.length + 1, m.debug.length + 1,
   m.annotations.length + 1, m.globals.length + 1,
   callsFor declarationCalls (retryCalls m.function_definitions) m.function_declarations,
   callsFor definitionCalls 0 m.function_definitions].sum

end Magma.Spec
