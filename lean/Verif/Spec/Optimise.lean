import Verif.Spec.Values
import Verif.Spec.GlslEncoding
import Verif.Spec.Serialise
import Verif.Model.Reader
import Verif.Model.Parser
import Verif.Model.ControlFlow
/-! A tool made of the crate: read, validate, recover control flow, remove what does not come to memory, write. -/

namespace Magma.Spec

/-- The function without instructions whose results do not come to memory, as far as the recovered control flow tells -/
def lighten (fuel : Nat) (d : FunctionDefinition Glsl.Inst) : FunctionDefinition Glsl.Inst :=
  match findControlFlow fuel d with
  | .ok chain => { d with blocks := memoryPruned chain d.blocks }
  | .error _ => d

/-- The same for all functions of a module, some times -/
def lightenModule (fuel rounds : Nat) (m : LogicalModule Glsl.Inst) : LogicalModule Glsl.Inst :=
  { m with function_definitions := m.function_definitions.map (Nat.repeat (lighten fuel) rounds) }

/-- The same for binaries -/
def optimise (fuel rounds : Nat) (littleEndian : Bool) (bytes : List UInt8) : Option (List UInt8) :=
  match readModule bytes [Glsl.instSet] with
  | .error _ => none
  | .ok raw =>
    match validate raw with
    | .error _ => none
    | .ok m => some (encodeModule glslWords littleEndian { raw with instructions := layout (lightenModule fuel rounds m) })

/-- The number of instructions in the blocks of a function, besides labels, merge instructions and branches -/
def codeSize {X : Type} (d : FunctionDefinition X) : Nat := (d.blocks.map (·.code.length)).sum

/-- For every meaning of the instructions, executions of the blocks visit the same blocks, have the same outcome, and leave
the same memory when they return. -/
def SameMemory (blocks blocks' : List (BasicBlock Glsl.Inst)) (first : BlockId) : Prop :=
  ∀ (W : Type) (D : Denotation W) (n : Nat) (c : Config (Option UInt32 → W)),
    (runMachine D.machine blocks n first c).1 = (runMachine D.machine blocks' n first c).1 ∧
    (runMachine D.machine blocks n first c).2.2 = (runMachine D.machine blocks' n first c).2.2 ∧
    ((runMachine D.machine blocks n first c).2.2 = .returned →
      (runMachine D.machine blocks n first c).2.1.state none = (runMachine D.machine blocks' n first c).2.1.state none)

/-- The result of the instruction comes to something: in the code after it in the block it is read before something else is
written there, or to the condition of the block, or it is needed after the block. -/
def ComesToUse (blocks : List (BasicBlock Glsl.Inst)) (b : BasicBlock Glsl.Inst) (i : GroupCode Glsl.Inst)
    (rest : List (GroupCode Glsl.Inst)) : Prop :=
  ∃ v ∈ valueAccess.writes i,
    (∃ before j after, rest = before ++ j :: after ∧ v ∈ valueAccess.reads j ∧ ∀ k ∈ before, v ∉ valueAccess.writes k) ∨
    ((∀ k ∈ rest, v ∉ valueAccess.writes k) ∧ (valueAccess.condition b v = true ∨
      NeededAfter blocks (valueAccess.usage blocks) (· == none) ⟨labelId b⟩ v))

end Magma.Spec
