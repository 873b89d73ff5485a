import Verif.Spec.Layout
import Verif.Spec.Encoding
/-! Instructions of a binary that are taken out. -/

namespace Magma.Spec
variable {X : Type}

/-- An instruction, its words, and whether it is kept -/
structure Item (X : Type) where
  keep : Bool
  inst : Core X
  words : List UInt32

/-- The items that are kept -/
def kept (items : List (Item X)) : List (Item X) := items.filter (·.keep)

/-- The items have the words of their instructions, as far as the head word tells: opcode and number of words. -/
def Item.Framed (x : Item X) : Prop :=
  ∃ head ops, x.words = head :: ops ∧ head.toNat % 65536 = opcode x.inst ∧ x.words.length = max 1 (head.toNat / 65536)

/-- A module needs its OpMemoryModel; a function OpFunction and OpFunctionEnd; a block OpLabel, its merge instruction
(OpLoopMerge, OpSelectionMerge) and its end (OpBranch, OpBranchConditional, OpReturn). All else can be taken out. -/
def isOptional (inst : Core X) : Bool := !([14, 54, 56, 246, 247, 248, 249, 250, 253].contains (opcode inst))

/-- Only optional instructions are taken out. -/
def OnlyOptional (items : List (Item X)) : Prop := ∀ x ∈ items, x.keep = false → isOptional x.inst = true

/-- The imports of extended instruction sets that are taken out are not used by what is kept. -/
def ImportsUnused (items : List (Item X)) : Prop :=
  ∀ x ∈ items, x.keep = false → ∀ y ∈ items, y.keep = true →
    ∀ i e, x.inst = .OpExtInstImport i → y.inst = .OpExtInst e → e.set.val ≠ i.result_id.val

/-- The same block with less code -/
structure BasicBlock.Thins (b' b : BasicBlock X) : Prop where
  label : b'.label = b.label
  code : b'.code.Sublist b.code
  merge : b'.merge = b.merge
  branch : b'.branch = b.branch

/-- The same function with fewer parameters and less code in its blocks -/
structure FunctionDefinition.Thins (d' d : FunctionDefinition X) : Prop where
  function : d'.function = d.function
  parameters : d'.parameters.Sublist d.parameters
  blocks : d'.blocks.length = d.blocks.length
  block : ∀ p ∈ d'.blocks.zip d.blocks, BasicBlock.Thins p.1 p.2

/-- The same declaration with fewer parameters -/
structure FunctionDeclaration.Thins (d' d : FunctionDeclaration) : Prop where
  function : d'.function = d.function
  parameters : d'.parameters.Sublist d.parameters

/-- The same module with fewer instructions -/
structure LogicalModule.Thins (m' m : LogicalModule X) : Prop where
  capabilities : m'.capabilities.Sublist m.capabilities
  extensions : m'.extensions.Sublist m.extensions
  imports : m'.ext_inst_imports.Sublist m.ext_inst_imports
  memory_model : m'.memory_model = m.memory_model
  entry_points : m'.entry_points.Sublist m.entry_points
  execution_modes : m'.execution_modes.Sublist m.execution_modes
  debug : m'.debug.Sublist m.debug
  annotations : m'.annotations.Sublist m.annotations
  globals : m'.globals.Sublist m.globals
  declarations : m'.function_declarations.length = m.function_declarations.length
  declaration : ∀ p ∈ m'.function_declarations.zip m.function_declarations, FunctionDeclaration.Thins p.1 p.2
  definitions : m'.function_definitions.length = m.function_definitions.length
  definition : ∀ p ∈ m'.function_definitions.zip m.function_definitions, FunctionDefinition.Thins p.1 p.2

end Magma.Spec
