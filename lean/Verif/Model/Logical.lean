import Verif.Model.Group
/-! The logical module (`src/spv/logical/mod.rs`). -/

namespace Magma

/-- src/spv/logical/mod.rs:211-215 -/
structure FunctionDeclaration where
  function : OpFunction
  parameters : List OpFunctionParameter
  deriving DecidableEq

/-- src/spv/logical/mod.rs:217-223 -/
structure BasicBlock (X : Type) where
  label : OpLabel
  code : List (GroupCode X)
  merge : Option GroupMerge
  branch : GroupBranch
  deriving DecidableEq

/-- src/spv/logical/mod.rs:225-230 -/
structure FunctionDefinition (X : Type) where
  function : OpFunction
  parameters : List OpFunctionParameter
  blocks : List (BasicBlock X)
  deriving DecidableEq

/-- src/spv/logical/mod.rs:232-245 -/
structure LogicalModule (X : Type) where
  capabilities : List Capability
  extensions : List String
  ext_inst_imports : List OpExtInstImport
  memory_model : OpMemoryModel
  entry_points : List OpEntryPoint
  execution_modes : List OpExecutionMode
  debug : List GroupDebug
  annotations : List GroupAnnotation
  globals : List GroupGlobal
  function_declarations : List FunctionDeclaration
  function_definitions : List (FunctionDefinition X)
  deriving DecidableEq

end Magma
