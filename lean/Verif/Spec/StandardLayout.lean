import Verif.Spec.Encoding
import Verif.Spec.Layout
/-! The layout of a module after the SPIR-V 1.0 standard (section 2.4), with the rules for the order of instructions in
functions and blocks, as a language of kinds of instructions. -/

namespace Magma.Standard
variable {X : Type}

/-- What the layout knows of an instruction -/
inductive Part where
  | capability | extension | importing | memoryModel | entryPoint | executionMode | source | name | annotation | global
  | variable (ofFunction : Bool) | function | parameter | functionEnd | label | phi | code | loopMerge | selectionMerge
  | branch | conditional | return_
  deriving DecidableEq

/-- By the opcode; of variables by the storage class too -/
def part (c : Core X) : Part :=
  match Spec.opcode c with
  | 17 => .capability
  | 10 => .extension
  | 11 => .importing
  | 14 => .memoryModel
  | 15 => .entryPoint
  | 16 => .executionMode
  | 2 | 3 | 4 | 7 => .source  -- OpSourceContinued, OpSource, OpSourceExtension, OpString
  | 5 | 6 => .name
  | 71 | 72 => .annotation
  | 54 => .function
  | 55 => .parameter
  | 56 => .functionEnd
  | 59 => match c with
    | .OpVariable v => .variable (v.storage_class = .Function)
    | _ => .code
  | 245 => .phi
  | 246 => .loopMerge
  | 247 => .selectionMerge
  | 248 => .label
  | 249 => .branch
  | 250 => .conditional
  | 253 => .return_
  | n => if 19 ≤ n ∧ n ≤ 44 then .global else .code

/-- A language of kinds of instructions -/
abbrev Lang := List Part → Prop

/-- One instruction of this kind -/
def one (p : Part) : Lang := fun ps => ps = [p]

/-- The one, then the other -/
def followed (a b : Lang) : Lang := fun ps => ∃ us vs, ps = us ++ vs ∧ a us ∧ b vs

/-- Any number of them, one after the other -/
def many (a : Lang) : Lang := fun ps => ∃ parts : List (List Part), ps = parts.flatten ∧ ∀ p ∈ parts, a p

/-- The one or the other -/
def either (a b : Lang) : Lang := fun ps => a ps ∨ b ps

infixr:60 " ⬝ " => followed
infixr:55 " ∥ " => either

/-- What ends a block (sections 2.2.5 and 3.32.17): a merge instruction is followed by an instruction it may be with. -/
def ending : Lang :=
  one .branch ∥ one .conditional ∥ one .return_ ∥ one .loopMerge ⬝ (one .branch ∥ one .conditional) ∥
    one .selectionMerge ⬝ one .conditional

/-- The first block of a function (section 2.4): variables are the first instructions. `OpPhi` would be too. -/
def firstBlock : Lang :=
  one .label ⬝ (many (one (.variable true)) ∥ many (one .phi)) ⬝ many (one .code) ⬝ ending

/-- Any other block: no variables, and `OpPhi` before anything else -/
def nextBlock : Lang := one .label ⬝ many (one .phi) ⬝ many (one .code) ⬝ ending

/-- A function without a body -/
def declaration : Lang := one .function ⬝ many (one .parameter) ⬝ one .functionEnd

/-- A function with a body -/
def definition : Lang := one .function ⬝ many (one .parameter) ⬝ firstBlock ⬝ many nextBlock ⬝ one .functionEnd

/-- Section 2.4 -/
def wholeModule : Lang :=
  many (one .capability) ⬝ many (one .extension) ⬝ many (one .importing) ⬝ one .memoryModel ⬝ many (one .entryPoint) ⬝
    many (one .executionMode) ⬝ many (one .source) ⬝ many (one .name) ⬝ many (one .annotation) ⬝
    many (one .global ∥ one (.variable false)) ⬝ many declaration ⬝ many definition

/-- A variable in a function -/
def isVariable : GroupCode X → Prop
  | .OpVariable _ => True
  | _ => False

/-- An `OpPhi` -/
def isPhi : GroupCode X → Prop
  | .OpPhi _ => True
  | _ => False

/-- A name, not a source -/
def isName : GroupDebug → Prop
  | .OpName _ | .OpMemberName _ => True
  | _ => False

/-- The merge instruction goes with the branch. -/
def Matched (b : BasicBlock X) : Prop :=
  match b.merge, b.branch with
  | none, _ => True
  | some (.OpLoopMerge _), .OpReturn _ => False
  | some (.OpLoopMerge _), _ => True
  | some (.OpSelectionMerge _), .OpBranchConditional _ => True
  | some (.OpSelectionMerge _), _ => False

/-- The code starts with instructions of one sort, and has no variables and no `OpPhi` after them. -/
def StartsWith (sort : GroupCode X → Prop) (b : BasicBlock X) : Prop :=
  ∃ start rest, b.code = start ++ rest ∧ (∀ i ∈ start, sort i) ∧ ∀ i ∈ rest, ¬ isVariable i ∧ ¬ isPhi i

/-- What the standard asks of a module and `validate` does not -/
structure Tidy (m : LogicalModule X) : Prop where
  /-- the names are behind the sources -/
  debug : ∃ sources names, m.debug = sources ++ names ∧ (∀ i ∈ sources, ¬ isName i) ∧ ∀ i ∈ names, isName i
  /-- functions have a body -/
  body : ∀ d ∈ m.function_definitions, d.blocks ≠ []
  /-- the first block starts with the variables -/
  first : ∀ d ∈ m.function_definitions, ∀ b bs, d.blocks = b :: bs → StartsWith isVariable b ∨ StartsWith isPhi b
  /-- the others have none and start with the `OpPhi` -/
  next : ∀ d ∈ m.function_definitions, ∀ b bs, d.blocks = b :: bs → ∀ c ∈ bs, StartsWith isPhi c
  /-- merge instructions are where they may be -/
  merge : ∀ d ∈ m.function_definitions, ∀ b ∈ d.blocks, Matched b

end Magma.Standard
