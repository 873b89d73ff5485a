import Verif.Spec.Disassembly
import Verif.Spec.Flow
import Verif.Spec.Layout
import Verif.Model.Display
import Verif.Model.ControlFlow
/-! What well-formed printed control flow looks like. Nothing here calls the printers of the model. -/

namespace Magma.Spec

/-- The number of open braces after a text, or `none` if a brace is closed that was not opened -/
def depthAfter : Nat → Text → Option Nat
  | d, [] => some d
  | d, c :: cs =>
    if c = '{' then depthAfter (d + 1) cs
    else if c = '}' then if d = 0 then none else depthAfter (d - 1) cs
    else depthAfter d cs

/-- The number of spaces a line starts with -/
def leadingSpaces (l : Text) : Nat := (l.takeWhile (· == ' ')).length

/-- Does a line start with a closing brace, after spaces? -/
def startsWithClose (l : Text) : Bool := (l.dropWhile (· == ' ')).head? == some '}'

/-- Check lines, starting with `d` open braces: every line is indented by four spaces per open brace,
where a closing brace at the start of the line already counts. Gives the number of open braces at the
end. -/
def wellIndented : Nat → List Text → Option Nat
  | d, [] => some d
  | d, l :: ls =>
    if leadingSpaces l = 4 * (if startsWithClose l then d - 1 else d) then
      match depthAfter d l with
      | some d' => wellIndented d' ls
      | none => none
    else none

mutual
/-- The blocks a chain mentions, in the order of its text -/
def chainIds : ControlFlowChain → List UInt32
  | .Atom id => [id.val]
  | .Block chains => chainIdsAll chains
  | .Selection id left right _ _ => id.val :: (chainIds left ++ chainIds right)
  | .Loop id inner _ _ => id.val :: chainIds inner
  | .Break => []
  | .Continue => []
/-- The blocks a list of chains mentions -/
def chainIdsAll : List ControlFlowChain → List UInt32
  | [] => []
  | chain :: chains => chainIds chain ++ chainIdsAll chains
end

mutual
/-- No construct of the chain carries a hint or branch weights -/
def Unadorned : ControlFlowChain → Prop
  | .Atom _ => True
  | .Block chains => UnadornedAll chains
  | .Selection _ left right hint weights => hint = ⟨false, false⟩ ∧ weights = none ∧ Unadorned left ∧ Unadorned right
  | .Loop _ inner hint weights => hint = ⟨false, false, false, none⟩ ∧ weights = none ∧ Unadorned inner
  | .Break => True
  | .Continue => True
/-- The same for a list of chains -/
def UnadornedAll : List ControlFlowChain → Prop
  | [] => True
  | chain :: chains => Unadorned chain ∧ UnadornedAll chains
end

/-- A line without its leading spaces -/
def trimmed (l : Text) : Text := l.dropWhile (· == ' ')

/-- The lines that belong to blocks, without indentation: those that start with `>` -/
def listed (ls : List Text) : List Text := (ls.map trimmed).filter (fun l => l.head? == some '>')

/-- The lines of a basic block: its instructions as the disassembler prints them, between a line that
begins it and a line that ends it. The merge instruction is not part of it. -/
def blockListing {X : Type} [Display X] (b : BasicBlock X) : List Text :=
  ["> Begin ".toList ++ decimal (labelId b).toNat] ++
  (b.code.map codeInst ++ [branchInst b.branch]).map (fun op => ">>> ".toList ++ Core.fmt op) ++
  ["> End ".toList ++ decimal (labelId b).toNat]

/-- The blocks of a function with a label -/
def blocksAt {X : Type} (blocks : List (BasicBlock X)) (id : UInt32) : List (BasicBlock X) :=
  blocks.filter (fun b => labelId b == id)

end Magma.Spec
