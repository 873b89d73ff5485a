import Verif.Spec.Printing
import Verif.Spec.Listing
/-! A reference for the text of recovered control flow. A text is a list of rows, and what a construct encloses
is one step further in. Nothing here calls the printers of the model. -/

namespace Magma.Spec

/-- A line: what is before the indentation, the number of constructs around it, and what is after -/
structure Row where
  before : Text := []
  depth : Nat := 0
  text : Text

/-- Four spaces for each construct around it -/
def Row.line (r : Row) : Text := r.before ++ List.replicate (4 * r.depth) ' ' ++ r.text

/-- A row that is not in a construct -/
def row (t : Text) : Row := { text := t }

/-- Rows in a construct -/
def enclosed (rows : List Row) : List Row := rows.map fun r => { r with depth := r.depth + 1 }

/-- Rows as text -/
def rowsText (rows : List Row) : Text := rows.flatMap fun r => r.line ++ ['\n']

/-- Names in brackets, if there are any -/
def note (names : List String) : Text := if names = [] then [] else " [".toList ++ (flagText names).toList ++ "]".toList

/-- Branch weights in brackets, if there are any -/
def weightNote : Option BranchWeights → Text
  | none => []
  | some w => " [".toList ++ numberText w.true_weight ++ " ".toList ++ numberText w.false_weight ++ "]".toList

/-- What a selection is noted with -/
def selectionNotes (hint : SelectionControl) (weights : Option BranchWeights) : Text :=
  note ((if hint.flatten then ["Flatten"] else []) ++ (if hint.dont_flatten then ["DontFlatten"] else [])) ++
    weightNote weights

/-- What a loop is noted with -/
def loopNotes (hint : LoopControl) (weights : Option BranchWeights) : Text :=
  note ((if hint.unroll then ["Unroll"] else []) ++ (if hint.dont_unroll then ["DontUnroll"] else []) ++
      (if hint.dependency_infinite then ["DependencyInfinite"] else []) ++
      hint.dependency_length.toList.map fun n => "DependencyLength(" ++ toString n.toNat ++ ")") ++
    weightNote weights

/-- An else branch has a row before it. There is none if nothing at all is in it. -/
def elseRows : ControlFlowChain → List Row → List Row
  | .Block [], _ => []
  | _, rows => row "} else {".toList :: enclosed rows

mutual
/-- The rows of a chain -/
def chainRows : ControlFlowChain → List Row
  | .Atom id => [row (idText id.val)]
  | .Block chains => chainRowsAll chains
  | .Selection id left right hint weights =>
    row ("selection ".toList ++ idText id.val ++ selectionNotes hint weights ++ " {".toList) ::
      (enclosed (chainRows left) ++ elseRows right (chainRows right) ++ [row "}".toList])
  | .Loop id inner hint weights =>
    row ("loop ".toList ++ idText id.val ++ loopNotes hint weights ++ " {".toList) ::
      (enclosed (chainRows inner) ++ [row "}".toList])
  | .Break => [row "break;".toList]
  | .Continue => [row "continue;".toList]
/-- The rows of chains, one after the other -/
def chainRowsAll : List ControlFlowChain → List Row
  | [] => []
  | chain :: chains => chainRows chain ++ chainRowsAll chains
end

mutual
/-- The rows of a function, with the lines of its blocks. Where a construct begins, the notes are before the
indentation. -/
def functionRows (block : UInt32 → List Text) : ControlFlowChain → List Row
  | .Atom id => (block id.val).map row
  | .Block chains => functionRowsAll block chains
  | .Selection id left right hint weights =>
    (block id.val).map row ++ { row "{".toList with before := selectionNotes hint weights } ::
      (enclosed (functionRows block left) ++ elseRows right (functionRows block right) ++ [row "}".toList])
  | .Loop id inner hint weights =>
    (block id.val).map row ++ { row "{".toList with before := loopNotes hint weights } ::
      (enclosed (functionRows block inner) ++ [row "}".toList])
  | .Break => [row "break;".toList]
  | .Continue => [row "continue;".toList]
/-- The rows of chains, one after the other -/
def functionRowsAll (block : UInt32 → List Text) : List ControlFlowChain → List Row
  | [] => []
  | chain :: chains => functionRows block chain ++ functionRowsAll block chains
end

/-- The lines of a block, from the lines of its instructions -/
def listedBlock (id : UInt32) (insts : List Text) : List Text :=
  ["> Begin ".toList ++ decimal id.toNat] ++ insts.map (">>> ".toList ++ ·) ++ ["> End ".toList ++ decimal id.toNat]

/-- The lines of the instructions that are printed for a block: its code and its branch, and no merge -/
def shownInsts {X : Type} [Display X] (b : BasicBlock X) : List Text :=
  (b.code.map codeInst ++ [branchInst b.branch]).map Core.fmt

/-- The lines of a block of a function -/
def blockAt {X : Type} [Display X] (f : FunctionDefinition X) (id : UInt32) : List Text :=
  (blocksAt f.blocks id).flatMap fun b => listedBlock id (shownInsts b)

end Magma.Spec
