import Verif.Spec.FlowText
/-! The text of a function up to the first block that can not be printed. -/

namespace Magma.Spec
variable {X : Type}

/-- Rows, and the block that the next row would be of if it could be printed -/
abbrev Until := List Row × Option UInt32

/-- One after the other, if the first does not stop -/
def Until.then_ (a b : Until) : Until :=
  match a with
  | (rows, none) => (rows ++ b.1, b.2)
  | (rows, some id) => (rows, some id)

/-- A row -/
def Until.row (r : Row) : Until := ([r], none)

/-- A block can be printed if it is there once. -/
def blockUntil [Display X] (f : FunctionDefinition X) (id : UInt32) : Until :=
  if (blocksAt f.blocks id).length = 1 then ((blockAt f id).map Spec.row, none) else ([], some id)

/-- As `elseRows` -/
def elseUntil : ControlFlowChain → Until → Until
  | .Block [], _ => ([], none)
  | _, u => (row "} else {".toList :: enclosed u.1, u.2)

mutual
/-- As `functionRows` -/
def rowsUntil [Display X] (f : FunctionDefinition X) : ControlFlowChain → Until
  | .Atom id => blockUntil f id.val
  | .Block chains => rowsUntilAll f chains
  | .Selection id left right hint weights =>
    (blockUntil f id.val).then_ <| (Until.row { row "{".toList with before := selectionNotes hint weights }).then_ <|
    Until.then_ (enclosed (rowsUntil f left).1, (rowsUntil f left).2) <|
    (elseUntil right (rowsUntil f right)).then_ <| Until.row (row "}".toList)
  | .Loop id inner hint weights =>
    (blockUntil f id.val).then_ <| (Until.row { row "{".toList with before := loopNotes hint weights }).then_ <|
    Until.then_ (enclosed (rowsUntil f inner).1, (rowsUntil f inner).2) <| Until.row (row "}".toList)
  | .Break => Until.row (row "break;".toList)
  | .Continue => Until.row (row "continue;".toList)
def rowsUntilAll [Display X] (f : FunctionDefinition X) : List ControlFlowChain → Until
  | [] => ([], none)
  | chain :: chains => (rowsUntil f chain).then_ (rowsUntilAll f chains)
end

/-- What is said of a block that can not be printed -/
def complaint (f : FunctionDefinition X) (id : UInt32) : String :=
  if blocksAt f.blocks id = [] then "Basic block with given id does not exist"
  else "Multiple basic blocks with the same id"

end Magma.Spec
