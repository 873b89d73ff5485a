import Verif.Model.Reader
/-! The GLSL.std.450 extended instruction set (`src/glsl450`). -/

namespace Magma.Glsl

/-- src/glsl450/op.rs:7-10 -/
structure Sin where
  x : OpId
  deriving DecidableEq, Repr

/-- src/glsl450/op.rs:24-27 -/
structure Cos where
  x : OpId
  deriving DecidableEq, Repr

/-- src/glsl450/mod.rs:14-18 -/
inductive Inst where
  | Sin (op : Sin)
  | Cos (op : Cos)
  deriving DecidableEq, Repr

/-- src/glsl450/mod.rs:72-75 -/
def readSin (block : Block) : R (Block × Inst) := do
  let (block, x) ← block.readOpId
  return (block, .Sin { x := x })

/-- src/glsl450/mod.rs:77-80 -/
def readCos (block : Block) : R (Block × Inst) := do
  let (block, x) ← block.readOpId
  return (block, .Cos { x := x })

/-- src/glsl450/mod.rs:53-55 -/
def setName : String := "GLSL.std.450"

/-- src/glsl450/mod.rs:56-66 -/
def readInst (instruction : UInt32) (block : Block) : R (Block × Inst) :=
  if instruction = 13 then readSin block
  else if instruction = 14 then readCos block
  else fail (.UnknownExtInstOp setName instruction)

/-- src/glsl450/mod.rs:50-70 -/
def instSet : ExtInstSet Inst := { name := setName, readInstruction := readInst }

end Magma.Glsl
