import Verif.Spec.Execution
/-! Execution of a function directly on the words of the binary. Nothing here uses the reader, the types of
instructions or the logical module: only word counts, and the opcodes 248 (OpLabel), 249 (OpBranch),
250 (OpBranchConditional) and 253 (OpReturn) of the standard. -/

namespace Magma.Spec

/-- The words cut into instructions: opcode and operand words. `n` bounds the number of instructions. -/
def frames : Nat → List UInt32 → List (Nat × List UInt32)
  | 0, _ => []
  | _ + 1, [] => []
  | n + 1, w :: ws =>
    let operands := w.toNat / 65536 - 1
    (w.toNat % 65536, ws.take operands) :: frames n (ws.drop operands)

/-- The instruction is the label `id`. -/
def isLabel (id : UInt32) (f : Nat × List UInt32) : Bool := f.1 == 248 && f.2.head? == some id

/-- The instruction ends a block. -/
def endsBlock (f : Nat × List UInt32) : Bool := f.1 == 249 || f.1 == 250 || f.1 == 253

/-- The instruction that ends the block with label `id` -/
def blockEnd (fs : List (Nat × List UInt32)) (id : UInt32) : Option (Nat × List UInt32) :=
  (fs.dropWhile (fun f => !isLabel id f)).find? endsBlock

/-- Where an instruction that ends a block leads: `some none` is to return -/
def leadsTo (decision : Bool) : Nat × List UInt32 → Option (Option UInt32)
  | (249, target :: _) => some (some target)
  | (250, _ :: onTrue :: onFalse :: _) => some (some (if decision then onTrue else onFalse))
  | (253, _) => some none
  | _ => none

/-- Execution from the label `id`, driven by decisions like `runBlocks` -/
def runFrames (fs : List (Nat × List UInt32)) : List Bool → UInt32 → List BlockId × Outcome
  | [], _ => ([], .running)
  | d :: ds, id =>
    match (blockEnd fs id).bind (leadsTo d) with
    | none => ([], .stuck)
    | some none => ([⟨id⟩], .returned)
    | some (some target) =>
      let (trace, outcome) := runFrames fs ds target
      (⟨id⟩ :: trace, outcome)

/-- Execution of the words of a function from its first label -/
def runWords (ws : List UInt32) (ds : List Bool) : Option (List BlockId × Outcome) :=
  let fs := frames ws.length ws
  match fs.find? (fun f => f.1 == 248) with
  | some (_, label :: _) => some (runFrames fs ds label)
  | _ => none

end Magma.Spec
