import Verif.Spec.Scope
import Verif.Spec.Live
/-! `OpPhi` and the blocks that control comes from. The standard (3.32.17, OpPhi) demands exactly one operand for each block
that branches to the block of the instruction. -/

namespace Magma.Spec
open Magma.Standard
variable {W : Type}

/-- On every way along the branches from the first block, each `OpPhi` has exactly one operand for the block that control came
from; so there is none in the block that the function starts with. -/
structure PhisTell (blocks : List (BasicBlock Glsl.Inst)) (first : UInt32) : Prop where
  start : ∀ b ∈ blocks, labelId b = first → ∀ op, .OpPhi op ∉ b.code
  told : ∀ way parent, ∀ b ∈ blocks, Course blocks first (way ++ [parent] ++ [labelId b]) → ∀ op, .OpPhi op ∈ b.code →
    (op.variables.map (·.parent.val)).count parent = 1

/-! ### Structured programs -/

/-- Each `OpPhi` of the block has one operand for another block. -/
def phisTell (b : BasicBlock Glsl.Inst) (parent : UInt32) : Bool :=
  b.code.all fun
    | .OpPhi op => (op.variables.map (·.parent.val)).count parent == 1
    | _ => true

/-- The block has no `OpPhi`. -/
def phiFree (b : BasicBlock Glsl.Inst) : Bool :=
  b.code.all fun
    | .OpPhi _ => false
    | _ => true

/-- The check: for each block of the structured program that control can come to, the blocks that it branches to -/
def checkPhis (blocks : List (BasicBlock Glsl.Inst)) (chain : ControlFlowChain) : Bool :=
  (blocks.head?.all phiFree) &&
  (reached chain).all fun id => (blockOf blocks id).all fun p =>
    (targets (endOf p)).all fun t => (blockOf blocks ⟨t⟩).all fun b => phisTell b (labelId p)

/-- Control can come from one block to another. -/
def comesFrom (blocks : List (BasicBlock Glsl.Inst)) (chain : ControlFlowChain) (parent block : UInt32) : Bool :=
  (reached chain).contains ⟨parent⟩ && (blockOf blocks ⟨parent⟩).any fun p => (targets (endOf p)).contains block

/-- Without the operands of an `OpPhi` for blocks that control does not come from -/
def prunePhi (comes : UInt32 → Bool) : GroupCode Glsl.Inst → GroupCode Glsl.Inst
  | .OpPhi op => .OpPhi { op with variables := op.variables.filter fun a => comes a.parent.val }
  | i => i

/-- The same for a block -/
def prunePhis (blocks : List (BasicBlock Glsl.Inst)) (chain : ControlFlowChain) (b : BasicBlock Glsl.Inst) :
    BasicBlock Glsl.Inst :=
  { b with code := b.code.map (prunePhi fun p => comesFrom blocks chain p (labelId b)) }

/-! ### Machines -/

/-- Two meanings of instructions that differ at most in what an `OpPhi` does that has no operand, or several, for the block that
control came from -/
structure Denotation.LikeOnTold (D D' : Denotation W) : Prop where
  value : ∀ last i args mem, (∀ op, i = .OpPhi op → args.length = 1) → D.value last i args mem = D'.value last i args mem
  memory : ∀ last i args mem, (∀ op, i = .OpPhi op → args.length = 1) → D.memory last i args mem = D'.memory last i args mem
  truth : D.truth = D'.truth

/-- What an `OpPhi` does depends on the value it is given, not on its other operands. -/
def Denotation.PhiByValue (D : Denotation W) : Prop :=
  ∀ last args mem op vars, D.value last (.OpPhi { op with variables := vars }) args mem = D.value last (.OpPhi op) args mem

end Magma.Spec
