import Verif.Spec.Values
import Verif.Spec.Course
/-! Values that are given before they are used, as the standard demands (section 2.16.1: a definition dominates the uses of
its result, and for `OpPhi` the ends of the blocks that the values come from). -/

namespace Magma.Spec
open Magma.Standard
variable {W : Type}

/-- The results of some code -/
def given (code : List (GroupCode Glsl.Inst)) : List UInt32 := code.filterMap fun i => resultId (codeInst i)

/-- The values that an instruction uses where it stands. What `OpPhi` uses is used where control comes from. -/
def valuesUsed : GroupCode Glsl.Inst → List UInt32
  | .OpPhi _ => []
  | i => valuesRead i

/-- The value is the result of some instruction of the blocks, and not, say, a constant. -/
def LocalTo (blocks : List (BasicBlock Glsl.Inst)) (v : UInt32) : Prop := ∃ b ∈ blocks, v ∈ given b.code

/-- The value is the result of some instruction on the way. -/
def GivenOn (blocks : List (BasicBlock Glsl.Inst)) (way : List UInt32) (v : UInt32) : Prop :=
  ∃ b ∈ blocks, labelId b ∈ way ∧ v ∈ given b.code

/-- On every way along the branches from the first block, results of instructions are given before they are used. -/
structure Scoped (blocks : List (BasicBlock Glsl.Inst)) (first : UInt32) : Prop where
  code : ∀ way, ∀ b ∈ blocks, Course blocks first (way ++ [labelId b]) → ∀ before i after, b.code = before ++ i :: after →
    ∀ v ∈ valuesUsed i, LocalTo blocks v → v ∈ given before ∨ GivenOn blocks way v
  condition : ∀ way, ∀ b ∈ blocks, Course blocks first (way ++ [labelId b]) → ∀ op, b.branch = .OpBranchConditional op →
    LocalTo blocks op.condition.val → GivenOn blocks (way ++ [labelId b]) op.condition.val
  phi : ∀ way parent, ∀ b ∈ blocks, Course blocks first (way ++ [parent] ++ [labelId b]) → ∀ op, .OpPhi op ∈ b.code →
    ∀ a ∈ op.variables, a.parent.val = parent → LocalTo blocks a.variable.val →
      GivenOn blocks (way ++ [parent]) a.variable.val

/-- One block strictly dominates another: it comes before it on every way. -/
def Before (blocks : List (BasicBlock Glsl.Inst)) (first d b : UInt32) : Prop :=
  ∀ way, Course blocks first (way ++ [b]) → d ∈ way

/-- Where a result is used its definition comes before in the same block, or is in a block that strictly dominates. -/
structure Dominated (blocks : List (BasicBlock Glsl.Inst)) (first : UInt32) : Prop where
  code : ∀ d ∈ blocks, ∀ v ∈ given d.code, ∀ b ∈ blocks, ∀ before i after, b.code = before ++ i :: after →
    v ∈ valuesUsed i → v ∈ given before ∨ Before blocks first (labelId d) (labelId b)
  condition : ∀ d ∈ blocks, ∀ v ∈ given d.code, ∀ b ∈ blocks, ∀ op, b.branch = .OpBranchConditional op →
    op.condition.val = v → d = b ∨ Before blocks first (labelId d) (labelId b)
  phi : ∀ d ∈ blocks, ∀ v ∈ given d.code, ∀ b ∈ blocks, ∀ op, .OpPhi op ∈ b.code → ∀ a ∈ op.variables, a.variable.val = v →
    ∀ p ∈ blocks, labelId p = a.parent.val → Branch blocks (labelId p) (labelId b) →
      d = p ∨ Before blocks first (labelId d) (labelId p)

/-! ### Structured programs -/

/-- Does the block use the value in an `OpPhi` when control comes from the other? -/
def phiUses (b : BasicBlock Glsl.Inst) (parent v : UInt32) : Bool :=
  b.code.any fun
    | .OpPhi op => op.variables.any fun a => a.parent.val == parent && a.variable.val == v
    | _ => false

/-- Is the value used in an `OpPhi` of a block to which the block branches? -/
def handsOn (blocks : List (BasicBlock Glsl.Inst)) (b : BasicBlock Glsl.Inst) (v : UInt32) : Bool :=
  (targets (endOf b)).any fun t =>
    match blockOf blocks ⟨t⟩ with
    | some c => phiUses c (labelId b) v
    | none => false

/-- What instructions use and give -/
def scopeAccess : Access Glsl.Inst UInt32 where
  reads := valuesUsed
  writes i := (resultId (codeInst i)).toList
  tests id := [id.val]

/-- What blocks use that they were not given, and what they give -/
def scopeUsage (blocks : List (BasicBlock Glsl.Inst)) : Usage UInt32 where
  reads id v :=
    match blockOf blocks id with
    | none => false
    | some b => scopeAccess.exposed b.code (fun v => scopeAccess.condition b v || handsOn blocks b v) v
  writes id v :=
    match blockOf blocks id with
    | none => false
    | some b => decide (v ∈ given b.code)

/-- No result of the blocks is needed before the structured program. -/
def checkScope (blocks : List (BasicBlock Glsl.Inst)) (chain : ControlFlowChain) : Bool :=
  blocks.all fun b => (given b.code).all fun v =>
    !needs (scopeUsage blocks) chain (fun _ => false) (fun _ => false) (fun _ => false) v

/-! ### Machines -/

/-- The values that an instruction reads when control came from the block `last`: `OpPhi` reads the value for that block. -/
def valuesAt (last : Option UInt32) : GroupCode Glsl.Inst → List UInt32
  | .OpPhi op => (op.variables.filter fun a => last == some a.parent.val).map (·.variable.val)
  | i => valuesRead i

/-- The machine that computes values, where `OpPhi` reads the value for the block control came from only -/
def Denotation.chosen (D : Denotation W) : Machine Glsl.Inst (Option UInt32 → W) where
  run last i st
    | some id =>
      if resultId (codeInst i) = some id then
        D.value last i ((valuesAt last i).map fun o => st (some o)) (if loads i then some (st none) else none)
      else st (some id)
    | none => if stores i then D.memory last i ((valuesAt last i).map fun o => st (some o)) (st none) else st none
  holds id st := D.truth (st (some id.val))

end Magma.Spec
