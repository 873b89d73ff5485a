import Verif.Spec.Execution
import Mathlib.Order.CompleteLattice.Basic
import Mathlib.Data.Set.Lattice
/-! Data flow analysis: of the basic blocks of a function, and of a structured program. -/

namespace Magma.Spec
variable {L X : Type}

/-- What is known after a visit of a block by what is known before it, and what is known in addition when the condition at
its end is true, or false -/
structure Transfer (L : Type) where
  block : BlockId → L → L
  decide : BlockId → Bool → L → L

/-! ### Basic blocks -/

/-- Control comes to a block on some way along the branches, and this is known then, on that way. -/
inductive Arrives (blocks : List (BasicBlock X)) (T : Transfer L) (first : BlockId) (start : L) : BlockId → L → Prop
  | here : Arrives blocks T first start first start
  | goto {id : BlockId} {v : L} {b : BasicBlock X} {op : OpBranch} : Arrives blocks T first start id v →
      blockOf blocks id = some b → b.branch = .OpBranch op →
      Arrives blocks T first start ⟨op.target_label.val⟩ (T.block id v)
  | choose {id : BlockId} {v : L} {b : BasicBlock X} {op : OpBranchConditional} (d : Bool) :
      Arrives blocks T first start id v → blockOf blocks id = some b → b.branch = .OpBranchConditional op →
      Arrives blocks T first start ⟨if d then op.true_label.val else op.false_label.val⟩ (T.decide id d (T.block id v))

/-- The block returns. -/
def Returns (blocks : List (BasicBlock X)) (id : BlockId) : Prop :=
  ∃ b op, blockOf blocks id = some b ∧ b.branch = .OpReturn op

/-! ### States -/

/-- What blocks do with states, and in which states their conditions are true, or false -/
structure Rules (σ : Type) where
  run : BlockId → σ → σ → Prop
  holds : BlockId → Bool → σ → Prop

/-- Control comes to a block in a state. -/
inductive Comes {σ : Type} (blocks : List (BasicBlock X)) (M : Rules σ) (first : BlockId) (start : Set σ) :
    BlockId → σ → Prop
  | here {st : σ} : st ∈ start → Comes blocks M first start first st
  | goto {id : BlockId} {st st' : σ} {b : BasicBlock X} {op : OpBranch} : Comes blocks M first start id st →
      M.run id st st' → blockOf blocks id = some b → b.branch = .OpBranch op →
      Comes blocks M first start ⟨op.target_label.val⟩ st'
  | choose {id : BlockId} {st st' : σ} {b : BasicBlock X} {op : OpBranchConditional} (d : Bool) :
      Comes blocks M first start id st → M.run id st st' → M.holds id d st' → blockOf blocks id = some b →
      b.branch = .OpBranchConditional op →
      Comes blocks M first start ⟨if d then op.true_label.val else op.false_label.val⟩ st'

/-- Sets of states as what is known -/
def Rules.collect {σ : Type} (M : Rules σ) : Transfer (Set σ) where
  block id S := {st' | ∃ st ∈ S, M.run id st st'}
  decide id d S := {st ∈ S | M.holds id d st}

/-! ### Solutions -/

variable [CompleteLattice L]

/-- A solution of the data flow equations: something for each block that is at least what comes from the blocks before it -/
structure Solves (blocks : List (BasicBlock X)) (T : Transfer L) (first : BlockId) (start : L) (F : BlockId → L) : Prop where
  here : start ≤ F first
  goto : ∀ {id b op}, blockOf blocks id = some b → b.branch = .OpBranch op →
    T.block id (F id) ≤ F ⟨op.target_label.val⟩
  choose : ∀ {id b op} (d : Bool), blockOf blocks id = some b → b.branch = .OpBranchConditional op →
    T.decide id d (T.block id (F id)) ≤ F ⟨if d then op.true_label.val else op.false_label.val⟩

/-- More known before is more known after. -/
structure Transfer.Monotone (T : Transfer L) : Prop where
  block : ∀ id, _root_.Monotone (T.block id)
  decide : ∀ id d, _root_.Monotone (T.decide id d)

/-- What is known after is known on some way if it is known before on some way. -/
structure Transfer.Distributive (T : Transfer L) : Prop where
  block : ∀ id (S : Set L), T.block id (sSup S) = sSup (T.block id '' S)
  decide : ∀ id d (S : Set L), T.decide id d (sSup S) = sSup (T.decide id d '' S)

/-! ### Structured programs -/

mutual
/-- What is known after a structured program that ends in the way given. What is known at the head of a loop is the least
that covers what was known before the loop and what is known after a round. -/
def flow (T : Transfer L) : ControlFlowChain → Signal → L → L
  | .Atom id, s, x => if s = .next then T.block id x else ⊥
  | .Block chains, s, x => flowAll T chains s x
  | .Selection id left right _ _, s, x =>
    flow T left s (T.decide id true (T.block id x)) ⊔ flow T right s (T.decide id false (T.block id x))
  | .Loop id inner _ _, s, x =>
    if s = .next then
      flow T inner .breaks (T.block id
        (sInf {y | x ⊔ (flow T inner .next (T.block id y) ⊔ flow T inner .continues (T.block id y)) ≤ y}))
    else ⊥
  | .Break, s, x => if s = .breaks then x else ⊥
  | .Continue, s, x => if s = .continues then x else ⊥
/-- The same for structured programs one after the other -/
def flowAll (T : Transfer L) : List ControlFlowChain → Signal → L → L
  | [], s, x => if s = .next then x else ⊥
  | chain :: chains, s, x => (if s = .next then ⊥ else flow T chain s x) ⊔ flowAll T chains s (flow T chain .next x)
end

mutual
/-- What is known before block `b` in a structured program -/
def flowAt (T : Transfer L) (b : BlockId) : ControlFlowChain → L → L
  | .Atom id, x => if id = b then x else ⊥
  | .Block chains, x => flowAtAll T b chains x
  | .Selection id left right _ _, x => (if id = b then x else ⊥) ⊔
    (flowAt T b left (T.decide id true (T.block id x)) ⊔ flowAt T b right (T.decide id false (T.block id x)))
  | .Loop id inner _ _, x =>
    let y := sInf {y | x ⊔ (flow T inner .next (T.block id y) ⊔ flow T inner .continues (T.block id y)) ≤ y}
    (if id = b then y else ⊥) ⊔ flowAt T b inner (T.block id y)
  | .Break, _ => ⊥
  | .Continue, _ => ⊥
/-- The same for structured programs one after the other -/
def flowAtAll (T : Transfer L) (b : BlockId) : List ControlFlowChain → L → L
  | [], _ => ⊥
  | chain :: chains, x => flowAt T b chain x ⊔ flowAtAll T b chains (flow T chain .next x)
end

end Magma.Spec
