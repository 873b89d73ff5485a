import Verif.Spec.Liveness
/-! Instructions whose results are not needed. -/

namespace Magma.Spec
variable {V W X : Type}

/-- Which variables an instruction reads and writes, and which a condition reads. Memory can be a variable. -/
structure Access (X V : Type) where
  reads : GroupCode X → List V
  writes : GroupCode X → List V
  tests : OpId → List V

/-- A machine on values of variables does what `A` says: an instruction leaves alone what it does not write, and what it
writes depends on what it reads only. -/
structure Access.Right (A : Access X V) (M : Machine X (V → W)) : Prop where
  keeps : ∀ last i st v, v ∉ A.writes i → M.run last i st v = st v
  sets : ∀ last i st st', (∀ v ∈ A.reads i, st v = st' v) → ∀ v ∈ A.writes i, M.run last i st v = M.run last i st' v
  tests : ∀ cond st st', (∀ v ∈ A.tests cond, st v = st' v) → M.holds cond st = M.holds cond st'

/-- A variable is needed when control leaves a block: it is asked for and the block returns, or it is needed in a block to
which control can go. -/
inductive NeededAfter (blocks : List (BasicBlock X)) (U : Usage V) (asked : V → Bool) (id : BlockId) (v : V) : Prop
  | ret {b : BasicBlock X} {op : OpReturn} : blockOf blocks id = some b → b.branch = .OpReturn op → asked v = true →
      NeededAfter blocks U asked id v
  | goto {b : BasicBlock X} {op : OpBranch} : blockOf blocks id = some b → b.branch = .OpBranch op →
      Needed blocks U asked ⟨op.target_label.val⟩ v → NeededAfter blocks U asked id v
  | choose {b : BasicBlock X} {op : OpBranchConditional} (d : Bool) : blockOf blocks id = some b →
      b.branch = .OpBranchConditional op →
      Needed blocks U asked ⟨if d then op.true_label.val else op.false_label.val⟩ v → NeededAfter blocks U asked id v

section
variable [DecidableEq V]

/-- What is needed before some code, by what is needed after it -/
def Access.exposed (A : Access X V) : List (GroupCode X) → (V → Bool) → V → Bool
  | [], after => after
  | i :: code, after => fun v => decide (v ∈ A.reads i) || (!decide (v ∈ A.writes i) && A.exposed code after v)

/-- What the end of a block reads -/
def Access.condition (A : Access X V) (b : BasicBlock X) (v : V) : Bool :=
  match b.branch with
  | .OpBranchConditional op => decide (v ∈ A.tests op.condition)
  | _ => false

/-- What blocks read and write by what their code does -/
def Access.usage (A : Access X V) (blocks : List (BasicBlock X)) : Usage V where
  reads id v :=
    match blockOf blocks id with
    | none => false
    | some b => A.exposed b.code (A.condition b) v
  writes id v :=
    match blockOf blocks id with
    | none => false
    | some b => b.code.any fun i => decide (v ∈ A.writes i)

/-- The code without instructions that write nothing that is needed after them -/
def Access.prune (A : Access X V) : List (GroupCode X) → (V → Bool) → List (GroupCode X)
  | [], _ => []
  | i :: code, after =>
    if (A.writes i).any (A.exposed code after) then i :: A.prune code after else A.prune code after

/-- The same for each block, by what is needed after the blocks -/
def Access.pruneBlocks (A : Access X V) (out : BlockId → V → Bool) (blocks : List (BasicBlock X)) : List (BasicBlock X) :=
  blocks.map fun b => { b with code := A.prune b.code fun v => out ⟨labelId b⟩ v || A.condition b v }

end

mutual
/-- What is needed after each of the blocks of a structured program, in the order of the program -/
def needsOut (U : Usage V) : ControlFlowChain → (V → Bool) → (V → Bool) → (V → Bool) → List (BlockId × (V → Bool))
  | .Atom id, next, _, _ => [(id, next)]
  | .Block chains, next, brk, cont => needsOutAll U chains next brk cont
  | .Selection id left right _ _, next, brk, cont =>
    (id, fun v => needs U left next brk cont v || needs U right next brk cont v) ::
      (needsOut U left next brk cont ++ needsOut U right next brk cont)
  | .Loop id inner _ _, next, _, _ =>
    let again := U.before id (needs U inner (fun _ => false) next (fun _ => false))
    (id, needs U inner again next again) :: needsOut U inner again next again
  | .Break, _, _, _ => []
  | .Continue, _, _, _ => []
/-- The same for structured programs one after the other -/
def needsOutAll (U : Usage V) : List ControlFlowChain → (V → Bool) → (V → Bool) → (V → Bool) → List (BlockId × (V → Bool))
  | [], _, _, _ => []
  | chain :: chains, next, brk, cont =>
    needsOut U chain (needsAll U chains next brk cont) brk cont ++ needsOutAll U chains next brk cont
end

/-- What is needed after a block, by the recovered control flow -/
def outOf (list : List (BlockId × (V → Bool))) (id : BlockId) (v : V) : Bool := list.any fun p => p.1.val == id.val && p.2 v

end Magma.Spec
