import Verif.Spec.Meaning
/-! Which variables matter: in the basic blocks of a function, and in a structured program. -/

namespace Magma.Spec
variable {V W X : Type}

/-- Which variables a block reads (before it writes them, or in its condition), and which it writes -/
structure Usage (V : Type) where
  reads : BlockId → V → Bool
  writes : BlockId → V → Bool

/-- A variable is needed when control comes to a block: on some way along the branches it is read before it is written, or
the function returns, it was not written, and it is asked for then. -/
inductive Needed (blocks : List (BasicBlock X)) (U : Usage V) (asked : V → Bool) : BlockId → V → Prop
  | reads {id : BlockId} {v : V} : U.reads id v = true → Needed blocks U asked id v
  | ret {id : BlockId} {v : V} {b : BasicBlock X} {op : OpReturn} : U.writes id v = false → blockOf blocks id = some b →
      b.branch = .OpReturn op → asked v = true → Needed blocks U asked id v
  | goto {id : BlockId} {v : V} {b : BasicBlock X} {op : OpBranch} : U.writes id v = false → blockOf blocks id = some b →
      b.branch = .OpBranch op → Needed blocks U asked ⟨op.target_label.val⟩ v → Needed blocks U asked id v
  | choose {id : BlockId} {v : V} {b : BasicBlock X} {op : OpBranchConditional} (d : Bool) : U.writes id v = false →
      blockOf blocks id = some b → b.branch = .OpBranchConditional op →
      Needed blocks U asked ⟨if d then op.true_label.val else op.false_label.val⟩ v → Needed blocks U asked id v

/-! ### Structured programs -/

/-- What is needed before a block, by what is needed after it -/
def Usage.before (U : Usage V) (id : BlockId) (after : V → Bool) : V → Bool :=
  fun v => U.reads id v || (!U.writes id v && after v)

mutual
/-- What is needed before a structured program, by what is needed when it ends, when it breaks and when it continues. The
body of a loop is looked at once, as if nothing were needed for another round. -/
def needs (U : Usage V) : ControlFlowChain → (V → Bool) → (V → Bool) → (V → Bool) → V → Bool
  | .Atom id, next, _, _ => U.before id next
  | .Block chains, next, brk, cont => needsAll U chains next brk cont
  | .Selection id left right _ _, next, brk, cont =>
    U.before id (fun v => needs U left next brk cont v || needs U right next brk cont v)
  | .Loop id inner _ _, next, _, _ => U.before id (needs U inner (fun _ => false) next (fun _ => false))
  | .Break, _, brk, _ => brk
  | .Continue, _, _, cont => cont
/-- The same for structured programs one after the other -/
def needsAll (U : Usage V) : List ControlFlowChain → (V → Bool) → (V → Bool) → (V → Bool) → V → Bool
  | [], next, _, _ => next
  | chain :: chains, next, brk, cont => needs U chain (needsAll U chains next brk cont) brk cont
end

mutual
/-- What is needed before each of the blocks of a structured program, in the order of the program -/
def needsAt (U : Usage V) : ControlFlowChain → (V → Bool) → (V → Bool) → (V → Bool) → List (BlockId × (V → Bool))
  | .Atom id, next, _, _ => [(id, U.before id next)]
  | .Block chains, next, brk, cont => needsAtAll U chains next brk cont
  | .Selection id left right _ _, next, brk, cont =>
    (id, U.before id (fun v => needs U left next brk cont v || needs U right next brk cont v)) ::
      (needsAt U left next brk cont ++ needsAt U right next brk cont)
  | .Loop id inner _ _, next, _, _ =>
    let again := U.before id (needs U inner (fun _ => false) next (fun _ => false))
    (id, again) :: needsAt U inner again next again
  | .Break, _, _, _ => []
  | .Continue, _, _, _ => []
/-- The same for structured programs one after the other -/
def needsAtAll (U : Usage V) : List ControlFlowChain → (V → Bool) → (V → Bool) → (V → Bool) → List (BlockId × (V → Bool))
  | [], _, _, _ => []
  | chain :: chains, next, brk, cont =>
    needsAt U chain (needsAll U chains next brk cont) brk cont ++ needsAtAll U chains next brk cont
end

/-! ### Machines -/

/-- A machine on values of variables does what `U` says: a block leaves alone what it does not write, and what it writes,
and its condition, depend on what it reads only. -/
structure Usage.Right (U : Usage V) (M : Machine X (V → W)) (blocks : List (BasicBlock X)) : Prop where
  keeps : ∀ {id b}, blockOf blocks id = some b → ∀ c v, U.writes id v = false → (M.enter b c).state v = c.state v
  sets : ∀ {id b}, blockOf blocks id = some b → ∀ c c', c.last = c'.last →
    (∀ v, U.reads id v = true → c.state v = c'.state v) → ∀ v, U.writes id v = true →
      (M.enter b c).state v = (M.enter b c').state v
  decides : ∀ {id b op}, blockOf blocks id = some b → b.branch = .OpBranchConditional op → ∀ c c', c.last = c'.last →
    (∀ v, U.reads id v = true → c.state v = c'.state v) →
      M.holds op.condition (M.enter b c).state = M.holds op.condition (M.enter b c').state

end Magma.Spec
