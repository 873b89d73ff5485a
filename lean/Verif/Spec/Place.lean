import Verif.Spec.Flow
import Mathlib.Logic.Relation
/-! The places of a function, as one reads it from its first block on with the constructs around, and what
is wrong with a place where the recovery of control flow fails. -/

namespace Magma.Spec
variable {X : Type}

/-- A construct around a block -/
inductive Construct where
  | selection (merge : UInt32)
  | loop (head merge : UInt32)

/-- The block at which the body of a construct ends -/
def Construct.stop : Construct → UInt32
  | .selection merge => merge
  | .loop head _ => head

/-- Header and merge block of the innermost loop -/
def innermost : List Construct → Option (UInt32 × UInt32)
  | [] => none
  | .selection _ :: cs => innermost cs
  | .loop head merge :: _ => some (head, merge)

/-- A block and the constructs around it, innermost first -/
abbrev Place := UInt32 × List Construct

/-- The body of one of the constructs ends here. -/
def Stops (p : Place) : Prop := p.1 ∈ p.2.map Construct.stop

/-- The block at a place where no body ends -/
def At (blocks : List (BasicBlock X)) (p : Place) (b : BasicBlock X) : Prop :=
  b ∈ blocks ∧ labelId b = p.1 ∧ ¬ Stops p

/-- From one place to another that belongs to the same construct or to a construct that starts here. The
second target of a branch without a merge has to be a break or continue, and is not followed. -/
inductive Step (blocks : List (BasicBlock X)) : Place → Place → Prop where
  | goto {id cs b t} : At blocks (id, cs) b → endOf b = .goto t → Step blocks (id, cs) (t, cs)
  | body {id cs b t m h} : At blocks (id, cs) b → endOf b = .gotoLoop t m h →
      Step blocks (id, cs) (t, .loop id m :: cs)
  | after {id cs b t m h} : At blocks (id, cs) b → endOf b = .gotoLoop t m h → Step blocks (id, cs) (m, cs)
  | left {id cs b t f w m h} : At blocks (id, cs) b → endOf b = .chooseSelection t f w m h →
      Step blocks (id, cs) (t, .selection m :: cs)
  | right {id cs b t f w m h} : At blocks (id, cs) b → endOf b = .chooseSelection t f w m h →
      Step blocks (id, cs) (f, .selection m :: cs)
  | join {id cs b t f w m h} : At blocks (id, cs) b → endOf b = .chooseSelection t f w m h →
      Step blocks (id, cs) (m, cs)
  | stay {id cs b t f w head merge} : At blocks (id, cs) b → endOf b = .choose t f w →
      innermost cs = some (head, merge) → (f = merge ∨ f = head) → Step blocks (id, cs) (t, cs)

/-- Any number of steps -/
abbrev Path (blocks : List (BasicBlock X)) : Place → Place → Prop := Relation.ReflTransGen (Step blocks)

/-- Starting at block `t` inside the constructs `cs`, one gets to a block in the same constructs that returns,
or where a body ends, but not at `x`. -/
def Strays (blocks : List (BasicBlock X)) (t : UInt32) (cs : List Construct) (x : UInt32) : Prop :=
  ∃ y, Path blocks (t, cs) (y, cs) ∧
    ((Stops (y, cs) ∧ y ≠ x) ∨ ∃ b, At blocks (y, cs) b ∧ endOf b = .returns)

/-- What is wrong with a place -/
def Blamed (blocks : List (BasicBlock X)) (p : Place) : Fault ControlFlowError → Prop
  | .diverge => True
  | .panic _ => ∃ b, At blocks p b ∧
      ((∃ t f w m h, endOf b = .chooseLoop t f w m h) ∨ ∃ t m h, endOf b = .gotoSelection t m h)
  | .err (.UnknownBlockId id) => id.val = p.1 ∧ ¬ Stops p ∧ ∀ b ∈ blocks, labelId b ≠ p.1
  | .err (.CouldNotPredictConverge id) => id.val = p.1 ∧ ∃ b, At blocks p b ∧
      ∃ t f w, endOf b = .choose t f w ∧ ∀ head merge, innermost p.2 = some (head, merge) → f ≠ merge ∧ f ≠ head
  | .err (.InvalidConvergePrediction .Selection id) => id.val = p.1 ∧ ∃ b, At blocks p b ∧
      ∃ t f w m h, endOf b = .chooseSelection t f w m h ∧
        (Strays blocks t (.selection m :: p.2) m ∨ Strays blocks f (.selection m :: p.2) m)
  | .err (.InvalidConvergePrediction .Loop id) => id.val = p.1 ∧ ∃ b, At blocks p b ∧
      ((∃ t m h, endOf b = .gotoLoop t m h ∧ Strays blocks t (.loop p.1 m :: p.2) p.1) ∨
       ∃ t f w head merge, endOf b = .choose t f w ∧ innermost p.2 = some (head, merge) ∧
        (f = merge ∨ f = head) ∧ Strays blocks t p.2 head)
  | .err _ => False

/-- Leaving out the ends of bodies, every block is entered in one way only, and the first not at all. -/
structure EnteredOnce (blocks : List (BasicBlock X)) (first : UInt32) : Prop where
  once : ∀ p q p' q', Path blocks (first, []) p → Path blocks (first, []) p' → Step blocks p q → Step blocks p' q' →
    ¬ Stops q → ¬ Stops q' → q.1 = q'.1 → p = p' ∧ q = q'
  start : ∀ p q, Path blocks (first, []) p → Step blocks p q → q.1 = first → Stops q
  branches : ∀ p b t f w m h, Path blocks (first, []) p → At blocks p b → endOf b = .chooseSelection t f w m h →
    t = f → Stops (t, .selection m :: p.2)

end Magma.Spec
