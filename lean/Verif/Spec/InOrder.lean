import Verif.Spec.Place
/-! The order in which the places of a function are read, and what is found first. -/

namespace Magma.Spec
variable {X : Type}

/-- One can read on forever from a place. -/
def Endless (blocks : List (BasicBlock X)) (p : Place) : Prop :=
  ∃ s : Nat → Place, s 0 = p ∧ ∀ n, Step blocks (s n) (s (n + 1))

/-- Nothing is wrong with a place and those one gets to from it. -/
def Fine (blocks : List (BasicBlock X)) (p : Place) : Prop :=
  ¬ Endless blocks p ∧ ∀ q, Path blocks p q → ∀ e, Blamed blocks q e → e = .diverge

/-- From one place to another, where nothing is wrong with what is read in between: the first branch of a
selection is read before the second, what is inside a construct before what follows it, and what follows is
read only if the construct is left where it should be. -/
inductive InOrder (blocks : List (BasicBlock X)) : Place → Place → Prop where
  | goto {id cs b t} : At blocks (id, cs) b → endOf b = .goto t → InOrder blocks (id, cs) (t, cs)
  | body {id cs b t m h} : At blocks (id, cs) b → endOf b = .gotoLoop t m h →
      InOrder blocks (id, cs) (t, .loop id m :: cs)
  | after {id cs b t m h} : At blocks (id, cs) b → endOf b = .gotoLoop t m h →
      Fine blocks (t, .loop id m :: cs) → ¬ Strays blocks t (.loop id m :: cs) id → InOrder blocks (id, cs) (m, cs)
  | left {id cs b t f w m h} : At blocks (id, cs) b → endOf b = .chooseSelection t f w m h →
      InOrder blocks (id, cs) (t, .selection m :: cs)
  | right {id cs b t f w m h} : At blocks (id, cs) b → endOf b = .chooseSelection t f w m h →
      Fine blocks (t, .selection m :: cs) → InOrder blocks (id, cs) (f, .selection m :: cs)
  | join {id cs b t f w m h} : At blocks (id, cs) b → endOf b = .chooseSelection t f w m h →
      Fine blocks (t, .selection m :: cs) → Fine blocks (f, .selection m :: cs) →
      ¬ Strays blocks t (.selection m :: cs) m → ¬ Strays blocks f (.selection m :: cs) m →
      InOrder blocks (id, cs) (m, cs)
  | stay {id cs b t f w head merge} : At blocks (id, cs) b → endOf b = .choose t f w →
      innermost cs = some (head, merge) → (f = merge ∨ f = head) → InOrder blocks (id, cs) (t, cs)

/-- From the start of a construct, or from a break or continue, to what it contains -/
inductive Inside (blocks : List (BasicBlock X)) : Place → Place → Prop where
  | body {id cs b t m h} : At blocks (id, cs) b → endOf b = .gotoLoop t m h →
      Inside blocks (id, cs) (t, .loop id m :: cs)
  | left {id cs b t f w m h} : At blocks (id, cs) b → endOf b = .chooseSelection t f w m h →
      Inside blocks (id, cs) (t, .selection m :: cs)
  | right {id cs b t f w m h} : At blocks (id, cs) b → endOf b = .chooseSelection t f w m h →
      Inside blocks (id, cs) (f, .selection m :: cs)
  | stay {id cs b t f w} : At blocks (id, cs) b → endOf b = .choose t f w → Inside blocks (id, cs) (t, cs)

/-- What is wrong with a place when one gets to it in order: that a construct is not left where it should be is
noticed only if nothing is wrong inside of it. -/
def WrongHere (blocks : List (BasicBlock X)) (p : Place) (e : Fault ControlFlowError) : Prop :=
  e ≠ .diverge ∧ Blamed blocks p e ∧
    ∀ ty id, e = .err (.InvalidConvergePrediction ty id) → ∀ q, Inside blocks p q → Fine blocks q

/-- The first thing that is wrong, reading in order from a place on -/
def FirstWrong (blocks : List (BasicBlock X)) (p : Place) (e : Fault ControlFlowError) : Prop :=
  ∃ q, Relation.ReflTransGen (InOrder blocks) p q ∧ WrongHere blocks q e

/-- One can read on forever from a place, in order. -/
def EndlessInOrder (blocks : List (BasicBlock X)) (p : Place) : Prop :=
  ∃ s : Nat → Place, s 0 = p ∧ ∀ n, InOrder blocks (s n) (s (n + 1))

end Magma.Spec
