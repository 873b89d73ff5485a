import Verif.Spec.Meaning
/-! Rules for proofs about structured programs, in the manner of Hoare, with conditions for each of the ways in which a
chain can end. -/

namespace Magma.Spec
variable {X S : Type}

/-- A condition on the configurations of a machine -/
abbrev Assertion (S : Type) := Config S → Prop

/-- `Proves M blocks always pre chain post onBreak onContinue`: there is a proof that, where `pre` holds before the chain,
`always id` holds after each visit of a block `id`, and `post`, `onBreak` or `onContinue` holds when the chain ends, breaks
or continues, if it does. -/
inductive Proves (M : Machine X S) (blocks : List (BasicBlock X)) (always : BlockId → Assertion S) :
    Assertion S → ControlFlowChain → Assertion S → Assertion S → Assertion S → Prop
  | atom {id pre post onBreak onContinue}
    (visit : ∀ c, pre c → always id (M.arrive blocks id c) ∧ post (M.arrive blocks id c)) :
    Proves M blocks always pre (.Atom id) post onBreak onContinue
  | nil {pre post onBreak onContinue} (stay : ∀ c, pre c → post c) :
    Proves M blocks always pre (.Block []) post onBreak onContinue
  | cons {chain chains pre post onBreak onContinue} {between : Assertion S}
    (first : Proves M blocks always pre chain between onBreak onContinue)
    (others : Proves M blocks always between (.Block chains) post onBreak onContinue) :
    Proves M blocks always pre (.Block (chain :: chains)) post onBreak onContinue
  | selection {id l r hint weights pre post onBreak onContinue} {between : Assertion S}
    (visit : ∀ c, pre c → always id (M.arrive blocks id c) ∧ between (M.arrive blocks id c))
    (left : Proves M blocks always (fun c => between c ∧ M.decides blocks id c = true) l post onBreak onContinue)
    (right : Proves M blocks always (fun c => between c ∧ M.decides blocks id c = false) r post onBreak onContinue) :
    Proves M blocks always pre (.Selection id l r hint weights) post onBreak onContinue
  | loop {id inner hint weights pre post onBreak onContinue} {invariant between : Assertion S}
    (start : ∀ c, pre c → invariant c)
    (visit : ∀ c, invariant c → always id (M.arrive blocks id c) ∧ between (M.arrive blocks id c))
    (body : Proves M blocks always between inner invariant post invariant) :
    Proves M blocks always pre (.Loop id inner hint weights) post onBreak onContinue
  | breaks {pre post onBreak onContinue} (leave : ∀ c, pre c → onBreak c) :
    Proves M blocks always pre .Break post onBreak onContinue
  | continues {pre post onBreak onContinue} (again : ∀ c, pre c → onContinue c) :
    Proves M blocks always pre .Continue post onBreak onContinue

/-- `ProvesEnd M blocks pre chain post onBreak onContinue`: there is a proof that, where `pre` holds before the chain, it
ends, breaks or continues and `post`, `onBreak` or `onContinue` holds then. A loop has a number that goes down with every
round. -/
inductive ProvesEnd (M : Machine X S) (blocks : List (BasicBlock X)) :
    Assertion S → ControlFlowChain → Assertion S → Assertion S → Assertion S → Prop
  | atom {id pre post onBreak onContinue} (visit : ∀ c, pre c → post (M.arrive blocks id c)) :
    ProvesEnd M blocks pre (.Atom id) post onBreak onContinue
  | nil {pre post onBreak onContinue} (stay : ∀ c, pre c → post c) :
    ProvesEnd M blocks pre (.Block []) post onBreak onContinue
  | cons {chain chains pre post onBreak onContinue} {between : Assertion S}
    (first : ProvesEnd M blocks pre chain between onBreak onContinue)
    (others : ProvesEnd M blocks between (.Block chains) post onBreak onContinue) :
    ProvesEnd M blocks pre (.Block (chain :: chains)) post onBreak onContinue
  | selection {id l r hint weights pre post onBreak onContinue} {between : Assertion S}
    (visit : ∀ c, pre c → between (M.arrive blocks id c))
    (left : ProvesEnd M blocks (fun c => between c ∧ M.decides blocks id c = true) l post onBreak onContinue)
    (right : ProvesEnd M blocks (fun c => between c ∧ M.decides blocks id c = false) r post onBreak onContinue) :
    ProvesEnd M blocks pre (.Selection id l r hint weights) post onBreak onContinue
  | loop {id inner hint weights pre post onBreak onContinue} {invariant between : Nat → Assertion S}
    (start : ∀ c, pre c → ∃ k, invariant k c)
    (visit : ∀ k c, invariant k c → between k (M.arrive blocks id c))
    (body : ∀ k, ProvesEnd M blocks (between k) inner (fun c => ∃ j, j < k ∧ invariant j c) post
      (fun c => ∃ j, j < k ∧ invariant j c)) :
    ProvesEnd M blocks pre (.Loop id inner hint weights) post onBreak onContinue
  | breaks {pre post onBreak onContinue} (leave : ∀ c, pre c → onBreak c) :
    ProvesEnd M blocks pre .Break post onBreak onContinue
  | continues {pre post onBreak onContinue} (again : ∀ c, pre c → onContinue c) :
    ProvesEnd M blocks pre .Continue post onBreak onContinue

end Magma.Spec
