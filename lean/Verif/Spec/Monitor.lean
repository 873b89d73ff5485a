import Verif.Spec.Regular
import Mathlib.Data.Fintype.Card
import Mathlib.Data.Finset.Image
/-! Finite automata that watch executions, and the states they can get to, by a regular expression for the
executions. -/

namespace Magma.Spec
variable {σ : Type} [Fintype σ] [DecidableEq σ]

/-- The states an automaton can get to from one of the states given by a sequence of blocks that matches. For a
repetition as often as there are states is enough. -/
def after (step : σ → BlockId → σ) : RegularExpression BlockId → Finset σ → Finset σ
  | .zero, _ => ∅
  | .epsilon, states => states
  | .char id, states => states.image (step · id)
  | .plus a b, states => after step a states ∪ after step b states
  | .comp a b, states => after step b (after step a states)
  | .star a, states => (fun states => states ∪ after step a states)^[Fintype.card σ] states

end Magma.Spec
