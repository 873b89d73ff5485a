import Verif.Spec.Cost
import Verif.Spec.NaturalLoop
/-! Executions that stay within bounds on the rounds of loops. -/

namespace Magma.Spec
open RegularExpression

/-- `inLoop a b` says that block `b` is in the loop that starts at block `a`. As long as an execution stays in a loop, it
visits the first block of the loop at most as often as the bound says. -/
def Keeps (bound : BlockId → Nat) (inLoop : UInt32 → UInt32 → Prop) (trace : List BlockId) : Prop :=
  ∀ a stay, stay <:+: trace → (∀ b ∈ stay, inLoop a b.val) → stay.count ⟨a⟩ ≤ bound ⟨a⟩

/-- Fewer than `n` repetitions -/
def fewer : Nat → RegularExpression BlockId → RegularExpression BlockId
  | 0, _ => 0
  | n + 1, e => 1 + e * fewer n e

mutual
/-- The blocks visited by executions of a structured program that end in the way given, or are cut off (`running`), and
have at most so many rounds of each loop as the bound says -/
def waysWithin (bound : BlockId → Nat) : ControlFlowChain → Signal → RegularExpression BlockId
  | .Atom id, .next => char id
  | .Atom _, .running => 1
  | .Atom _, _ => 0
  | .Block chains, s => waysWithinAll bound chains s
  | .Selection id left right _ _, .running =>
    1 + char id * (waysWithin bound left .running + waysWithin bound right .running)
  | .Selection id left right _ _, s => char id * (waysWithin bound left s + waysWithin bound right s)
  | .Loop id inner _ _, .next =>
    fewer (bound id) (char id * (waysWithin bound inner .next + waysWithin bound inner .continues)) *
      (char id * waysWithin bound inner .breaks)
  | .Loop id inner _ _, .running =>
    fewer (bound id + 1) (char id * (waysWithin bound inner .next + waysWithin bound inner .continues)) +
      fewer (bound id) (char id * (waysWithin bound inner .next + waysWithin bound inner .continues)) *
        (char id * waysWithin bound inner .running)
  | .Loop _ _ _ _, _ => 0
  | .Break, .breaks => 1
  | .Break, _ => 0
  | .Continue, .continues => 1
  | .Continue, _ => 0
/-- The same for structured programs one after the other -/
def waysWithinAll (bound : BlockId → Nat) : List ControlFlowChain → Signal → RegularExpression BlockId
  | [], .next => 1
  | [], _ => 0
  | chain :: chains, .next => waysWithin bound chain .next * waysWithinAll bound chains .next
  | chain :: chains, s => waysWithin bound chain s + waysWithin bound chain .next * waysWithinAll bound chains s
end

end Magma.Spec
