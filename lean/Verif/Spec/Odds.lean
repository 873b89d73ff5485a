import Verif.Spec.Execution
import Mathlib.Data.ENNReal.Inv
/-! Branch weights as odds: what executions cost on average, if a conditional branch with weights `t` and `f` is taken
`t` times out of `t + f`. -/

namespace Magma.Spec
open scoped ENNReal

/-- The chance that a condition is true; `guess` is that of a block without weights. -/
noncomputable def odds (guess : BlockId → ℝ≥0∞) (id : BlockId) : Option BranchWeights → ℝ≥0∞
  | some w => w.true_weight.toNat / (w.true_weight.toNat + w.false_weight.toNat)
  | none => guess id

/-! ### Basic blocks -/

/-- What the first `n` blocks that are visited from block `id` on cost on average. -/
noncomputable def meanCost {X : Type} (blocks : List (BasicBlock X)) (guess cost : BlockId → ℝ≥0∞) : Nat → BlockId → ℝ≥0∞
  | 0, _ => 0
  | n + 1, id =>
    match blockOf blocks id with
    | none => 0
    | some b =>
      match b.branch with
      | .OpReturn _ => cost id
      | .OpBranch op => cost id + meanCost blocks guess cost n ⟨op.target_label.val⟩
      | .OpBranchConditional op => cost id +
        (odds guess id op.weights * meanCost blocks guess cost n ⟨op.true_label.val⟩ +
          (1 - odds guess id op.weights) * meanCost blocks guess cost n ⟨op.false_label.val⟩)

/-- How likely it is that one of the first `n` blocks that are visited from block `id` on returns. -/
noncomputable def returnChance {X : Type} (blocks : List (BasicBlock X)) (guess : BlockId → ℝ≥0∞) : Nat → BlockId → ℝ≥0∞
  | 0, _ => 0
  | n + 1, id =>
    match blockOf blocks id with
    | none => 0
    | some b =>
      match b.branch with
      | .OpReturn _ => 1
      | .OpBranch op => returnChance blocks guess n ⟨op.target_label.val⟩
      | .OpBranchConditional op =>
        odds guess id op.weights * returnChance blocks guess n ⟨op.true_label.val⟩ +
          (1 - odds guess id op.weights) * returnChance blocks guess n ⟨op.false_label.val⟩

/-- How likely it is that the block visited after `n` others from block `id` on is block `b`. -/
noncomputable def visitChance {X : Type} (blocks : List (BasicBlock X)) (guess : BlockId → ℝ≥0∞) (b : BlockId) :
    Nat → BlockId → ℝ≥0∞
  | 0, id => if (blockOf blocks id).isSome ∧ id = b then 1 else 0
  | n + 1, id =>
    match blockOf blocks id with
    | none => 0
    | some c =>
      match c.branch with
      | .OpReturn _ => 0
      | .OpBranch op => visitChance blocks guess b n ⟨op.target_label.val⟩
      | .OpBranchConditional op =>
        odds guess id op.weights * visitChance blocks guess b n ⟨op.true_label.val⟩ +
          (1 - odds guess id op.weights) * visitChance blocks guess b n ⟨op.false_label.val⟩

/-- No condition is always true or always false. -/
def Open {X : Type} (blocks : List (BasicBlock X)) (guess : BlockId → ℝ≥0∞) : Prop :=
  ∀ id b op, blockOf blocks id = some b → b.branch = .OpBranchConditional op →
    0 < odds guess id op.weights ∧ odds guess id op.weights < 1

/-! ### Structured programs -/

mutual
/-- How likely it is that a structured program ends in the way given -/
noncomputable def chance (guess : BlockId → ℝ≥0∞) : ControlFlowChain → Signal → ℝ≥0∞
  | .Atom _, s => if s = .next then 1 else 0
  | .Block chains, s => chanceAll guess chains s
  | .Selection id left right _ w, s => odds guess id w * chance guess left s + (1 - odds guess id w) * chance guess right s
  | .Loop _ inner _ _, s =>
    if s = .next then (1 - (chance guess inner .next + chance guess inner .continues))⁻¹ * chance guess inner .breaks else 0
  | .Break, s => if s = .breaks then 1 else 0
  | .Continue, s => if s = .continues then 1 else 0
/-- The same for structured programs one after the other -/
noncomputable def chanceAll (guess : BlockId → ℝ≥0∞) : List ControlFlowChain → Signal → ℝ≥0∞
  | [], s => if s = .next then 1 else 0
  | chain :: chains, s =>
    (if s = .next then 0 else chance guess chain s) + chance guess chain .next * chanceAll guess chains s
end

mutual
/-- What a structured program costs on average. A loop has `1 / (1 - again)` rounds on average, if `again` is how likely
another round is. -/
noncomputable def average (guess cost : BlockId → ℝ≥0∞) : ControlFlowChain → ℝ≥0∞
  | .Atom id => cost id
  | .Block chains => averageAll guess cost chains
  | .Selection id left right _ w => cost id +
    (odds guess id w * average guess cost left + (1 - odds guess id w) * average guess cost right)
  | .Loop id inner _ _ =>
    (1 - (chance guess inner .next + chance guess inner .continues))⁻¹ * (cost id + average guess cost inner)
  | .Break => 0
  | .Continue => 0
/-- The same for structured programs one after the other -/
noncomputable def averageAll (guess cost : BlockId → ℝ≥0∞) : List ControlFlowChain → ℝ≥0∞
  | [] => 0
  | chain :: chains => average guess cost chain + chance guess chain .next * averageAll guess cost chains
end

mutual
/-- There is a break that is not in a loop inside. -/
def Exits : ControlFlowChain → Prop
  | .Atom _ => False
  | .Block chains => ExitsAny chains
  | .Selection _ left right _ _ => Exits left ∨ Exits right
  | .Loop _ _ _ _ => False
  | .Break => True
  | .Continue => False
/-- The same for one of the chains -/
def ExitsAny : List ControlFlowChain → Prop
  | [] => False
  | chain :: chains => Exits chain ∨ ExitsAny chains
end

mutual
/-- Every loop has a break of its own. -/
def LoopsExit : ControlFlowChain → Prop
  | .Atom _ => True
  | .Block chains => LoopsExitAll chains
  | .Selection _ left right _ _ => LoopsExit left ∧ LoopsExit right
  | .Loop _ inner _ _ => Exits inner ∧ LoopsExit inner
  | .Break => True
  | .Continue => True
/-- The same for all of the chains -/
def LoopsExitAll : List ControlFlowChain → Prop
  | [] => True
  | chain :: chains => LoopsExit chain ∧ LoopsExitAll chains
end

end Magma.Spec
