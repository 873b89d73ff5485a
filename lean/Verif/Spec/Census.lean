import Verif.Spec.Execution
import Mathlib.Data.Finsupp.Weight
import Mathlib.RingTheory.MvPowerSeries.Inverse
/-! How many executions there are, by how often they visit each block. Each execution has a weight: the product of the
weights of the ways it takes at conditional branches. If these are one, executions are counted. If these are chances, the
chances of executions are added. -/

namespace Magma.Spec
variable {R : Type} [CommRing R]

/-- How often each block occurs in a trace -/
noncomputable def visits (trace : List BlockId) : BlockId →₀ ℕ := (trace.map fun id => Finsupp.single id 1).sum

/-! ### Basic blocks -/

/-- The executions from block `id` that return at the `n`-th block they visit: the blocks visited, and the weight. The
weight of a condition being true is `yes`, and that of it being false is `no`. -/
def executions {X : Type} (blocks : List (BasicBlock X)) (yes no : BlockId → Option BranchWeights → R) :
    Nat → BlockId → List (List BlockId × R)
  | 0, _ => []
  | n + 1, id =>
    match blockOf blocks id with
    | none => []
    | some b =>
      match b.branch with
      | .OpReturn _ => if n = 0 then [([id], 1)] else []
      | .OpBranch op => (executions blocks yes no n ⟨op.target_label.val⟩).map fun e => (id :: e.1, e.2)
      | .OpBranchConditional op =>
        (executions blocks yes no n ⟨op.true_label.val⟩).map (fun e => (id :: e.1, yes id op.weights * e.2)) ++
          (executions blocks yes no n ⟨op.false_label.val⟩).map (fun e => (id :: e.1, no id op.weights * e.2))

/-! ### Structured programs -/

mutual
/-- The generating function of the executions of a structured program that end in the way given. There is a variable for
each block. The rounds of a loop but the last are a geometric series. -/
noncomputable def census (yes no : BlockId → Option BranchWeights → R) : ControlFlowChain → Signal → MvPowerSeries BlockId R
  | .Atom id, s => if s = .next then .X id else 0
  | .Block chains, s => censusAll yes no chains s
  | .Selection id left right _ w, s =>
    .X id * (.C (yes id w) * census yes no left s + .C (no id w) * census yes no right s)
  | .Loop id inner _ _, s =>
    if s = .next then
      .invOfUnit (1 - .X id * (census yes no inner .next + census yes no inner .continues)) 1 *
        (.X id * census yes no inner .breaks)
    else 0
  | .Break, s => if s = .breaks then 1 else 0
  | .Continue, s => if s = .continues then 1 else 0
/-- The same for structured programs one after the other -/
noncomputable def censusAll (yes no : BlockId → Option BranchWeights → R) :
    List ControlFlowChain → Signal → MvPowerSeries BlockId R
  | [], s => if s = .next then 1 else 0
  | chain :: chains, s =>
    (if s = .next then 0 else census yes no chain s) + census yes no chain .next * censusAll yes no chains s
end

end Magma.Spec
