import Verif.Spec.FlowText
/-! The rows of a function depend only on the blocks in its control flow. -/

namespace Magma.Props
open Spec

mutual
theorem functionRows_congr {p q : UInt32 → List Text} : ∀ (chain : ControlFlowChain),
    (∀ id ∈ chainIds chain, p id = q id) → functionRows p chain = functionRows q chain
  | .Atom id, h => by rw [functionRows, functionRows, h _ (by simp [chainIds])]
  | .Block chains, h => by rw [functionRows, functionRows, functionRowsAll_congr chains h]
  | .Selection id left right hint weights, h => by
    rw [functionRows, functionRows, h id.val (by simp [chainIds]),
      functionRows_congr left fun i hi => h i (by simp [chainIds, hi]),
      functionRows_congr right fun i hi => h i (by simp [chainIds, hi])]
  | .Loop id inner hint weights, h => by
    rw [functionRows, functionRows, h id.val (by simp [chainIds]),
      functionRows_congr inner fun i hi => h i (by simp [chainIds, hi])]
  | .Break, _ => rfl
  | .Continue, _ => rfl
theorem functionRowsAll_congr {p q : UInt32 → List Text} : ∀ (chains : List ControlFlowChain),
    (∀ id ∈ chainIdsAll chains, p id = q id) → functionRowsAll p chains = functionRowsAll q chains
  | [], _ => rfl
  | chain :: chains, h => by
    rw [functionRowsAll, functionRowsAll, functionRows_congr chain fun i hi => h i (by simp [chainIdsAll, hi]),
      functionRowsAll_congr chains fun i hi => h i (by simp [chainIdsAll, hi])]
end

end Magma.Props
