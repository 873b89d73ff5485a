import Verif.Spec.Meaning
import Verif.Spec.Printing
/-! What a structured program computes depends on the blocks it mentions. -/

namespace Magma
open Spec
variable {X S : Type} {M : Machine X S} {blocks blocks' : List (BasicBlock X)}

/-- A block means the same in both lists. -/
def MeansSame (M : Machine X S) (blocks blocks' : List (BasicBlock X)) (id : UInt32) : Prop :=
  M.arrive blocks ⟨id⟩ = M.arrive blocks' ⟨id⟩ ∧ M.decides blocks ⟨id⟩ = M.decides blocks' ⟨id⟩

theorem MeansSame.visit {id : BlockId} (h : MeansSame M blocks blocks' id.val) (n : Nat) (c : Config S) :
    M.visit blocks id n c = M.visit blocks' id n c := by
  cases n with
  | zero => rfl
  | succ n => rw [Machine.visit, Machine.visit, show M.arrive blocks id = M.arrive blocks' id from h.1]

mutual
theorem execOn_same : ∀ (chain : ControlFlowChain), (∀ id ∈ chainIds chain, MeansSame M blocks blocks' id) →
    ∀ n c, execOn M blocks chain n c = execOn M blocks' chain n c
  | .Atom id, h, n, c => by rw [execOn, execOn, (h id.val (by simp [chainIds])).visit]
  | .Block chains, h, n, c => by rw [execOn, execOn, execAllOn_same chains h]
  | .Selection id left right hint weights, h, n, c => by
    have h0 := h id.val (by simp [chainIds])
    have h1 := execOn_same left fun i hi => h i (by simp [chainIds, hi])
    have h2 := execOn_same right fun i hi => h i (by simp [chainIds, hi])
    have h0' : M.decides blocks id = M.decides blocks' id := h0.2
    rw [execOn, execOn, h0.visit]
    simp only [h0', h1, h2]
  | .Loop id inner hint weights, h, n, c => by
    have h0 := h id.val (by simp [chainIds])
    have h1 := execOn_same inner fun i hi => h i (by simp [chainIds, hi])
    rw [execOn, execOn]
    simp only [h0.visit, h1]
  | .Break, _, n, c => by rw [execOn, execOn]
  | .Continue, _, n, c => by rw [execOn, execOn]
theorem execAllOn_same : ∀ (chains : List ControlFlowChain), (∀ id ∈ chainIdsAll chains, MeansSame M blocks blocks' id) →
    ∀ n c, execAllOn M blocks chains n c = execAllOn M blocks' chains n c
  | [], _, n, c => by rw [execAllOn, execAllOn]
  | chain :: chains, h, n, c => by
    have h1 := execOn_same chain fun i hi => h i (by simp [chainIdsAll, hi])
    have h2 := execAllOn_same chains fun i hi => h i (by simp [chainIdsAll, hi])
    rw [execAllOn, execAllOn]
    simp only [h1, h2]
end

theorem meansSame_of {id : UInt32} (hl : ∀ b, blockOf blocks ⟨id⟩ = some b → labelId b = id)
    (hl' : ∀ b, blockOf blocks' ⟨id⟩ = some b → labelId b = id)
    (h : (blockOf blocks' ⟨id⟩).map (fun b => (b.code, b.branch)) = (blockOf blocks ⟨id⟩).map fun b => (b.code, b.branch)) :
    MeansSame M blocks blocks' id := by
  cases hb : blockOf blocks ⟨id⟩ with
  | none =>
    cases hb' : blockOf blocks' ⟨id⟩ with
    | none => exact ⟨funext fun c => by rw [Machine.arrive, Machine.arrive, hb, hb'],
        funext fun c => by rw [Machine.decides, Machine.decides, hb, hb']⟩
    | some b' => rw [hb, hb'] at h; cases h
  | some b =>
    cases hb' : blockOf blocks' ⟨id⟩ with
    | none => rw [hb, hb'] at h; cases h
    | some b' =>
      rw [hb, hb'] at h
      simp only [Option.map_some, Option.some.injEq, Prod.mk.injEq] at h
      refine ⟨funext fun c => ?_, funext fun c => ?_⟩
      · rw [Machine.arrive, Machine.arrive, hb, hb']
        simp only [Machine.enter, hl b hb, hl' b' hb', h.1]
      · rw [Machine.decides, Machine.decides, hb, hb']
        simp only [h.2]

end Magma
