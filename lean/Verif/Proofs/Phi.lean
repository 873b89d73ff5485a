import Verif.Spec.Phi
import Verif.Proofs.Scope
/-! Executions of functions whose code differs where no execution can tell. -/

namespace Magma.PhiProofs
open Spec Standard Scope
variable {W X S : Type}

/-- Two machines, and blocks that differ in their code: if on every way they do the same, executions are the same. -/
theorem run_alike {blocks : List (BasicBlock X)} {first : UInt32} {M M' : Machine X S} {g : BasicBlock X → BasicBlock X}
    (hl : ∀ b, labelId (g b) = labelId b) (hb : ∀ b, (g b).branch = b.branch) (hh : M.holds = M'.holds)
    (he : ∀ way, ∀ b ∈ blocks, Course blocks first (way ++ [labelId b]) → ∀ c : Config S, c.last = way.getLast? →
      M.enter b c = M'.enter (g b) c) :
    ∀ (n : Nat) (u : BlockId) (way : List UInt32) (c : Config S),
      (∀ b, blockOf blocks u = some b → Course blocks first (way ++ [u.val])) → c.last = way.getLast? →
      runMachine M blocks n u c = runMachine M' (blocks.map g) n u c
  | 0, u, way, c, _, _ => rfl
  | n + 1, u, way, c, hc, hlast => by
    have hof : blockOf (blocks.map g) u = (blockOf blocks u).map g := by
      rw [blockOf, blockOf, List.find?_map]
      congr 1
      refine congrArg (fun p => blocks.find? p) (funext fun b => ?_)
      have : (g b).label.result_id.val = b.label.result_id.val := hl b
      simp only [Function.comp_apply, this]
    rw [runMachine, runMachine, hof]
    cases hbo : blockOf blocks u with
    | none => rfl
    | some b =>
      obtain ⟨hm, hu⟩ := Standard.blockOf_mem hbo
      have hco := hc b hbo
      rw [← hu] at hco
      have hen := he way b hm hco c hlast
      have hnext : (M'.enter (g b) c).last = (way ++ [labelId b]).getLast? := by simp [Machine.enter, hl]
      have next : ∀ t, Branch blocks u.val t → ∀ e, blockOf blocks ⟨t⟩ = some e →
          Course blocks first (way ++ [labelId b] ++ [t]) := by
        intro t ht e hte
        obtain ⟨hem, hel⟩ := Standard.blockOf_mem hte
        have := extend hco hem (hel.symm ▸ hu ▸ ht)
        rwa [hel] at this
      simp only [Option.map_some, hb, hen, hh]
      cases ho : b.branch with
      | OpReturn op => rfl
      | OpBranch op =>
        simp only
        rw [run_alike hl hb hh he n _ (way ++ [labelId b]) _ (next _ (branch_goto hbo ho)) hnext]
      | OpBranchConditional op =>
        simp only
        rw [run_alike hl hb hh he n _ (way ++ [labelId b]) _ (next _ (branch_choose hbo ho _)) hnext]

theorem fold_alike {M M' : Machine X S} {g : GroupCode X → GroupCode X} {last : Option UInt32} :
    ∀ (code : List (GroupCode X)) (st : S), (∀ i ∈ code, ∀ st, M.run last i st = M'.run last (g i) st) →
      code.foldl (fun s i => M.run last i s) st = (code.map g).foldl (fun s i => M'.run last i s) st
  | [], _, _ => rfl
  | i :: code, st, h => by
    rw [List.foldl_cons, List.map_cons, List.foldl_cons, h i (List.mem_cons_self ..)]
    exact fold_alike code _ fun j hj => h j (List.mem_cons_of_mem _ hj)

end Magma.PhiProofs
