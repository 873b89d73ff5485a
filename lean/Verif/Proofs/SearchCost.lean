import Verif.Model.ControlFlowCost
import Verif.Spec.SearchCost
import Verif.Proofs.Flow
import Verif.Proofs.Size
/-! How deep and how often `search_block` calls itself. -/

namespace Magma
open Spec
variable {X : Type}

/-! ### The depth and the calls of a chain -/

theorem chainDepth_selection {left right : ControlFlowChain} (h1 : right ≠ .Break) (h2 : right ≠ .Continue)
    (id : BlockId) (hint : SelectionControl) (weights : Option BranchWeights) (k : Nat) :
    chainDepth (.Selection id left right hint weights) k =
      max (max (chainDepth left 1) (chainDepth right 1)) k + 1 := by
  cases right <;> first | exact absurd rfl h1 | exact absurd rfl h2 | rfl

theorem chainCalls_selection {left right : ControlFlowChain} (h1 : right ≠ .Break) (h2 : right ≠ .Continue)
    (id : BlockId) (hint : SelectionControl) (weights : Option BranchWeights) (k : Nat) :
    chainCalls (.Selection id left right hint weights) k =
      chainCalls left 1 + chainCalls right 1 + k + 1 := by
  cases right <;> first | exact absurd rfl h1 | exact absurd rfl h2 | rfl

theorem chainDepthAll_append (a b : List ControlFlowChain) (k : Nat) :
    chainDepthAll (a ++ b) k = chainDepthAll a (chainDepthAll b k) := by
  induction a with
  | nil => simp [chainDepthAll]
  | cons c a ih => simp [chainDepthAll, ih]

theorem chainCallsAll_append (a b : List ControlFlowChain) (k : Nat) :
    chainCallsAll (a ++ b) k = chainCallsAll a (chainCallsAll b k) := by
  induction a with
  | nil => simp [chainCallsAll]
  | cons c a ih => simp [chainCallsAll, ih]

theorem chainDepth_mergeAll (l : List ControlFlowChain) (k : Nat) :
    chainDepthAll (ControlFlowChain.mergeAll l) k = chainDepthAll l k := by
  induction l with
  | nil => rfl
  | cons c l ih =>
    cases c <;> simp only [ControlFlowChain.mergeAll, chainDepthAll, chainDepthAll_append, chainDepth, ih]

theorem chainCalls_mergeAll (l : List ControlFlowChain) (k : Nat) :
    chainCallsAll (ControlFlowChain.mergeAll l) k = chainCallsAll l k := by
  induction l with
  | nil => rfl
  | cons c l ih =>
    cases c <;> simp only [ControlFlowChain.mergeAll, chainCallsAll, chainCallsAll_append, chainCalls, ih]

theorem chainDepth_block2 (a b : ControlFlowChain) (k : Nat) :
    chainDepth (.block [a, b]) k = chainDepth a (chainDepth b k) := by
  show chainDepthAll (ControlFlowChain.mergeAll [a, b]) k = _
  rw [chainDepth_mergeAll]
  simp [chainDepthAll]

theorem chainCalls_block2 (a b : ControlFlowChain) (k : Nat) :
    chainCalls (.block [a, b]) k = chainCalls a (chainCalls b k) := by
  show chainCallsAll (ControlFlowChain.mergeAll [a, b]) k = _
  rw [chainCalls_mergeAll]
  simp [chainCallsAll]

/-! ### Counting -/

/-- With room for `p` frames the outcome is `a` after `n` calls, and with less it is a stack
overflow. -/
structure Spends {α : Type} (x : Nat → Counted α) (p n : Nat) (a : α) : Prop where
  enough : ∀ d, p ≤ d → x d = (.ok a, n)
  short : ∀ d, d < p → (x d).1 = .error .diverge

theorem counted_bind_ok {α β : Type} (a : α) (n : Nat) (g : α → Counted β) :
    (Bind.bind (m := Counted) (.ok a, n) g) = ((g a).1, n + (g a).2) := rfl

theorem counted_bind_error {α β : Type} {x : Counted α} {e : Fault ControlFlowError} (g : α → Counted β)
    (h : x.1 = .error e) : (x >>= g).1 = .error e := by
  rcases x with ⟨o, n⟩
  simp only at h
  subst h
  rfl

theorem Spends.pure {α : Type} (a : α) : Spends (fun _ => (Pure.pure a : Counted α)) 0 0 a :=
  ⟨fun _ _ => rfl, fun _ h => by omega⟩

theorem Spends.bind {α β : Type} {x : Nat → Counted α} {g : Nat → α → Counted β} {p q n m : Nat} {a : α}
    {b : β} (hx : Spends x p n a) (hg : Spends (fun d => g d a) q m b) :
    Spends (fun d => x d >>= g d) (max p q) (n + m) b := by
  constructor
  · intro d hd
    show (x d >>= g d) = _
    rw [hx.enough d (by omega), counted_bind_ok, show g d a = _ from hg.enough d (by omega)]
  · intro d hd
    show (x d >>= g d).1 = _
    by_cases hp : p ≤ d
    · rw [hx.enough d hp, counted_bind_ok, show (g d a).1 = _ from hg.short d (by omega)]
    · exact counted_bind_error _ (hx.short d (by omega))

theorem Spends.call {α : Type} {x y : Nat → Counted α} {p n : Nat} {a : α} (h0 : x 0 = .fail .diverge)
    (hs : ∀ d, x (d + 1) = .call (y d)) (hy : Spends y p n a) : Spends x (p + 1) (n + 1) a := by
  constructor
  · intro d hd
    obtain ⟨k, rfl⟩ : ∃ k, d = k + 1 := ⟨d - 1, by omega⟩
    rw [hs, hy.enough k (by omega)]
    rfl
  · intro d hd
    cases d with
    | zero => rw [h0]; rfl
    | succ k =>
      rw [hs]
      exact hy.short k (by omega)

theorem Spends.of_eq {α : Type} {x : Nat → Counted α} {p n p' n' : Nat} {a : α} (h : Spends x p n a)
    (e1 : p = p') (e2 : n = n') : Spends x p' n' a := e1 ▸ e2 ▸ h

/-- What the end of a body takes: nothing after a return, otherwise one call to find that it ends -/
def stopCost : Continue → Nat
  | .Return => 0
  | .Next _ => 1

theorem found_not_exit {get : BlockId → Option (BasicBlock X)} {id : BlockId} {fl : FlowList}
    {c : ControlFlowChain} {n : Continue} (h : Found get id fl c n) : c ≠ .Break ∧ c ≠ .Continue := by
  cases h <;> exact ⟨(fun h => by cases h), (fun h => by cases h)⟩

theorem found_spends {map : BlockMap X} {id : BlockId} {fl : FlowList} {c : ControlFlowChain}
    {n : Continue} (h : Found map.get id fl c n) :
    Spends (fun d => searchBlockC map d id fl) (chainDepth c (stopCost n)) (chainCalls c (stopCost n))
      (c, n) := by
  induction h with
  | @merged id fl hm =>
    refine Spends.call (x := fun d => searchBlockC map d id fl) (y := fun _ => Pure.pure (ControlFlowChain.Block [], .Next id)) rfl (fun d => ?_) (Spends.pure _)
    show Counted.call (if fl.merges id = true then _ else _) = _
    rw [if_pos hm]
    rfl
  | @ret id fl b r hm hg hb =>
    refine Spends.call (x := fun d => searchBlockC map d id fl) (y := fun _ => Pure.pure (ControlFlowChain.Atom id, .Return)) rfl (fun d => ?_) (Spends.pure _)
    show Counted.call (if fl.merges id = true then _ else _) = _
    rw [if_neg (by rw [hm]; simp), hg]
    simp only [hb]
  | @branch id fl b op c n hm hg hb hme _ ih =>
    rw [chainDepth_block2, chainCalls_block2]
    refine (Spends.call (x := fun d => searchBlockC map d id fl) (y := fun d => searchBlockC map d ⟨op.target_label.val⟩ fl >>=
      fun r => Pure.pure (ControlFlowChain.block [.Atom id, r.1], r.2)) rfl (fun d => ?_)
      (ih.bind (Spends.pure _))).of_eq ?_ ?_
    · show Counted.call (if fl.merges id = true then _ else _) = _
      rw [if_neg (by rw [hm]; simp), hg]
      simp only [hb, hme]
    · simp [chainDepth]
    · simp [chainCalls]
  | @loop id fl b op lm c c2 n hm hg hb hme _ _ ih1 ih2 =>
    rw [chainDepth_block2, chainCalls_block2]
    refine (Spends.call (x := fun d => searchBlockC map d id fl) (y := fun d =>
      searchBlockC map d ⟨op.target_label.val⟩ (.Loop id ⟨lm.merge_block.val⟩ lm.loop_control :: fl) >>=
      fun r => if r.2 = .Next id then
          searchBlockC map d ⟨lm.merge_block.val⟩ fl >>= fun r' =>
            Pure.pure (ControlFlowChain.block [.Loop id r.1 lm.loop_control none, r'.1], r'.2)
        else .fail (.err (.InvalidConvergePrediction .Loop id))) rfl (fun d => ?_)
      (ih1.bind (q := max (chainDepth c2 (stopCost n)) 0) (m := chainCalls c2 (stopCost n) + 0) ?_)).of_eq ?_ ?_
    · show Counted.call (if fl.merges id = true then _ else _) = _
      rw [if_neg (by rw [hm]; simp), hg]
      simp only [hb, hme]
    · simp only [if_true]
      exact ih2.bind (Spends.pure _)
    · simp [chainDepth, stopCost]
    · simp [chainCalls, stopCost]
  | @sel id fl b op sm c1 c2 c3 n hm hg hb hme _ h2 _ ih1 ih2 ih3 =>
    rw [chainDepth_block2, chainCalls_block2, chainDepth_selection (found_not_exit h2).1 (found_not_exit h2).2,
      chainCalls_selection (found_not_exit h2).1 (found_not_exit h2).2]
    refine (Spends.call (x := fun d => searchBlockC map d id fl) (y := fun d =>
      searchBlockC map d ⟨op.true_label.val⟩ (.If ⟨sm.merge_block.val⟩ sm.selection_control :: fl) >>= fun r1 =>
      searchBlockC map d ⟨op.false_label.val⟩ (.If ⟨sm.merge_block.val⟩ sm.selection_control :: fl) >>= fun r2 =>
      if r1.2 = r2.2 ∧ r1.2 = .Next ⟨sm.merge_block.val⟩ then
          searchBlockC map d ⟨sm.merge_block.val⟩ fl >>= fun r3 =>
            Pure.pure (ControlFlowChain.block [.Selection id r1.1 r2.1 sm.selection_control op.weights, r3.1], r3.2)
        else .fail (.err (.InvalidConvergePrediction .Selection id))) rfl (fun d => ?_)
      (ih1.bind (ih2.bind (q := max (chainDepth c3 (stopCost n)) 0) (m := chainCalls c3 (stopCost n) + 0) ?_))).of_eq ?_ ?_
    · show Counted.call (if fl.merges id = true then _ else _) = _
      rw [if_neg (by rw [hm]; simp), hg]
      simp only [hb, hme]
    · simp only [and_self, if_true]
      exact ih3.bind (Spends.pure _)
    · simp [stopCost, Nat.max_assoc]
    · simp only [stopCost]; omega
  | @exit id fl b op head merge c hm hg hb hme hi hx _ ih =>
    have e1 : chainDepth (.Selection id c (if (⟨op.false_label.val⟩ : BlockId) = merge then .Break else .Continue)
        SelectionControl.default op.weights) 1 = chainDepth c 1 + 1 := by
      by_cases he : (⟨op.false_label.val⟩ : BlockId) = merge
      · rw [if_pos he]; rfl
      · rw [if_neg he]; rfl
    have e2 : chainCalls (.Selection id c (if (⟨op.false_label.val⟩ : BlockId) = merge then .Break else .Continue)
        SelectionControl.default op.weights) 1 = chainCalls c 1 + 1 := by
      by_cases he : (⟨op.false_label.val⟩ : BlockId) = merge
      · rw [if_pos he]; rfl
      · rw [if_neg he]; rfl
    refine (Spends.call (x := fun d => searchBlockC map d id fl) (y := fun d => searchBlockC map d ⟨op.true_label.val⟩ fl >>= fun r =>
      if r.2 = .Next head then
        Pure.pure (ControlFlowChain.Selection id r.1 (if (⟨op.false_label.val⟩ : BlockId) = merge then .Break else .Continue)
          SelectionControl.default op.weights, r.2)
      else .fail (.err (.InvalidConvergePrediction .Loop id))) rfl (fun d => ?_)
      (ih.bind (q := 0) (m := 0) ?_)).of_eq ?_ ?_
    · show Counted.call (if fl.merges id = true then _ else _) = _
      rw [if_neg (by rw [hm]; simp), hg]
      simp only [hb, hme, hi]
      rw [if_pos hx]
    · simp only [if_true]
      exact Spends.pure _
    · show max (chainDepth c 1) 0 + 1 = _
      rw [Nat.max_zero]
      exact e1.symm
    · exact e2.symm

/-! ### Bounds -/

mutual
theorem chainDepth_le : ∀ (c : ControlFlowChain) (k : Nat), chainDepth c k ≤ (chainIds c).length + max 1 k
  | .Atom _, k => by simp only [chainDepth, chainIds, List.length_cons, List.length_nil]; omega
  | .Block l, k => by simpa only [chainDepth, chainIds] using chainDepthAll_le l k
  | .Break, k => by simp only [chainDepth, chainIds, List.length_nil]; omega
  | .Continue, k => by simp only [chainDepth, chainIds, List.length_nil]; omega
  | .Loop _ inner _ _, k => by
    have := chainDepth_le inner 1
    simp only [chainDepth, chainIds, List.length_cons]; omega
  | .Selection id left right h w, k => by
    by_cases h1 : right = .Break
    · subst h1
      have := chainDepth_le left k
      simp only [chainDepth, chainIds, List.length_cons, List.length_append]; omega
    by_cases h2 : right = .Continue
    · subst h2
      have := chainDepth_le left k
      simp only [chainDepth, chainIds, List.length_cons, List.length_append]; omega
    have := chainDepth_le left 1
    have := chainDepth_le right 1
    rw [chainDepth_selection h1 h2]
    simp only [chainIds, List.length_cons, List.length_append]; omega
theorem chainDepthAll_le : ∀ (l : List ControlFlowChain) (k : Nat),
    chainDepthAll l k ≤ (chainIdsAll l).length + max 1 k
  | [], k => by simp only [chainDepthAll, chainIdsAll, List.length_nil]; omega
  | c :: l, k => by
    have := chainDepth_le c (chainDepthAll l k)
    have := chainDepthAll_le l k
    simp only [chainDepthAll, chainIdsAll, List.length_append]; omega
end

mutual
theorem chainCalls_bounds : ∀ (c : ControlFlowChain) (k : Nat),
    (chainIds c).length + k ≤ chainCalls c k ∧ chainCalls c k ≤ 3 * (chainIds c).length + k
  | .Atom _, k => by simp only [chainCalls, chainIds, List.length_cons, List.length_nil]; omega
  | .Block l, k => by simpa only [chainCalls, chainIds] using chainCallsAll_bounds l k
  | .Break, k => by simp only [chainCalls, chainIds, List.length_nil]; omega
  | .Continue, k => by simp only [chainCalls, chainIds, List.length_nil]; omega
  | .Loop _ inner _ _, k => by
    have := chainCalls_bounds inner 1
    simp only [chainCalls, chainIds, List.length_cons]; omega
  | .Selection id left right h w, k => by
    by_cases h1 : right = .Break
    · subst h1
      have := chainCalls_bounds left k
      simp only [chainCalls, chainIds, List.length_cons, List.length_append, List.length_nil]; omega
    by_cases h2 : right = .Continue
    · subst h2
      have := chainCalls_bounds left k
      simp only [chainCalls, chainIds, List.length_cons, List.length_append, List.length_nil]; omega
    have := chainCalls_bounds left 1
    have := chainCalls_bounds right 1
    rw [chainCalls_selection h1 h2]
    simp only [chainIds, List.length_cons, List.length_append]; omega
theorem chainCallsAll_bounds : ∀ (l : List ControlFlowChain) (k : Nat),
    (chainIdsAll l).length + k ≤ chainCallsAll l k ∧ chainCallsAll l k ≤ 3 * (chainIdsAll l).length + k
  | [], k => by simp only [chainCallsAll, chainIdsAll, List.length_nil]; omega
  | c :: l, k => by
    have := chainCalls_bounds c (chainCallsAll l k)
    have := chainCallsAll_bounds l k
    simp only [chainCallsAll, chainIdsAll, List.length_append]; omega
end

/-- A computation and its count: the outcome is `y`, and there are at most `b` calls. -/
structure Tallies {α : Type} (x : Counted α) (y : CF α) (b : Nat) : Prop where
  same : x.1 = y
  calls : x.2 ≤ b

theorem Tallies.bind {α β : Type} {x : Counted α} {y : CF α} {b c : Nat} {g : α → Counted β} {g' : α → CF β}
    (hx : Tallies x y b) (hg : ∀ a, Tallies (g a) (g' a) c) : Tallies (x >>= g) (y >>= g') (b + c) := by
  obtain ⟨h1, h2⟩ := hx
  rcases x with ⟨o, n⟩
  simp only at h1 h2
  subst h1
  cases o with
  | error e => exact ⟨rfl, by show n ≤ _; omega⟩
  | ok a => exact ⟨(hg a).same, by have := (hg a).calls; show n + (g a).2 ≤ _; omega⟩

theorem Tallies.le {α : Type} {x : Counted α} {y : CF α} {b c : Nat} (h : Tallies x y b) (hb : b ≤ c) :
    Tallies x y c := ⟨h.same, Nat.le_trans h.calls hb⟩

theorem Tallies.fail {α : Type} (e : Fault ControlFlowError) (b : Nat) :
    Tallies (Counted.fail e : Counted α) (.error e) b := ⟨rfl, Nat.zero_le _⟩

theorem Tallies.pure {α : Type} (a : α) (b : Nat) :
    Tallies (Pure.pure a : Counted α) (.ok a) b := ⟨rfl, Nat.zero_le _⟩

theorem search_tallies (map : BlockMap X) : ∀ (d : Nat) (id : BlockId) (fl : FlowList),
    Tallies (searchBlockC map d id fl) (searchBlock map d id fl) ((3 ^ d - 1) / 2)
  | 0, id, fl => ⟨rfl, Nat.zero_le _⟩
  | d + 1, id, fl => by
    have ih := search_tallies map d
    have pos : 1 ≤ 3 ^ d := Nat.pos_of_ne_zero (by simp)
    have odd : ∀ n, 3 ^ n % 2 = 1 := by
      intro n
      induction n with
      | zero => rfl
      | succ n ihn => rw [Nat.pow_succ]; omega
    suffices h : ∀ y, Tallies y (searchBlock map (d + 1) id fl) (3 * ((3 ^ d - 1) / 2)) →
        searchBlockC map (d + 1) id fl = .call y →
        Tallies (searchBlockC map (d + 1) id fl) (searchBlock map (d + 1) id fl) ((3 ^ (d + 1) - 1) / 2) by
      refine h _ ?_ rfl
      rw [searchBlock]
      by_cases hm : fl.merges id = true
      · rw [if_pos hm, if_pos hm]
        exact Tallies.pure _ _
      rw [if_neg hm, if_neg hm]
      cases map.get id with
      | none => exact Tallies.fail _ _
      | some b =>
        obtain ⟨label, code, merge, branch⟩ := b
        cases branch with
        | OpReturn r => exact Tallies.pure _ _
        | OpBranch op =>
          cases merge with
          | none => exact ((ih _ _).bind (c := 0) (fun _ => Tallies.pure _ _)).le (by omega)
          | some mg =>
            cases mg with
            | OpSelectionMerge _ => exact Tallies.fail _ _
            | OpLoopMerge lm =>
              refine ((ih _ _).bind (c := (3 ^ d - 1) / 2) (fun r => ?_)).le (by omega)
              simp only
              split
              · exact ((ih _ _).bind (c := 0) (fun _ => Tallies.pure _ _)).le (by omega)
              · exact Tallies.fail _ _
        | OpBranchConditional op =>
          cases merge with
          | some mg =>
            cases mg with
            | OpLoopMerge _ => exact Tallies.fail _ _
            | OpSelectionMerge sm =>
              refine ((ih _ _).bind (c := 2 * ((3 ^ d - 1) / 2)) (fun r1 => ?_)).le (by omega)
              refine ((ih _ _).bind (c := (3 ^ d - 1) / 2) (fun r2 => ?_)).le (by omega)
              simp only
              split
              · exact ((ih _ _).bind (c := 0) (fun _ => Tallies.pure _ _)).le (by omega)
              · exact Tallies.fail _ _
          | none =>
            simp only
            cases fl.innermostLoop with
            | none => exact Tallies.fail _ _
            | some hd =>
              simp only
              split
              · refine ((ih _ _).bind (c := 0) (fun r => ?_)).le (by omega)
                split
                · exact Tallies.pure _ _
                · exact Tallies.fail _ _
              · exact Tallies.fail _ _
    intro y hy he
    rw [he]
    refine ⟨hy.same, ?_⟩
    have := hy.calls
    have := odd d
    show y.2 + 1 ≤ _
    rw [Nat.pow_succ]
    omega

theorem find_tallies (f : FunctionDefinition X) (d : Nat) :
    Tallies (findControlFlowC d f) (findControlFlow d f) ((3 ^ d - 1) / 2) := by
  unfold findControlFlowC findControlFlow
  cases buildBlockMap f.blocks [] with
  | error e => exact Tallies.fail _ _
  | ok map =>
    simp only [cok_bind]
    cases f.blocks with
    | nil => exact Tallies.fail _ _
    | cons first more =>
      refine ((search_tallies map d _ []).bind (c := 0) (fun r => ?_)).le (by omega)
      obtain ⟨c, n⟩ := r
      cases n with
      | Return => exact Tallies.pure _ _
      | Next t => exact Tallies.fail _ _

theorem find_spends {f : FunctionDefinition X} {fuel : Nat} {chain : ControlFlowChain}
    (h : findControlFlow fuel f = .ok chain) :
    Spends (fun d => findControlFlowC d f) (chainDepth chain 0) (chainCalls chain 0) chain := by
  rw [findControlFlow, cbind_ok] at h
  obtain ⟨map, hm, h⟩ := h
  cases hb : f.blocks with
  | nil => simp only [hb] at h; cases h
  | cons first more =>
    simp only [hb, cbind_ok, Prod.exists] at h
    obtain ⟨c, n, hs, h⟩ := h
    cases n with
    | Next t => cases h
    | Return =>
      cases h
      have e : (fun d => findControlFlowC d f) = fun d =>
          searchBlockC map d ⟨first.label.result_id.val⟩ [] >>= fun r =>
            match r.2 with
            | .Return => Pure.pure r.1
            | _ => .fail (.err .Failed) := by
        funext d
        unfold findControlFlowC
        rw [hm]
        simp only [hb]
        rfl
      rw [e]
      refine ((found_spends (found_of_search hs)).bind (q := 0) (m := 0) (b := chain) ?_).of_eq
        (Nat.max_zero _) (Nat.add_zero _)
      exact Spends.pure chain

end Magma
