import Verif.Spec.DeadCode
import Verif.Proofs.Liveness
import Mathlib.Tactic.Tauto
/-! Lemmas: instructions whose results are not needed can be left out. -/

namespace Magma.DeadCode
open Spec Spec.Program Liveness
variable {V W X : Type}

theorem needsOut_toChain (U : Usage V) (s : Program) (n b c : V → Bool) :
    needsOut U s.toChain n b c = needsOutAll U s.toChains n b c := by
  cases s <;> simp only [toChain, toChains, needsOut, needsOutAll, needsAll, List.append_nil]

/-! ### After each block -/

section
variable {blocks : List (BasicBlock X)} {U : Usage V} {asked : V → Bool} {v : V}

theorem NeededAfter.ret_iff {id : BlockId} {b : BasicBlock X} {op : OpReturn} (hb : blockOf blocks id = some b)
    (ho : b.branch = .OpReturn op) : NeededAfter blocks U asked id v ↔ asked v = true := by
  constructor
  · rintro (⟨_, _, h⟩ | ⟨hb', ho', _⟩ | ⟨_, hb', ho', _⟩)
    · exact h
    · obtain rfl : b = _ := Option.some.inj (hb.symm.trans hb')
      cases ho.symm.trans ho'
    · obtain rfl : b = _ := Option.some.inj (hb.symm.trans hb')
      cases ho.symm.trans ho'
  · exact .ret hb ho

theorem NeededAfter.goto_iff {id : BlockId} {b : BasicBlock X} {op : OpBranch} (hb : blockOf blocks id = some b)
    (ho : b.branch = .OpBranch op) :
    NeededAfter blocks U asked id v ↔ Needed blocks U asked ⟨op.target_label.val⟩ v := by
  constructor
  · rintro (⟨hb', ho', _⟩ | ⟨hb', ho', h⟩ | ⟨_, hb', ho', _⟩)
    · obtain rfl : b = _ := Option.some.inj (hb.symm.trans hb')
      cases ho.symm.trans ho'
    · obtain rfl : b = _ := Option.some.inj (hb.symm.trans hb')
      cases ho.symm.trans ho'
      exact h
    · obtain rfl : b = _ := Option.some.inj (hb.symm.trans hb')
      cases ho.symm.trans ho'
  · exact .goto hb ho

theorem NeededAfter.choose_iff {id : BlockId} {b : BasicBlock X} {op : OpBranchConditional}
    (hb : blockOf blocks id = some b) (ho : b.branch = .OpBranchConditional op) :
    NeededAfter blocks U asked id v ↔
      Needed blocks U asked ⟨op.true_label.val⟩ v ∨ Needed blocks U asked ⟨op.false_label.val⟩ v := by
  constructor
  · rintro (⟨hb', ho', _⟩ | ⟨hb', ho', _⟩ | ⟨d, hb', ho', h⟩)
    · obtain rfl : b = _ := Option.some.inj (hb.symm.trans hb')
      cases ho.symm.trans ho'
    · obtain rfl : b = _ := Option.some.inj (hb.symm.trans hb')
      cases ho.symm.trans ho'
    · obtain rfl : b = _ := Option.some.inj (hb.symm.trans hb')
      cases ho.symm.trans ho'
      cases d
      · exact .inr h
      · exact .inl h
  · rintro (h | h)
    · exact .choose true hb ho h
    · exact .choose false hb ho h

theorem out_iff : ∀ (s : Program) (lp : Option (BlockId × BlockId)) (k : Option BlockId), SpelledBy blocks lp k s →
    ∀ (n b c : V → Bool), Known blocks U asked v lp k n b c → ∀ p ∈ needsOutAll U s.toChains n b c,
      (p.2 v = true ↔ NeededAfter blocks U asked p.1 v) := by
  intro s
  induction s with
  | done =>
    rintro lp k - n b c - p hp
    simp [toChains, needsOutAll] at hp
  | ret a =>
    rintro lp k ⟨rfl, blk, r, hb, ho⟩ n b c hk p hp
    simp only [toChains, needsOutAll, needsOut, needsAll, List.append_nil, List.mem_singleton] at hp
    subst hp
    rw [NeededAfter.ret_iff hb ho]
    exact hk.ret rfl
  | atom a rest ih =>
    rintro lp k ⟨⟨blk, op, hb, -, ho, ht⟩, hr⟩ n b c hk p hp
    simp only [toChains, needsOutAll, needsOut, List.cons_append, List.nil_append, List.mem_cons] at hp
    rcases hp with rfl | hp
    · rw [NeededAfter.goto_iff hb ho]
      exact start_iff rest hr ht hk
    · exact ih lp k hr n b c hk p hp
  | sel a l r hint w rest ihl ihr ih =>
    rintro lp k ⟨blk, op, sm, hb, -, ho, -, rfl, hm, htl, htr, hl, hr, hrest⟩ n b c hk p hp
    have hk' : Known blocks U asked v lp (some ⟨sm.merge_block.val⟩) (needsAll U rest.toChains n b c) b c := by
      refine ⟨fun j e => ?_, fun e => (by cases e), hk.brk, hk.cont⟩
      cases e
      exact start_iff rest hrest hm hk
    simp only [toChains, needsOutAll, needsOut, List.cons_append, List.mem_cons, List.mem_append, needsOut_toChain] at hp
    rcases hp with rfl | (hp | hp) | hp
    · rw [NeededAfter.choose_iff hb ho, Bool.or_eq_true, needs_toChain, needs_toChain, start_iff l hl htl hk',
        start_iff r hr htr hk']
    · exact ihl lp _ hl _ _ _ hk' p hp
    · exact ihr lp _ hr _ _ _ hk' p hp
    · exact ih lp k hrest n b c hk p hp
  | loop a body hint rest ihb ih =>
    rintro lp k hs n b c hk p hp
    have h0 := start_iff (loop a body hint rest) hs (id := a) rfl hk
    obtain ⟨blk, op, lm, hb, -, ho, -, hm, ht, hbody, hrest⟩ := hs
    simp only [toChains, needsOutAll, needsOut, needsAll, needs, List.cons_append, List.mem_cons, List.mem_append,
      needsOut_toChain] at hp h0
    have hk' : Known blocks U asked v (some (a, ⟨lm.merge_block.val⟩)) (some a)
        (U.before a (needs U body.toChain (fun _ => false) (needsAll U rest.toChains n b c) (fun _ => false)))
        (needsAll U rest.toChains n b c)
        (U.before a (needs U body.toChain (fun _ => false) (needsAll U rest.toChains n b c) (fun _ => false))) := by
      refine ⟨?_, fun e => (by cases e), ?_, ?_⟩
      · rintro j e
        cases e
        exact h0
      · rintro x y e
        cases e
        exact start_iff rest hrest hm hk
      · rintro x y e
        cases e
        exact h0
    rcases hp with rfl | hp | hp
    · rw [NeededAfter.goto_iff hb ho, needs_toChain]
      exact start_iff body hbody ht hk'
    · exact ihb _ _ hbody _ _ _ hk' p hp
    · exact ih lp k hrest n b c hk p hp
  | exit a brk w rest ih =>
    rintro lp k ⟨head, merge, blk, op, rfl, rfl, hb, -, ho, rfl, hf, ht, hrest⟩ n b c hk p hp
    simp only [toChains, needsOutAll, needsOut, needsAll, List.mem_cons, List.mem_append, needsOut_toChain,
      List.append_nil] at hp
    rcases hp with rfl | hp | hp
    · rw [NeededAfter.choose_iff hb ho, Bool.or_eq_true, needs_toChain, start_iff rest hrest ht hk, hf]
      cases brk
      · simp only [Bool.false_eq_true, if_false, needs]
        rw [hk.cont _ _ rfl]
      · simp only [if_true, needs]
        rw [hk.brk _ _ rfl]
    · exact ih _ _ hrest n b c hk p hp
    · cases brk <;> simp [needsOut] at hp

end

/-! ### Code -/

section
variable [DecidableEq V] {A : Access X V}

theorem exposed_iff {code : List (GroupCode X)} {after : V → Bool} {v : V} : A.exposed code after v = true ↔
    A.exposed code (fun _ => false) v = true ∨ ((∀ i ∈ code, v ∉ A.writes i) ∧ after v = true) := by
  induction code with
  | nil => simp [Access.exposed]
  | cons i code ih =>
    simp only [Access.exposed, Bool.or_eq_true, Bool.and_eq_true, Bool.not_eq_true', decide_eq_true_eq, decide_eq_false_iff_not,
      List.forall_mem_cons]
    rw [ih]
    tauto

variable {M : Machine X (V → W)} (hA : A.Right M)
include hA

omit [DecidableEq V] in
theorem fold_keeps (last : Option UInt32) : ∀ (code : List (GroupCode X)) (st : V → W) (v : V), (∀ i ∈ code, v ∉ A.writes i) →
    code.foldl (fun s i => M.run last i s) st v = st v
  | [], _, _, _ => rfl
  | i :: code, st, v, h => by
    rw [List.foldl_cons, fold_keeps last code _ v fun j hj => h j (List.mem_cons_of_mem _ hj)]
    exact hA.keeps last i st v (h i List.mem_cons_self)

/-- One instruction, from values that are the same where they are needed -/
theorem step_agree (last : Option UInt32) {i : GroupCode X} {code : List (GroupCode X)} {after : V → Bool} {st st' : V → W}
    (h : ∀ v, A.exposed (i :: code) after v = true → st v = st' v) (v : V) (hv : A.exposed code after v = true) :
    M.run last i st v = M.run last i st' v := by
  by_cases hw : v ∈ A.writes i
  · exact hA.sets last i st st' (fun u hu => h u (by simp [Access.exposed, hu])) v hw
  · rw [hA.keeps last i st v hw, hA.keeps last i st' v hw]
    exact h v (by simp [Access.exposed, hw, hv])

theorem fold_agree (last : Option UInt32) {after : V → Bool} : ∀ (code : List (GroupCode X)) (st st' : V → W),
    (∀ v, A.exposed code after v = true → st v = st' v) → ∀ v, after v = true →
      code.foldl (fun s i => M.run last i s) st v = code.foldl (fun s i => M.run last i s) st' v
  | [], _, _, h, v, hv => h v hv
  | i :: code, st, st', h, v, hv => by
    rw [List.foldl_cons, List.foldl_cons]
    exact fold_agree last code _ _ (step_agree hA last h) v hv

theorem fold_prune (last : Option UInt32) {after : V → Bool} : ∀ (code : List (GroupCode X)) (st st' : V → W),
    (∀ v, A.exposed code after v = true → st v = st' v) → ∀ v, after v = true →
      code.foldl (fun s i => M.run last i s) st v = (A.prune code after).foldl (fun s i => M.run last i s) st' v
  | [], _, _, h, v, hv => h v hv
  | i :: code, st, st', h, v, hv => by
    rw [List.foldl_cons, Access.prune]
    split
    · rw [List.foldl_cons]
      exact fold_prune last code _ _ (step_agree hA last h) v hv
    · rename_i hn
      refine fold_prune last code _ _ (fun u hu => ?_) v hv
      have hw : u ∉ A.writes i := fun hw => hn (List.any_eq_true.mpr ⟨u, hw, hu⟩)
      rw [hA.keeps last i st u hw]
      exact h u (by simp [Access.exposed, hw, hu])

theorem fold_sets (last : Option UInt32) : ∀ (code : List (GroupCode X)) (after : V → Bool) (st st' : V → W),
    (∀ v, A.exposed code after v = true → st v = st' v) → ∀ v, (∃ i ∈ code, v ∈ A.writes i) →
      code.foldl (fun s i => M.run last i s) st v = code.foldl (fun s i => M.run last i s) st' v
  | [], _, _, _, _, _, h => by simp at h
  | i :: code, after, st, st', h, v, hv => by
    rw [List.foldl_cons, List.foldl_cons]
    by_cases hc : ∃ j ∈ code, v ∈ A.writes j
    · exact fold_sets last code after _ _ (step_agree hA last h) v hc
    · have hn : ∀ j ∈ code, v ∉ A.writes j := fun j hj hw => hc ⟨j, hj, hw⟩
      rw [fold_keeps hA last code _ v hn, fold_keeps hA last code _ v hn]
      obtain ⟨j, hj, hw⟩ := hv
      rcases List.mem_cons.mp hj with rfl | hj
      · exact hA.sets last j st st' (fun u hu => h u (by simp [Access.exposed, hu])) v hw
      · exact absurd ⟨j, hj, hw⟩ hc

/-- What the code does is what the blocks do. -/
theorem usage_right (blocks : List (BasicBlock X)) : (A.usage blocks).Right M blocks := by
  refine ⟨fun {id b} hb c v hw => ?_, fun {id b} hb c c' hl hr v hw => ?_, fun {id b op} hb ho c c' hl hr => ?_⟩
  · simp only [Access.usage, hb, List.any_eq_false, decide_eq_true_eq] at hw
    exact fold_keeps hA c.last b.code c.state v hw
  · simp only [Access.usage, hb, List.any_eq_true, decide_eq_true_eq] at hw hr
    simp only [Machine.enter, hl]
    exact fold_sets hA c'.last b.code _ _ _ hr v hw
  · simp only [Access.usage, hb] at hr
    refine hA.tests op.condition _ _ fun v hv => ?_
    simp only [Machine.enter, hl]
    exact fold_agree hA c'.last b.code _ _ hr v (by simp [Access.condition, ho, hv])

omit hA

/-! ### Executions -/

theorem blockOf_prune (out : BlockId → V → Bool) (blocks : List (BasicBlock X)) (id : BlockId) :
    blockOf (A.pruneBlocks out blocks) id =
      (blockOf blocks id).map fun b => { b with code := A.prune b.code fun v => out id v || A.condition b v } := by
  induction blocks with
  | nil => rfl
  | cons b blocks ih =>
    simp only [Access.pruneBlocks, blockOf, List.map_cons, List.find?_cons] at ih ⊢
    by_cases h : b.label.result_id.val = id.val
    · have : (⟨labelId b⟩ : BlockId) = id := by
        cases id
        exact congrArg BlockId.mk h
      simp [h, this]
    · simp only [beq_eq_false_iff_ne.mpr h]
      exact ih

include hA

theorem run_prune {blocks : List (BasicBlock X)} {asked : V → Bool} {out : BlockId → V → Bool} {D : BlockId → Prop}
    (hg : ∀ {id b op}, D id → blockOf blocks id = some b → b.branch = .OpBranch op → D ⟨op.target_label.val⟩)
    (hc : ∀ {id b op} (d : Bool), D id → blockOf blocks id = some b → b.branch = .OpBranchConditional op →
      D ⟨if d then op.true_label.val else op.false_label.val⟩)
    (hout : ∀ id, D id → ∀ v, out id v = true ↔ NeededAfter blocks (A.usage blocks) asked id v) :
    ∀ (n : Nat) (id : BlockId) (c c' : Config (V → W)), D id → c.last = c'.last →
      (∀ v, Needed blocks (A.usage blocks) asked id v → c.state v = c'.state v) →
      (runMachine M blocks n id c).1 = (runMachine M (A.pruneBlocks out blocks) n id c').1 ∧
        (runMachine M blocks n id c).2.2 = (runMachine M (A.pruneBlocks out blocks) n id c').2.2 ∧
        ((runMachine M blocks n id c).2.2 = .returned → ∀ v, asked v = true →
          (runMachine M blocks n id c).2.1.state v = (runMachine M (A.pruneBlocks out blocks) n id c').2.1.state v) := by
  intro n
  induction n with
  | zero => exact fun id c c' _ _ _ => ⟨rfl, rfl, fun h => by cases h⟩
  | succ n ih =>
    intro id c c' hD hl hs
    have hp := blockOf_prune (A := A) out blocks id
    cases hb : blockOf blocks id with
    | none =>
      rw [hb] at hp
      simp only [runMachine, hb, hp, Option.map_none]
      exact ⟨trivial, trivial, fun h => by cases h⟩
    | some b =>
      rw [hb, Option.map_some] at hp
      -- after the block the values are the same where they are needed, also by its condition
      have ha : ∀ v, (out id v || A.condition b v) = true → (M.enter b c).state v =
          (M.enter { b with code := A.prune b.code fun v => out id v || A.condition b v } c').state v := by
        simp only [Machine.enter, hl]
        refine fold_prune hA c'.last b.code _ _ fun v hv => hs v ?_
        rw [exposed_iff, Bool.or_eq_true] at hv
        have hr : ∀ {v}, A.exposed b.code (A.condition b) v = true → Needed blocks (A.usage blocks) asked id v :=
          fun h => .reads (by simpa only [Access.usage, hb] using h)
        rcases hv with hv | ⟨hn, hv | hv⟩
        · exact hr (exposed_iff.mpr (.inl hv))
        · have hw : (A.usage blocks).writes id v = false := by
            simp only [Access.usage, hb, List.any_eq_false, decide_eq_true_eq]
            exact hn
          rcases (hout id hD v).mp hv with ⟨hb', ho', h⟩ | ⟨hb', ho', h⟩ | ⟨d, hb', ho', h⟩
          · exact .ret hw hb' ho' h
          · exact .goto hw hb' ho' h
          · exact .choose d hw hb' ho' h
        · exact hr (exposed_iff.mpr (.inr ⟨hn, hv⟩))
      have ho' : ∀ {v}, NeededAfter blocks (A.usage blocks) asked id v → (out id v || A.condition b v) = true :=
        fun h => by rw [(hout id hD _).mpr h, Bool.true_or]
      cases ho : b.branch with
      | OpReturn op =>
        simp only [runMachine, hb, hp, ho]
        exact ⟨trivial, trivial, fun _ v hv => ha v (ho' (.ret hb ho hv))⟩
      | OpBranch op =>
        obtain ⟨h1, h2, h3⟩ := ih ⟨op.target_label.val⟩ (M.enter b c)
          (M.enter { b with code := A.prune b.code fun v => out id v || A.condition b v } c') (hg hD hb ho) rfl
          (fun v hv => ha v (ho' (.goto hb ho hv)))
        simp only [runMachine, hb, hp, ho] at h1 h2 h3 ⊢
        exact ⟨by rw [h1], h2, h3⟩
      | OpBranchConditional op =>
        have hd : M.holds op.condition (M.enter b c).state = M.holds op.condition
            (M.enter { b with code := A.prune b.code fun v => out id v || A.condition b v } c').state :=
          hA.tests op.condition _ _ fun v hv => ha v (by simp [Access.condition, ho, hv])
        obtain ⟨h1, h2, h3⟩ := ih
          ⟨if M.holds op.condition (M.enter b c).state then op.true_label.val else op.false_label.val⟩
          (M.enter b c) (M.enter { b with code := A.prune b.code fun v => out id v || A.condition b v } c')
          (hc _ hD hb ho) rfl (fun v hv => ha v (ho' (.choose _ hb ho hv)))
        simp only [ho] at hd
        simp only [runMachine, hb, hp, ho, ← hd] at h1 h2 h3 ⊢
        exact ⟨by rw [h1], h2, h3⟩

end

end Magma.DeadCode
