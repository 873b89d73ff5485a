import Verif.Spec.Liveness
import Verif.Spec.Structured
/-! Lemmas: what is needed in a structured program is what is needed in its basic blocks. -/

namespace Magma.Liveness
open Spec Spec.Program
variable {V W X : Type}

theorem needs_toChain (U : Usage V) (s : Program) (n b c : V → Bool) :
    needs U s.toChain n b c = needsAll U s.toChains n b c := by
  cases s <;> simp only [toChain, toChains, needs, needsAll]

theorem needsAt_toChain (U : Usage V) (s : Program) (n b c : V → Bool) :
    needsAt U s.toChain n b c = needsAtAll U s.toChains n b c := by
  cases s <;> simp only [toChain, toChains, needsAt, needsAtAll, needsAll, List.append_nil]

/-! ### Needs of one variable -/

section
variable {U : Usage V} {v : V}

theorem before_iff {id : BlockId} {x : V → Bool} :
    U.before id x v = true ↔ U.reads id v = true ∨ (U.writes id v = false ∧ x v = true) := by
  simp [Usage.before]

theorem before_mono {id : BlockId} {x x' : V → Bool} (h : x v = true → x' v = true) :
    U.before id x v = true → U.before id x' v = true := by
  rw [before_iff, before_iff]
  exact Or.imp_right (And.imp_right h)

mutual
/-- What is needed is needed for one of the ways to end: taking away some of that takes away no more. -/
theorem needs_split {P : Prop} : ∀ (chain : ControlFlowChain) {n b c n' b' c' : V → Bool},
    (n v = true → n' v = true ∨ P) → (b v = true → b' v = true ∨ P) → (c v = true → c' v = true ∨ P) →
    needs U chain n b c v = true → needs U chain n' b' c' v = true ∨ P
  | .Atom id, n, b, c, n', b', c', hn, _, _, h => by
    rw [needs, before_iff] at h ⊢
    rcases h with h | ⟨hw, h⟩
    · exact .inl (.inl h)
    · exact (hn h).imp_left fun h => .inr ⟨hw, h⟩
  | .Block chains, n, b, c, n', b', c', hn, hb, hc, h => by
    rw [needs] at h ⊢
    exact needsAll_split chains hn hb hc h
  | .Selection id l r _ _, n, b, c, n', b', c', hn, hb, hc, h => by
    rw [needs, before_iff] at h ⊢
    rcases h with h | ⟨hw, h⟩
    · exact .inl (.inl h)
    · rw [Bool.or_eq_true] at h
      rw [Bool.or_eq_true]
      rcases h with h | h
      · exact (needs_split l hn hb hc h).imp_left fun h => .inr ⟨hw, .inl h⟩
      · exact (needs_split r hn hb hc h).imp_left fun h => .inr ⟨hw, .inr h⟩
  | .Loop id inner _ _, n, b, c, n', b', c', hn, _, _, h => by
    rw [needs, before_iff] at h ⊢
    rcases h with h | ⟨hw, h⟩
    · exact .inl (.inl h)
    · exact (needs_split inner (fun h => .inl h) hn (fun h => .inl h) h).imp_left fun h => .inr ⟨hw, h⟩
  | .Break, _, _, _, _, _, _, _, hb, _, h => hb h
  | .Continue, _, _, _, _, _, _, _, _, hc, h => hc h
theorem needsAll_split {P : Prop} : ∀ (chains : List ControlFlowChain) {n b c n' b' c' : V → Bool},
    (n v = true → n' v = true ∨ P) → (b v = true → b' v = true ∨ P) → (c v = true → c' v = true ∨ P) →
    needsAll U chains n b c v = true → needsAll U chains n' b' c' v = true ∨ P
  | [], _, _, _, _, _, _, hn, _, _, h => hn h
  | chain :: chains, n, b, c, n', b', c', hn, hb, hc, h => by
    rw [needsAll] at h ⊢
    exact needs_split chain (needsAll_split chains hn hb hc) hb hc h
end

/-- One look at the body of a loop is enough. -/
theorem again {id : BlockId} {inner : ControlFlowChain} {n : V → Bool} {x : V → Bool}
    (hx : x = U.before id (needs U inner (fun _ => false) n (fun _ => false))) :
    U.before id (needs U inner x n x) v = true ↔ x v = true := by
  constructor
  · intro h
    rw [before_iff] at h
    rcases h with h | ⟨hw, h⟩
    · rw [hx, before_iff]
      exact .inl h
    · rcases needs_split inner (n' := fun _ => false) (b' := n) (c' := fun _ => false) (P := x v = true)
        .inr .inl .inr h with h | h
      · rw [hx, before_iff]
        exact .inr ⟨hw, h⟩
      · exact h
  · intro h
    rw [hx] at h
    refine before_mono (fun h => ?_) h
    exact (needs_split inner (P := False) (fun h => by cases h) .inl (fun h => by cases h) h).elim (fun h => h) False.elim

end

/-! ### Basic blocks -/

/-- Needed, with the number of blocks on the way -/
inductive Within (blocks : List (BasicBlock X)) (U : Usage V) (asked : V → Bool) (v : V) : Nat → BlockId → Prop
  | reads {m : Nat} {id : BlockId} : U.reads id v = true → Within blocks U asked v m id
  | ret {m : Nat} {id : BlockId} {b : BasicBlock X} {op : OpReturn} : U.writes id v = false → blockOf blocks id = some b →
      b.branch = .OpReturn op → asked v = true → Within blocks U asked v m id
  | goto {m : Nat} {id : BlockId} {b : BasicBlock X} {op : OpBranch} : U.writes id v = false → blockOf blocks id = some b →
      b.branch = .OpBranch op → Within blocks U asked v m ⟨op.target_label.val⟩ → Within blocks U asked v (m + 1) id
  | choose {m : Nat} {id : BlockId} {b : BasicBlock X} {op : OpBranchConditional} (d : Bool) : U.writes id v = false →
      blockOf blocks id = some b → b.branch = .OpBranchConditional op →
      Within blocks U asked v m ⟨if d then op.true_label.val else op.false_label.val⟩ → Within blocks U asked v (m + 1) id

variable {blocks : List (BasicBlock X)} {U : Usage V} {asked : V → Bool} {v : V}

theorem within_of_needed {id : BlockId} (h : Needed blocks U asked id v) : ∃ m, Within blocks U asked v m id := by
  induction h with
  | reads h => exact ⟨0, .reads h⟩
  | ret hw hb ho ha => exact ⟨0, .ret hw hb ho ha⟩
  | goto hw hb ho _ ih =>
    obtain ⟨m, hm⟩ := ih
    exact ⟨m + 1, .goto hw hb ho hm⟩
  | choose d hw hb ho _ ih =>
    obtain ⟨m, hm⟩ := ih
    exact ⟨m + 1, .choose d hw hb ho hm⟩

theorem Within.ret_inv {m : Nat} {id : BlockId} (h : Within blocks U asked v m id) {b : BasicBlock X} {op : OpReturn}
    (hb : blockOf blocks id = some b) (ho : b.branch = .OpReturn op) :
    U.reads id v = true ∨ (U.writes id v = false ∧ asked v = true) := by
  cases h with
  | reads h => exact .inl h
  | ret hw _ _ ha => exact .inr ⟨hw, ha⟩
  | goto _ hb' ho' =>
    obtain rfl : b = _ := Option.some.inj (hb.symm.trans hb')
    cases ho.symm.trans ho'
  | choose _ _ hb' ho' =>
    obtain rfl : b = _ := Option.some.inj (hb.symm.trans hb')
    cases ho.symm.trans ho'

theorem Within.goto_inv {m : Nat} {id : BlockId} (h : Within blocks U asked v m id) {b : BasicBlock X} {op : OpBranch}
    (hb : blockOf blocks id = some b) (ho : b.branch = .OpBranch op) :
    U.reads id v = true ∨ (U.writes id v = false ∧ ∃ j, j < m ∧ Within blocks U asked v j ⟨op.target_label.val⟩) := by
  cases h with
  | reads h => exact .inl h
  | ret _ hb' ho' =>
    obtain rfl : b = _ := Option.some.inj (hb.symm.trans hb')
    cases ho.symm.trans ho'
  | goto hw hb' ho' h =>
    obtain rfl : b = _ := Option.some.inj (hb.symm.trans hb')
    cases ho.symm.trans ho'
    exact .inr ⟨hw, _, Nat.lt_succ_self _, h⟩
  | choose _ _ hb' ho' =>
    obtain rfl : b = _ := Option.some.inj (hb.symm.trans hb')
    cases ho.symm.trans ho'

theorem Within.choose_inv {m : Nat} {id : BlockId} (h : Within blocks U asked v m id) {b : BasicBlock X}
    {op : OpBranchConditional} (hb : blockOf blocks id = some b) (ho : b.branch = .OpBranchConditional op) :
    U.reads id v = true ∨ (U.writes id v = false ∧ ∃ j, j < m ∧
      (Within blocks U asked v j ⟨op.true_label.val⟩ ∨ Within blocks U asked v j ⟨op.false_label.val⟩)) := by
  cases h with
  | reads h => exact .inl h
  | ret _ hb' ho' =>
    obtain rfl : b = _ := Option.some.inj (hb.symm.trans hb')
    cases ho.symm.trans ho'
  | goto _ hb' ho' =>
    obtain rfl : b = _ := Option.some.inj (hb.symm.trans hb')
    cases ho.symm.trans ho'
  | choose d hw hb' ho' h =>
    obtain rfl : b = _ := Option.some.inj (hb.symm.trans hb')
    cases ho.symm.trans ho'
    refine .inr ⟨hw, _, Nat.lt_succ_self _, ?_⟩
    cases d
    · exact .inr h
    · exact .inl h

/-! ### The analysis of the structured program says no more -/

theorem sound : ∀ (s : Program) (lp : Option (BlockId × BlockId)) (k : Option BlockId), SpelledBy blocks lp k s →
    ∀ (id : BlockId) (n b c : V → Bool), s.entry k = some id →
      (∀ j, k = some j → n v = true → Needed blocks U asked j v) → (k = none → n v = true → asked v = true) →
      (∀ h m, lp = some (h, m) → b v = true → Needed blocks U asked m v) →
      (∀ h m, lp = some (h, m) → c v = true → Needed blocks U asked h v) →
      needsAll U s.toChains n b c v = true → Needed blocks U asked id v := by
  intro s
  induction s with
  | done =>
    rintro lp k - id n b c he hn - - - h
    exact hn id he h
  | ret a =>
    rintro lp k ⟨rfl, blk, r, hb, ho⟩ id n b c he - hn - - h
    obtain rfl : a = id := Option.some.inj he
    simp only [toChains, needsAll, needs, before_iff] at h
    rcases h with h | ⟨hw, h⟩
    · exact .reads h
    · exact .ret hw hb ho (hn rfl h)
  | atom a rest ih =>
    rintro lp k ⟨⟨blk, op, hb, -, ho, ht⟩, hr⟩ id n b c he hn hn' hbr hco h
    obtain rfl : a = id := Option.some.inj he
    simp only [toChains, needsAll, needs, before_iff] at h
    rcases h with h | ⟨hw, h⟩
    · exact .reads h
    · exact .goto hw hb ho (ih lp k hr _ _ _ _ ht hn hn' hbr hco h)
  | sel a l r hint w rest ihl ihr ih =>
    rintro lp k ⟨blk, op, sm, hb, -, ho, -, rfl, hm, htl, htr, hl, hr, hrest⟩ id n b c he hn hn' hbr hco h
    obtain rfl : a = id := Option.some.inj he
    simp only [toChains, needsAll, needs, before_iff, Bool.or_eq_true, needs_toChain] at h
    have hk : ∀ j, some (⟨sm.merge_block.val⟩ : BlockId) = some j → needsAll U rest.toChains n b c v = true →
        Needed blocks U asked j v := by
      rintro j e h
      cases e
      exact ih lp k hrest _ _ _ _ hm hn hn' hbr hco h
    rcases h with h | ⟨hw, h | h⟩
    · exact .reads h
    · exact .choose true hw hb ho (ihl lp _ hl _ _ _ _ htl hk (fun e => by cases e) hbr hco h)
    · exact .choose false hw hb ho (ihr lp _ hr _ _ _ _ htr hk (fun e => by cases e) hbr hco h)
  | loop a body hint rest ihb ih =>
    rintro lp k ⟨blk, op, lm, hb, -, ho, -, hm, ht, hbody, hrest⟩ id n b c he hn hn' hbr hco h
    obtain rfl : a = id := Option.some.inj he
    simp only [toChains, needsAll, needs, before_iff, needs_toChain] at h
    rcases h with h | ⟨hw, h⟩
    · exact .reads h
    · refine .goto hw hb ho (ihb _ _ hbody _ _ _ _ ht (fun _ _ h => by cases h) (fun _ h => by cases h) ?_
        (fun _ _ _ h => by cases h) h)
      rintro _ _ e h
      cases e
      exact ih lp k hrest _ _ _ _ hm hn hn' hbr hco h
  | exit a brk w rest ih =>
    rintro lp k ⟨head, merge, blk, op, rfl, rfl, hb, -, ho, rfl, hf, ht, hrest⟩ id n b c he hn hn' hbr hco h
    obtain rfl : a = id := Option.some.inj he
    simp only [toChains, needsAll, needs, before_iff, Bool.or_eq_true, needs_toChain] at h
    rcases h with h | ⟨hw, h | h⟩
    · exact .reads h
    · exact .choose true hw hb ho (ih _ _ hrest _ _ _ _ ht hn hn' hbr hco h)
    · refine .choose false hw hb ho ?_
      simp only [Bool.false_eq_true, if_false]
      rw [hf]
      cases brk
      · exact hco _ _ rfl (by simpa [needs] using h)
      · exact hbr _ _ rfl (by simpa [needs] using h)

/-! ### It says no less -/

theorem complete : ∀ (s : Program) (lp : Option (BlockId × BlockId)) (k : Option BlockId), SpelledBy blocks lp k s →
    ∀ (m : Nat) (id : BlockId) (n b c : V → Bool), s.entry k = some id →
      (∀ j, k = some j → ∀ i, i ≤ m → Within blocks U asked v i j → n v = true) →
      (k = none → asked v = true → n v = true) →
      (∀ h t, lp = some (h, t) → ∀ i, i < m → Within blocks U asked v i t → b v = true) →
      (∀ h t, lp = some (h, t) → ∀ i, i < m → Within blocks U asked v i h → c v = true) →
      Within blocks U asked v m id → needsAll U s.toChains n b c v = true := by
  intro s
  induction s with
  | done =>
    rintro lp k - m id n b c he hn - - - h
    exact hn id he m (Nat.le_refl _) h
  | ret a =>
    rintro lp k ⟨rfl, blk, r, hb, ho⟩ m id n b c he - hn - - h
    obtain rfl : a = id := Option.some.inj he
    simp only [toChains, needsAll, needs, before_iff]
    exact (h.ret_inv hb ho).imp_right (And.imp_right (hn rfl))
  | atom a rest ih =>
    rintro lp k ⟨⟨blk, op, hb, -, ho, ht⟩, hr⟩ m id n b c he hn hn' hbr hco h
    obtain rfl : a = id := Option.some.inj he
    simp only [toChains, needsAll, needs, before_iff]
    rcases h.goto_inv hb ho with h | ⟨hw, j, hj, h⟩
    · exact .inl h
    · exact .inr ⟨hw, ih lp k hr j _ _ _ _ ht (fun t e i hi => hn t e i (by omega)) hn'
        (fun p q e i hi => hbr p q e i (by omega)) (fun p q e i hi => hco p q e i (by omega)) h⟩
  | sel a l r hint w rest ihl ihr ih =>
    rintro lp k ⟨blk, op, sm, hb, -, ho, -, rfl, hm, htl, htr, hl, hr, hrest⟩ m id n b c he hn hn' hbr hco h
    obtain rfl : a = id := Option.some.inj he
    simp only [toChains, needsAll, needs, before_iff, Bool.or_eq_true, needs_toChain]
    have hk : ∀ t, some (⟨sm.merge_block.val⟩ : BlockId) = some t → ∀ i, i ≤ m → Within blocks U asked v i t →
        needsAll U rest.toChains n b c v = true := by
      rintro t e i hi h
      cases e
      exact ih lp k hrest i _ _ _ _ hm (fun t e i' hi' => hn t e i' (by omega)) hn'
        (fun p q e i' hi' => hbr p q e i' (by omega)) (fun p q e i' hi' => hco p q e i' (by omega)) h
    rcases h.choose_inv hb ho with h | ⟨hw, j, hj, h | h⟩
    · exact .inl h
    · exact .inr ⟨hw, .inl (ihl lp _ hl j _ _ _ _ htl (fun t e i hi => hk t e i (by omega)) (fun e => by cases e)
        (fun p q e i hi => hbr p q e i (by omega)) (fun p q e i hi => hco p q e i (by omega)) h)⟩
    · exact .inr ⟨hw, .inr (ihr lp _ hr j _ _ _ _ htr (fun t e i hi => hk t e i (by omega)) (fun e => by cases e)
        (fun p q e i hi => hbr p q e i (by omega)) (fun p q e i hi => hco p q e i (by omega)) h)⟩
  | loop a body hint rest ihb ih =>
    rintro lp k ⟨blk, op, lm, hb, -, ho, -, hm, ht, hbody, hrest⟩ m id n b c he hn hn' hbr hco h
    obtain rfl : a = id := Option.some.inj he
    simp only [toChains, needsAll, needs]
    generalize hx : U.before a (needs U body.toChain (fun _ => false) (needsAll U rest.toChains n b c) (fun _ => false)) = x
    induction m using Nat.strongRecOn with
    | _ m ihm =>
      have hk : ∀ i, i < m → Within blocks U asked v i a → x v = true := fun i hi h =>
        ihm i hi (fun t e i' hi' => hn t e i' (by omega)) (fun p q e i' hi' => hbr p q e i' (by omega))
          (fun p q e i' hi' => hco p q e i' (by omega)) h
      rw [← again hx.symm, before_iff, needs_toChain]
      rcases h.goto_inv hb ho with h | ⟨hw, j, hj, h⟩
      · exact .inl h
      · refine .inr ⟨hw, ihb _ _ hbody j _ _ _ _ ht ?_ (fun e => by cases e) ?_ ?_ h⟩
        · rintro t e i hi h
          cases e
          exact hk i (by omega) h
        · rintro p q e i hi h
          cases e
          exact ih lp k hrest i _ _ _ _ hm (fun t e i' hi' => hn t e i' (by omega)) hn'
            (fun p q e i' hi' => hbr p q e i' (by omega)) (fun p q e i' hi' => hco p q e i' (by omega)) h
        · rintro p q e i hi h
          cases e
          exact hk i (by omega) h
  | exit a brk w rest ih =>
    rintro lp k ⟨head, merge, blk, op, rfl, rfl, hb, -, ho, rfl, hf, ht, hrest⟩ m id n b c he hn hn' hbr hco h
    obtain rfl : a = id := Option.some.inj he
    simp only [toChains, needsAll, needs, before_iff, Bool.or_eq_true, needs_toChain]
    rcases h.choose_inv hb ho with h | ⟨hw, j, hj, h | h⟩
    · exact .inl h
    · exact .inr ⟨hw, .inl (ih _ _ hrest j _ _ _ _ ht (fun t e i hi => hn t e i (by omega)) hn'
        (fun p q e i hi => hbr p q e i (by omega)) (fun p q e i hi => hco p q e i (by omega)) h)⟩
    · refine .inr ⟨hw, .inr ?_⟩
      rw [hf] at h
      cases brk
      · simpa [needs] using hco _ _ rfl j hj h
      · simpa [needs] using hbr _ _ rfl j hj h

/-! ### Before each block -/

/-- What is needed where control goes after a program is known exactly. -/
structure Known (blocks : List (BasicBlock X)) (U : Usage V) (asked : V → Bool) (v : V) (lp : Option (BlockId × BlockId))
    (k : Option BlockId) (n b c : V → Bool) : Prop where
  next : ∀ j, k = some j → (n v = true ↔ Needed blocks U asked j v)
  ret : k = none → (n v = true ↔ asked v = true)
  brk : ∀ h t, lp = some (h, t) → (b v = true ↔ Needed blocks U asked t v)
  cont : ∀ h t, lp = some (h, t) → (c v = true ↔ Needed blocks U asked h v)

theorem needed_of_within {m : Nat} {id : BlockId} (h : Within blocks U asked v m id) : Needed blocks U asked id v := by
  induction h with
  | reads h => exact .reads h
  | ret hw hb ho ha => exact .ret hw hb ho ha
  | goto hw hb ho _ ih => exact .goto hw hb ho ih
  | choose d hw hb ho _ ih => exact .choose d hw hb ho ih

theorem start_iff (s : Program) {lp : Option (BlockId × BlockId)} {k : Option BlockId} (hs : SpelledBy blocks lp k s)
    {id : BlockId} {n b c : V → Bool} (he : s.entry k = some id) (hk : Known blocks U asked v lp k n b c) :
    needsAll U s.toChains n b c v = true ↔ Needed blocks U asked id v := by
  constructor
  · exact sound s lp k hs id n b c he (fun j e => (hk.next j e).mp) (fun e => (hk.ret e).mp)
      (fun p q e => (hk.brk p q e).mp) (fun p q e => (hk.cont p q e).mp)
  · intro h
    obtain ⟨m, hm⟩ := within_of_needed h
    exact complete s lp k hs m id n b c he (fun j e i _ h => (hk.next j e).mpr (needed_of_within h))
      (fun e => (hk.ret e).mpr) (fun p q e i _ h => (hk.brk p q e).mpr (needed_of_within h))
      (fun p q e i _ h => (hk.cont p q e).mpr (needed_of_within h)) hm

theorem at_iff : ∀ (s : Program) (lp : Option (BlockId × BlockId)) (k : Option BlockId), SpelledBy blocks lp k s →
    ∀ (n b c : V → Bool), Known blocks U asked v lp k n b c → ∀ p ∈ needsAtAll U s.toChains n b c,
      (p.2 v = true ↔ Needed blocks U asked p.1 v) := by
  intro s
  induction s with
  | done =>
    rintro lp k - n b c - p hp
    simp [toChains, needsAtAll] at hp
  | ret a =>
    rintro lp k hs n b c hk p hp
    have h0 := start_iff (ret a) hs (id := a) rfl hk
    simp only [toChains, needsAtAll, needsAt, needsAll, needs, List.append_nil, List.mem_singleton] at hp h0
    subst hp
    exact h0
  | atom a rest ih =>
    rintro lp k hs n b c hk p hp
    have h0 := start_iff (atom a rest) hs (id := a) rfl hk
    obtain ⟨-, hr⟩ := hs
    simp only [toChains, needsAtAll, needsAt, needsAll, needs, List.cons_append, List.nil_append, List.mem_cons] at hp h0
    rcases hp with rfl | hp
    · exact h0
    · exact ih lp k hr n b c hk p hp
  | sel a l r hint w rest ihl ihr ih =>
    rintro lp k hs n b c hk p hp
    have h0 := start_iff (sel a l r hint w rest) hs (id := a) rfl hk
    obtain ⟨blk, op, sm, hb, -, ho, -, rfl, hm, htl, htr, hl, hr, hrest⟩ := hs
    have hk' : Known blocks U asked v lp (some ⟨sm.merge_block.val⟩) (needsAll U rest.toChains n b c) b c := by
      refine ⟨fun j e => ?_, fun e => (by cases e), hk.brk, hk.cont⟩
      cases e
      exact start_iff rest hrest hm hk
    simp only [toChains, needsAtAll, needsAt, needsAll, needs, List.cons_append, List.mem_cons, List.mem_append,
      needsAt_toChain] at hp h0
    rcases hp with rfl | (hp | hp) | hp
    · exact h0
    · exact ihl lp _ hl _ _ _ hk' p hp
    · exact ihr lp _ hr _ _ _ hk' p hp
    · exact ih lp k hrest n b c hk p hp
  | loop a body hint rest ihb ih =>
    rintro lp k hs n b c hk p hp
    have h0 := start_iff (loop a body hint rest) hs (id := a) rfl hk
    obtain ⟨blk, op, lm, hb, -, ho, -, hm, ht, hbody, hrest⟩ := hs
    simp only [toChains, needsAtAll, needsAt, needsAll, needs, List.cons_append, List.mem_cons, List.mem_append,
      needsAt_toChain] at hp h0
    rcases hp with rfl | hp | hp
    · exact h0
    · refine ihb _ _ hbody _ _ _ ⟨?_, fun e => (by cases e), ?_, ?_⟩ p hp
      · rintro j e
        cases e
        exact h0
      · rintro x y e
        cases e
        exact start_iff rest hrest hm hk
      · rintro x y e
        cases e
        exact h0
    · exact ih lp k hrest n b c hk p hp
  | exit a brk w rest ih =>
    rintro lp k hs n b c hk p hp
    have h0 := start_iff (exit a brk w rest) hs (id := a) rfl hk
    obtain ⟨head, merge, blk, op, rfl, rfl, hb, -, ho, rfl, hf, ht, hrest⟩ := hs
    simp only [toChains, needsAtAll, needsAt, needsAll, needs, List.mem_cons, List.mem_append,
      needsAt_toChain, List.append_nil] at hp h0
    rcases hp with rfl | hp | hp
    · exact h0
    · exact ih _ _ hrest n b c hk p hp
    · cases brk <;> simp [needsAt] at hp

/-! ### Executions -/

/-- Executions from configurations that differ in what is not needed only -/
theorem run_agree {M : Machine X (V → W)} (hU : U.Right M blocks) : ∀ (n : Nat) (id : BlockId) (c c' : Config (V → W)),
    c.last = c'.last → (∀ v, Needed blocks U asked id v → c.state v = c'.state v) →
    (runMachine M blocks n id c).1 = (runMachine M blocks n id c').1 ∧
      (runMachine M blocks n id c).2.2 = (runMachine M blocks n id c').2.2 ∧
      ((runMachine M blocks n id c).2.2 = .returned → ∀ v, asked v = true →
        (runMachine M blocks n id c).2.1.state v = (runMachine M blocks n id c').2.1.state v) := by
  intro n
  induction n with
  | zero => exact fun id c c' _ _ => ⟨rfl, rfl, fun h => by cases h⟩
  | succ n ih =>
    intro id c c' hl hs
    cases hb : blockOf blocks id with
    | none =>
      simp only [runMachine, hb]
      exact ⟨trivial, trivial, fun h => by cases h⟩
    | some b =>
      have hr : ∀ v, U.reads id v = true → c.state v = c'.state v := fun v h => hs v (.reads h)
      -- after the block, what it wrote is the same, and what it left alone is if it was
      have ha : ∀ v, (U.writes id v = false → Needed blocks U asked id v) →
          (M.enter b c).state v = (M.enter b c').state v := by
        intro v hv
        cases hw : U.writes id v with
        | true => exact hU.sets hb c c' hl hr v hw
        | false => rw [hU.keeps hb c v hw, hU.keeps hb c' v hw, hs v (hv hw)]
      cases ho : b.branch with
      | OpReturn op =>
        simp only [runMachine, hb, ho]
        exact ⟨trivial, trivial, fun _ v hv => ha v fun hw => .ret hw hb ho hv⟩
      | OpBranch op =>
        obtain ⟨h1, h2, h3⟩ := ih ⟨op.target_label.val⟩ (M.enter b c) (M.enter b c') rfl
          (fun v hv => ha v fun hw => .goto hw hb ho hv)
        simp only [runMachine, hb, ho]
        exact ⟨by rw [h1], h2, h3⟩
      | OpBranchConditional op =>
        obtain ⟨h1, h2, h3⟩ := ih
          ⟨if M.holds op.condition (M.enter b c).state then op.true_label.val else op.false_label.val⟩
          (M.enter b c) (M.enter b c') rfl (fun v hv => ha v fun hw => .choose _ hw hb ho hv)
        simp only [runMachine, hb, ho, ← hU.decides hb ho c c' hl hr]
        exact ⟨by rw [h1], h2, h3⟩

end Magma.Liveness
