import Verif.Spec.Dataflow
import Verif.Spec.Structured
/-! Lemmas: data flow analysis of basic blocks and of the program they spell. -/

namespace Magma.Dataflow
open Spec Spec.Program
variable {L X : Type} [CompleteLattice L]

/-! ### Structured programs -/

/-- What is known at the head of a loop -/
abbrev top (T : Transfer L) (id : BlockId) (inner : ControlFlowChain) (x : L) : L :=
  sInf {y | x ⊔ (flow T inner .next (T.block id y) ⊔ flow T inner .continues (T.block id y)) ≤ y}

section
variable (T : Transfer L)

theorem flowAll_one (chain : ControlFlowChain) (s : Signal) (x : L) : flowAll T [chain] s x = flow T chain s x := by
  by_cases h : s = .next
  · subst h
    simp [flowAll]
  · simp [flowAll, h]

theorem flowAtAll_one (b : BlockId) (chain : ControlFlowChain) (x : L) : flowAtAll T b [chain] x = flowAt T b chain x := by
  simp [flowAtAll]

theorem flow_toChain (p : Program) (s : Signal) (x : L) : flow T p.toChain s x = flowAll T p.toChains s x := by
  cases p <;> simp only [toChain, toChains, flow, flowAll_one]

theorem flowAt_toChain (b : BlockId) (p : Program) (x : L) : flowAt T b p.toChain x = flowAtAll T b p.toChains x := by
  cases p <;> simp only [toChain, toChains, flowAt, flowAtAll_one]

end

section
variable {T : Transfer L}

theorem top_mono {id : BlockId} {inner : ControlFlowChain} {x x' : L} (h : x ≤ x') : top T id inner x ≤ top T id inner x' :=
  sInf_le_sInf fun _ hy => (sup_le_sup_right h _).trans hy

variable (hT : T.Monotone)
include hT

set_option linter.unusedSectionVars false in
mutual
theorem flow_mono : ∀ (chain : ControlFlowChain) (s : Signal) {x x' : L}, x ≤ x' → flow T chain s x ≤ flow T chain s x'
  | .Atom id, s, x, x', h => by
    rw [flow, flow]
    split
    · exact hT.block id h
    · exact le_refl _
  | .Block chains, s, x, x', h => by
    rw [flow, flow]
    exact flowAll_mono chains s h
  | .Selection id l r _ _, s, x, x', h => by
    rw [flow, flow]
    exact sup_le_sup (flow_mono l s (hT.decide id _ (hT.block id h))) (flow_mono r s (hT.decide id _ (hT.block id h)))
  | .Loop id inner _ _, s, x, x', h => by
    rw [flow, flow]
    split
    · exact flow_mono inner _ (hT.block id (top_mono h))
    · exact le_refl _
  | .Break, s, x, x', h => by
    rw [flow, flow]
    split
    · exact h
    · exact le_refl _
  | .Continue, s, x, x', h => by
    rw [flow, flow]
    split
    · exact h
    · exact le_refl _
theorem flowAll_mono : ∀ (chains : List ControlFlowChain) (s : Signal) {x x' : L}, x ≤ x' →
    flowAll T chains s x ≤ flowAll T chains s x'
  | [], s, x, x', h => by
    rw [flowAll, flowAll]
    split
    · exact h
    · exact le_refl _
  | c :: cs, s, x, x', h => by
    rw [flowAll, flowAll]
    refine sup_le_sup ?_ (flowAll_mono cs s (flow_mono c _ h))
    split
    · exact le_refl _
    · exact flow_mono c s h
end

mutual
theorem flowAt_mono (b : BlockId) : ∀ (chain : ControlFlowChain) {x x' : L}, x ≤ x' → flowAt T b chain x ≤ flowAt T b chain x'
  | .Atom id, x, x', h => by
    rw [flowAt, flowAt]
    split
    · exact h
    · exact le_refl _
  | .Block chains, x, x', h => by
    rw [flowAt, flowAt]
    exact flowAtAll_mono b chains h
  | .Selection id l r _ _, x, x', h => by
    rw [flowAt, flowAt]
    refine sup_le_sup ?_ (sup_le_sup (flowAt_mono b l (hT.decide id _ (hT.block id h)))
      (flowAt_mono b r (hT.decide id _ (hT.block id h))))
    split
    · exact h
    · exact le_refl _
  | .Loop id inner _ _, x, x', h => by
    rw [flowAt, flowAt]
    refine sup_le_sup ?_ (flowAt_mono b inner (hT.block id (top_mono h)))
    split
    · exact top_mono h
    · exact le_refl _
  | .Break, _, _, _ => le_refl _
  | .Continue, _, _, _ => le_refl _
theorem flowAtAll_mono (b : BlockId) : ∀ (chains : List ControlFlowChain) {x x' : L}, x ≤ x' →
    flowAtAll T b chains x ≤ flowAtAll T b chains x'
  | [], _, _, _ => le_refl _
  | c :: cs, x, x', h => by
    rw [flowAtAll, flowAtAll]
    exact sup_le_sup (flowAt_mono b c h) (flowAtAll_mono b cs (flow_mono hT c _ h))
end

/-- The head of a loop covers what comes to it. -/
theorem top_covers (id : BlockId) (inner : ControlFlowChain) (x : L) :
    x ⊔ (flow T inner .next (T.block id (top T id inner x)) ⊔ flow T inner .continues (T.block id (top T id inner x))) ≤
      top T id inner x := by
  refine le_sInf fun y hy => le_trans ?_ hy
  have hl : top T id inner x ≤ y := sInf_le hy
  exact sup_le_sup_left (sup_le_sup (flow_mono hT inner _ (hT.block id hl)) (flow_mono hT inner _ (hT.block id hl))) _

end

/-! ### Every solution covers the analysis of the structured program -/

section
variable {T : Transfer L} (hT : T.Monotone) {blocks : List (BasicBlock X)} {first : BlockId} {start : L} {F : BlockId → L}
  (hF : Solves blocks T first start F) {R : L} (hR : ∀ id, Returns blocks id → T.block id (F id) ≤ R)

/-- What the solution has at the block where control goes -/
def solved (F : BlockId → L) (R : L) : Option BlockId → L
  | some id => F id
  | none => R

include hT hF hR

theorem tight : ∀ (s : Program) (lp : Option (BlockId × BlockId)) (k : Option BlockId), SpelledBy blocks lp k s →
    ∀ (id : BlockId) (x : L), s.entry k = some id → x ≤ F id →
      (∀ b, flowAtAll T b s.toChains x ≤ F b) ∧ flowAll T s.toChains .next x ≤ solved F R k ∧
      flowAll T s.toChains .breaks x ≤ solved F ⊥ (lp.map Prod.snd) ∧
      flowAll T s.toChains .continues x ≤ solved F ⊥ (lp.map Prod.fst) := by
  intro s
  induction s with
  | done =>
    rintro lp k - id x he hx
    rw [show k = some id from he]
    simp [toChains, flowAll, flowAtAll, solved, hx]
  | ret a =>
    rintro lp k ⟨rfl, b, r, hb, ho⟩ id x he hx
    obtain rfl : a = id := Option.some.inj he
    have := (hT.block a hx).trans (hR a ⟨b, r, hb, ho⟩)
    simp only [toChains, flowAll_one, flowAtAll_one, flow, flowAt, solved, if_true, reduceCtorEq, if_false, bot_le,
      and_true, this]
    intro c
    split
    · rename_i h
      exact h ▸ hx
    · exact bot_le
  | atom a rest ih =>
    rintro lp k ⟨⟨b, op, hb, -, ho, ht⟩, hr⟩ id x he hx
    obtain rfl : a = id := Option.some.inj he
    obtain ⟨h1, h2, h3, h4⟩ := ih lp k hr _ _ ht ((hT.block a hx).trans (hF.goto hb ho))
    simp only [toChains, flowAll, flowAtAll, flow, flowAt, if_true, reduceCtorEq, if_false, bot_sup_eq]
    refine ⟨fun c => sup_le ?_ (h1 c), h2, h3, h4⟩
    split
    · rename_i h
      exact h ▸ hx
    · exact bot_le
  | sel a l r h w rest ihl ihr ih =>
    rintro lp k ⟨b, op, sm, hb, -, ho, -, rfl, hm, htl, htr, hl, hr, hrest⟩ id x he hx
    obtain rfl : a = id := Option.some.inj he
    obtain ⟨l1, l2, l3, l4⟩ := ihl lp _ hl _ _ htl ((hT.decide a true (hT.block a hx)).trans (hF.choose true hb ho))
    obtain ⟨r1, r2, r3, r4⟩ := ihr lp _ hr _ _ htr ((hT.decide a false (hT.block a hx)).trans (hF.choose false hb ho))
    obtain ⟨h1, h2, h3, h4⟩ := ih lp k hrest _ _ hm (sup_le l2 r2)
    simp only [toChains, flowAll, flowAtAll, flow, flowAt, flow_toChain, flowAt_toChain, if_true, reduceCtorEq, if_false,
      bot_sup_eq]
    refine ⟨fun c => sup_le (sup_le ?_ (sup_le (l1 c) (r1 c))) (h1 c), h2, sup_le (sup_le l3 r3) h3, sup_le (sup_le l4 r4) h4⟩
    split
    · rename_i h
      exact h ▸ hx
    · exact bot_le
  | loop a body h rest ihb ih =>
    rintro lp k ⟨b, op, lm, hb, -, ho, -, hm, ht, hbody, hrest⟩ id x he hx
    obtain rfl : a = id := Option.some.inj he
    have hy : top T a body.toChain x ≤ F a := by
      refine sInf_le ?_
      obtain ⟨-, h2, -, h4⟩ := ihb _ _ hbody _ _ ht (hF.goto hb ho)
      refine sup_le hx (sup_le ?_ ?_)
      · rw [flow_toChain]
        exact h2
      · rw [flow_toChain]
        exact h4
    obtain ⟨b1, -, b3, -⟩ := ihb _ _ hbody _ _ ht ((hT.block a hy).trans (hF.goto hb ho))
    rw [← flow_toChain] at b3
    obtain ⟨h1, h2, h3, h4⟩ := ih lp k hrest _ _ hm b3
    simp only [toChains, flowAll, flowAtAll, flow, flowAt, if_true, reduceCtorEq, if_false, bot_sup_eq]
    refine ⟨fun c => sup_le (sup_le ?_ ?_) (h1 c), h2, h3, h4⟩
    · split
      · rename_i h
        exact h ▸ hy
      · exact bot_le
    · rw [flowAt_toChain]
      exact b1 c
  | exit a brk w rest ih =>
    rintro lp k ⟨head, merge, b, op, rfl, rfl, hb, -, ho, rfl, hf, ht, hrest⟩ id x he hx
    obtain rfl : a = id := Option.some.inj he
    obtain ⟨l1, l2, l3, l4⟩ := ih _ _ hrest _ _ ht ((hT.decide a true (hT.block a hx)).trans (hF.choose true hb ho))
    have hr : T.decide a false (T.block a x) ≤ F (if brk then merge else head) := by
      rw [← hf]
      exact (hT.decide a false (hT.block a hx)).trans (hF.choose false hb ho)
    simp only [toChains, flowAll_one, flowAtAll_one, flow, flowAt, flow_toChain, flowAt_toChain]
    have hx' : ∀ c, (if a = c then x else ⊥) ≤ F c := fun c => by
      split
      · rename_i h
        exact h ▸ hx
      · exact bot_le
    cases brk
    · simp only [Bool.false_eq_true, if_false, flow, flowAt, reduceCtorEq, if_true, sup_bot_eq] at hr ⊢
      exact ⟨fun c => sup_le (hx' c) (l1 c), l2, l3, sup_le l4 hr⟩
    · simp only [if_true, flow, flowAt, reduceCtorEq, if_false, sup_bot_eq] at hr ⊢
      exact ⟨fun c => sup_le (hx' c) (l1 c), l2, sup_le l3 hr, l4⟩

end

/-! ### The analysis of the structured program covers every way -/

/-- Going from a block to another one, or to a return, in a number of steps: what is known at the end by what is known at
the start -/
inductive Way (blocks : List (BasicBlock X)) (T : Transfer L) : Nat → BlockId → L → Option BlockId → L → Prop
  | here {id : BlockId} {x : L} : Way blocks T 0 id x (some id) x
  | ret {id : BlockId} {x : L} {b : BasicBlock X} {op : OpReturn} : blockOf blocks id = some b → b.branch = .OpReturn op →
      Way blocks T 1 id x none (T.block id x)
  | goto {n : Nat} {id : BlockId} {x v : L} {t : Option BlockId} {b : BasicBlock X} {op : OpBranch} :
      blockOf blocks id = some b → b.branch = .OpBranch op → Way blocks T n ⟨op.target_label.val⟩ (T.block id x) t v →
      Way blocks T (n + 1) id x t v
  | choose {n : Nat} {id : BlockId} {x v : L} {t : Option BlockId} {b : BasicBlock X} {op : OpBranchConditional} (d : Bool) :
      blockOf blocks id = some b → b.branch = .OpBranchConditional op →
      Way blocks T n ⟨if d then op.true_label.val else op.false_label.val⟩ (T.decide id d (T.block id x)) t v →
      Way blocks T (n + 1) id x t v

/-- The way has this rest, after what ends at a block (or with a return) -/
def Rest (blocks : List (BasicBlock X)) (T : Transfer L) (n : Nat) (t : Option BlockId) (v : L) (y : L) :
    Option BlockId → Prop
  | some k => ∃ m z, m ≤ n ∧ z ≤ y ∧ Way blocks T m k z t v
  | none => t = none ∧ v ≤ y

section
variable {T : Transfer L} {blocks : List (BasicBlock X)}

omit [CompleteLattice L] in
theorem Way.trans_goto {n : Nat} {id id' : BlockId} {x v : L} (h : Way blocks T n id x (some id') v) {b : BasicBlock X}
    {op : OpBranch} (hb : blockOf blocks id' = some b) (ho : b.branch = .OpBranch op) :
    Way blocks T (n + 1) id x (some ⟨op.target_label.val⟩) (T.block id' v) := by
  generalize ht : some id' = t at h
  induction h with
  | here => 
    cases ht
    exact .goto hb ho .here
  | ret => cases ht
  | goto hb' ho' _ ih => exact .goto hb' ho' (ih ht)
  | choose d hb' ho' _ ih => exact .choose d hb' ho' (ih ht)

omit [CompleteLattice L] in
theorem Way.trans_choose {n : Nat} {id id' : BlockId} {x v : L} (h : Way blocks T n id x (some id') v) {b : BasicBlock X}
    {op : OpBranchConditional} (d : Bool) (hb : blockOf blocks id' = some b) (ho : b.branch = .OpBranchConditional op) :
    Way blocks T (n + 1) id x (some ⟨if d then op.true_label.val else op.false_label.val⟩) (T.decide id' d (T.block id' v)) := by
  generalize ht : some id' = t at h
  induction h with
  | here => 
    cases ht
    exact .choose d hb ho .here
  | ret => cases ht
  | goto hb' ho' _ ih => exact .goto hb' ho' (ih ht)
  | choose d' hb' ho' _ ih => exact .choose d' hb' ho' (ih ht)

omit [CompleteLattice L] in
theorem Way.trans_ret {n : Nat} {id id' : BlockId} {x v : L} (h : Way blocks T n id x (some id') v)
    (hr : Returns blocks id') : Way blocks T (n + 1) id x none (T.block id' v) := by
  generalize ht : some id' = t at h
  induction h with
  | here =>
    cases ht
    obtain ⟨b, op, hb, ho⟩ := hr
    exact .ret hb ho
  | ret => cases ht
  | goto hb' ho' _ ih => exact .goto hb' ho' (ih ht)
  | choose d' hb' ho' _ ih => exact .choose d' hb' ho' (ih ht)

omit [CompleteLattice L] in
theorem Way.of_arrives {id id' : BlockId} {x v : L} (h : Arrives blocks T id x id' v) :
    ∃ n, Way blocks T n id x (some id') v := by
  induction h with
  | here => exact ⟨0, .here⟩
  | goto _ hb ho ih =>
    obtain ⟨n, hn⟩ := ih
    exact ⟨_, hn.trans_goto hb ho⟩
  | choose d _ hb ho ih =>
    obtain ⟨n, hn⟩ := ih
    exact ⟨_, hn.trans_choose d hb ho⟩

omit [CompleteLattice L] in
theorem Way.ret_inv {n : Nat} {id : BlockId} {x v : L} {t : Option BlockId} (h : Way blocks T n id x t v) {b : BasicBlock X}
    {op : OpReturn} (hb : blockOf blocks id = some b) (ho : b.branch = .OpReturn op) :
    (t = some id ∧ v = x) ∨ (t = none ∧ v = T.block id x) := by
  cases h with
  | here => exact .inl ⟨rfl, rfl⟩
  | ret => exact .inr ⟨rfl, rfl⟩
  | goto hb' ho' =>
    obtain rfl : b = _ := Option.some.inj (hb.symm.trans hb')
    cases ho.symm.trans ho'
  | choose d hb' ho' =>
    obtain rfl : b = _ := Option.some.inj (hb.symm.trans hb')
    cases ho.symm.trans ho'

omit [CompleteLattice L] in
theorem Way.goto_inv {n : Nat} {id : BlockId} {x v : L} {t : Option BlockId} (h : Way blocks T n id x t v)
    {b : BasicBlock X} {op : OpBranch} (hb : blockOf blocks id = some b) (ho : b.branch = .OpBranch op) :
    (t = some id ∧ v = x) ∨ ∃ m, n = m + 1 ∧ Way blocks T m ⟨op.target_label.val⟩ (T.block id x) t v := by
  cases h with
  | here => exact .inl ⟨rfl, rfl⟩
  | ret hb' ho' =>
    obtain rfl : b = _ := Option.some.inj (hb.symm.trans hb')
    cases ho.symm.trans ho'
  | goto hb' ho' hw =>
    obtain rfl : b = _ := Option.some.inj (hb.symm.trans hb')
    cases ho.symm.trans ho'
    exact .inr ⟨_, rfl, hw⟩
  | choose d hb' ho' =>
    obtain rfl : b = _ := Option.some.inj (hb.symm.trans hb')
    cases ho.symm.trans ho'

omit [CompleteLattice L] in
theorem Way.choose_inv {n : Nat} {id : BlockId} {x v : L} {t : Option BlockId} (h : Way blocks T n id x t v)
    {b : BasicBlock X} {op : OpBranchConditional} (hb : blockOf blocks id = some b)
    (ho : b.branch = .OpBranchConditional op) :
    (t = some id ∧ v = x) ∨ ∃ m d, n = m + 1 ∧
      Way blocks T m ⟨if d then op.true_label.val else op.false_label.val⟩ (T.decide id d (T.block id x)) t v := by
  cases h with
  | here => exact .inl ⟨rfl, rfl⟩
  | ret hb' ho' =>
    obtain rfl : b = _ := Option.some.inj (hb.symm.trans hb')
    cases ho.symm.trans ho'
  | goto hb' ho' hw =>
    obtain rfl : b = _ := Option.some.inj (hb.symm.trans hb')
    cases ho.symm.trans ho'
  | choose d hb' ho' hw =>
    obtain rfl : b = _ := Option.some.inj (hb.symm.trans hb')
    cases ho.symm.trans ho'
    exact .inr ⟨_, d, rfl, hw⟩

theorem Rest.mono {n n' : Nat} {t k : Option BlockId} {v y y' : L} (h : Rest blocks T n t v y k) (hn : n ≤ n')
    (hy : y ≤ y') : Rest blocks T n' t v y' k := by
  cases k with
  | none => exact ⟨h.1, h.2.trans hy⟩
  | some k =>
    obtain ⟨m, z, hm, hz, hw⟩ := h
    exact ⟨m, z, hm.trans hn, hz.trans hy, hw⟩

/-- What the analysis says of a way through a program -/
def Covered (blocks : List (BasicBlock X)) (T : Transfer L) (n : Nat) (t : Option BlockId) (v x : L) (s : Program)
    (lp : Option (BlockId × BlockId)) (k : Option BlockId) : Prop :=
  (∃ b, t = some b ∧ v ≤ flowAtAll T b s.toChains x) ∨ Rest blocks T n t v (flowAll T s.toChains .next x) k ∨
  (∃ h m, lp = some (h, m) ∧ Rest blocks T n t v (flowAll T s.toChains .breaks x) (some m)) ∨
  (∃ h m, lp = some (h, m) ∧ Rest blocks T n t v (flowAll T s.toChains .continues x) (some h))

variable (hT : T.Monotone)
include hT

theorem safe : ∀ (s : Program) (lp : Option (BlockId × BlockId)) (k : Option BlockId), SpelledBy blocks lp k s →
    ∀ (n : Nat) (id : BlockId) (x x' : L) (t : Option BlockId) (v : L), s.entry k = some id → x ≤ x' →
      Way blocks T n id x t v → Covered blocks T n t v x' s lp k := by
  intro s
  induction s with
  | done =>
    rintro lp k - n id x x' t v he hx hw
    rw [show k = some id from he]
    refine .inr (.inl ⟨n, x, le_refl _, ?_, hw⟩)
    simpa [toChains, flowAll] using hx
  | ret a =>
    rintro lp k ⟨rfl, b, r, hb, ho⟩ n id x x' t v he hx hw
    obtain rfl : a = id := Option.some.inj he
    rcases hw.ret_inv hb ho with ⟨rfl, rfl⟩ | ⟨rfl, rfl⟩
    · exact .inl ⟨a, rfl, by simpa [toChains, flowAtAll, flowAt] using hx⟩
    · exact .inr (.inl ⟨rfl, by simpa [toChains, flowAll, flow] using hT.block a hx⟩)
  | atom a rest ih =>
    rintro lp k ⟨⟨b, op, hb, -, ho, ht⟩, hr⟩ n id x x' t v he hx hw
    obtain rfl : a = id := Option.some.inj he
    rcases hw.goto_inv hb ho with ⟨rfl, rfl⟩ | ⟨m, rfl, hv⟩
    · refine .inl ⟨a, rfl, ?_⟩
      simp only [toChains, flowAtAll, flowAt, if_true]
      exact le_sup_of_le_left hx
    · unfold Covered
      simp only [toChains, flowAll, flowAtAll, flow, if_true, reduceCtorEq, if_false, bot_sup_eq]
      rcases ih lp k hr m _ _ _ t v ht (hT.block a hx) hv with ⟨c, hc, h⟩ | h | ⟨_, _, hl, h⟩ | ⟨_, _, hl, h⟩
      · exact .inl ⟨c, hc, le_sup_of_le_right h⟩
      · exact .inr (.inl (h.mono (Nat.le_succ m) (le_refl _)))
      · exact .inr (.inr (.inl ⟨_, _, hl, h.mono (Nat.le_succ m) (le_refl _)⟩))
      · exact .inr (.inr (.inr ⟨_, _, hl, h.mono (Nat.le_succ m) (le_refl _)⟩))
  | sel a l r h w rest ihl ihr ih =>
    rintro lp k ⟨b, op, sm, hb, -, ho, -, rfl, hm, htl, htr, hl, hr, hrest⟩ n id x x' t v he hx hw
    obtain rfl : a = id := Option.some.inj he
    rcases hw.choose_inv hb ho with ⟨rfl, rfl⟩ | ⟨m, d, rfl, hv⟩
    · refine .inl ⟨a, rfl, ?_⟩
      simp only [toChains, flowAtAll, flowAt, if_true]
      exact le_sup_of_le_left (le_sup_of_le_left hx)
    · -- after the selection
      have after : Rest blocks T m t v (flowAll T l.toChains .next (T.decide a true (T.block a x')) ⊔
          flowAll T r.toChains .next (T.decide a false (T.block a x'))) (some ⟨sm.merge_block.val⟩) →
          Covered blocks T (m + 1) t v x' (.sel a l r h op.weights rest) lp k := by
        rintro ⟨m', z, hm', hz, hw'⟩
        unfold Covered
        simp only [toChains, flowAll, flowAtAll, flow, flow_toChain, if_true, reduceCtorEq, if_false, bot_sup_eq]
        rcases ih lp k hrest m' _ _ _ t v hm hz hw' with ⟨c, hc, h⟩ | h | ⟨_, _, hl, h⟩ | ⟨_, _, hl, h⟩
        · exact .inl ⟨c, hc, le_sup_of_le_right h⟩
        · exact .inr (.inl (h.mono (by omega) (le_refl _)))
        · exact .inr (.inr (.inl ⟨_, _, hl, h.mono (by omega) le_sup_right⟩))
        · exact .inr (.inr (.inr ⟨_, _, hl, h.mono (by omega) le_sup_right⟩))
      cases d
      · rcases ihr lp _ hr m _ _ _ t v htr (hT.decide a false (hT.block a hx)) hv with ⟨c, hc, h⟩ | h | ⟨_, _, hl, h⟩ | ⟨_, _, hl, h⟩
        · refine .inl ⟨c, hc, ?_⟩
          simp only [toChains, flowAtAll, flowAt, flowAt_toChain]
          exact le_sup_of_le_left (le_sup_of_le_right (le_sup_of_le_right h))
        · exact after (h.mono (le_refl _) le_sup_right)
        · refine .inr (.inr (.inl ⟨_, _, hl, h.mono (Nat.le_succ m) ?_⟩))
          simp only [toChains, flowAll, flow, flow_toChain, reduceCtorEq, if_false]
          exact le_sup_of_le_left le_sup_right
        · refine .inr (.inr (.inr ⟨_, _, hl, h.mono (Nat.le_succ m) ?_⟩))
          simp only [toChains, flowAll, flow, flow_toChain, reduceCtorEq, if_false]
          exact le_sup_of_le_left le_sup_right
      · rcases ihl lp _ hl m _ _ _ t v htl (hT.decide a true (hT.block a hx)) hv with ⟨c, hc, h⟩ | h | ⟨_, _, hl, h⟩ | ⟨_, _, hl, h⟩
        · refine .inl ⟨c, hc, ?_⟩
          simp only [toChains, flowAtAll, flowAt, flowAt_toChain]
          exact le_sup_of_le_left (le_sup_of_le_right (le_sup_of_le_left h))
        · exact after (h.mono (le_refl _) le_sup_left)
        · refine .inr (.inr (.inl ⟨_, _, hl, h.mono (Nat.le_succ m) ?_⟩))
          simp only [toChains, flowAll, flow, flow_toChain, reduceCtorEq, if_false]
          exact le_sup_of_le_left le_sup_left
        · refine .inr (.inr (.inr ⟨_, _, hl, h.mono (Nat.le_succ m) ?_⟩))
          simp only [toChains, flowAll, flow, flow_toChain, reduceCtorEq, if_false]
          exact le_sup_of_le_left le_sup_left
  | loop a body h rest ihb ih =>
    rintro lp k ⟨b, op, lm, hb, -, ho, -, hm, ht, hbody, hrest⟩ n id x x' t v he hx hw
    obtain rfl : a = id := Option.some.inj he
    have cov := top_covers hT a body.toChain x'
    replace hx : x ≤ top T a body.toChain x' := (hx.trans le_sup_left).trans cov
    have cn := (le_sup_left.trans le_sup_right).trans cov
    have cc := (le_sup_right.trans le_sup_right).trans cov
    rw [flow_toChain] at cn cc
    induction n using Nat.strong_induction_on generalizing x with
    | _ n ihn =>
    rcases hw.goto_inv hb ho with ⟨rfl, rfl⟩ | ⟨m, rfl, hv⟩
    · refine .inl ⟨a, rfl, ?_⟩
      simp only [toChains, flowAtAll, flowAt, if_true]
      exact le_sup_of_le_left (le_sup_of_le_left hx)
    · have up : ∀ {m'}, m' ≤ m → Covered blocks T m' t v x' (.loop a body h rest) lp k →
          Covered blocks T (m + 1) t v x' (.loop a body h rest) lp k := by
        rintro m' hm' (h | h | ⟨_, _, hl, h⟩ | ⟨_, _, hl, h⟩)
        · exact .inl h
        · exact .inr (.inl (h.mono (by omega) (le_refl _)))
        · exact .inr (.inr (.inl ⟨_, _, hl, h.mono (by omega) (le_refl _)⟩))
        · exact .inr (.inr (.inr ⟨_, _, hl, h.mono (by omega) (le_refl _)⟩))
      rcases ihb _ _ hbody m _ _ _ t v ht (hT.block a hx) hv with ⟨c, hc, h⟩ | h | ⟨_, _, hl, h⟩ | ⟨_, _, hl, h⟩
      · refine .inl ⟨c, hc, ?_⟩
        simp only [toChains, flowAtAll, flowAt, flowAt_toChain]
        exact le_sup_of_le_left (le_sup_of_le_right h)
      · obtain ⟨m', z, hm', hz, hw'⟩ := h
        exact up hm' (ihn m' (by omega) z hw' (hz.trans cn))
      · cases hl
        obtain ⟨m', z, hm', hz, hw'⟩ := h
        unfold Covered
        simp only [toChains, flowAll, flowAtAll, flow, flow_toChain, if_true, reduceCtorEq, if_false, bot_sup_eq]
        simp only [top, flow_toChain] at hz
        rcases ih lp k hrest m' _ _ _ t v hm hz hw' with ⟨c, hc, h⟩ | h | ⟨_, _, hl, h⟩ | ⟨_, _, hl, h⟩
        · exact .inl ⟨c, hc, le_sup_of_le_right h⟩
        · exact .inr (.inl (h.mono (by omega) (le_refl _)))
        · exact .inr (.inr (.inl ⟨_, _, hl, h.mono (by omega) (le_refl _)⟩))
        · exact .inr (.inr (.inr ⟨_, _, hl, h.mono (by omega) (le_refl _)⟩))
      · cases hl
        obtain ⟨m', z, hm', hz, hw'⟩ := h
        exact up hm' (ihn m' (by omega) z hw' (hz.trans cc))
  | exit a brk w rest ih =>
    rintro lp k ⟨head, merge, b, op, rfl, rfl, hb, -, ho, rfl, hf, ht, hrest⟩ n id x x' t v he hx hw
    obtain rfl : a = id := Option.some.inj he
    rcases hw.choose_inv hb ho with ⟨rfl, rfl⟩ | ⟨m, d, rfl, hv⟩
    · refine .inl ⟨a, rfl, ?_⟩
      simp only [toChains, flowAtAll, flowAt, if_true]
      exact le_sup_of_le_left (le_sup_of_le_left hx)
    · cases d
      · have hd := hT.decide a false (hT.block a hx)
        have hw : Way blocks T m (if brk then merge else head) (T.decide a false (T.block a x)) t v := by
          rw [← hf]
          exact hv
        cases brk
        · refine .inr (.inr (.inr ⟨_, _, rfl, m, _, Nat.le_succ m, hd.trans ?_, hw⟩))
          simp only [toChains, flowAll_one, flow, if_true, Bool.false_eq_true, if_false]
          exact le_sup_right
        · refine .inr (.inr (.inl ⟨_, _, rfl, m, _, Nat.le_succ m, hd.trans ?_, hw⟩))
          simp only [toChains, flowAll_one, flow, if_true]
          exact le_sup_right
      · unfold Covered
        simp only [toChains, flowAll_one, flowAtAll_one, flow, flowAt, flow_toChain, flowAt_toChain]
        rcases ih _ _ hrest m _ _ _ t v ht (hT.decide a true (hT.block a hx)) hv with ⟨c, hc, h⟩ | h | ⟨_, _, hl, h⟩ | ⟨_, _, hl, h⟩
        · exact .inl ⟨c, hc, le_sup_of_le_right (le_sup_of_le_left h)⟩
        · exact .inr (.inl (h.mono (Nat.le_succ m) le_sup_left))
        · exact .inr (.inr (.inl ⟨_, _, hl, h.mono (Nat.le_succ m) le_sup_left⟩))
        · exact .inr (.inr (.inr ⟨_, _, hl, h.mono (Nat.le_succ m) le_sup_left⟩))

end

/-! ### The analysis of the structured program is a solution -/

theorem flowAtAll_out (T : Transfer L) : ∀ (s : Program) (b : BlockId) (x : L), b ∉ s.ids → flowAtAll T b s.toChains x = ⊥ := by
  intro s
  induction s with
  | done => exact fun _ _ _ => rfl
  | ret a =>
    intro b x hb
    have : a ≠ b := fun h => hb (h ▸ List.mem_singleton_self _)
    simp [toChains, flowAtAll, flowAt, this]
  | atom a rest ih =>
    intro b x hb
    rw [ids, List.mem_cons, not_or] at hb
    simp only [toChains, flowAtAll, flowAt, if_neg (Ne.symm hb.1), ih b _ hb.2, bot_sup_eq]
  | sel a l r h w rest ihl ihr ih =>
    intro b x hb
    rw [ids, List.mem_cons, List.mem_append, List.mem_append, not_or, not_or, not_or] at hb
    simp only [toChains, flowAtAll, flowAt, flowAt_toChain, if_neg (Ne.symm hb.1), ihl b _ hb.2.1.1, ihr b _ hb.2.1.2,
      ih b _ hb.2.2, bot_sup_eq]
  | loop a body h rest ihb ih =>
    intro b x hb
    rw [ids, List.mem_cons, List.mem_append, not_or, not_or] at hb
    simp only [toChains, flowAtAll, flowAt, flowAt_toChain, if_neg (Ne.symm hb.1), ihb b _ hb.2.1, ih b _ hb.2.2,
      bot_sup_eq]
  | exit a brk w rest ih =>
    intro b x hb
    rw [ids, List.mem_cons, not_or] at hb
    cases brk <;> simp [toChains, flowAtAll, flowAt, flowAt_toChain, if_neg (Ne.symm hb.1), ih b _ hb.2]

/-- A branch of a block, with what it does to what is known -/
inductive Edge (blocks : List (BasicBlock X)) (T : Transfer L) (id : BlockId) : (L → L) → BlockId → Prop
  | goto {b : BasicBlock X} {op : OpBranch} : blockOf blocks id = some b → b.branch = .OpBranch op →
      Edge blocks T id (T.block id) ⟨op.target_label.val⟩
  | choose {b : BasicBlock X} {op : OpBranchConditional} (d : Bool) : blockOf blocks id = some b →
      b.branch = .OpBranchConditional op → Edge blocks T id (fun x => T.decide id d (T.block id x))
        ⟨if d then op.true_label.val else op.false_label.val⟩

section
variable {T : Transfer L} {blocks : List (BasicBlock X)}

omit [CompleteLattice L] in
theorem Edge.ret_inv {id t : BlockId} {φ : L → L} (h : Edge blocks T id φ t) {b : BasicBlock X} {op : OpReturn}
    (hb : blockOf blocks id = some b) (ho : b.branch = .OpReturn op) : False := by
  cases h with
  | goto hb' ho' =>
    obtain rfl : b = _ := Option.some.inj (hb.symm.trans hb')
    cases ho.symm.trans ho'
  | choose d hb' ho' =>
    obtain rfl : b = _ := Option.some.inj (hb.symm.trans hb')
    cases ho.symm.trans ho'

omit [CompleteLattice L] in
theorem Edge.goto_inv {id t : BlockId} {φ : L → L} (h : Edge blocks T id φ t) {b : BasicBlock X} {op : OpBranch}
    (hb : blockOf blocks id = some b) (ho : b.branch = .OpBranch op) : φ = T.block id ∧ t = ⟨op.target_label.val⟩ := by
  cases h with
  | goto hb' ho' =>
    obtain rfl : b = _ := Option.some.inj (hb.symm.trans hb')
    cases ho.symm.trans ho'
    exact ⟨rfl, rfl⟩
  | choose d hb' ho' =>
    obtain rfl : b = _ := Option.some.inj (hb.symm.trans hb')
    cases ho.symm.trans ho'

omit [CompleteLattice L] in
theorem Edge.choose_inv {id t : BlockId} {φ : L → L} (h : Edge blocks T id φ t) {b : BasicBlock X}
    {op : OpBranchConditional} (hb : blockOf blocks id = some b) (ho : b.branch = .OpBranchConditional op) :
    ∃ d, φ = (fun x => T.decide id d (T.block id x)) ∧ t = ⟨if d then op.true_label.val else op.false_label.val⟩ := by
  cases h with
  | goto hb' ho' =>
    obtain rfl : b = _ := Option.some.inj (hb.symm.trans hb')
    cases ho.symm.trans ho'
  | choose d hb' ho' =>
    obtain rfl : b = _ := Option.some.inj (hb.symm.trans hb')
    cases ho.symm.trans ho'
    exact ⟨d, rfl, rfl⟩

variable (hT : T.Monotone)
include hT

theorem solves : ∀ (s : Program) (lp : Option (BlockId × BlockId)) (k : Option BlockId), SpelledBy blocks lp k s →
    s.ids.Nodup → ∀ (e : BlockId) (x : L) (U : BlockId → L), s.entry k = some e →
      (∀ b, flowAtAll T b s.toChains x ≤ U b) → (∀ b, k = some b → flowAll T s.toChains .next x ≤ U b) →
      (∀ h m, lp = some (h, m) → flowAll T s.toChains .breaks x ≤ U m ∧ flowAll T s.toChains .continues x ≤ U h) →
      x ≤ U e ∧ ∀ id ∈ s.ids, ∀ φ t, Edge blocks T id φ t → φ (flowAtAll T id s.toChains x) ≤ U t := by
  intro s
  induction s with
  | done =>
    rintro lp k - - e x U he - hk -
    exact ⟨hk e he, fun _ h => by cases h⟩
  | ret a =>
    rintro lp k ⟨rfl, b, r, hb, ho⟩ - e x U he hU - -
    obtain rfl : a = e := Option.some.inj he
    refine ⟨?_, fun id hid φ t ht => ?_⟩
    · simpa [toChains, flowAtAll, flowAt] using hU a
    · cases List.mem_singleton.mp hid
      exact (ht.ret_inv hb ho).elim
  | atom a rest ih =>
    rintro lp k ⟨⟨b, op, hb, -, ho, ht⟩, hr⟩ hn e x U he hU hk hl
    obtain rfl : a = e := Option.some.inj he
    obtain ⟨ha, hn⟩ := List.nodup_cons.mp hn
    simp only [toChains, flowAll, flowAtAll, flow, flowAt, if_true, reduceCtorEq, if_false, bot_sup_eq] at hU hk hl ⊢
    obtain ⟨h1, h2⟩ := ih lp k hr hn _ _ U ht (fun c => le_sup_right.trans (hU c)) hk hl
    refine ⟨?_, fun id hid φ t hed => ?_⟩
    · exact le_trans (by simp) (hU a)
    · rcases List.mem_cons.mp hid with rfl | hid
      · obtain ⟨rfl, rfl⟩ := hed.goto_inv hb ho
        rw [flowAtAll_out T rest _ _ ha, if_pos rfl, sup_bot_eq]
        exact h1
      · rw [if_neg (show ¬ a = id from fun e => ha (e ▸ hid)), bot_sup_eq]
        exact h2 id hid φ t hed
  | sel a l r h w rest ihl ihr ih =>
    rintro lp k ⟨b, op, sm, hb, -, ho, -, rfl, hm, htl, htr, hl, hr, hrest⟩ hn e x U he hU hk hlp
    obtain rfl : a = e := Option.some.inj he
    obtain ⟨ha, hn⟩ := List.nodup_cons.mp hn
    rw [List.mem_append, List.mem_append, not_or, not_or] at ha
    obtain ⟨hn, hn3, hd⟩ := List.nodup_append.mp hn
    obtain ⟨hn1, hn2, hd'⟩ := List.nodup_append.mp hn
    simp only [toChains, flowAll, flowAtAll, flow, flowAt, flow_toChain, flowAt_toChain, if_true, reduceCtorEq, if_false,
      bot_sup_eq] at hU hk hlp ⊢
    obtain ⟨h1, h2⟩ := ih lp k hrest hn3 _ _ U hm (fun c => le_sup_right.trans (hU c)) hk
      (fun h m e => ⟨le_sup_right.trans (hlp h m e).1, le_sup_right.trans (hlp h m e).2⟩)
    obtain ⟨l1, l2⟩ := ihl lp _ hl hn1 _ _ U htl
      (fun c => (le_sup_left.trans (le_sup_right.trans le_sup_left)).trans (hU c))
      (fun c hc => by cases hc; exact le_sup_left.trans h1)
      (fun h m e => ⟨(le_sup_left.trans le_sup_left).trans (hlp h m e).1, (le_sup_left.trans le_sup_left).trans (hlp h m e).2⟩)
    obtain ⟨r1, r2⟩ := ihr lp _ hr hn2 _ _ U htr
      (fun c => (le_sup_right.trans (le_sup_right.trans le_sup_left)).trans (hU c))
      (fun c hc => by cases hc; exact le_sup_right.trans h1)
      (fun h m e => ⟨(le_sup_right.trans le_sup_left).trans (hlp h m e).1, (le_sup_right.trans le_sup_left).trans (hlp h m e).2⟩)
    refine ⟨?_, fun id hid φ t hed => ?_⟩
    · exact le_trans (by simp [sup_assoc]) (hU a)
    · rcases List.mem_cons.mp hid with rfl | hid
      · rw [flowAtAll_out T rest _ _ ha.2, flowAtAll_out T l _ _ ha.1.1, flowAtAll_out T r _ _ ha.1.2, if_pos rfl,
          sup_bot_eq, sup_bot_eq, sup_bot_eq]
        obtain ⟨d, rfl, rfl⟩ := hed.choose_inv hb ho
        cases d
        · exact r1
        · exact l1
      · rcases List.mem_append.mp hid with hid' | hid'
        · rw [flowAtAll_out T rest _ _ (fun h => hd _ hid' _ h rfl), sup_bot_eq]
          rcases List.mem_append.mp hid' with h | h
          · rw [flowAtAll_out T r _ _ (fun h' => hd' _ h _ h' rfl), if_neg (show ¬ a = id from fun e => ha.1.1 (e ▸ h)), bot_sup_eq, sup_bot_eq]
            exact l2 id h φ t hed
          · rw [flowAtAll_out T l _ _ (fun h' => hd' _ h' _ h rfl), if_neg (show ¬ a = id from fun e => ha.1.2 (e ▸ h)), bot_sup_eq, bot_sup_eq]
            exact r2 id h φ t hed
        · have hno : id ∉ l.ids ++ r.ids := fun h => hd _ h _ hid' rfl
          rw [List.mem_append, not_or] at hno
          rw [flowAtAll_out T l _ _ hno.1, flowAtAll_out T r _ _ hno.2, if_neg (show ¬ a = id from fun e => ha.2 (e ▸ hid')), bot_sup_eq,
            bot_sup_eq, bot_sup_eq]
          exact h2 id hid' φ t hed
  | loop a body h rest ihb ih =>
    rintro lp k ⟨b, op, lm, hb, -, ho, -, hm, ht, hbody, hrest⟩ hn e x U he hU hk hlp
    obtain rfl : a = e := Option.some.inj he
    obtain ⟨ha, hn⟩ := List.nodup_cons.mp hn
    rw [List.mem_append, not_or] at ha
    obtain ⟨hn1, hn2, hd⟩ := List.nodup_append.mp hn
    have cov := top_covers hT a body.toChain x
    have cx := le_sup_left.trans cov
    have cn := (le_sup_left.trans le_sup_right).trans cov
    have cc := (le_sup_right.trans le_sup_right).trans cov
    simp only [toChains, flowAll, flowAtAll, flow, flowAt, if_true, reduceCtorEq, if_false, bot_sup_eq] at hU hk hlp ⊢
    change ∀ c, ((if a = c then top T a body.toChain x else ⊥) ⊔ flowAt T c body.toChain (T.block a (top T a body.toChain x))) ⊔
      flowAtAll T c rest.toChains (flow T body.toChain .breaks (T.block a (top T a body.toChain x))) ≤ U c at hU
    change _ ∧ ∀ id ∈ ids _, ∀ (φ : L → L) (t : BlockId), Edge blocks T id φ t → φ (((if a = id then top T a body.toChain x else ⊥) ⊔
      flowAt T id body.toChain (T.block a (top T a body.toChain x))) ⊔
      flowAtAll T id rest.toChains (flow T body.toChain .breaks (T.block a (top T a body.toChain x)))) ≤ U t
    change ∀ c, k = some c → flowAll T rest.toChains .next
      (flow T body.toChain .breaks (T.block a (top T a body.toChain x))) ≤ U c at hk
    change ∀ h m, lp = some (h, m) → flowAll T rest.toChains .breaks
      (flow T body.toChain .breaks (T.block a (top T a body.toChain x))) ≤ U m ∧ flowAll T rest.toChains .continues
      (flow T body.toChain .breaks (T.block a (top T a body.toChain x))) ≤ U h at hlp
    generalize top T a body.toChain x = y at *
    have hy : y ≤ U a := le_trans (by simp [sup_assoc]) (hU a)
    simp only [flow_toChain, flowAt_toChain] at *
    obtain ⟨h1, h2⟩ := ih lp k hrest hn2 _ _ U hm (fun c => le_sup_right.trans (hU c)) hk hlp
    obtain ⟨b1, b2⟩ := ihb _ _ hbody hn1 _ _ U ht (fun c => (le_sup_right.trans le_sup_left).trans (hU c))
      (fun c hc => by cases hc; exact cn.trans hy)
      (fun h m e => by cases e; exact ⟨h1, cc.trans hy⟩)
    refine ⟨cx.trans hy, fun id hid φ t hed => ?_⟩
    rcases List.mem_cons.mp hid with rfl | hid
    · obtain ⟨rfl, rfl⟩ := hed.goto_inv hb ho
      rw [flowAtAll_out T rest _ _ ha.2, flowAtAll_out T body _ _ ha.1, if_pos rfl, sup_bot_eq, sup_bot_eq]
      exact b1
    · rcases List.mem_append.mp hid with h | h
      · rw [flowAtAll_out T rest _ _ (fun h' => hd _ h _ h' rfl), if_neg (show ¬ a = id from fun e => ha.1 (e ▸ h)), bot_sup_eq, sup_bot_eq]
        exact b2 id h φ t hed
      · rw [flowAtAll_out T body _ _ (fun h' => hd _ h' _ h rfl), if_neg (show ¬ a = id from fun e => ha.2 (e ▸ h)), bot_sup_eq, bot_sup_eq]
        exact h2 id h φ t hed
  | exit a brk w rest ih =>
    rintro lp k ⟨head, merge, b, op, rfl, rfl, hb, -, ho, rfl, hf, ht, hrest⟩ hn e x U he hU hk hlp
    obtain rfl : a = e := Option.some.inj he
    obtain ⟨ha, hn⟩ := List.nodup_cons.mp hn
    simp only [toChains, flowAll_one, flowAtAll_one, flow, flowAt, flow_toChain, flowAt_toChain] at hU hk hlp ⊢
    obtain ⟨h1, h2⟩ := ih _ _ hrest hn _ _ U ht (fun c => (le_sup_left.trans le_sup_right).trans (hU c))
      (fun c hc => le_sup_left.trans (hk c hc))
      (fun h m e => ⟨le_sup_left.trans (hlp h m e).1, le_sup_left.trans (hlp h m e).2⟩)
    have h3 : T.decide a false (T.block a x) ≤ U ⟨op.false_label.val⟩ := by
      rw [hf]
      cases brk
      · exact le_trans (by simp [flow]) (hlp _ _ rfl).2
      · exact le_trans (by simp [flow]) (hlp _ _ rfl).1
    have hno : ∀ c z, flowAt T c (if brk then .Break else .Continue) z = ⊥ := fun c z => by cases brk <;> rfl
    refine ⟨?_, fun id hid φ t hed => ?_⟩
    · exact le_trans (by simp) (hU a)
    · rcases List.mem_cons.mp hid with rfl | hid
      · rw [hno, flowAtAll_out T rest _ _ ha, if_pos rfl, sup_bot_eq, sup_bot_eq]
        obtain ⟨d, rfl, rfl⟩ := hed.choose_inv hb ho
        cases d
        · exact h3
        · exact h1
      · rw [hno, if_neg (show ¬ a = id from fun e => ha (e ▸ hid)), bot_sup_eq, sup_bot_eq]
        exact h2 id hid φ t hed

end

/-! ### States -/

section
variable {σ : Type} (M : Rules σ)

theorem collect_distributive : M.collect.Distributive := by
  constructor
  · intro id S
    ext st
    simp only [Rules.collect, Set.sSup_eq_sUnion, Set.mem_ofPred_eq, Set.mem_sUnion, Set.mem_image]
    constructor
    · rintro ⟨st', ⟨A, hA, hs⟩, hr⟩
      exact ⟨_, ⟨A, hA, rfl⟩, st', hs, hr⟩
    · rintro ⟨_, ⟨A, hA, rfl⟩, st', hs, hr⟩
      exact ⟨st', ⟨A, hA, hs⟩, hr⟩
  · intro id d S
    ext st
    simp only [Rules.collect, Set.sSup_eq_sUnion, Set.mem_ofPred_eq, Set.mem_sUnion, Set.mem_image]
    constructor
    · rintro ⟨⟨A, hA, hs⟩, hr⟩
      exact ⟨_, ⟨A, hA, rfl⟩, hs, hr⟩
    · rintro ⟨_, ⟨A, hA, rfl⟩, hs, hr⟩
      exact ⟨⟨A, hA, hs⟩, hr⟩

theorem comes_iff (blocks : List (BasicBlock X)) (first : BlockId) (start : Set σ) (b : BlockId) (st : σ) :
    Comes blocks M first start b st ↔ st ∈ sSup {v | Arrives blocks M.collect first start b v} := by
  constructor
  · intro h
    induction h with
    | here h => exact ⟨_, .here, h⟩
    | goto _ hr hb ho ih =>
      obtain ⟨v, hv, hs⟩ := ih
      exact ⟨_, .goto hv hb ho, _, hs, hr⟩
    | choose d _ hr hc hb ho ih =>
      obtain ⟨v, hv, hs⟩ := ih
      exact ⟨_, .choose d hv hb ho, ⟨_, hs, hr⟩, hc⟩
  · rintro ⟨v, hv, hs⟩
    replace hv : Arrives blocks M.collect first start b v := hv
    induction hv generalizing st with
    | here => exact .here hs
    | goto _ hb ho ih =>
      obtain ⟨st', hs', hr⟩ := hs
      exact .goto (ih st' hs') hr hb ho
    | choose d _ hb ho ih =>
      obtain ⟨⟨st', hs', hr⟩, hc⟩ := hs
      exact .choose d (ih st' hs') hr hc hb ho

end

end Magma.Dataflow
