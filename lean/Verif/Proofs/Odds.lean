import Verif.Spec.Odds
import Verif.Spec.Structured
import Mathlib.Analysis.SpecificLimits.Basic
/-! Lemmas: average costs of basic blocks and of the program they spell. -/

namespace Magma.Odds
open Spec Spec.Program
open scoped ENNReal
variable {X : Type}

/-- Costs on the way, and a reward for returning -/
noncomputable def value (blocks : List (BasicBlock X)) (guess cost : BlockId → ℝ≥0∞) (T : ℝ≥0∞) : Nat → BlockId → ℝ≥0∞
  | 0, _ => 0
  | n + 1, id =>
    match blockOf blocks id with
    | none => 0
    | some b =>
      match b.branch with
      | .OpReturn _ => cost id + T
      | .OpBranch op => cost id + value blocks guess cost T n ⟨op.target_label.val⟩
      | .OpBranchConditional op => cost id +
        (odds guess id op.weights * value blocks guess cost T n ⟨op.true_label.val⟩ +
          (1 - odds guess id op.weights) * value blocks guess cost T n ⟨op.false_label.val⟩)

theorem value_cost (blocks : List (BasicBlock X)) (guess cost : BlockId → ℝ≥0∞) : ∀ n id,
    meanCost blocks guess cost n id = value blocks guess cost 0 n id := by
  intro n
  induction n with
  | zero => intro id; rfl
  | succ n ih =>
    intro id
    rw [meanCost, value]
    cases hb : blockOf blocks id with
    | none => rfl
    | some b => cases ho : b.branch <;> simp only [ho, ih, add_zero]

theorem value_returns (blocks : List (BasicBlock X)) (guess : BlockId → ℝ≥0∞) : ∀ n id,
    returnChance blocks guess n id = value blocks guess (fun _ => 0) 1 n id := by
  intro n
  induction n with
  | zero => intro id; rfl
  | succ n ih =>
    intro id
    rw [returnChance, value]
    cases hb : blockOf blocks id with
    | none => rfl
    | some b => cases ho : b.branch <;> simp only [ho, ih, zero_add]

section
variable (blocks : List (BasicBlock X)) (guess cost : BlockId → ℝ≥0∞) (T : ℝ≥0∞)

theorem value_succ : ∀ n id, value blocks guess cost T n id ≤ value blocks guess cost T (n + 1) id := by
  intro n
  induction n with
  | zero => intro id; exact bot_le
  | succ n ih =>
    intro id
    rw [value, value]
    split
    · exact le_refl _
    · split
      · exact le_refl _
      · exact add_le_add_right (ih _) _
      · exact add_le_add_right (add_le_add (mul_le_mul_right (ih _) _) (mul_le_mul_right (ih _) _)) _

theorem value_mono (id : BlockId) : Monotone fun n => value blocks guess cost T n id :=
  monotone_nat_of_le_succ fun n => value_succ blocks guess cost T n id

/-- In the long run -/
noncomputable def limit (id : BlockId) : ℝ≥0∞ := ⨆ n, value blocks guess cost T n id

theorem value_le (n : Nat) (id : BlockId) : value blocks guess cost T n id ≤ limit blocks guess cost T id :=
  le_iSup (fun n => value blocks guess cost T n id) n

theorem limit_succ (id : BlockId) : limit blocks guess cost T id = ⨆ n, value blocks guess cost T (n + 1) id :=
  ((value_mono blocks guess cost T id).iSup_nat_add 1).symm

theorem limit_goto {id : BlockId} {b : BasicBlock X} (hb : blockOf blocks id = some b) {op : OpBranch}
    (ho : b.branch = .OpBranch op) :
    limit blocks guess cost T id = cost id + limit blocks guess cost T ⟨op.target_label.val⟩ := by
  rw [limit_succ]
  simp only [value, hb, ho]
  rw [limit, ENNReal.add_iSup]

theorem limit_choose {id : BlockId} {b : BasicBlock X} (hb : blockOf blocks id = some b) {op : OpBranchConditional}
    (ho : b.branch = .OpBranchConditional op) :
    limit blocks guess cost T id = cost id + (odds guess id op.weights * limit blocks guess cost T ⟨op.true_label.val⟩ +
      (1 - odds guess id op.weights) * limit blocks guess cost T ⟨op.false_label.val⟩) := by
  rw [limit_succ]
  simp only [value, hb, ho]
  rw [← ENNReal.add_iSup, limit, limit, ENNReal.mul_iSup, ENNReal.mul_iSup, ENNReal.iSup_add_iSup_of_monotone]
  · exact fun i j h => mul_le_mul_right (value_mono _ _ _ _ _ h) _
  · exact fun i j h => mul_le_mul_right (value_mono _ _ _ _ _ h) _

theorem limit_return {id : BlockId} {b : BasicBlock X} (hb : blockOf blocks id = some b) {op : OpReturn}
    (ho : b.branch = .OpReturn op) : limit blocks guess cost T id = cost id + T := by
  rw [limit_succ]
  simp only [value, hb, ho, iSup_const]

end

/-! ### Rounds of a loop -/

theorem rounds_unfold (q : ℝ≥0∞) : (1 - q)⁻¹ = 1 + q * (1 - q)⁻¹ := by
  rw [← ENNReal.tsum_geometric, ← ENNReal.tsum_mul_left]
  conv_lhs => rw [tsum_eq_zero_add' ENNReal.summable, pow_zero]
  simp only [pow_succ']

theorem rounds_le {q a e : ℝ≥0∞} (h : a + q * e ≤ e) : (1 - q)⁻¹ * a ≤ e := by
  rw [← ENNReal.tsum_geometric, ← ENNReal.tsum_mul_right, ENNReal.tsum_eq_iSup_nat]
  refine iSup_le fun n => ?_
  induction n with
  | zero => simp
  | succ n ih =>
    rw [Finset.sum_range_succ']
    simp only [pow_succ', pow_zero, one_mul, mul_assoc, ← Finset.mul_sum]
    rw [add_comm]
    exact (add_le_add_right (mul_le_mul_right ih q) a).trans h

/-! ### The program that blocks spell -/

/-- Where control goes, or the reward -/
def after (v : BlockId → ℝ≥0∞) (T : ℝ≥0∞) : Option BlockId → ℝ≥0∞
  | some id => v id
  | none => T

/-- What is left to do after a program, by the way it ends -/
noncomputable def onward (v : BlockId → ℝ≥0∞) (T : ℝ≥0∞) (lp : Option (BlockId × BlockId))
    (k : Option BlockId) (p : Signal → ℝ≥0∞) : ℝ≥0∞ :=
  p .next * after v T k + (p .breaks * after v 0 (lp.map Prod.snd) + p .continues * after v 0 (lp.map Prod.fst))

section
variable (guess cost : BlockId → ℝ≥0∞)

theorem chanceAll_one (chain : ControlFlowChain) (s : Signal) : chanceAll guess [chain] s = chance guess chain s := by
  by_cases h : s = .next <;> simp [chanceAll, h]

theorem averageAll_one (chain : ControlFlowChain) : averageAll guess cost [chain] = average guess cost chain := by
  simp [averageAll]

theorem chance_toChain (s : Program) (r : Signal) : chance guess s.toChain r = chanceAll guess s.toChains r := by
  cases s <;> simp only [toChain, toChains, chance, chanceAll_one]

theorem average_toChain (s : Program) : average guess cost s.toChain = averageAll guess cost s.toChains := by
  cases s <;> simp only [toChain, toChains, average, averageAll_one]

theorem onward_cons (v : BlockId → ℝ≥0∞) (T : ℝ≥0∞) (lp : Option (BlockId × BlockId)) (k : Option BlockId)
    (chain : ControlFlowChain) (chains : List ControlFlowChain) :
    onward v T lp k (chanceAll guess (chain :: chains)) =
      chance guess chain .next * onward v T lp k (chanceAll guess chains) +
        (chance guess chain .breaks * after v 0 (lp.map Prod.snd) +
          chance guess chain .continues * after v 0 (lp.map Prod.fst)) := by
  simp only [onward, chanceAll, if_true, reduceCtorEq, if_false, zero_add]
  ring

end

theorem after_mono {v v' : BlockId → ℝ≥0∞} (h : ∀ id, v id ≤ v' id) (T : ℝ≥0∞) (k : Option BlockId) :
    after v T k ≤ after v' T k := by
  cases k
  · exact le_refl _
  · exact h _

section
variable {blocks : List (BasicBlock X)} {guess cost : BlockId → ℝ≥0∞} {T : ℝ≥0∞}

/-- The step from a block to what a program after it is worth, from `n` to `n + 1` -/
theorem weaken {e : ℝ≥0∞} {n : Nat} {lp : Option (BlockId × BlockId)} {k : Option BlockId} {a M : ℝ≥0∞} {p : Signal → ℝ≥0∞}
    (h : e ≤ a + onward (value blocks guess cost T n) T lp k p)
    (hM : after (value blocks guess cost T n) T k ≤ M) :
    e ≤ a + (p .next * M + (p .breaks * after (value blocks guess cost T (n + 1)) 0 (lp.map Prod.snd) +
      p .continues * after (value blocks guess cost T (n + 1)) 0 (lp.map Prod.fst))) := by
  refine h.trans ?_
  have h1 := after_mono (value_succ blocks guess cost T n) 0 (lp.map Prod.snd)
  have h2 := after_mono (value_succ blocks guess cost T n) 0 (lp.map Prod.fst)
  rw [onward]
  gcongr

theorem upper : ∀ (s : Program) (lp : Option (BlockId × BlockId)) (k : Option BlockId), SpelledBy blocks lp k s →
    ∀ (n : Nat) (id : BlockId), s.entry k = some id → value blocks guess cost T n id ≤
      averageAll guess cost s.toChains + onward (value blocks guess cost T n) T lp k (chanceAll guess s.toChains) := by
  intro s
  induction s with
  | done =>
    rintro lp k - n id he
    rw [show k = some id from he]
    simp [toChains, averageAll, onward, chanceAll, after]
  | ret a =>
    rintro lp k ⟨rfl, b, r, hb, ho⟩ n id he
    obtain rfl : a = id := Option.some.inj he
    cases n with
    | zero => exact bot_le
    | succ n => simp [value, hb, ho, toChains, averageAll, average, onward, chance, chanceAll, after]
  | atom a rest ih =>
    rintro lp k ⟨⟨b, op, hb, -, ho, ht⟩, hr⟩ n id he
    obtain rfl : a = id := Option.some.inj he
    cases n with
    | zero => exact bot_le
    | succ n =>
      have h := (ih lp k hr n _ ht).trans (add_le_add_right (a := averageAll guess cost rest.toChains) (show _ ≤ onward (value blocks guess cost T (n + 1)) T lp k _ by
        have h0 := after_mono (value_succ blocks guess cost T n) T k
        have h1 := after_mono (value_succ blocks guess cost T n) 0 (lp.map Prod.snd)
        have h2 := after_mono (value_succ blocks guess cost T n) 0 (lp.map Prod.fst)
        rw [onward, onward]
        gcongr))
      simp only [toChains, averageAll, average, onward_cons, chance, if_true, reduceCtorEq, if_false, one_mul, zero_mul,
        add_zero]
      rw [value]
      simp only [hb, ho, add_assoc]
      exact add_le_add_right h _
  | sel a l r h w rest ihl ihr ih =>
    rintro lp k ⟨b, op, sm, hb, -, ho, -, rfl, hm, htl, htr, hl, hr, hrest⟩ n id he
    obtain rfl : a = id := Option.some.inj he
    cases n with
    | zero => exact bot_le
    | succ n =>
      have hM := (value_succ blocks guess cost T n _).trans (ih lp k hrest (n + 1) _ hm)
      have h1 := weaken (ihl lp _ hl n _ htl) hM
      have h2 := weaken (ihr lp _ hr n _ htr) hM
      simp only [toChains, averageAll, average, onward_cons, chance, chance_toChain, average_toChain]
      rw [value]
      simp only [hb, ho]
      refine (add_le_add_right (add_le_add (mul_le_mul_right h1 _) (mul_le_mul_right h2 _)) _).trans (le_of_eq ?_)
      ring
  | loop a body h rest ihb ih =>
    rintro lp k ⟨b, op, lm, hb, -, ho, -, hm, ht, hbody, hrest⟩ n id he
    obtain rfl : a = id := Option.some.inj he
    simp only [toChains, averageAll, average, onward_cons, chance, chance_toChain, average_toChain, if_true, reduceCtorEq,
      if_false, zero_mul, add_zero]
    have key : ∀ n, value blocks guess cost T n a ≤
        (1 - (chanceAll guess body.toChains .next + chanceAll guess body.toChains .continues))⁻¹ *
          (cost a + averageAll guess cost body.toChains + chanceAll guess body.toChains .breaks *
            value blocks guess cost T n ⟨lm.merge_block.val⟩) := by
      intro n
      induction n with
      | zero => exact bot_le
      | succ n ihn =>
        have h1 := ihb _ _ hbody n _ ht
        have hv := value_succ blocks guess cost T n ⟨lm.merge_block.val⟩
        rw [onward] at h1
        simp only [Option.map_some, after] at h1
        rw [value]
        simp only [hb, ho]
        refine (add_le_add_right h1 _).trans ?_
        rw [rounds_unfold]
        generalize (1 - (chanceAll guess body.toChains .next + chanceAll guess body.toChains .continues))⁻¹ = R at ihn ⊢
        calc _ ≤ cost a + (averageAll guess cost body.toChains + (chanceAll guess body.toChains .next *
              (R * (cost a + averageAll guess cost body.toChains + chanceAll guess body.toChains .breaks *
                value blocks guess cost T (n + 1) ⟨lm.merge_block.val⟩)) + (chanceAll guess body.toChains .breaks *
                  value blocks guess cost T (n + 1) ⟨lm.merge_block.val⟩ + chanceAll guess body.toChains .continues *
              (R * (cost a + averageAll guess cost body.toChains + chanceAll guess body.toChains .breaks *
                value blocks guess cost T (n + 1) ⟨lm.merge_block.val⟩))))) := by
              have ihn' := ihn.trans (mul_le_mul_right (add_le_add_right (mul_le_mul_right hv _) _) _)
              gcongr
          _ = _ := by ring
    refine (key n).trans ?_
    refine (mul_le_mul_right (add_le_add_right (mul_le_mul_right (ih lp k hrest n _ hm) _) _) _).trans (le_of_eq ?_)
    ring
  | exit a brk w rest ih =>
    rintro lp k ⟨head, merge, b, op, rfl, rfl, hb, -, ho, rfl, hf, ht, hrest⟩ n id he
    obtain rfl : a = id := Option.some.inj he
    cases n with
    | zero => exact bot_le
    | succ n =>
      have h1 := weaken (ih _ _ hrest n _ ht) (value_succ blocks guess cost T n head)
      simp only [toChains, averageAll, average, onward_cons, chance, chance_toChain, average_toChain]
      rw [value]
      simp only [hb, ho]
      rw [hf]
      have h2 := value_succ blocks guess cost T n head
      have h3 := value_succ blocks guess cost T n merge
      cases brk
      · simp only [Bool.false_eq_true, if_false, average, chance, reduceCtorEq, if_true, chanceAll, onward, Option.map_some, after] at h1 ⊢
        calc _ ≤ _ := add_le_add_right (add_le_add (mul_le_mul_right h1 _) (mul_le_mul_right h2 _)) _
          _ = _ := by ring
      · simp only [if_false, average, chance, reduceCtorEq, if_true, chanceAll, onward, Option.map_some, after] at h1 ⊢
        calc _ ≤ _ := add_le_add_right (add_le_add (mul_le_mul_right h1 _) (mul_le_mul_right h3 _)) _
          _ = _ := by ring

theorem lower : ∀ (s : Program) (lp : Option (BlockId × BlockId)) (k : Option BlockId), SpelledBy blocks lp k s →
    ∀ (id : BlockId), s.entry k = some id →
      averageAll guess cost s.toChains + onward (limit blocks guess cost T) T lp k (chanceAll guess s.toChains) ≤
        limit blocks guess cost T id := by
  intro s
  induction s with
  | done =>
    rintro lp k - id he
    rw [show k = some id from he]
    simp [toChains, averageAll, onward, chanceAll, after]
  | ret a =>
    rintro lp k ⟨rfl, b, r, hb, ho⟩ id he
    obtain rfl : a = id := Option.some.inj he
    rw [limit_return _ _ _ _ hb ho]
    simp [toChains, averageAll, average, onward, chance, chanceAll, after]
  | atom a rest ih =>
    rintro lp k ⟨⟨b, op, hb, -, ho, ht⟩, hr⟩ id he
    obtain rfl : a = id := Option.some.inj he
    rw [limit_goto _ _ _ _ hb ho]
    simp only [toChains, averageAll, average, onward_cons, chance, if_true, reduceCtorEq, if_false, one_mul, zero_mul,
      add_zero]
    rw [add_assoc]
    exact add_le_add_right (ih lp k hr _ ht) _
  | sel a l r h w rest ihl ihr ih =>
    rintro lp k ⟨b, op, sm, hb, -, ho, -, rfl, hm, htl, htr, hl, hr, hrest⟩ id he
    obtain rfl : a = id := Option.some.inj he
    rw [limit_choose _ _ _ _ hb ho]
    have hM := ih lp k hrest _ hm
    have h1 := ihl lp _ hl _ htl
    have h2 := ihr lp _ hr _ htr
    simp only [toChains, averageAll, average, onward_cons, chance, chance_toChain, average_toChain]
    refine le_trans ?_ (add_le_add_right (add_le_add (mul_le_mul_right h1 _) (mul_le_mul_right h2 _)) _)
    rw [onward.eq_1 _ _ _ (some _), onward.eq_1 _ _ _ (some _)]
    simp only [after]
    refine le_trans (le_of_eq ?_) (add_le_add_right (add_le_add
      (mul_le_mul_right (add_le_add_right (add_le_add_left (mul_le_mul_right hM _) _) _) _)
      (mul_le_mul_right (add_le_add_right (add_le_add_left (mul_le_mul_right hM _) _) _) _)) _)
    ring
  | loop a body h rest ihb ih =>
    rintro lp k ⟨b, op, lm, hb, -, ho, -, hm, ht, hbody, hrest⟩ id he
    obtain rfl : a = id := Option.some.inj he
    simp only [toChains, averageAll, average, onward_cons, chance, chance_toChain, average_toChain, if_true, reduceCtorEq,
      if_false, zero_mul, add_zero]
    have hM := ih lp k hrest _ hm
    have h1 := ihb _ _ hbody _ ht
    rw [onward] at h1
    simp only [Option.map_some, after] at h1
    have hl := limit_goto blocks guess cost T hb ho
    have key := rounds_le (q := chanceAll guess body.toChains .next + chanceAll guess body.toChains .continues)
      (a := cost a + averageAll guess cost body.toChains + chanceAll guess body.toChains .breaks *
        limit blocks guess cost T ⟨lm.merge_block.val⟩) (e := limit blocks guess cost T a) (by
          conv_rhs => rw [hl]
          refine le_trans (le_of_eq ?_) (add_le_add_right h1 _)
          ring)
    refine le_trans (le_trans (le_of_eq ?_) (mul_le_mul_right (add_le_add_right (mul_le_mul_right hM _) _) _)) key
    ring
  | exit a brk w rest ih =>
    rintro lp k ⟨head, merge, b, op, rfl, rfl, hb, -, ho, rfl, hf, ht, hrest⟩ id he
    obtain rfl : a = id := Option.some.inj he
    rw [limit_choose _ _ _ _ hb ho, hf]
    have h1 := ih _ _ hrest _ ht
    simp only [toChains, averageAll, average, onward_cons, chance, chance_toChain, average_toChain]
    refine le_trans (le_of_eq ?_) (add_le_add_right (add_le_add_left (mul_le_mul_right h1 _) _) _)
    cases brk
    · simp only [Bool.false_eq_true, if_false, average, chance, reduceCtorEq, if_true, chanceAll, onward, Option.map_some, after]
      ring
    · simp only [if_false, average, chance, reduceCtorEq, if_true, chanceAll, onward, Option.map_some, after]
      ring

theorem whole {s : Program} {id : BlockId} (hs : SpelledBy blocks none none s) (he : s.entry none = some id) :
    limit blocks guess cost T id = average guess cost s.toChain + chance guess s.toChain .next * T := by
  have e : ∀ v, onward v T none none (chanceAll guess s.toChains) = chance guess s.toChain .next * T := fun v => by
    simp [onward, after, chance_toChain]
  rw [average_toChain]
  refine le_antisymm (iSup_le fun n => ?_) ?_
  · exact (upper s none none hs n id he).trans (le_of_eq (by rw [e]))
  · exact (le_of_eq (by rw [e])).trans (lower s none none hs id he)

end

theorem average_zero (guess : BlockId → ℝ≥0∞) (s : Program) : averageAll guess (fun _ => 0) s.toChains = 0 := by
  induction s with
  | done => rfl
  | ret id => simp [toChains, averageAll, average]
  | atom id rest ih => simp [toChains, averageAll, average, ih]
  | sel id l r h w rest ihl ihr ih => simp [toChains, averageAll, average, average_toChain, ih, ihl, ihr]
  | loop id b h rest ihb ih => simp [toChains, averageAll, average, average_toChain, ih, ihb]
  | exit id brk w rest ih => cases brk <;> simp [toChains, averageAll, average, average_toChain, ih]

end Magma.Odds
