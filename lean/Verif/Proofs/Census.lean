import Verif.Spec.Census
import Verif.Spec.Structured
import Mathlib.Tactic.Ring
import Mathlib.Tactic.LinearCombination
/-! Lemmas: the generating function of the executions of basic blocks and of the program they spell. -/

namespace Magma.Census
open Spec Spec.Program
variable {X R : Type} [CommRing R]

theorem visits_cons (id : BlockId) (trace : List BlockId) : visits (id :: trace) = Finsupp.single id 1 + visits trace := by
  simp [visits]

theorem visits_apply (trace : List BlockId) (b : BlockId) : visits trace b = trace.count b := by
  induction trace with
  | nil => simp [visits]
  | cons a t ih =>
    rw [visits_cons, Finsupp.add_apply, ih, List.count_cons, Finsupp.single_apply, add_comm]
    simp

theorem visits_degree (trace : List BlockId) : (visits trace).degree = trace.length := by
  induction trace with
  | nil => simp [visits]
  | cons a t ih => rw [visits_cons, map_add, ih, Finsupp.degree_single, List.length_cons, add_comm]

/-- The weight of what visits blocks as often as `m` says -/
noncomputable def total (es : List (List BlockId × R)) (m : BlockId →₀ ℕ) : R :=
  open Classical in (es.map fun e => if visits e.1 = m then e.2 else 0).sum

section
variable (blocks : List (BasicBlock X)) (yes no : BlockId → Option BranchWeights → R)

/-- The generating function of executions from a block -/
noncomputable def gen (id : BlockId) : MvPowerSeries BlockId R := fun m => total (executions blocks yes no m.degree id) m

theorem total_append (es es' : List (List BlockId × R)) (m : BlockId →₀ ℕ) :
    total (es ++ es') m = total es m + total es' m := by
  simp [total]

theorem total_map (es : List (List BlockId × R)) (id : BlockId) (c : R) (m : BlockId →₀ ℕ) :
    total (es.map fun e => (id :: e.1, c * e.2)) m =
      if Finsupp.single id 1 ≤ m then c * total es (m - Finsupp.single id 1) else 0 := by
  classical
  induction es with
  | nil => simp [total]
  | cons e es ih =>
    rw [total] at ih ⊢
    simp only [List.map_cons, List.sum_cons, total] at ih ⊢
    rw [ih, visits_cons]
    by_cases h : Finsupp.single id 1 ≤ m
    · have : Finsupp.single id 1 + visits e.1 = m ↔ visits e.1 = m - Finsupp.single id 1 :=
        ⟨fun h' => by rw [← h', add_tsub_cancel_left], fun h' => by rw [h', add_tsub_cancel_of_le h]⟩
      simp only [h, if_true, this, mul_add]
      split <;> simp
    · have : Finsupp.single id 1 + visits e.1 ≠ m := fun h' => h (h' ▸ le_self_add)
      simp [h, this]

theorem coeff_step (m : BlockId →₀ ℕ) (id : BlockId) (φ : MvPowerSeries BlockId R) :
    MvPowerSeries.coeff m (.X id * φ) =
      if Finsupp.single id 1 ≤ m then MvPowerSeries.coeff (m - Finsupp.single id 1) φ else 0 := by
  classical
  rw [MvPowerSeries.X_def, MvPowerSeries.coeff_monomial_mul]
  simp

theorem degree_sub {m : BlockId →₀ ℕ} {id : BlockId} (h : Finsupp.single id 1 ≤ m) :
    m.degree = (m - Finsupp.single id 1).degree + 1 := by
  conv_lhs => rw [← tsub_add_cancel_of_le h, map_add, Finsupp.degree_single]

theorem degree_pos {m : BlockId →₀ ℕ} {id : BlockId} (h : Finsupp.single id 1 ≤ m) : ∃ n, m.degree = n + 1 :=
  ⟨_, degree_sub h⟩

theorem gen_return {id : BlockId} {b : BasicBlock X} (hb : blockOf blocks id = some b) {op : OpReturn}
    (ho : b.branch = .OpReturn op) : gen blocks yes no id = .X id := by
  classical
  ext m
  rw [MvPowerSeries.coeff_X, MvPowerSeries.coeff_apply, gen]
  cases hd : m.degree with
  | zero =>
    rw [if_neg]
    · rfl
    · rintro rfl
      simp at hd
  | succ n =>
    simp only [executions, hb, ho]
    by_cases hn : n = 0
    · have : visits [id] = Finsupp.single id 1 := by simp [visits]
      simp [hn, total, this, eq_comm]
    · rw [if_neg hn, if_neg]
      · rfl
      · rintro rfl
        simp at hd
        omega

theorem gen_goto {id : BlockId} {b : BasicBlock X} (hb : blockOf blocks id = some b) {op : OpBranch}
    (ho : b.branch = .OpBranch op) : gen blocks yes no id = .X id * gen blocks yes no ⟨op.target_label.val⟩ := by
  ext m
  rw [coeff_step, MvPowerSeries.coeff_apply, MvPowerSeries.coeff_apply, gen, gen]
  have h1 := fun es : List (List BlockId × R) => total_map es id 1 m
  simp only [one_mul] at h1
  split
  · rename_i h
    rw [degree_sub h]
    simp only [executions, hb, ho]
    rw [h1, if_pos h]
  · rename_i h
    cases m.degree with
    | zero => rfl
    | succ n =>
      simp only [executions, hb, ho]
      rw [h1, if_neg h]

theorem gen_choose {id : BlockId} {b : BasicBlock X} (hb : blockOf blocks id = some b) {op : OpBranchConditional}
    (ho : b.branch = .OpBranchConditional op) : gen blocks yes no id = .X id *
      (.C (yes id op.weights) * gen blocks yes no ⟨op.true_label.val⟩ +
        .C (no id op.weights) * gen blocks yes no ⟨op.false_label.val⟩) := by
  ext m
  rw [coeff_step, map_add, MvPowerSeries.coeff_C_mul, MvPowerSeries.coeff_C_mul, MvPowerSeries.coeff_apply,
    MvPowerSeries.coeff_apply, MvPowerSeries.coeff_apply, gen, gen, gen]
  split
  · rename_i h
    rw [degree_sub h]
    simp only [executions, hb, ho]
    rw [total_append, total_map, total_map, if_pos h, if_pos h]
  · rename_i h
    cases m.degree with
    | zero => rfl
    | succ n =>
      simp only [executions, hb, ho]
      rw [total_append, total_map, total_map, if_neg h, if_neg h, add_zero]

end

/-- Where control goes -/
def after (v : BlockId → MvPowerSeries BlockId R) (T : MvPowerSeries BlockId R) : Option BlockId → MvPowerSeries BlockId R
  | some id => v id
  | none => T

/-- What is left to do after a program, by the way it ends -/
noncomputable def onward (v : BlockId → MvPowerSeries BlockId R) (lp : Option (BlockId × BlockId))
    (k : Option BlockId) (p : Signal → MvPowerSeries BlockId R) : MvPowerSeries BlockId R :=
  p .next * after v 1 k + (p .breaks * after v 0 (lp.map Prod.snd) + p .continues * after v 0 (lp.map Prod.fst))

section
variable (yes no : BlockId → Option BranchWeights → R)

theorem censusAll_one (chain : ControlFlowChain) (s : Signal) : censusAll yes no [chain] s = census yes no chain s := by
  by_cases h : s = .next <;> simp [censusAll, h]

theorem census_toChain (s : Program) (r : Signal) : census yes no s.toChain r = censusAll yes no s.toChains r := by
  cases s <;> simp only [toChain, toChains, census, censusAll_one]

theorem onward_cons (v : BlockId → MvPowerSeries BlockId R) (lp : Option (BlockId × BlockId)) (k : Option BlockId)
    (chain : ControlFlowChain) (chains : List ControlFlowChain) :
    onward v lp k (censusAll yes no (chain :: chains)) =
      census yes no chain .next * onward v lp k (censusAll yes no chains) +
        (census yes no chain .breaks * after v 0 (lp.map Prod.snd) +
          census yes no chain .continues * after v 0 (lp.map Prod.fst)) := by
  simp only [onward, censusAll, if_true, reduceCtorEq, if_false, zero_add]
  ring

theorem rounds (id : BlockId) (q : MvPowerSeries BlockId R) :
    (1 - .X id * q) * MvPowerSeries.invOfUnit (1 - .X id * q) 1 = 1 :=
  MvPowerSeries.mul_invOfUnit _ _ (by simp)

variable {blocks : List (BasicBlock X)}

theorem spelled : ∀ (s : Program) (lp : Option (BlockId × BlockId)) (k : Option BlockId), SpelledBy blocks lp k s →
    ∀ (id : BlockId), s.entry k = some id →
      gen blocks yes no id = onward (gen blocks yes no) lp k (censusAll yes no s.toChains) := by
  intro s
  induction s with
  | done =>
    rintro lp k - id he
    rw [show k = some id from he]
    simp [toChains, onward, censusAll, after]
  | ret a =>
    rintro lp k ⟨rfl, b, r, hb, ho⟩ id he
    obtain rfl : a = id := Option.some.inj he
    rw [gen_return _ _ _ hb ho]
    simp [toChains, onward, census, censusAll, after]
  | atom a rest ih =>
    rintro lp k ⟨⟨b, op, hb, -, ho, ht⟩, hr⟩ id he
    obtain rfl : a = id := Option.some.inj he
    rw [gen_goto _ _ _ hb ho, ih lp k hr _ ht]
    simp only [toChains, onward_cons, census, if_true, reduceCtorEq, if_false, zero_mul, add_zero]
  | sel a l r h w rest ihl ihr ih =>
    rintro lp k ⟨b, op, sm, hb, -, ho, -, rfl, hm, htl, htr, hl, hr, hrest⟩ id he
    obtain rfl : a = id := Option.some.inj he
    rw [gen_choose _ _ _ hb ho, ihl lp _ hl _ htl, ihr lp _ hr _ htr]
    simp only [toChains, onward_cons, census, census_toChain]
    rw [← ih lp k hrest _ hm]
    simp only [onward, after]
    ring
  | loop a body h rest ihb ih =>
    rintro lp k ⟨b, op, lm, hb, -, ho, -, hm, ht, hbody, hrest⟩ id he
    obtain rfl : a = id := Option.some.inj he
    simp only [toChains, onward_cons, census, census_toChain, if_true, reduceCtorEq, if_false, zero_mul, add_zero]
    rw [← ih lp k hrest _ hm]
    have hg := gen_goto blocks yes no hb ho
    rw [ihb _ _ hbody _ ht] at hg
    simp only [onward, Option.map_some, after] at hg
    have hr := rounds a (censusAll yes no body.toChains .next + censusAll yes no body.toChains .continues)
    linear_combination (MvPowerSeries.invOfUnit (1 - .X a *
      (censusAll yes no body.toChains .next + censusAll yes no body.toChains .continues)) 1) * hg - gen blocks yes no a * hr
  | exit a brk w rest ih =>
    rintro lp k ⟨head, merge, b, op, rfl, rfl, hb, -, ho, rfl, hf, ht, hrest⟩ id he
    obtain rfl : a = id := Option.some.inj he
    rw [gen_choose _ _ _ hb ho, hf, ih _ _ hrest _ ht]
    simp only [toChains, onward_cons, census, census_toChain]
    cases brk
    · simp only [Bool.false_eq_true, if_false, census, reduceCtorEq, if_true, censusAll, onward, Option.map_some, after]
      ring
    · simp only [if_false, census, reduceCtorEq, if_true, censusAll, onward, Option.map_some, after]
      ring

theorem whole {s : Program} {id : BlockId} (hs : SpelledBy blocks none none s) (he : s.entry none = some id) :
    gen blocks yes no id = census yes no s.toChain .next := by
  rw [spelled yes no s none none hs id he, census_toChain]
  simp [onward, after]

end

/-! ### Traces -/

theorem visits_perm {t t' : List BlockId} : visits t = visits t' ↔ t.Perm t' := by
  rw [List.perm_iff_count, Finsupp.ext_iff]
  simp only [visits_apply]

theorem weight_one (blocks : List (BasicBlock X)) : ∀ n id,
    ∀ e ∈ executions (R := Int) blocks (fun _ _ => 1) (fun _ _ => 1) n id, e.2 = 1 := by
  intro n
  induction n with
  | zero => rintro id e ⟨⟩
  | succ n ih =>
    intro id e he
    rw [executions] at he
    cases hb : blockOf blocks id with
    | none => simp [hb] at he
    | some b =>
      cases ho : b.branch with
      | OpReturn op =>
        simp only [hb, ho] at he
        split at he
        · obtain rfl := List.mem_singleton.mp he
          rfl
        · cases he
      | OpBranch op =>
        simp only [hb, ho, List.mem_map] at he
        obtain ⟨e', he', rfl⟩ := he
        exact ih _ e' he'
      | OpBranchConditional op =>
        simp only [hb, ho, List.mem_append, List.mem_map, one_mul] at he
        rcases he with ⟨e', he', rfl⟩ | ⟨e', he', rfl⟩
        · exact ih _ e' he'
        · exact ih _ e' he'

theorem executions_iff (blocks : List (BasicBlock X)) (yes no : BlockId → Option BranchWeights → R) : ∀ trace id,
    trace ∈ (executions blocks yes no trace.length id).map Prod.fst ↔ ∃ ds, runBlocks blocks ds id = (trace, .returned) := by
  intro trace
  induction trace with
  | nil =>
    intro id
    constructor
    · rintro ⟨⟩
    · rintro ⟨ds, h⟩
      cases ds with
      | nil => cases h
      | cons d ds =>
        rw [runBlocks] at h
        cases hb : blockOf blocks id with
        | none => simp [hb] at h
        | some b => cases ho : b.branch <;> simp [hb, ho] at h
  | cons a t ih =>
    intro id
    rw [List.length_cons, executions]
    have step : (∃ ds, runBlocks blocks ds id = (a :: t, .returned)) ↔
        ∃ d ds, runBlocks blocks (d :: ds) id = (a :: t, .returned) := by
      constructor
      · rintro ⟨ds, h⟩
        cases ds with
        | nil => cases h
        | cons d ds => exact ⟨d, ds, h⟩
      · rintro ⟨d, ds, h⟩
        exact ⟨_, h⟩
    rw [step]
    simp only [runBlocks]
    cases hb : blockOf blocks id with
    | none => simp
    | some b =>
      cases ho : b.branch with
      | OpReturn op =>
        simp only [ho]
        split
        · rename_i hz
          obtain rfl := List.length_eq_zero_iff.mp hz
          simp [eq_comm]
        · rename_i hz
          constructor
          · rintro ⟨⟩
          · rintro ⟨d, ds, h⟩
            cases h
            exact absurd rfl hz
      | OpBranch op =>
        simp only [ho, List.map_map]
        constructor
        · intro h
          obtain ⟨e, he, h⟩ := List.mem_map.mp h
          cases h
          obtain ⟨ds, h⟩ := (ih _).mp (List.mem_map_of_mem (f := Prod.fst) he)
          exact ⟨true, ds, by rw [h]⟩
        · rintro ⟨d, ds, h⟩
          cases h' : runBlocks blocks ds ⟨op.target_label.val⟩
          rw [h'] at h
          cases h
          obtain ⟨e, he, rfl⟩ := List.mem_map.mp ((ih _).mpr ⟨ds, h'⟩)
          exact List.mem_map.mpr ⟨e, he, rfl⟩
      | OpBranchConditional op =>
        simp only [ho, List.map_append, List.map_map, List.mem_append]
        constructor
        · rintro (h | h)
          · obtain ⟨e, he, h⟩ := List.mem_map.mp h
            cases h
            obtain ⟨ds, h⟩ := (ih _).mp (List.mem_map_of_mem (f := Prod.fst) he)
            exact ⟨true, ds, by rw [if_pos rfl, h]⟩
          · obtain ⟨e, he, h⟩ := List.mem_map.mp h
            cases h
            obtain ⟨ds, h⟩ := (ih _).mp (List.mem_map_of_mem (f := Prod.fst) he)
            exact ⟨false, ds, by rw [if_neg (by decide), h]⟩
        · rintro ⟨d, ds, h⟩
          cases h' : runBlocks blocks ds ⟨if d = true then op.true_label.val else op.false_label.val⟩
          rw [h'] at h
          cases h
          have hm := (ih _).mpr ⟨ds, h'⟩
          cases d
          · obtain ⟨e, he, rfl⟩ := List.mem_map.mp hm
            exact .inr (List.mem_map.mpr ⟨e, he, rfl⟩)
          · obtain ⟨e, he, rfl⟩ := List.mem_map.mp hm
            exact .inl (List.mem_map.mpr ⟨e, he, rfl⟩)

end Magma.Census
