import Verif.Proofs.Odds
/-! Lemmas: how likely it is that a program ends at all. -/

namespace Magma.Odds
open Spec Spec.Program
open scoped ENNReal
variable {X : Type}

/-! ### Visits -/

theorem value_visits (blocks : List (BasicBlock X)) (guess : BlockId → ℝ≥0∞) (b : BlockId) : ∀ n id,
    value blocks guess (fun c => if c = b then 1 else 0) 0 n id =
      ∑ i ∈ Finset.range n, visitChance blocks guess b i id := by
  intro n
  induction n with
  | zero => intro id; rfl
  | succ n ih =>
    intro id
    rw [Finset.sum_range_succ', value]
    cases hb : blockOf blocks id with
    | none => simp [visitChance, hb]
    | some c =>
      cases ho : c.branch with
      | OpReturn op => simp [visitChance, hb, ho]
      | OpBranch op =>
        simp only [visitChance, hb, ho, ih, Option.isSome_some, true_and]
        rw [add_comm]
      | OpBranchConditional op =>
        simp only [visitChance, hb, ho, ih, Option.isSome_some, true_and, Finset.mul_sum, Finset.sum_add_distrib]
        rw [add_comm]

/-! ### Executions that return -/

theorem returnChance_pos {blocks : List (BasicBlock X)} {guess : BlockId → ℝ≥0∞} (h : Open blocks guess) : ∀ n id,
    returnChance blocks guess n id ≠ 0 ↔ ∃ ds : List Bool, ds.length = n ∧ (runBlocks blocks ds id).2 = .returned := by
  intro n
  induction n with
  | zero =>
    intro id
    simp only [returnChance, ne_eq, not_true_eq_false, false_iff]
    rintro ⟨ds, hl, hr⟩
    rw [List.length_eq_zero_iff.mp hl] at hr
    cases hr
  | succ n ih =>
    intro id
    rw [returnChance]
    cases hb : blockOf blocks id with
    | none =>
      simp only [ne_eq, not_true_eq_false, false_iff]
      rintro ⟨_ | ⟨d, ds⟩, hl, hr⟩
      · cases hl
      · rw [runBlocks, hb] at hr
        cases hr
    | some b =>
      cases ho : b.branch with
      | OpReturn op =>
        simp only [ho, ne_eq, one_ne_zero, not_false_eq_true, true_iff]
        refine ⟨List.replicate (n + 1) true, List.length_replicate, ?_⟩
        rw [List.replicate_succ, runBlocks, hb]
        simp only [ho]
      | OpBranch op =>
        simp only [ho, ih]
        constructor
        · rintro ⟨ds, hl, hr⟩
          refine ⟨true :: ds, by rw [List.length_cons, hl], ?_⟩
          rw [runBlocks, hb]
          simp only [ho, hr]
        · rintro ⟨_ | ⟨d, ds⟩, hl, hr⟩
          · cases hl
          · rw [runBlocks, hb] at hr
            simp only [ho] at hr
            exact ⟨ds, Nat.succ.inj hl, hr⟩
      | OpBranchConditional op =>
        obtain ⟨hp0, hp1⟩ := h id b op hb ho
        have hq : 1 - odds guess id op.weights ≠ 0 := (tsub_pos_of_lt hp1).ne'
        simp only [ho, ne_eq, add_eq_zero, mul_eq_zero, hp0.ne', hq, false_or]
        rw [not_and_or]
        refine (or_congr (ih _) (ih _)).trans ⟨?_, ?_⟩
        · rintro (⟨ds, hl, hr⟩ | ⟨ds, hl, hr⟩)
          · refine ⟨true :: ds, by rw [List.length_cons, hl], ?_⟩
            rw [runBlocks, hb]
            simp only [ho, if_true, hr]
          · refine ⟨false :: ds, by rw [List.length_cons, hl], ?_⟩
            rw [runBlocks, hb]
            simp only [ho, Bool.false_eq_true, if_false, hr]
        · rintro ⟨_ | ⟨_ | _, ds⟩, hl, hr⟩
          · cases hl
          · rw [runBlocks, hb] at hr
            simp only [ho, Bool.false_eq_true, if_false] at hr
            exact .inr ⟨ds, Nat.succ.inj hl, hr⟩
          · rw [runBlocks, hb] at hr
            simp only [ho, if_true] at hr
            exact .inl ⟨ds, Nat.succ.inj hl, hr⟩

/-! ### Parts of one -/

theorem seq_one {n m o : ℝ≥0∞} (h : n + o = 1) (hm : m = 1) : n * m + o = 1 := by rw [hm, mul_one, h]

theorem seq_le {n m o : ℝ≥0∞} (h : n + o ≤ 1) (hm : m ≤ 1) : n * m + o ≤ 1 :=
  (add_le_add_left (mul_le_of_le_one_right bot_le hm) o).trans h

theorem seq_first {n m o : ℝ≥0∞} (h : n + o < 1) (hm : m ≤ 1) : n * m + o < 1 :=
  (add_le_add_left (mul_le_of_le_one_right bot_le hm) o).trans_lt h

theorem seq_second {n m o : ℝ≥0∞} (h : n + o = 1) (hn : n ≠ 0) (hm : m < 1) : n * m + o < 1 := by
  have h1 : n ≤ 1 := h ▸ le_self_add
  have h2 : o ≤ 1 := h ▸ le_add_self
  have hn' : n ≠ ⊤ := ne_top_of_le_ne_top ENNReal.one_ne_top h1
  have ho' : o ≠ ⊤ := ne_top_of_le_ne_top ENNReal.one_ne_top h2
  rw [← h]
  refine ENNReal.add_lt_add_right ho' ?_
  calc n * m < n * 1 := ENNReal.mul_lt_mul_right hn hn' hm
    _ = n := mul_one n

theorem mix_le {p x y : ℝ≥0∞} (hp : p ≤ 1) (hx : x ≤ 1) (hy : y ≤ 1) : p * x + (1 - p) * y ≤ 1 :=
  (add_le_add (mul_le_of_le_one_right bot_le hx) (mul_le_of_le_one_right bot_le hy)).trans
    (le_of_eq (add_tsub_cancel_of_le hp))

theorem mix_one {p x y : ℝ≥0∞} (hp : p ≤ 1) (hx : x = 1) (hy : y = 1) : p * x + (1 - p) * y = 1 := by
  rw [hx, hy, mul_one, mul_one, add_tsub_cancel_of_le hp]

theorem mix_lt {p x y : ℝ≥0∞} (h0 : 0 < p) (h1 : p < 1) (hx : x ≤ 1) (hy : y ≤ 1) (h : x < 1 ∨ y < 1) :
    p * x + (1 - p) * y < 1 := by
  have hq : 1 - p ≠ 0 := (tsub_pos_of_lt h1).ne'
  have hq' : 1 - p ≠ ⊤ := ENNReal.sub_ne_top ENNReal.one_ne_top
  have hs := add_tsub_cancel_of_le h1.le
  rcases h with h | h
  · refine lt_of_le_of_lt (add_le_add_right (mul_le_of_le_one_right bot_le hy) _) ?_
    exact seq_second hs h0.ne' h
  · refine lt_of_le_of_lt (add_le_add_left (mul_le_of_le_one_right bot_le hx) _) ?_
    rw [add_comm]
    exact seq_second ((add_comm _ _).trans hs) hq h

theorem rounds_one {n b c : ℝ≥0∞} (h : n + (b + c) = 1) (hb : b ≠ 0) : (1 - (n + c))⁻¹ * b = 1 := by
  have h1 : b ≤ 1 := h ▸ (le_self_add.trans le_add_self)
  have hb' : b ≠ ⊤ := ne_top_of_le_ne_top ENNReal.one_ne_top h1
  have h2 : n + c ≠ ⊤ := ne_top_of_le_ne_top ENNReal.one_ne_top (h ▸ add_le_add_right le_add_self n)
  have h3 : 1 - (n + c) = b := by
    rw [← h, show n + (b + c) = b + (n + c) by ring]
    exact ENNReal.add_sub_cancel_right h2
  rw [h3, ENNReal.inv_mul_cancel hb hb']

theorem rounds_lt {n b c : ℝ≥0∞} (h : n + (b + c) < 1) : (1 - (n + c))⁻¹ * b < 1 := by
  have h1 : b < 1 - (n + c) := by
    rw [lt_tsub_iff_left]
    rwa [show n + c + b = n + (b + c) by ring]
  rw [mul_comm, ← div_eq_mul_inv]
  refine ENNReal.div_lt_of_lt_mul' ?_
  rwa [mul_one]

theorem rounds_le_one {n b c : ℝ≥0∞} (h : n + (b + c) ≤ 1) : (1 - (n + c))⁻¹ * b ≤ 1 := by
  have h1 : b ≤ 1 - (n + c) := by
    refine ENNReal.le_sub_of_add_le_left
      (ne_top_of_le_ne_top ENNReal.one_ne_top ((add_le_add_right le_add_self n).trans h)) ?_
    rwa [show n + c + b = n + (b + c) by ring]
  rw [mul_comm, ← div_eq_mul_inv]
  refine ENNReal.div_le_of_le_mul' ?_
  rwa [mul_one]

/-! ### Programs -/

/-- How likely it is that a program ends -/
def mass (p : Signal → ℝ≥0∞) : ℝ≥0∞ := p .next + (p .breaks + p .continues)

theorem mass_cons (guess : BlockId → ℝ≥0∞) (chain : ControlFlowChain) (chains : List ControlFlowChain) :
    mass (chanceAll guess (chain :: chains)) = chance guess chain .next * mass (chanceAll guess chains) +
      (chance guess chain .breaks + chance guess chain .continues) := by
  simp only [mass, chanceAll, if_true, reduceCtorEq, if_false, zero_add]
  ring

theorem mass_sel (guess : BlockId → ℝ≥0∞) (id : BlockId) (l r : ControlFlowChain) (h : SelectionControl)
    (w : Option BranchWeights) : mass (chance guess (.Selection id l r h w)) =
      odds guess id w * mass (chance guess l) + (1 - odds guess id w) * mass (chance guess r) := by
  simp only [mass, chance]
  ring

theorem mass_toChain (guess : BlockId → ℝ≥0∞) (s : Program) :
    mass (chance guess s.toChain) = mass (chanceAll guess s.toChains) := by
  simp only [mass, chance_toChain]

theorem exits_toChain (s : Program) : Exits s.toChain ↔ ExitsAny s.toChains := by
  cases s <;> simp [toChain, toChains, Exits, ExitsAny]

theorem loopsExit_toChain (s : Program) : LoopsExit s.toChain ↔ LoopsExitAll s.toChains := by
  cases s <;> simp [toChain, toChains, LoopsExit, LoopsExitAll]

theorem breaks_zero (guess : BlockId → ℝ≥0∞) : ∀ s : Program, ¬ ExitsAny s.toChains →
    chanceAll guess s.toChains .breaks = 0 := by
  intro s
  induction s with
  | done => intro _; simp [toChains, chanceAll]
  | ret id => intro _; simp [toChains, chanceAll, chance]
  | atom id rest ih =>
    intro h
    simp only [toChains, ExitsAny, not_or] at h
    simp [toChains, chanceAll, chance, ih h.2]
  | sel id l r hh w rest ihl ihr ih =>
    intro h
    simp only [toChains, ExitsAny, Exits, not_or, exits_toChain] at h
    simp [toChains, chanceAll, chance, chance_toChain, ihl h.1.1, ihr h.1.2, ih h.2]
  | loop id b hh rest ihb ih =>
    intro h
    simp only [toChains, ExitsAny, not_or] at h
    simp [toChains, chanceAll, chance, ih h.2]
  | exit id brk w rest ih =>
    intro h
    cases brk
    · simp only [toChains, ExitsAny, Exits, not_or, exits_toChain, Bool.false_eq_true, if_false] at h
      simp [toChains, chanceAll, chance, chance_toChain, ih h.1.1]
    · simp [toChains, ExitsAny, Exits] at h

section
variable {blocks : List (BasicBlock X)} {guess : BlockId → ℝ≥0∞}

theorem masses (ho : Open blocks guess) : ∀ (s : Program) (lp : Option (BlockId × BlockId)) (k : Option BlockId),
    SpelledBy blocks lp k s → mass (chanceAll guess s.toChains) ≤ 1 ∧
    (LoopsExitAll s.toChains → mass (chanceAll guess s.toChains) = 1 ∧ chanceAll guess s.toChains .next ≠ 0 ∧
      (ExitsAny s.toChains → chanceAll guess s.toChains .breaks ≠ 0)) ∧
    (¬ LoopsExitAll s.toChains → mass (chanceAll guess s.toChains) < 1) := by
  intro s
  induction s with
  | done =>
    intro lp k _
    simp [toChains, mass, chanceAll, LoopsExitAll, ExitsAny]
  | ret id =>
    intro lp k _
    simp [toChains, mass, chanceAll, chance, LoopsExitAll, LoopsExit, ExitsAny, Exits]
  | atom id rest ih =>
    rintro lp k ⟨-, hr⟩
    obtain ⟨h1, h2, h3⟩ := ih lp k hr
    have e : ∀ r, chanceAll guess (atom id rest).toChains r = chanceAll guess rest.toChains r := fun r => by
      cases r <;> simp [toChains, chanceAll, chance]
    have e' : mass (chanceAll guess (atom id rest).toChains) = mass (chanceAll guess rest.toChains) := by
      simp only [mass, e]
    rw [e', e, e]
    simp only [toChains, LoopsExitAll, LoopsExit, ExitsAny, Exits, true_and, false_or]
    exact ⟨h1, h2, h3⟩
  | sel id l r hh w rest ihl ihr ih =>
    rintro lp k ⟨b, op, sm, hb, -, hbr, -, rfl, -, -, -, hl, hr, hrest⟩
    obtain ⟨hp0, hp1⟩ := ho id b op hb hbr
    obtain ⟨l1, l2, l3⟩ := ihl _ _ hl
    obtain ⟨r1, r2, r3⟩ := ihr _ _ hr
    obtain ⟨m1, m2, m3⟩ := ih _ _ hrest
    have hs := mass_sel guess id l.toChain r.toChain hh op.weights
    rw [mass_toChain, mass_toChain] at hs
    have hq : 1 - odds guess id op.weights ≠ 0 := (tsub_pos_of_lt hp1).ne'
    have hn : LoopsExitAll l.toChains → LoopsExitAll r.toChains →
        chance guess (.Selection id l.toChain r.toChain hh op.weights) .next ≠ 0 := fun hel _ => by
      simp only [chance, chance_toChain]
      exact ne_of_gt (lt_of_lt_of_le (pos_iff_ne_zero.mpr (mul_ne_zero hp0.ne' (l2 hel).2.1)) le_self_add)
    simp only [toChains]
    rw [mass_cons]
    refine ⟨?_, fun he => ?_, fun he => ?_⟩
    · exact seq_le ((le_of_eq hs).trans (mix_le hp1.le l1 r1)) m1
    · simp only [LoopsExitAll, LoopsExit, loopsExit_toChain] at he
      obtain ⟨⟨hel, her⟩, hem⟩ := he
      refine ⟨seq_one (hs.trans (mix_one hp1.le (l2 hel).1 (r2 her).1)) (m2 hem).1, ?_, fun hx => ?_⟩
      · simp only [chanceAll, if_true, zero_add]
        exact mul_ne_zero (hn hel her) (m2 hem).2.1
      · simp only [ExitsAny, Exits, exits_toChain] at hx
        rw [chanceAll]
        simp only [reduceCtorEq, if_false]
        rcases hx with (hx | hx) | hx
        · have := mul_ne_zero hp0.ne' ((l2 hel).2.2 hx)
          simp only [chance, chance_toChain]
          simp [this]
        · have := mul_ne_zero hq ((r2 her).2.2 hx)
          simp only [chance, chance_toChain]
          simp [this]
        · have := mul_ne_zero (hn hel her) ((m2 hem).2.2 hx)
          simp [this]
    · simp only [LoopsExitAll, LoopsExit, loopsExit_toChain] at he
      by_cases hel : LoopsExitAll l.toChains
      · by_cases her : LoopsExitAll r.toChains
        · exact seq_second (hs.trans (mix_one hp1.le (l2 hel).1 (r2 her).1)) (hn hel her)
            (m3 fun hem => he ⟨⟨hel, her⟩, hem⟩)
        · exact seq_first (hs.trans_lt (mix_lt hp0 hp1 l1 r1 (.inr (r3 her)))) m1
      · exact seq_first (hs.trans_lt (mix_lt hp0 hp1 l1 r1 (.inl (l3 hel)))) m1
  | loop id body hh rest ihb ih =>
    rintro lp k ⟨b, op, lm, -, -, -, -, -, -, hbody, hrest⟩
    obtain ⟨b1, b2, b3⟩ := ihb _ _ hbody
    obtain ⟨m1, m2, m3⟩ := ih _ _ hrest
    simp only [toChains]
    rw [mass_cons]
    have e : chance guess (.Loop id body.toChain hh none) .next =
        (1 - (chanceAll guess body.toChains .next + chanceAll guess body.toChains .continues))⁻¹ *
          chanceAll guess body.toChains .breaks := by
      simp only [chance, chance_toChain, if_true]
    have e1 : chance guess (.Loop id body.toChain hh none) .breaks = 0 := by simp [chance]
    have e2 : chance guess (.Loop id body.toChain hh none) .continues = 0 := by simp [chance]
    rw [e1, e2, add_zero, add_zero]
    refine ⟨?_, fun he => ?_, fun he => ?_⟩
    · rw [e]
      exact mul_le_one' (rounds_le_one b1) m1
    · simp only [LoopsExitAll, LoopsExit, loopsExit_toChain, exits_toChain] at he
      obtain ⟨⟨hx, heb⟩, hem⟩ := he
      have h1 := rounds_one (b2 heb).1 ((b2 heb).2.2 hx)
      rw [← e] at h1
      refine ⟨by rw [h1, one_mul, (m2 hem).1], ?_, fun hx' => ?_⟩
      · simp only [chanceAll, if_true, zero_add, h1, one_mul]
        exact (m2 hem).2.1
      · simp only [ExitsAny, Exits, false_or] at hx'
        simp only [chanceAll, reduceCtorEq, if_false, h1, one_mul, e1, zero_add]
        exact (m2 hem).2.2 hx'
    · simp only [LoopsExitAll, LoopsExit, loopsExit_toChain, exits_toChain] at he
      by_cases hx : ExitsAny body.toChains
      · by_cases heb : LoopsExitAll body.toChains
        · have h1 := rounds_one (b2 heb).1 ((b2 heb).2.2 hx)
          rw [← e] at h1
          rw [h1, one_mul]
          exact m3 fun hem => he ⟨⟨hx, heb⟩, hem⟩
        · rw [e]
          exact lt_of_le_of_lt (mul_le_of_le_one_right bot_le m1) (rounds_lt (b3 heb))
      · rw [e, breaks_zero guess body hx, mul_zero, zero_mul]
        exact zero_lt_one
  | exit id brk w rest ih =>
    rintro lp k ⟨head, merge, b, op, rfl, rfl, hb, -, hbr, rfl, -, -, hrest⟩
    obtain ⟨hp0, hp1⟩ := ho id b op hb hbr
    obtain ⟨m1, m2, m3⟩ := ih _ _ hrest
    have hq : 1 - odds guess id op.weights ≠ 0 := (tsub_pos_of_lt hp1).ne'
    have e : mass (chanceAll guess (exit id brk op.weights rest).toChains) =
        odds guess id op.weights * mass (chanceAll guess rest.toChains) + (1 - odds guess id op.weights) * 1 := by
      simp only [toChains, mass, chanceAll_one]
      cases brk <;> simp [chance, chance_toChain] <;> ring
    have en : chanceAll guess (exit id brk op.weights rest).toChains .next =
        odds guess id op.weights * chanceAll guess rest.toChains .next := by
      simp only [toChains, chanceAll_one]
      cases brk <;> simp [chance, chance_toChain]
    rw [e, en]
    refine ⟨mix_le hp1.le m1 le_rfl, fun he => ?_, fun he => ?_⟩
    · have he1 : LoopsExitAll rest.toChains := by
        cases brk <;> simpa [toChains, LoopsExitAll, LoopsExit, loopsExit_toChain] using he
      refine ⟨mix_one hp1.le (m2 he1).1 rfl, mul_ne_zero hp0.ne' (m2 he1).2.1, fun hx => ?_⟩
      cases brk
      · have hx : ExitsAny rest.toChains := by simpa [toChains, ExitsAny, Exits, exits_toChain] using hx
        have := mul_ne_zero hp0.ne' ((m2 he1).2.2 hx)
        simpa [toChains, chanceAll_one, chance, chance_toChain] using mul_ne_zero_iff.mp this
      · simp only [toChains, chanceAll_one, chance, if_true, mul_one]
        simp only [ne_eq, add_eq_zero, hq, and_false, not_false_eq_true]
    · refine mix_lt hp0 hp1 m1 le_rfl (.inl (m3 fun h => he ?_))
      cases brk <;> simpa [toChains, LoopsExitAll, LoopsExit, loopsExit_toChain] using h

theorem no_exit : ∀ (s : Program) (k : Option BlockId), SpelledBy blocks none k s →
    chanceAll guess s.toChains .breaks = 0 ∧ chanceAll guess s.toChains .continues = 0 := by
  intro s
  induction s with
  | done => intro k _; simp [toChains, chanceAll]
  | ret id => intro k _; simp [toChains, chanceAll, chance]
  | atom id rest ih =>
    rintro k ⟨-, hr⟩
    simp [toChains, chanceAll, chance, ih _ hr]
  | sel id l r hh w rest ihl ihr ih =>
    rintro k ⟨b, op, sm, -, -, -, -, -, -, -, -, hl, hr, hrest⟩
    simp [toChains, chanceAll, chance, chance_toChain, ihl _ hl, ihr _ hr, ih _ hrest]
  | loop id body hh rest ihb ih =>
    rintro k ⟨b, op, lm, -, -, -, -, -, -, -, hrest⟩
    simp [toChains, chanceAll, chance, ih _ hrest]
  | exit id brk w rest ih =>
    rintro k ⟨head, merge, b, op, h, -⟩
    cases h

theorem certain (ho : Open blocks guess) {s : Program} (hs : SpelledBy blocks none none s) :
    (chance guess s.toChain .next = 1 ↔ LoopsExit s.toChain) ∧ chance guess s.toChain .next ≤ 1 := by
  obtain ⟨h1, h2, h3⟩ := masses ho s none none hs
  obtain ⟨e1, e2⟩ := no_exit (guess := guess) s none hs
  have e : mass (chanceAll guess s.toChains) = chance guess s.toChain .next := by
    rw [mass, e1, e2, add_zero, add_zero, chance_toChain]
  rw [e] at h1 h2 h3
  rw [loopsExit_toChain]
  exact ⟨⟨fun h => by_contra fun hn => (h3 hn).ne h, fun h => (h2 h).1⟩, h1⟩

theorem finite (ho : Open blocks guess) {cost : BlockId → ℝ≥0∞} (hc : ∀ id, cost id ≠ ⊤) :
    ∀ (s : Program) (lp : Option (BlockId × BlockId)) (k : Option BlockId),
    SpelledBy blocks lp k s → LoopsExitAll s.toChains → averageAll guess cost s.toChains ≠ ⊤ := by
  intro s
  induction s with
  | done => intro lp k _ _; simp [toChains, averageAll]
  | ret id => intro lp k _ _; simp [toChains, averageAll, average, hc]
  | atom id rest ih =>
    rintro lp k ⟨-, hr⟩ he
    simp only [toChains, averageAll, average, chance, if_true, one_mul]
    exact ENNReal.add_ne_top.mpr ⟨hc id, ih _ _ hr he.2⟩
  | sel id l r hh w rest ihl ihr ih =>
    intro lp k hs he
    obtain ⟨b, op, sm, hb, -, hbr, -, rfl, -, -, -, hl, hr, hrest⟩ := hs
    obtain ⟨hp0, hp1⟩ := ho id b op hb hbr
    simp only [toChains, LoopsExitAll, LoopsExit, loopsExit_toChain] at he
    have hn : chance guess (.Selection id l.toChain r.toChain hh op.weights) .next ≤ 1 := by
      refine le_trans ?_ ((le_of_eq (mass_sel guess id l.toChain r.toChain hh op.weights)).trans (mix_le hp1.le
        ((le_of_eq (mass_toChain guess l)).trans (masses ho _ _ _ hl).1)
        ((le_of_eq (mass_toChain guess r)).trans (masses ho _ _ _ hr).1)))
      exact le_self_add
    simp only [toChains, averageAll, average, average_toChain]
    refine ENNReal.add_ne_top.mpr ⟨ENNReal.add_ne_top.mpr ⟨hc id, ENNReal.add_ne_top.mpr ⟨?_, ?_⟩⟩, ?_⟩
    · exact ENNReal.mul_ne_top (ne_top_of_lt hp1) (ihl _ _ hl he.1.1)
    · exact ENNReal.mul_ne_top (ENNReal.sub_ne_top ENNReal.one_ne_top) (ihr _ _ hr he.1.2)
    · exact ENNReal.mul_ne_top (ne_top_of_le_ne_top ENNReal.one_ne_top hn) (ih _ _ hrest he.2)
  | loop id body hh rest ihb ih =>
    rintro lp k ⟨b, op, lm, -, -, -, -, -, -, hbody, hrest⟩ he
    simp only [toChains, LoopsExitAll, LoopsExit, loopsExit_toChain, exits_toChain] at he
    obtain ⟨⟨hx, heb⟩, hem⟩ := he
    obtain ⟨b1, b2⟩ := (masses ho _ _ _ hbody).2.1 heb
    have h1 := rounds_one b1 (b2.2 hx)
    have hR : (1 - (chanceAll guess body.toChains .next + chanceAll guess body.toChains .continues))⁻¹ ≠ ⊤ := by
      intro h
      rw [h, ENNReal.top_mul (b2.2 hx)] at h1
      exact absurd h1 (by simp)
    simp only [toChains, averageAll, average, average_toChain, chance, chance_toChain, if_true, h1, one_mul]
    exact ENNReal.add_ne_top.mpr ⟨ENNReal.mul_ne_top hR (ENNReal.add_ne_top.mpr ⟨hc id, ihb _ _ hbody heb⟩), ih _ _ hrest hem⟩
  | exit id brk w rest ih =>
    rintro lp k ⟨head, merge, b, op, rfl, rfl, hb, -, hbr, rfl, -, -, hrest⟩ he
    obtain ⟨hp0, hp1⟩ := ho id b op hb hbr
    have he : LoopsExitAll rest.toChains := by
      cases brk <;> simpa [toChains, LoopsExitAll, LoopsExit, loopsExit_toChain] using he
    have e : averageAll guess cost (exit id brk op.weights rest).toChains =
        cost id + odds guess id op.weights * averageAll guess cost rest.toChains := by
      simp only [toChains, averageAll_one]
      cases brk <;> simp [average, average_toChain]
    rw [e]
    exact ENNReal.add_ne_top.mpr ⟨hc id, ENNReal.mul_ne_top (ne_top_of_lt hp1) (ih _ _ hrest he)⟩

end

end Magma.Odds
