import Verif.Spec.Simt
/-! What a group of lanes does is what each of the lanes does by itself. -/

namespace Magma.Simt
open Spec
variable {X S : Type} {k : Nat}

/-- What happened to a lane is an effect. -/
structure LaneEq (g : Group k S) (i : Fin k) (e : Effect.On S) : Prop where
  signal : g.signal i = e.signal
  log : g.laneLog i = e.trace
  config : g.config i = e.config

/-- Nothing happens to a lane that is not in the mask. -/
def Idle (i : Fin k) (f : (Fin k → Bool) → (Fin k → Config S) → Group k S) : Prop :=
  ∀ mask c, mask i = false → (f mask c).laneLog i = [] ∧ (f mask c).config i = c i

theorem any_of {mask : Fin k → Bool} {i : Fin k} (h : mask i = true) : anyLane mask = true :=
  List.any_eq_true.mpr ⟨i, List.mem_finRange i, h⟩

theorem none_of {mask : Fin k → Bool} (h : anyLane mask = false) (i : Fin k) : mask i = false := by
  cases hm : mask i with
  | false => rfl
  | true => rw [any_of hm] at h; cases h

theorem laneLog_append (a b : List (BlockId × (Fin k → Bool))) (s : Fin k → Signal) (c : Fin k → Config S) (i : Fin k) :
    (⟨a ++ b, s, c⟩ : Group k S).laneLog i = (a.filter fun p => p.2 i).map (·.1) ++ (b.filter fun p => p.2 i).map (·.1) := by
  simp [Group.laneLog]

theorem laneLog_mk (a : List (BlockId × (Fin k → Bool))) (s : Fin k → Signal) (c : Fin k → Config S) (i : Fin k) :
    (⟨a, s, c⟩ : Group k S).laneLog i = (a.filter fun p => p.2 i).map (·.1) := rfl

theorem laneLog_def (g : Group k S) (i : Fin k) : (g.log.filter fun p => p.2 i).map (·.1) = g.laneLog i := rfl

variable {M : Machine X S} {blocks : List (BasicBlock X)} {i : Fin k}

/-! ### Lanes that are not active -/

theorem issue_idle (id : BlockId) : Idle i (M.issue blocks id) := by
  intro mask c h
  unfold Machine.issue
  split
  · simp [Group.laneLog, h]
  · simp [Group.laneLog]

theorem andThen_idle {f second : (Fin k → Bool) → (Fin k → Config S) → Group k S} (hf : Idle i f) (hs : Idle i second) :
    Idle i (fun mask c => (f mask c).andThen mask second) := by
  intro mask c h
  have h1 := hf mask c h
  have h2 := hs (fun i => mask i && (f mask c).signal i == .next) (f mask c).config (by simp [h])
  simp only [Group.andThen, laneLog_append, laneLog_def]
  exact ⟨by rw [h1.1, h2.1]; rfl, h2.2.trans h1.2⟩

theorem choose_idle {d : (Fin k → Config S) → Fin k → Bool} {left right : (Fin k → Bool) → (Fin k → Config S) → Group k S}
    (hl : Idle i left) (hr : Idle i right) : Idle i (fun mask c => Group.choose (d c) mask c left right) := by
  intro mask c h
  have h1 := hl (fun i => mask i && d c i) c (by simp [h])
  have h2 := hr (fun i => mask i && !d c i) (left (fun i => mask i && d c i) c).config (by simp [h])
  simp only [Group.choose, laneLog_append, laneLog_def]
  exact ⟨by rw [h1.1, h2.1]; rfl, h2.2.trans h1.2⟩

theorem rounds_idle {body : (Fin k → Bool) → (Fin k → Config S) → Group k S} (hb : Idle i body) : ∀ r, Idle i (roundsOf body r)
  | 0 => fun _ _ _ => ⟨rfl, rfl⟩
  | r + 1 => by
    intro mask c h
    rw [roundsOf]
    split
    · have h1 := hb mask c h
      have h2 := rounds_idle hb r (fun i => mask i && ((body mask c).signal i == .next || (body mask c).signal i == .continues))
        (body mask c).config (by simp [h])
      simp only [laneLog_append, laneLog_def]
      exact ⟨by rw [h1.1, h2.1]; rfl, h2.2.trans h1.2⟩
    · exact ⟨rfl, rfl⟩

mutual
theorem simt_idle (r : Nat) : ∀ chain : ControlFlowChain, Idle i (simt M blocks r chain)
  | .Atom id => by
    intro mask c h
    rw [simt]
    exact issue_idle id mask c h
  | .Block chains => by
    intro mask c h
    rw [simt]
    exact simt_all_idle r chains mask c h
  | .Selection id left right _ _ => by
    intro mask c h
    rw [simt]
    exact andThen_idle (issue_idle id) (choose_idle (d := fun c i => M.decides blocks id (c i))
      (fun mask c h => simt_idle r left mask c h) (fun mask c h => simt_idle r right mask c h)) mask c h
  | .Loop id inner _ _ => by
    intro mask c h
    rw [simt]
    exact rounds_idle (andThen_idle (issue_idle id) (fun mask c h => simt_idle r inner mask c h)) r mask c h
  | .Break => by
    intro mask c h
    rw [simt]
    exact ⟨rfl, rfl⟩
  | .Continue => by
    intro mask c h
    rw [simt]
    exact ⟨rfl, rfl⟩
theorem simt_all_idle (r : Nat) : ∀ chains : List ControlFlowChain, Idle i (simtAll M blocks r chains)
  | [] => by
    intro mask c h
    rw [simtAll]
    exact ⟨rfl, rfl⟩
  | chain :: chains => by
    intro mask c h
    rw [simtAll]
    exact andThen_idle (fun mask c h => simt_idle r chain mask c h) (fun mask c h => simt_all_idle r chains mask c h) mask c h
end

/-! ### From a lane by itself to the group -/

theorem issue_lane {id : BlockId} {mask : Fin k → Bool} {c : Fin k → Config S} (h : mask i = true) (n : Nat) :
    LaneEq (M.issue blocks id mask c) i (M.visit blocks id (n + 1) (c i)) := by
  rw [Machine.issue, if_pos (any_of h)]
  exact ⟨rfl, by simp [Group.laneLog, h, Machine.visit], by simp [h, Machine.visit]⟩

theorem andThen_lane {g : Group k S} {e : Effect.On S} {mask : Fin k → Bool} {second : (Fin k → Bool) → (Fin k → Config S) → Group k S}
    {f : Nat → Config S → Effect.On S} (hm : mask i = true) (h : LaneEq g i e) (hid : Idle i second)
    (h2 : e.signal = .next → ∀ mask c, mask i = true → c i = e.config → LaneEq (second mask c) i (f e.rest e.config)) :
    LaneEq (g.andThen mask second) i (e.andThen f) := by
  by_cases hs : e.signal = .next
  · have hgo : (mask i && g.signal i == .next) = true := by simp [hm, h.signal, hs]
    have h3 := h2 hs (fun i => mask i && g.signal i == .next) g.config hgo h.config
    refine ⟨?_, ?_, ?_⟩
    · simp only [Group.andThen, hgo, if_true, Effect.On.andThen, hs]
      exact h3.signal
    · simp only [Group.andThen, laneLog_append, laneLog_def, Effect.On.andThen, hs]
      rw [h.log, h3.log]
    · simp only [Group.andThen, Effect.On.andThen, hs]
      exact h3.config
  · have hgo : (mask i && g.signal i == .next) = false := by simp [h.signal, hs]
    have h3 := hid (fun i => mask i && g.signal i == .next) g.config hgo
    have he : e.andThen f = e := by
      unfold Effect.On.andThen
      split
      · next hn => exact absurd hn hs
      · rfl
    rw [he]
    refine ⟨?_, ?_, ?_⟩
    · simp only [Group.andThen, hgo]
      simpa using h.signal
    · simp only [Group.andThen, laneLog_append, laneLog_def]
      rw [h.log, h3.1, List.append_nil]
    · simp only [Group.andThen]
      rw [h3.2, h.config]

theorem choose_lane {d mask : Fin k → Bool} {c : Fin k → Config S} {left right : (Fin k → Bool) → (Fin k → Config S) → Group k S}
    {e : Effect.On S} (hm : mask i = true) (hl : Idle i left) (hr : Idle i right)
    (h1 : d i = true → ∀ mask, mask i = true → LaneEq (left mask c) i e)
    (h2 : d i = false → ∀ mask c', mask i = true → c' i = c i → LaneEq (right mask c') i e) :
    LaneEq (Group.choose d mask c left right) i e := by
  cases hd : d i with
  | true =>
    have h3 := h1 hd (fun i => mask i && d i) (by simp [hm, hd])
    have h4 := hr (fun i => mask i && !d i) (left (fun i => mask i && d i) c).config (by simp [hd])
    refine ⟨?_, ?_, ?_⟩
    · simp only [Group.choose, hd, if_true]
      exact h3.signal
    · simp only [Group.choose, laneLog_append, laneLog_def]
      rw [h3.log, h4.1, List.append_nil]
    · simp only [Group.choose]
      rw [h4.2, h3.config]
  | false =>
    have h3 := hl (fun i => mask i && d i) c (by simp [hd])
    have h4 := h2 hd (fun i => mask i && !d i) (left (fun i => mask i && d i) c).config (by simp [hm, hd]) h3.2
    refine ⟨?_, ?_, ?_⟩
    · simp only [Group.choose, hd]
      simpa using h4.signal
    · simp only [Group.choose, laneLog_append, laneLog_def]
      rw [h3.1, h4.log, List.nil_append]
    · simp only [Group.choose]
      exact h4.config

theorem rounds_lane {bodyS : Nat → (Fin k → Bool) → (Fin k → Config S) → Group k S} {body : Nat → Config S → Effect.On S}
    (hid : ∀ R, Idle i (bodyS R))
    (hb : ∀ n x, (body n x).signal ≠ .running → ∃ R₀, ∀ R ≥ R₀, ∀ mask c, mask i = true → c i = x →
      LaneEq (bodyS R mask c) i (body n x)) :
    ∀ r n x, (repeatOn body r n x).signal ≠ .running → ∃ R₀, ∀ R ≥ R₀, ∀ j ≥ r, ∀ mask c, mask i = true → c i = x →
      LaneEq (roundsOf (bodyS R) j mask c) i (repeatOn body r n x)
  | 0, _, _, h => absurd rfl h
  | r + 1, n, x, h => by
    have r1 : (body n x).signal ≠ .running := fun he => h (by simp [repeatOn, he])
    obtain ⟨R₁, h1⟩ := hb n x r1
    by_cases hag : (body n x).signal = .next ∨ (body n x).signal = .continues
    · have hrep : repeatOn body (r + 1) n x = ⟨(body n x).trace ++ (repeatOn body r (body n x).rest (body n x).config).trace,
          (repeatOn body r (body n x).rest (body n x).config).signal, (repeatOn body r (body n x).rest (body n x).config).rest,
          (repeatOn body r (body n x).rest (body n x).config).config⟩ := by
        rw [repeatOn]
        rcases hag with hd | hd <;> simp only [hd]
      rw [hrep] at h ⊢
      obtain ⟨R₂, h2⟩ := rounds_lane hid hb r _ _ h
      refine ⟨max R₁ R₂, fun R hR j hj mask c hm hc => ?_⟩
      obtain ⟨j, rfl⟩ : ∃ j', j = j' + 1 := ⟨j - 1, by omega⟩
      have h3 := h1 R (Nat.le_trans (Nat.le_max_left ..) hR) mask c hm hc
      have hgo : (mask i && ((bodyS R mask c).signal i == .next || (bodyS R mask c).signal i == .continues)) = true := by
        rw [h3.signal]
        rcases hag with hd | hd <;> simp [hm, hd]
      have h4 := h2 R (Nat.le_trans (Nat.le_max_right ..) hR) j (by omega)
        (fun i => mask i && ((bodyS R mask c).signal i == .next || (bodyS R mask c).signal i == .continues))
        (bodyS R mask c).config hgo h3.config
      rw [roundsOf, if_pos (any_of hm)]
      refine ⟨?_, ?_, ?_⟩
      · simp only [hgo, if_true]
        exact h4.signal
      · simp only [laneLog_append, laneLog_def]
        rw [h3.log, h4.log]
      · exact h4.config
    · have hbr : (body n x).signal = .breaks := by
        cases hs : (body n x).signal <;> simp_all
      have hrep : repeatOn body (r + 1) n x = ⟨(body n x).trace, .next, (body n x).rest, (body n x).config⟩ := by
        rw [repeatOn]
        simp only [hbr]
      rw [hrep]
      refine ⟨R₁, fun R hR j hj mask c hm hc => ?_⟩
      obtain ⟨j, rfl⟩ : ∃ j', j = j' + 1 := ⟨j - 1, by omega⟩
      have h3 := h1 R hR mask c hm hc
      have hgo : (mask i && ((bodyS R mask c).signal i == .next || (bodyS R mask c).signal i == .continues)) = false := by
        rw [h3.signal, hbr]
        simp
      have h4 := rounds_idle (hid R) j
        (fun i => mask i && ((bodyS R mask c).signal i == .next || (bodyS R mask c).signal i == .continues))
        (bodyS R mask c).config hgo
      rw [roundsOf, if_pos (any_of hm)]
      refine ⟨?_, ?_, ?_⟩
      · simp only [hgo]
        simp [h3.signal, hbr]
      · simp only [laneLog_append, laneLog_def]
        rw [h3.log, h4.1, List.append_nil]
      · exact h4.2.trans h3.config

theorem visit_runs {id : BlockId} {n : Nat} {x : Config S} {f : Nat → Config S → Effect.On S}
    (h : ((M.visit blocks id n x).andThen f).signal ≠ .running) : ∃ m, n = m + 1 ∧ (f m (M.arrive blocks id x)).signal ≠ .running := by
  cases n with
  | zero => exact absurd rfl h
  | succ m => exact ⟨m, rfl, h⟩

/-- A block and what comes after it -/
theorem visit_lane {id : BlockId} {f : Nat → Config S → Effect.On S}
    {second : Nat → (Fin k → Bool) → (Fin k → Config S) → Group k S} (hid : ∀ R, Idle i (second R)) {n : Nat} {x : Config S}
    (h2 : ∀ m, n = m + 1 → (f m (M.arrive blocks id x)).signal ≠ .running → ∃ R₀, ∀ R ≥ R₀, ∀ mask c, mask i = true →
      c i = M.arrive blocks id x → LaneEq (second R mask c) i (f m (M.arrive blocks id x)))
    (h : ((M.visit blocks id n x).andThen f).signal ≠ .running) : ∃ R₀, ∀ R ≥ R₀, ∀ mask c, mask i = true → c i = x →
      LaneEq ((M.issue blocks id mask c).andThen mask (second R)) i ((M.visit blocks id n x).andThen f) := by
  obtain ⟨m, rfl, hr⟩ := visit_runs h
  obtain ⟨R₀, h3⟩ := h2 m rfl hr
  refine ⟨R₀, fun R hR mask c hm hc => ?_⟩
  subst hc
  exact andThen_lane hm (issue_lane hm m) (hid R) fun _ mask c hm hc => h3 R hR mask c hm hc

mutual
theorem simt_lane : ∀ (chain : ControlFlowChain) (n : Nat) (x : Config S), (execOn M blocks chain n x).signal ≠ .running →
    ∃ R₀, ∀ R ≥ R₀, ∀ mask c, mask i = true → c i = x →
      LaneEq (simt M blocks R chain mask c) i (execOn M blocks chain n x)
  | .Atom id, n, x, h => by
    rw [execOn] at h ⊢
    cases n with
    | zero => exact absurd rfl h
    | succ n =>
      refine ⟨0, fun R _ mask c hm hc => ?_⟩
      rw [simt, ← hc]
      exact issue_lane hm n
  | .Block chains, n, x, h => by
    rw [execOn] at h ⊢
    simp only [simt]
    exact simt_all_lane chains n x h
  | .Selection id left right _ _, n, x, h => by
    rw [execOn] at h ⊢
    simp only [simt]
    refine visit_lane (fun R => choose_idle (d := fun c i => M.decides blocks id (c i)) (simt_idle R left) (simt_idle R right))
      (fun m _ hr => ?_) h
    cases hd : M.decides blocks id (M.arrive blocks id x) with
    | true =>
      simp only [hd, if_true] at hr ⊢
      obtain ⟨R₀, h1⟩ := simt_lane left m _ hr
      refine ⟨R₀, fun R hR mask c hm hc => choose_lane hm (simt_idle R left) (simt_idle R right)
        (fun _ mask hm => h1 R hR mask c hm hc) (fun hf => ?_)⟩
      rw [hc, hd] at hf
      cases hf
    | false =>
      simp only [hd, Bool.false_eq_true, if_false] at hr ⊢
      obtain ⟨R₀, h1⟩ := simt_lane right m _ hr
      refine ⟨R₀, fun R hR mask c hm hc => choose_lane hm (simt_idle R left) (simt_idle R right)
        (fun hf => ?_) (fun _ mask c' hm hc' => h1 R hR mask c' hm (hc'.trans hc))⟩
      rw [hc, hd] at hf
      cases hf
  | .Loop id inner _ _, n, x, h => by
    rw [execOn] at h ⊢
    simp only [simt]
    obtain ⟨R₀, h1⟩ := rounds_lane (i := i)
      (bodyS := fun R mask c => (M.issue blocks id mask c).andThen mask fun mask c => simt M blocks R inner mask c)
      (fun R => andThen_idle (issue_idle id) (simt_idle R inner))
      (fun n x hr => visit_lane (fun R => simt_idle R inner) (fun m _ hr => simt_lane inner m _ hr) hr) _ _ _ h
    exact ⟨max R₀ (n + 1), fun R hR mask c hm hc => h1 R (Nat.le_trans (Nat.le_max_left ..) hR) R
      (Nat.le_trans (Nat.le_max_right ..) hR) mask c hm hc⟩
  | .Break, n, x, _ => by
    refine ⟨0, fun R _ mask c hm hc => ?_⟩
    rw [simt, execOn]
    exact ⟨rfl, rfl, hc⟩
  | .Continue, n, x, _ => by
    refine ⟨0, fun R _ mask c hm hc => ?_⟩
    rw [simt, execOn]
    exact ⟨rfl, rfl, hc⟩
theorem simt_all_lane : ∀ (chains : List ControlFlowChain) (n : Nat) (x : Config S),
    (execAllOn M blocks chains n x).signal ≠ .running → ∃ R₀, ∀ R ≥ R₀, ∀ mask c, mask i = true → c i = x →
      LaneEq (simtAll M blocks R chains mask c) i (execAllOn M blocks chains n x)
  | [], n, x, _ => by
    refine ⟨0, fun R _ mask c hm hc => ?_⟩
    rw [simtAll, execAllOn]
    exact ⟨rfl, rfl, hc⟩
  | chain :: chains, n, x, h => by
    rw [execAllOn] at h ⊢
    simp only [simtAll]
    have r1 : (execOn M blocks chain n x).signal ≠ .running := fun he => h (by simp [Effect.On.andThen, he])
    obtain ⟨R₁, h1⟩ := simt_lane chain n x r1
    by_cases hs : (execOn M blocks chain n x).signal = .next
    · have r2 : (execAllOn M blocks chains (execOn M blocks chain n x).rest (execOn M blocks chain n x).config).signal ≠ .running := by
        simpa [Effect.On.andThen, hs] using h
      obtain ⟨R₂, h2⟩ := simt_all_lane chains _ _ r2
      exact ⟨max R₁ R₂, fun R hR mask c hm hc => andThen_lane hm (h1 R (Nat.le_trans (Nat.le_max_left ..) hR) mask c hm hc)
        (simt_all_idle R chains) fun _ mask c hm hc => h2 R (Nat.le_trans (Nat.le_max_right ..) hR) mask c hm hc⟩
    · exact ⟨R₁, fun R hR mask c hm hc => andThen_lane hm (h1 R hR mask c hm hc) (simt_all_idle R chains)
        fun hn => absurd hn hs⟩
end

/-! ### From the group to a lane by itself -/

/-- A lane ends, and by itself it does the same, with as many visits to spare as there were more than enough. -/
def Alone (g : Group k S) (i : Fin k) (f : Nat → Config S → Effect.On S) (x : Config S) (N : Nat) : Prop :=
  ∀ n, f (n + N) x = ⟨g.laneLog i, g.signal i, n, g.config i⟩

theorem issue_alone {id : BlockId} {mask : Fin k → Bool} {c : Fin k → Config S} (h : mask i = true) :
    Alone (M.issue blocks id mask c) i (M.visit blocks id) (c i) 1 := by
  intro n
  rw [Machine.issue, if_pos (any_of h)]
  simp [Group.laneLog, h, Machine.visit]

theorem andThen_alone {g : Group k S} {mask : Fin k → Bool} {second : (Fin k → Bool) → (Fin k → Config S) → Group k S}
    {f f' : Nat → Config S → Effect.On S} {x : Config S} {N : Nat} (hm : mask i = true) (h : Alone g i f x N) (hid : Idle i second)
    (h2 : ∀ mask c, mask i = true → (second mask c).signal i ≠ .running → ∃ N, Alone (second mask c) i f' (c i) N)
    (hr : (g.andThen mask second).signal i ≠ .running) :
    ∃ N', N ≤ N' ∧ Alone (g.andThen mask second) i (fun n x => (f n x).andThen f') x N' := by
  cases hgo : (mask i && g.signal i == .next) with
  | true =>
    have hs : g.signal i = .next := by simpa [hm] using hgo
    have hr2 : (second (fun i => mask i && g.signal i == .next) g.config).signal i ≠ .running := by
      simpa only [Group.andThen, hgo, if_true] using hr
    obtain ⟨N₂, h3⟩ := h2 _ _ hgo hr2
    refine ⟨N₂ + N, by omega, fun n => ?_⟩
    have h4 := h (n + N₂)
    rw [Nat.add_assoc] at h4
    simp only [h4, Effect.On.andThen, hs, h3 n]
    simp only [Group.andThen, laneLog_append, laneLog_def, hgo, if_true]
  | false =>
    have hs : g.signal i ≠ .next := by simpa [hm] using hgo
    have h3 := hid (fun i => mask i && g.signal i == .next) g.config hgo
    refine ⟨N, Nat.le_refl _, fun n => ?_⟩
    have hd : ∀ e : Effect.On S, e.signal ≠ .next → e.andThen f' = e := by
      intro e he
      unfold Effect.On.andThen
      split
      · next hn => exact absurd hn he
      · rfl
    simp only [h n]
    rw [hd _ hs]
    simp only [Group.andThen, laneLog_append, laneLog_def, hgo, h3.1, h3.2, List.append_nil]
    simp

theorem rounds_alone {bodyS : (Fin k → Bool) → (Fin k → Config S) → Group k S} {body : Nat → Config S → Effect.On S}
    (hid : Idle i bodyS)
    (hb : ∀ mask c, mask i = true → (bodyS mask c).signal i ≠ .running → ∃ N, 1 ≤ N ∧ Alone (bodyS mask c) i body (c i) N) :
    ∀ j mask c, mask i = true → (roundsOf bodyS j mask c).signal i ≠ .running →
      ∃ N, ∀ n r, N < r → repeatOn body r (n + N) (c i) =
        ⟨(roundsOf bodyS j mask c).laneLog i, (roundsOf bodyS j mask c).signal i, n, (roundsOf bodyS j mask c).config i⟩
  | 0, _, _, _, h => absurd rfl h
  | j + 1, mask, c, hm, h => by
    rw [roundsOf, if_pos (any_of hm)] at h ⊢
    have hr1 : (bodyS mask c).signal i ≠ .running := by
      intro he
      simp [he] at h
    obtain ⟨N₁, hN, h1⟩ := hb mask c hm hr1
    cases hgo : (mask i && ((bodyS mask c).signal i == .next || (bodyS mask c).signal i == .continues)) with
    | true =>
      have hag : (bodyS mask c).signal i = .next ∨ (bodyS mask c).signal i = .continues := by simpa [hm] using hgo
      simp only [hgo, if_true] at h
      obtain ⟨N₂, h2⟩ := rounds_alone hid hb j _ _ hgo h
      refine ⟨N₂ + N₁, fun n r hr => ?_⟩
      obtain ⟨r, rfl⟩ : ∃ r', r = r' + 1 := ⟨r - 1, by omega⟩
      have h4 := h1 (n + N₂)
      rw [Nat.add_assoc] at h4
      have h5 := h2 n r (by omega)
      rw [repeatOn, h4]
      simp only [laneLog_append, laneLog_def, hgo, if_true]
      rcases hag with ha | ha <;> simp only [ha, h5]
    | false =>
      have hag : (bodyS mask c).signal i = .breaks := by
        cases hs : (bodyS mask c).signal i <;> simp_all
      have h3 := rounds_idle hid j
        (fun i => mask i && ((bodyS mask c).signal i == .next || (bodyS mask c).signal i == .continues)) (bodyS mask c).config hgo
      refine ⟨N₁, fun n r hr => ?_⟩
      obtain ⟨r, rfl⟩ : ∃ r', r = r' + 1 := ⟨r - 1, by omega⟩
      rw [repeatOn, h1 n]
      simp only [laneLog_append, laneLog_def, hag, h3.1, h3.2, List.append_nil]
      simp

mutual
theorem simt_alone (R : Nat) : ∀ (chain : ControlFlowChain) (mask : Fin k → Bool) (c : Fin k → Config S), mask i = true →
    (simt M blocks R chain mask c).signal i ≠ .running →
    ∃ N, Alone (simt M blocks R chain mask c) i (execOn M blocks chain) (c i) N
  | .Atom id, mask, c, hm, _ => by
    rw [simt]
    exact ⟨1, fun n => by rw [execOn]; exact issue_alone hm n⟩
  | .Block chains, mask, c, hm, h => by
    rw [simt] at h ⊢
    obtain ⟨N, h1⟩ := simt_all_alone R chains mask c hm h
    exact ⟨N, fun n => by rw [execOn]; exact h1 n⟩
  | .Selection id left right _ _, mask, c, hm, h => by
    rw [simt] at h ⊢
    suffices hN : ∃ N', 1 ≤ N' ∧ Alone _ i (fun n x => (M.visit blocks id n x).andThen
        fun n x => if M.decides blocks id x then execOn M blocks left n x else execOn M blocks right n x) (c i) N' by
      obtain ⟨N, -, h1⟩ := hN
      exact ⟨N, fun n => by rw [execOn]; exact h1 n⟩
    refine andThen_alone hm (issue_alone hm)
      (choose_idle (d := fun c i => M.decides blocks id (c i)) (simt_idle R left) (simt_idle R right)) (fun mask c hm hr => ?_) h
    · cases hd : M.decides blocks id (c i) with
      | true =>
        have hr2 : (simt M blocks R left (fun i => mask i && M.decides blocks id (c i)) c).signal i ≠ .running := by
          simpa [Group.choose, hd] using hr
        obtain ⟨N, h1⟩ := simt_alone R left _ c (by simp [hm, hd]) hr2
        have h4 := simt_idle (M := M) (blocks := blocks) (i := i) R right (fun i => mask i && !M.decides blocks id (c i))
          (simt M blocks R left (fun i => mask i && M.decides blocks id (c i)) c).config (by simp [hd])
        refine ⟨N, fun n => ?_⟩
        simp only [hd, if_true, h1 n, Group.choose, laneLog_append, laneLog_def, h4.1, h4.2, List.append_nil]
      | false =>
        have h3 := simt_idle (M := M) (blocks := blocks) (i := i) R left (fun i => mask i && M.decides blocks id (c i)) c (by simp [hd])
        have hr2 : (simt M blocks R right (fun i => mask i && !M.decides blocks id (c i))
            (simt M blocks R left (fun i => mask i && M.decides blocks id (c i)) c).config).signal i ≠ .running := by
          simpa [Group.choose, hd] using hr
        obtain ⟨N, h1⟩ := simt_alone R right _ _ (by simp [hm, hd]) hr2
        rw [h3.2] at h1
        refine ⟨N, fun n => ?_⟩
        simp only [hd, Bool.false_eq_true, if_false, h1 n, Group.choose, laneLog_append, laneLog_def, h3.1, List.nil_append]
  | .Loop id inner _ _, mask, c, hm, h => by
    rw [simt] at h ⊢
    obtain ⟨N, h1⟩ := rounds_alone (body := fun n x => (M.visit blocks id n x).andThen fun n x => execOn M blocks inner n x)
      (andThen_idle (issue_idle id) (simt_idle R inner))
      (fun mask c hm hr => andThen_alone hm (issue_alone hm) (simt_idle R inner)
        (fun mask c hm hr => simt_alone R inner mask c hm hr) hr) R mask c hm h
    exact ⟨N, fun n => by rw [execOn]; exact h1 n _ (by omega)⟩
  | .Break, mask, c, hm, _ => by
    rw [simt]
    exact ⟨0, fun n => by rw [execOn]; rfl⟩
  | .Continue, mask, c, hm, _ => by
    rw [simt]
    exact ⟨0, fun n => by rw [execOn]; rfl⟩
theorem simt_all_alone (R : Nat) : ∀ (chains : List ControlFlowChain) (mask : Fin k → Bool) (c : Fin k → Config S), mask i = true →
    (simtAll M blocks R chains mask c).signal i ≠ .running →
    ∃ N, Alone (simtAll M blocks R chains mask c) i (execAllOn M blocks chains) (c i) N
  | [], mask, c, hm, _ => by
    rw [simtAll]
    exact ⟨0, fun n => by rw [execAllOn]; rfl⟩
  | chain :: chains, mask, c, hm, h => by
    rw [simtAll] at h ⊢
    have hr1 : (simt M blocks R chain mask c).signal i ≠ .running := by
      intro he
      simp [Group.andThen, he] at h
    obtain ⟨N₁, h1⟩ := simt_alone R chain mask c hm hr1
    obtain ⟨N, -, h2⟩ := andThen_alone hm h1 (simt_all_idle R chains)
      (fun mask c hm hr => simt_all_alone R chains mask c hm hr) h
    exact ⟨N, fun n => by rw [execAllOn]; exact h2 n⟩
end

end Magma.Simt
