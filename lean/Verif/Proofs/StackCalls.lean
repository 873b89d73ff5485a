import Verif.Model.ParserCost
import Verif.Proofs.ValidateFunctions
/-! The validator on a stack with room for one frame per instruction, and the number of calls. -/

namespace Magma
variable {X : Type}

/-- A phase `f` that returns what `g` returns if there is room for one frame per instruction, and
that makes at most `a` calls per instruction (`e` if it reads nothing). -/
structure Tracks {T : Type} (f : OpSlice X → Cost (PhaseResult X T))
    (g : OpSlice X → V (PhaseResult X T)) (a e : Nat) : Prop where
  same : ∀ pre r d, r.length ≤ d → (f (cur pre r) d).1 = g (cur pre r)
  item : ∀ {pre r d t n k}, f (cur pre r) d = (.ok (.ok t n), k) →
    ∃ c r', r = c ++ r' ∧ c ≠ [] ∧ n = cur (pre ++ c) r' ∧ k + 1 ≤ a * c.length
  next : ∀ {pre r d n k}, f (cur pre r) d = (.ok (.next n), k) → n = cur pre r ∧ k ≤ e * r.length
  err : ∀ {pre r d x k}, f (cur pre r) d = (.ok (.err x), k) → k ≤ a * r.length
  fault : ∀ {pre r d x k}, f (cur pre r) d = (.error x, k) → k ≤ a * r.length

/-- The same for a list of items -/
structure TracksMany {T : Type} (x : List (OpByBlock X) → List (OpByBlock X) → Nat → V (List T × OpSlice X) × Nat)
    (y : List (OpByBlock X) → List (OpByBlock X) → V (List T × OpSlice X)) (a e : Nat) : Prop where
  same : ∀ pre r d, r.length < d → (x pre r d).1 = y pre r
  item : ∀ {pre r d t n k}, x pre r d = (.ok (t, n), k) →
    ∃ c r', r = c ++ r' ∧ n = cur (pre ++ c) r' ∧ k ≤ a * c.length + e * r'.length + 1
  fault : ∀ {pre r d z k}, x pre r d = (.error z, k) → k ≤ a * r.length + 1

theorem Tracks.rest_same {T : Type} {f : OpSlice X → Cost (PhaseResult X T)}
    {g : OpSlice X → V (PhaseResult X T)} {a e : Nat} (h : Tracks f g a e) :
    ∀ (d : Nat) (pre r : List (OpByBlock X)) (out : List T) (fuel : Nat), r.length < d → r.length < fuel →
      (readRestC f d (cur pre r) out).1 = readRest g fuel (cur pre r) out
  | 0, _, _, _, _, hd, _ => by omega
  | _, _, _, _, 0, _, hf => by omega
  | d + 1, pre, r, out, fuel + 1, hd, hf => by
    have hs := h.same pre r d (by omega)
    rcases hx : f (cur pre r) d with ⟨o, k⟩
    rw [hx] at hs
    simp only at hs
    rw [readRest, ← hs]
    simp only [readRestC, hx]
    match o, hx with
    | .error z, hx => rfl
    | .ok (.err z), hx => rfl
    | .ok (.next n), hx => rfl
    | .ok (.ok t n), hx =>
      obtain ⟨c, r', rfl, hc, rfl, -⟩ := h.item hx
      have := List.length_pos_iff.mpr hc
      rw [List.length_append] at hd hf
      exact h.rest_same d _ r' (t :: out) fuel (by omega) (by omega)

theorem Tracks.rest_item {T : Type} {f : OpSlice X → Cost (PhaseResult X T)}
    {g : OpSlice X → V (PhaseResult X T)} {a e : Nat} (h : Tracks f g a e) :
    ∀ (d : Nat) {pre r : List (OpByBlock X)} {out ts : List T} {n : OpSlice X} {k : Nat},
      readRestC f d (cur pre r) out = (.ok (ts, n), k) →
      ∃ c r', r = c ++ r' ∧ n = cur (pre ++ c) r' ∧ k ≤ a * c.length + e * r'.length + 1
  | 0, _, _, _, _, _, _, hx => by simp [readRestC] at hx
  | d + 1, pre, r, out, ts, n, k, hx => by
    rcases hf : f (cur pre r) d with ⟨o, i⟩
    simp only [readRestC, hf] at hx
    match o, hf with
    | .error z, hf => simp at hx
    | .ok (.err z), hf => simp at hx
    | .ok (.next n'), hf =>
      simp only [Prod.mk.injEq, Except.ok.injEq] at hx
      obtain ⟨⟨-, rfl⟩, rfl⟩ := hx
      obtain ⟨rfl, hi⟩ := h.next hf
      exact ⟨[], r, rfl, by simp, by simpa using hi⟩
    | .ok (.ok t n'), hf =>
      obtain ⟨c, r', rfl, hc, rfl, hi⟩ := h.item hf
      simp only [Prod.mk.injEq] at hx
      obtain ⟨hx, rfl⟩ := hx
      rcases hr : readRestC f d (cur (pre ++ c) r') (t :: out) with ⟨o2, k2⟩
      rw [hr] at hx
      simp only at hx
      subst hx
      obtain ⟨c2, r2, rfl, rfl, hk⟩ := h.rest_item d hr
      refine ⟨c ++ c2, r2, by simp, by simp, ?_⟩
      rw [List.length_append, Nat.mul_add]
      simp only
      omega

theorem Tracks.rest_fault {T : Type} {f : OpSlice X → Cost (PhaseResult X T)}
    {g : OpSlice X → V (PhaseResult X T)} {a e : Nat} (h : Tracks f g a e) :
    ∀ (d : Nat) {pre r : List (OpByBlock X)} {out : List T} {z : Fault ValidationError} {k : Nat},
      readRestC f d (cur pre r) out = (.error z, k) → k ≤ a * r.length + 1
  | 0, _, _, _, _, _, hx => by
    simp only [readRestC, Prod.mk.injEq] at hx
    omega
  | d + 1, pre, r, out, z, k, hx => by
    rcases hf : f (cur pre r) d with ⟨o, i⟩
    simp only [readRestC, hf] at hx
    match o, hf with
    | .error z', hf =>
      have := h.fault hf
      simp only [Prod.mk.injEq] at hx
      omega
    | .ok (.err z'), hf =>
      have := h.err hf
      simp only [Prod.mk.injEq] at hx
      omega
    | .ok (.next n'), hf => simp at hx
    | .ok (.ok t n'), hf =>
      obtain ⟨c, r', rfl, hc, rfl, hi⟩ := h.item hf
      simp only [Prod.mk.injEq] at hx
      obtain ⟨hx, rfl⟩ := hx
      rcases hr : readRestC f d (cur (pre ++ c) r') (t :: out) with ⟨o2, k2⟩
      rw [hr] at hx
      simp only at hx
      subst hx
      have := h.rest_fault d hr
      rw [List.length_append, Nat.mul_add]
      simp only
      omega

theorem Tracks.many {T : Type} {f : OpSlice X → Cost (PhaseResult X T)}
    {g : OpSlice X → V (PhaseResult X T)} {a e : Nat} (h : Tracks f g a e) :
    TracksMany (fun pre r => readManyC (cur pre r) f) (fun pre r => readMany (cur pre r) g) a e where
  same := fun pre r d hd => by
    show (readRestC f d (cur pre r) []).1 = readRest g _ (cur pre r) []
    apply h.rest_same d pre r [] _ hd
    rw [cur_len]
    omega
  item := fun hx => h.rest_item _ hx
  fault := fun hx => h.rest_fault _ hx

theorem Simple.tracks {T : Type} {f : OpSlice X → V (PhaseResult X T)} {emb : T → OpByBlock X}
    (h : Simple f emb) : Tracks (light f) f 1 0 := by
  have key : ∀ pre r, (∃ t r', r = emb t :: r' ∧ f (cur pre r) = .ok (.ok t (cur (pre ++ [emb t]) r'))) ∨
      f (cur pre r) = .ok (.next (cur pre r)) := by
    intro pre r
    by_cases hn : NotHead emb r
    · exact .inr (h.miss pre r hn)
    · left
      simp only [NotHead, ne_eq, Classical.not_forall, Classical.not_not] at hn
      obtain ⟨t, ht⟩ := hn
      cases r with
      | nil => simp at ht
      | cons x r =>
        simp only [List.head?_cons, Option.some.injEq] at ht
        subst ht
        exact ⟨t, r, rfl, h.hit t pre r⟩
  refine ⟨fun pre r d hd => rfl, ?_, ?_, ?_, ?_⟩
  · intro pre r d t n k hx
    simp only [light, Cost.free, Prod.mk.injEq] at hx
    obtain ⟨hx, rfl⟩ := hx
    rcases key pre r with ⟨t', r', rfl, hk⟩ | hk
    · rw [hk] at hx
      cases hx
      exact ⟨[emb t], r', rfl, by simp, rfl, by simp⟩
    · rw [hk] at hx
      cases hx
  · intro pre r d n k hx
    simp only [light, Cost.free, Prod.mk.injEq] at hx
    obtain ⟨hx, rfl⟩ := hx
    rcases key pre r with ⟨t', r', rfl, hk⟩ | hk
    · rw [hk] at hx
      cases hx
    · rw [hk] at hx
      cases hx
      exact ⟨rfl, Nat.zero_le _⟩
  · intro pre r d n k hx
    simp only [light, Cost.free, Prod.mk.injEq] at hx
    omega
  · intro pre r d n k hx
    simp only [light, Cost.free, Prod.mk.injEq] at hx
    omega

/-! ### Sequences -/

theorem cost_bind_apply {α β : Type} (x : Cost α) (g : α → Cost β) (d : Nat) :
    (x >>= g) d = match x d with
      | (.ok a, n) => ((g a d).1, n + (g a d).2)
      | (.error e, n) => (.error e, n) := rfl

theorem cost_free_bind {α β : Type} {v : V α} {a : α} (h : v = .ok a) (g : α → Cost β) :
    (Cost.free v >>= g) = g a := by
  funext d
  rw [cost_bind_apply, h]
  simp only [Cost.free, Nat.zero_add]

theorem cost_free_error {α β : Type} {v : V α} {z : Fault ValidationError} (h : v = .error z)
    (g : α → Cost β) : (Cost.free v >>= g) = Cost.free (.error z) := by
  funext d
  rw [cost_bind_apply, h]
  simp only [Cost.free]

/-- A computation on the instructions `r` that returns what `y` returns if there is room, and makes
at most `b` calls per instruction and `j` more. -/
structure Fine {α : Type} (x : Cost α) (y : V α) (r : List (OpByBlock X)) (b j : Nat) : Prop where
  same : ∀ d, r.length < d → (x d).1 = y
  calls : ∀ d, (x d).2 ≤ b * r.length + j

theorem Fine.free {α : Type} (y : V α) (r : List (OpByBlock X)) (b j : Nat) :
    Fine (Cost.free y) y r b j :=
  ⟨fun _ _ => rfl, fun _ => Nat.zero_le _⟩

theorem Fine.pure {α : Type} (a : α) (r : List (OpByBlock X)) (b j : Nat) :
    Fine (Pure.pure a) (Pure.pure a) r b j :=
  ⟨fun _ _ => rfl, fun _ => Nat.zero_le _⟩

theorem Fine.grow {α : Type} {x : Cost α} {y : V α} {r : List (OpByBlock X)} {o : OpByBlock X}
    {b j : Nat} (h : Fine x y r b j) : Fine x y (o :: r) b j :=
  ⟨fun d hd => h.same d (by rw [List.length_cons] at hd; omega), fun d => by
    have := h.calls d
    rw [List.length_cons, Nat.mul_add]
    omega⟩

theorem Fine.many {T α : Type} {x : List (OpByBlock X) → List (OpByBlock X) → Cost (List T × OpSlice X)}
    {y : List (OpByBlock X) → List (OpByBlock X) → V (List T × OpSlice X)} {a e b' b j : Nat}
    (h : TracksMany x y a e) {g : List T × OpSlice X → Cost α} {g' : List T × OpSlice X → V α}
    {pre r : List (OpByBlock X)} (ha : a ≤ b) (he : e + b' ≤ b)
    (hg : ∀ ts c r', r = c ++ r' → Fine (g (ts, cur (pre ++ c) r')) (g' (ts, cur (pre ++ c) r')) r' b' j) :
    Fine (x pre r >>= g) (y pre r >>= g') r b (j + 1) := by
  constructor
  · intro d hd
    have hs := h.same pre r d hd
    rw [cost_bind_apply]
    rcases hx : x pre r d with ⟨o, k⟩
    rw [hx] at hs
    simp only at hs
    rw [← hs]
    match o, hx with
    | .error z, hx => rfl
    | .ok (ts, n), hx =>
      obtain ⟨c, r', rfl, rfl, -⟩ := h.item hx
      exact (hg ts c r' rfl).same d (by rw [List.length_append] at hd; omega)
  · intro d
    rw [cost_bind_apply]
    rcases hx : x pre r d with ⟨o, k⟩
    match o, hx with
    | .error z, hx =>
      have := h.fault hx
      have := Nat.mul_le_mul_right r.length ha
      simp only
      omega
    | .ok (ts, n), hx =>
      obtain ⟨c, r', rfl, rfl, hk⟩ := h.item hx
      have h1 := (hg ts c r' rfl).calls d
      have h2 := Nat.mul_le_mul_right c.length ha
      have h3 := Nat.mul_le_mul_right r'.length he
      rw [Nat.add_mul] at h3
      rw [List.length_append, Nat.mul_add]
      simp only
      omega

/-! ### Functions -/

theorem head_split {T : Type} (emb : T → OpByBlock X) (r : List (OpByBlock X)) :
    NotHead emb r ∨ ∃ t r', r = emb t :: r' := by
  by_cases hn : NotHead emb r
  · exact .inl hn
  · right
    simp only [NotHead, ne_eq, Classical.not_forall, Classical.not_not] at hn
    obtain ⟨t, ht⟩ := hn
    cases r with
    | nil => simp at ht
    | cons x r =>
      simp only [List.head?_cons, Option.some.injEq] at ht
      exact ⟨t, r, by rw [ht]⟩

theorem readMerge_cases (pre r : List (OpByBlock X)) :
    ∃ m c r', r = c ++ r' ∧ readMerge (cur pre r) = .ok (m, cur (pre ++ c) r') := by
  rcases head_split .GroupMerge r with h | ⟨m, r', rfl⟩
  · exact ⟨none, [], r, rfl, by rw [List.append_nil]; exact readMerge_none pre r h⟩
  · exact ⟨some m, [.GroupMerge m], r', rfl, readMerge_some pre r' m⟩

theorem readBranch_cases (pre r : List (OpByBlock X)) :
    (∃ b r', r = .GroupBranch b :: r' ∧
      readBranch (cur pre r) = .ok (b, cur (pre ++ [.GroupBranch b]) r')) ∨
    readBranch (cur pre r) = .error (.err (.ExpectedBranch pre.length)) := by
  rcases head_split .GroupBranch r with h | ⟨b, r', rfl⟩
  · exact .inr (readBranch_none pre r h)
  · exact .inl ⟨b, r', rfl, readBranch_some pre r' b⟩

theorem readBasicBlockC_next (pre r : List (OpByBlock X)) (h : NotHead .OpLabel r) :
    readBasicBlockC (cur pre r) = Pure.pure (.next (cur pre r)) := by
  cases r with
  | nil => simp only [readBasicBlockC, cur_first_nil]
  | cons x r =>
    rw [notHead_cons] at h
    cases x <;> first
      | exact absurd rfl (h _)
      | simp only [readBasicBlockC, cur_first_cons]

/-- A block from after its code -/
theorem blockTailC (l : OpLabel) (code : List (GroupCode X)) (pre r : List (OpByBlock X)) :
    (∃ b c r', r = c ++ r' ∧ c ≠ [] ∧
      (do let (merge, insts) ← Cost.free (readMerge (cur pre r))
          let (branch, insts) ← Cost.free (readBranch insts)
          return .ok { label := l, code := code, merge := merge, branch := branch } insts :
        Cost (PhaseResult X (BasicBlock X))) = Pure.pure (.ok b (cur (pre ++ c) r')) ∧
      (do let (merge, insts) ← readMerge (cur pre r)
          let (branch, insts) ← readBranch insts
          return .ok { label := l, code := code, merge := merge, branch := branch } insts :
        V (PhaseResult X (BasicBlock X))) = .ok (.ok b (cur (pre ++ c) r'))) ∨
    ∃ z,
      (do let (merge, insts) ← Cost.free (readMerge (cur pre r))
          let (branch, insts) ← Cost.free (readBranch insts)
          return .ok { label := l, code := code, merge := merge, branch := branch } insts :
        Cost (PhaseResult X (BasicBlock X))) = Cost.free (.error z) ∧
      (do let (merge, insts) ← readMerge (cur pre r)
          let (branch, insts) ← readBranch insts
          return .ok { label := l, code := code, merge := merge, branch := branch } insts :
        V (PhaseResult X (BasicBlock X))) = .error z := by
  obtain ⟨m, c, r', rfl, hm⟩ := readMerge_cases pre r
  rw [cost_free_bind hm, hm]
  simp only [vok_bind]
  rcases readBranch_cases (pre ++ c) r' with ⟨b, r2, rfl, hb⟩ | hb
  · left
    rw [cost_free_bind hb, hb]
    exact ⟨⟨l, code, m, b⟩, c ++ [.GroupBranch b], r2, by simp, by simp, by simp, by
      simp only [vok_bind]
      simp
      rfl⟩
  · right
    rw [cost_free_error hb, hb]
    exact ⟨_, rfl, rfl⟩

/-- What `Tracks` says of one run, after `k0` calls -/
def RunOk {T : Type} (p : V (PhaseResult X T) × Nat) (v : V (PhaseResult X T)) (room : Prop)
    (pre r : List (OpByBlock X)) (a e k0 : Nat) : Prop :=
  (room → p.1 = v) ∧
    match p with
    | (.ok (.ok _ n), k) =>
      ∃ c r', r = c ++ r' ∧ c ≠ [] ∧ n = cur (pre ++ c) r' ∧ k0 + k + 1 ≤ a * c.length
    | (.ok (.next n), k) => n = cur pre r ∧ k0 + k ≤ e * r.length
    | (.ok (.err _), k) => k0 + k ≤ a * r.length
    | (.error _, k) => k0 + k ≤ a * r.length

theorem tracks_of_runOk {T : Type} {f : OpSlice X → Cost (PhaseResult X T)}
    {g : OpSlice X → V (PhaseResult X T)} {a e : Nat}
    (h : ∀ pre r d, RunOk (f (cur pre r) d) (g (cur pre r)) (r.length ≤ d) pre r a e 0) :
    Tracks f g a e := by
  refine ⟨fun pre r d => (h pre r d).1, ?_, ?_, ?_, ?_⟩
  · intro pre r d t n k hx
    have := (h pre r d).2
    rw [hx] at this
    simpa using this
  · intro pre r d n k hx
    have := (h pre r d).2
    rw [hx] at this
    simpa using this
  · intro pre r d z k hx
    have := (h pre r d).2
    rw [hx] at this
    simpa using this
  · intro pre r d z k hx
    have := (h pre r d).2
    rw [hx] at this
    simpa using this

theorem RunOk.bind {S T : Type} {x : List (OpByBlock X) → List (OpByBlock X) → Cost (List S × OpSlice X)}
    {y : List (OpByBlock X) → List (OpByBlock X) → V (List S × OpSlice X)} {a1 e1 a e k0 d : Nat}
    {room : Prop} (h : TracksMany x y a1 e1)
    {g : List S × OpSlice X → Cost (PhaseResult X T)} {g' : List S × OpSlice X → V (PhaseResult X T)}
    {pre r pre1 r1 : List (OpByBlock X)} (hroom : room → r1.length < d)
    (hz : k0 + (a1 * r1.length + 1) ≤ a * r.length)
    (hg : ∀ ts c r' k, r1 = c ++ r' → k ≤ a1 * c.length + e1 * r'.length + 1 →
      RunOk (g (ts, cur (pre1 ++ c) r') d) (g' (ts, cur (pre1 ++ c) r')) room pre r a e (k0 + k)) :
    RunOk ((x pre1 r1 >>= g) d) (y pre1 r1 >>= g') room pre r a e k0 := by
  rw [cost_bind_apply]
  have hs := h.same pre1 r1 d
  rcases hx : x pre1 r1 d with ⟨o, k⟩
  rw [hx] at hs
  match o, hx with
  | .error z, hx =>
    have hk := h.fault hx
    refine ⟨fun hr => ?_, ?_⟩
    · rw [← hs (hroom hr)]
      rfl
    · simp only
      omega
  | .ok (ts, n), hx =>
    obtain ⟨c, r', hc, rfl, hk⟩ := h.item hx
    have hG := hg ts c r' k hc hk
    refine ⟨fun hr => ?_, ?_⟩
    · rw [← hs (hroom hr)]
      exact hG.1 hr
    · have h2 := hG.2
      simp only
      rcases hp : g (ts, cur (pre1 ++ c) r') d with ⟨o2, k2⟩
      rw [hp] at h2
      match o2, h2 with
      | .ok (.ok _ _), h2 => simpa [Nat.add_assoc] using h2
      | .ok (.next _), h2 => simpa [Nat.add_assoc] using h2
      | .ok (.err _), h2 => simpa [Nat.add_assoc] using h2
      | .error _, h2 => simpa [Nat.add_assoc] using h2

theorem RunOk.item {T : Type} {t : T} {room : Prop} {pre r pre' r' c : List (OpByBlock X)}
    {a e k0 d : Nat} (hr : r = c ++ r') (hp : pre' = pre ++ c) (hk : k0 + 1 ≤ a * c.length) :
    RunOk ((Pure.pure (.ok t (cur pre' r')) : Cost (PhaseResult X T)) d) (.ok (.ok t (cur pre' r')))
      room pre r a e k0 := by
  refine ⟨fun _ => rfl, c, r', hr, ?_, by rw [hp], hk⟩
  rintro rfl
  simp at hk

theorem RunOk.next {T : Type} {room : Prop} {pre r : List (OpByBlock X)} {a e k0 d : Nat}
    (hk : k0 ≤ e * r.length) :
    RunOk ((Pure.pure (.next (cur pre r)) : Cost (PhaseResult X T)) d) (.ok (.next (cur pre r)))
      room pre r a e k0 := ⟨fun _ => rfl, rfl, hk⟩

theorem RunOk.err {T : Type} {room : Prop} {pre r : List (OpByBlock X)} {a e k0 d : Nat}
    {z : ValidationError} (hk : k0 ≤ a * r.length) :
    RunOk ((Pure.pure (.err z) : Cost (PhaseResult X T)) d) (.ok (.err z))
      room pre r a e k0 := ⟨fun _ => rfl, hk⟩

theorem RunOk.fault {T : Type} {room : Prop} {pre r : List (OpByBlock X)} {a e k0 d : Nat}
    {z : Fault ValidationError} (hk : k0 ≤ a * r.length) :
    RunOk ((Cost.free (.error z) : Cost (PhaseResult X T)) d) (.error z)
      room pre r a e k0 := ⟨fun _ => rfl, hk⟩

theorem tracks_block : Tracks (X := X) readBasicBlockC readBasicBlock 1 0 := by
  apply tracks_of_runOk
  intro pre r d
  rcases head_split .OpLabel r with h | ⟨l, r1, rfl⟩
  · rw [readBasicBlockC_next _ _ h, readBasicBlock_next _ _ h]
    exact RunOk.next (Nat.zero_le _)
  · simp only [readBasicBlockC, readBasicBlock, cur_first_cons]
    rw [cost_free_bind (cur_advance _ _ _), cur_advance]
    simp only [vok_bind]
    refine RunOk.bind simple_code.tracks.many (fun h => by simp at h; omega) (by simp <;> omega) ?_
    rintro code c r2 k rfl hk
    rcases blockTailC l code (pre ++ [.OpLabel l] ++ c) r2 with ⟨b, c2, r3, rfl, hc, e1, e2⟩ | ⟨z, e1, e2⟩
    · simp only
      rw [e1, e2]
      have := List.length_pos_iff.mpr hc
      exact RunOk.item (c := .OpLabel l :: c ++ c2) (by simp) (by simp) (by simp; omega)
    · simp only
      rw [e1, e2]
      exact RunOk.fault (by simp; omega)

theorem tracks_declaration : Tracks (X := X) readFunctionDeclarationC readFunctionDeclaration 1 1 := by
  apply tracks_of_runOk
  intro pre r d
  simp only [readFunctionDeclarationC, readFunctionDeclaration]
  rw [cost_free_bind (cur_remaining _ _), cur_remaining]
  simp only [vok_bind]
  by_cases hl : r.length < 2
  · rw [if_pos hl, if_pos hl]
    exact RunOk.next (Nat.zero_le _)
  rw [if_neg hl, if_neg hl]
  rcases head_split .OpFunction r with h | ⟨f, r1, rfl⟩
  · cases r with
    | nil => simp at hl
    | cons x r =>
      rw [notHead_cons] at h
      cases x <;> first
        | exact absurd rfl (h _)
        | (simp only [cur_first_cons]; exact RunOk.err (Nat.zero_le _))
  · simp only [cur_first_cons]
    rw [cost_free_bind (cur_advance _ _ _), cur_advance]
    simp only [vok_bind]
    refine RunOk.bind simple_parameter.tracks.many (fun h => by simp at h; omega) (by simp <;> omega) ?_
    rintro params c r2 k rfl hk
    simp only
    have hnext : ∀ d, RunOk ((Pure.pure (.next (cur pre (.OpFunction f :: (c ++ r2)))) :
        Cost (PhaseResult X FunctionDeclaration)) d)
        (.ok (.next (cur pre (.OpFunction f :: (c ++ r2)))))
        ((OpByBlock.OpFunction f :: (c ++ r2)).length ≤ d) pre (.OpFunction f :: (c ++ r2)) 1 1 (0 + k) :=
      fun d => RunOk.next (by simp; omega)
    cases r2 with
    | nil => simp only [cur_first_nil]; exact hnext d
    | cons y r3 =>
      cases y <;> first
        | (simp only [cur_first_cons]; exact hnext d)
        | (simp only [cur_first_cons]
           rw [cost_free_bind (cur_advance _ _ _), cur_advance]
           simp only [vok_bind]
           exact RunOk.item (c := .OpFunction f :: c ++ [.OpFunctionEnd {}]) (by simp) (by simp) (by simp; omega))

theorem tracks_definition : Tracks (X := X) readFunctionDefinitionC readFunctionDefinition 2 0 := by
  apply tracks_of_runOk
  intro pre r d
  simp only [readFunctionDefinitionC, readFunctionDefinition]
  rw [cost_free_bind (cur_remaining _ _), cur_remaining]
  simp only [vok_bind]
  by_cases hl : r.length < 2
  · rw [if_pos hl, if_pos hl]
    exact RunOk.next (Nat.zero_le _)
  rw [if_neg hl, if_neg hl]
  rcases head_split .OpFunction r with h | ⟨f, r1, rfl⟩
  · cases r with
    | nil => simp at hl
    | cons x r =>
      rw [notHead_cons] at h
      cases x <;> first
        | exact absurd rfl (h _)
        | (simp only [cur_first_cons]; exact RunOk.err (Nat.zero_le _))
  · simp only [cur_first_cons]
    rw [cost_free_bind (cur_advance _ _ _), cur_advance]
    simp only [vok_bind]
    simp only [List.length_cons] at hl
    refine RunOk.bind simple_parameter.tracks.many (fun h => by simp at h; omega) (by simp <;> omega) ?_
    rintro params c r2 k rfl hk
    simp only
    rw [List.length_append] at hl
    refine RunOk.bind tracks_block.many (fun h => by simp at h; omega) (by simp; omega) ?_
    rintro blocks c2 r3 k2 rfl hk2
    simp only
    rw [List.length_append] at hl
    have herr : ∀ z d, RunOk ((Pure.pure (.err z) :
        Cost (PhaseResult X (FunctionDefinition X))) d) (.ok (.err z))
        ((OpByBlock.OpFunction f :: (c ++ (c2 ++ r3))).length ≤ d) pre
        (.OpFunction f :: (c ++ (c2 ++ r3))) 2 0 (0 + k + k2) :=
      fun z d => RunOk.err (by simp; omega)
    cases r3 with
    | nil => simp only [cur_first_nil]; exact herr _ d
    | cons y r4 =>
      cases y <;> first
        | (simp only [cur_first_cons]; exact herr _ d)
        | (simp only [cur_first_cons]
           rw [cost_free_bind (cur_advance _ _ _), cur_advance]
           simp only [vok_bind]
           exact RunOk.item (c := .OpFunction f :: c ++ (c2 ++ [.OpFunctionEnd {}])) (by simp) (by simp) (by simp; omega))

theorem readMemoryModel_cases (pre r : List (OpByBlock X)) :
    (∃ mm r', r = .OpMemoryModel mm :: r' ∧
      readMemoryModel (cur pre r) = .ok (mm, cur (pre ++ [.OpMemoryModel mm]) r')) ∨
    readMemoryModel (cur pre r) = .error (.err .MemoryModelMissing) := by
  rcases head_split .OpMemoryModel r with h | ⟨b, r', rfl⟩
  · right
    cases r with
    | nil => simp [readMemoryModel]
    | cons x r =>
      rw [notHead_cons] at h
      cases x <;> first
        | exact absurd rfl (h _)
        | simp only [readMemoryModel, cur_first_cons]
  · left
    exact ⟨b, r', rfl, by simp only [readMemoryModel, cur_first_cons, cur_advance, vok_bind]; rfl⟩

theorem fine_validate (raw : RawModule X) :
    Fine (validateC raw) (validate raw) (raw.instructions.map OpByBlock.ofCore) 3 10 := by
  have e0 : OpSlice.new (raw.instructions.map OpByBlock.ofCore) =
      cur [] (raw.instructions.map OpByBlock.ofCore) := by
    simp [OpSlice.new, cur]
  unfold validateC validate
  simp only [e0]
  generalize raw.instructions.map OpByBlock.ofCore = r0
  refine Fine.many (b' := 3) simple_capability.tracks.many (by omega) (by omega) ?_
  rintro caps c1 r1 -
  refine Fine.many (b' := 3) simple_extension.tracks.many (by omega) (by omega) ?_
  rintro exts c2 r2 -
  refine Fine.many (b' := 3) simple_extInstImport.tracks.many (by omega) (by omega) ?_
  rintro imports c3 r3 -
  simp only
  rcases readMemoryModel_cases ([] ++ c1 ++ c2 ++ c3) r3 with ⟨mm, r4, rfl, h⟩ | h
  case inr =>
    rw [cost_free_error h, h]
    exact Fine.free _ _ _ _
  rw [cost_free_bind h, h]
  simp only [vok_bind]
  apply Fine.grow
  refine Fine.many (b' := 3) simple_entryPoint.tracks.many (by omega) (by omega) ?_
  rintro entries c5 r5 -
  refine Fine.many (b' := 3) simple_executionMode.tracks.many (by omega) (by omega) ?_
  rintro modes c6 r6 -
  refine Fine.many (b' := 3) simple_debug.tracks.many (by omega) (by omega) ?_
  rintro debug c7 r7 -
  refine Fine.many (b' := 3) simple_annotation.tracks.many (by omega) (by omega) ?_
  rintro annotations c8 r8 -
  refine Fine.many (b' := 3) simple_global.tracks.many (by omega) (by omega) ?_
  rintro globals c9 r9 -
  refine Fine.many (b' := 2) tracks_declaration.many (by omega) (by omega) ?_
  rintro decls c10 r10 -
  refine Fine.many (b' := 2) tracks_definition.many (by omega) (by omega) ?_
  rintro defs c11 r11 -
  simp only
  rw [cost_free_bind (cur_remaining _ _), cur_remaining]
  simp only [vok_bind]
  split
  · exact Fine.free _ _ _ _
  · exact Fine.pure _ _ _ _

end Magma
