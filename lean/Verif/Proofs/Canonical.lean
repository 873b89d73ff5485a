import Verif.Spec.Canonical
import Verif.Spec.Expressible
import Verif.Proofs.Live
/-! A structured program is determined by where its blocks go, up to what `bare` takes away. -/

namespace Magma.Canon
open Spec Spec.Program

/-- Where control goes from a block -/
inductive Step where
  | stop
  | go (yes no : BlockId)

/-- The blocks of a program go where the program says. Like `SpelledBy`, but without merge instructions. -/
def Goes (succ : BlockId → Option Step) : Option (BlockId × BlockId) → Option BlockId → Program → Prop
  | _, k, .done => k ≠ none
  | _, k, .ret id => k = none ∧ succ id = some .stop
  | lp, k, .atom id rest => (∃ t, succ id = some (.go t t) ∧ rest.entry k = some t) ∧ Goes succ lp k rest
  | lp, k, .sel id left right _ _ rest =>
    ∃ t f m, succ id = some (.go t f) ∧ rest.entry k = some m ∧ left.entry (some m) = some t ∧
      right.entry (some m) = some f ∧ Goes succ lp (some m) left ∧ Goes succ lp (some m) right ∧ Goes succ lp k rest
  | lp, k, .loop id body _ rest =>
    ∃ t m, succ id = some (.go t t) ∧ rest.entry k = some m ∧ body.entry (some id) = some t ∧
      Goes succ (some (id, m)) (some id) body ∧ Goes succ lp k rest
  | lp, k, .exit id brk _ rest =>
    ∃ h m t f, lp = some (h, m) ∧ k = some h ∧ succ id = some (.go t f) ∧ f = (if brk then m else h) ∧
      rest.entry k = some t ∧ Goes succ lp k rest

/-- Control can go from `x` to `y`. -/
def Hop (succ : BlockId → Option Step) (x y : BlockId) : Prop :=
  ∃ t f, succ x = some (.go t f) ∧ (y = t ∨ y = f)

/-- Control can go from `x` to `y` in one or more steps, all of them from blocks in `A`. -/
inductive Walk (succ : BlockId → Option Step) (A : BlockId → Prop) : BlockId → BlockId → Prop where
  | one {x y : BlockId} : A x → Hop succ x y → Walk succ A x y
  | step {x y z : BlockId} : A x → Hop succ x z → Walk succ A z y → Walk succ A x y

variable {succ : BlockId → Option Step}

theorem Walk.mono {A B : BlockId → Prop} (hab : ∀ x, A x → B x) {x y : BlockId} (h : Walk succ A x y) :
    Walk succ B x y := by
  induction h with
  | one ha e => exact .one (hab _ ha) e
  | step ha e _ ih => exact .step (hab _ ha) e ih

theorem Walk.trans {A : BlockId → Prop} {x y z : BlockId} (h : Walk succ A x y) (h' : Walk succ A y z) :
    Walk succ A x z := by
  induction h with
  | one ha e => exact .step ha e h'
  | step ha e _ ih => exact .step ha e (ih h')

/-- What holds of the first block and is kept by each step to a block that is not the last holds on; the last
block is one step behind it. -/
theorem Walk.keeps {A B : BlockId → Prop} (hk : ∀ x y, A x → B x → Hop succ x y → A y → B y) {x y : BlockId}
    (h : Walk succ A x y) (hb : B x) : ∃ z, A z ∧ B z ∧ Hop succ z y := by
  induction h with
  | one ha e => exact ⟨_, ha, hb, e⟩
  | @step x y z ha e w ih =>
    have hz : A z := by cases w <;> assumption
    exact ih (hk _ _ ha hb e hz)

theorem Walk.first {A : BlockId → Prop} {x y : BlockId} (h : Walk succ A x y) : A x := by
  cases h <;> assumption

theorem entry_cases {k : Option BlockId} {s : Program} {e : BlockId} (h : s.entry k = some e) :
    e ∈ s.ids ∨ s = .done ∧ k = some e := by
  cases s <;> simp_all [entry, ids]

/-- The blocks of a program are distinct, and none is where control goes after it, or where a round of the loop
around it starts, or where that loop ends. -/
structure Clear (lp : Option (BlockId × BlockId)) (k : Option BlockId) (s : Program) : Prop where
  nodup : s.ids.Nodup
  last : ∀ e, k = some e → e ∉ s.ids
  loop : ∀ h m, lp = some (h, m) → h ∉ s.ids ∧ m ∉ s.ids ∧ k ≠ some m

theorem Clear.sub {lp : Option (BlockId × BlockId)} {k : Option BlockId} {s t : Program} (h : Clear lp k s)
    (hs : t.ids.Sublist s.ids) : Clear lp k t :=
  ⟨h.nodup.sublist hs, fun e he hm => h.last e he (hs.subset hm),
    fun a b e => ⟨fun hm => (h.loop a b e).1 (hs.subset hm), fun hm => (h.loop a b e).2.1 (hs.subset hm),
      (h.loop a b e).2.2⟩⟩

variable {lp : Option (BlockId × BlockId)} {k : Option BlockId}

theorem Clear.atom {id : BlockId} {rest : Program} (h : Clear lp k (.atom id rest)) : Clear lp k rest :=
  h.sub (List.sublist_cons_self _ _)

theorem Clear.exit {id : BlockId} {brk : Bool} {w : Option BranchWeights} {rest : Program}
    (h : Clear lp k (.exit id brk w rest)) : Clear lp k rest :=
  h.sub (List.sublist_cons_self _ _)

theorem Clear.selRest {id : BlockId} {l r rest : Program} {hint : SelectionControl} {w : Option BranchWeights}
    (h : Clear lp k (.sel id l r hint w rest)) : Clear lp k rest :=
  h.sub (.cons _ (List.sublist_append_right _ _))

theorem Clear.loopRest {id : BlockId} {body rest : Program} {hint : LoopControl}
    (h : Clear lp k (.loop id body hint rest)) : Clear lp k rest :=
  h.sub (.cons _ (List.sublist_append_right _ _))

/-- Where a program goes on after its first part is not one of the blocks before it. -/
theorem Clear.merge {s rest : Program} {m : BlockId} {before : List BlockId} (h : Clear lp k s)
    (hi : s.ids = before ++ rest.ids) (hm : rest.entry k = some m) :
    m ∉ before ∧ ∀ a b, lp = some (a, b) → b ≠ m := by
  have hn := h.nodup
  rw [hi] at hn
  rcases entry_cases hm with hr | ⟨-, hk⟩
  · refine ⟨fun hb => (List.nodup_append.mp hn).2.2 _ hb _ hr rfl, fun a b e hb => ?_⟩
    subst hb
    exact (h.loop a b e).2.1 (by rw [hi]; exact List.mem_append_right _ hr)
  · refine ⟨fun hb => h.last m hk (by rw [hi]; exact List.mem_append_left _ hb), fun a b e hb => ?_⟩
    subst hb
    exact (h.loop a b e).2.2 hk

theorem Clear.selParts {id : BlockId} {l r rest : Program} {hint : SelectionControl} {w : Option BranchWeights}
    (h : Clear lp k (.sel id l r hint w rest)) {m : BlockId} (hm : rest.entry k = some m) :
    Clear lp (some m) l ∧ Clear lp (some m) r := by
  have hi : (Program.sel id l r hint w rest).ids = (id :: (l.ids ++ r.ids)) ++ rest.ids := rfl
  obtain ⟨h1, h2⟩ := h.merge hi hm
  have hn := h.nodup
  simp only [List.mem_cons, List.mem_append, not_or] at h1
  have hl : l.ids.Sublist (Program.sel id l r hint w rest).ids :=
    .cons _ ((List.sublist_append_left _ _).trans (List.sublist_append_left _ _))
  have hr : r.ids.Sublist (Program.sel id l r hint w rest).ids :=
    .cons _ ((List.sublist_append_right _ _).trans (List.sublist_append_left _ _))
  refine ⟨⟨hn.sublist hl, ?_, ?_⟩, ⟨hn.sublist hr, ?_, ?_⟩⟩
  · rintro e he; cases he; exact h1.2.1
  · exact fun a b e => ⟨fun hx => (h.loop a b e).1 (hl.subset hx), fun hx => (h.loop a b e).2.1 (hl.subset hx),
      fun hx => h2 a b e (Option.some.inj hx).symm⟩
  · rintro e he; cases he; exact h1.2.2
  · exact fun a b e => ⟨fun hx => (h.loop a b e).1 (hr.subset hx), fun hx => (h.loop a b e).2.1 (hr.subset hx),
      fun hx => h2 a b e (Option.some.inj hx).symm⟩

theorem Clear.loopBody {id : BlockId} {body rest : Program} {hint : LoopControl}
    (h : Clear lp k (.loop id body hint rest)) {m : BlockId} (hm : rest.entry k = some m) :
    Clear (some (id, m)) (some id) body := by
  have hi : (Program.loop id body hint rest).ids = (id :: body.ids) ++ rest.ids := rfl
  obtain ⟨h1, h2⟩ := h.merge hi hm
  have hn := h.nodup
  rw [hi] at hn
  have hb := (List.nodup_cons.mp (List.nodup_append.mp hn).1)
  simp only [List.mem_cons, not_or] at h1
  refine ⟨hb.2, ?_, ?_⟩
  · rintro e he; cases he; exact hb.1
  · rintro a b e
    cases e
    exact ⟨hb.1, h1.2, fun hx => h1.1 (Option.some.inj hx).symm⟩

theorem hop_go {x y a b : BlockId} (h : succ x = some (.go a b)) (e : Hop succ x y) : y = a ∨ y = b := by
  obtain ⟨t, f, h', hy⟩ := e
  rw [h] at h'
  cases h'
  exact hy

/-- From a block of the program control stays in it, goes to what follows it, or leaves the loop around it. -/
theorem stays : ∀ (s : Program) (lp : Option (BlockId × BlockId)) (k : Option BlockId), Goes succ lp k s →
    Clear lp k s → ∀ {x y : BlockId}, x ∈ s.ids → Hop succ x y →
      y ∈ s.ids ∨ k = some y ∨ ∃ h, lp = some (h, y) ∧ k = some h := by
  intro s
  induction s with
  | done => intro lp k _ _ x y hx; simp [ids] at hx
  | ret id =>
    intro lp k h _ x y hx e
    simp only [ids, List.mem_singleton] at hx
    subst hx
    obtain ⟨t, f, e, -⟩ := e
    rw [h.2] at e
    cases e
  | atom id rest ih =>
    rintro lp k ⟨⟨t, hs, he⟩, hr⟩ hc x y hx e
    simp only [ids, List.mem_cons] at hx ⊢
    rcases hx with rfl | hx
    · have hy : y = t := by rcases hop_go hs e with h | h <;> exact h
      subst hy
      rcases entry_cases he with h | ⟨-, h⟩
      · exact .inl (.inr h)
      · exact .inr (.inl h)
    · rcases ih _ _ hr hc.atom hx e with h | h | h
      · exact .inl (.inr h)
      · exact .inr (.inl h)
      · exact .inr (.inr h)
  | sel id left right hint weights rest ihl ihr ih =>
    rintro lp k ⟨t, f, m, hs, hm, ht, hf, hl, hr, hrest⟩ hc x y hx e
    simp only [ids, List.mem_cons, List.mem_append] at hx ⊢
    have merge : some m = some y → (y = id ∨ (y ∈ left.ids ∨ y ∈ right.ids) ∨ y ∈ rest.ids) ∨ k = some y ∨
        ∃ h, lp = some (h, y) ∧ k = some h := by
      rintro h
      cases h
      rcases entry_cases hm with h | ⟨-, h⟩
      · exact .inl (.inr (.inr h))
      · exact .inr (.inl h)
    have brk : (∃ h, lp = some (h, y) ∧ some m = some h) →
        (y = id ∨ (y ∈ left.ids ∨ y ∈ right.ids) ∨ y ∈ rest.ids) ∨
        k = some y ∨ ∃ h, lp = some (h, y) ∧ k = some h := by
      rintro ⟨h, e, hh⟩
      cases hh
      rcases entry_cases hm with h' | ⟨-, h'⟩
      · exact absurd (by simp [ids, h']) (hc.loop _ _ e).1
      · exact .inr (.inr ⟨_, e, h'⟩)
    obtain ⟨cl, cr⟩ := hc.selParts hm
    rcases hx with rfl | (hx | hx) | hx
    · rcases hop_go hs e with rfl | rfl
      · rcases entry_cases ht with h | ⟨-, h⟩
        · exact .inl (.inr (.inl (.inl h)))
        · exact merge h
      · rcases entry_cases hf with h | ⟨-, h⟩
        · exact .inl (.inr (.inl (.inr h)))
        · exact merge h
    · rcases ihl _ _ hl cl hx e with h | h | h
      · exact .inl (.inr (.inl (.inl h)))
      · exact merge h
      · exact brk h
    · rcases ihr _ _ hr cr hx e with h | h | h
      · exact .inl (.inr (.inl (.inr h)))
      · exact merge h
      · exact brk h
    · rcases ih _ _ hrest hc.selRest hx e with h | h | h
      · exact .inl (.inr (.inr h))
      · exact .inr (.inl h)
      · exact .inr (.inr h)
  | loop id body hint rest ihb ih =>
    rintro lp k ⟨t, m, hs, hm, ht, hb, hrest⟩ hc x y hx e
    simp only [ids, List.mem_cons, List.mem_append] at hx ⊢
    rcases hx with rfl | hx | hx
    · have hy : y = t := by rcases hop_go hs e with h | h <;> exact h
      subst hy
      rcases entry_cases ht with h | ⟨-, h⟩
      · exact .inl (.inr (.inl h))
      · cases h
        exact .inl (.inl rfl)
    · rcases ihb _ _ hb (hc.loopBody hm) hx e with h | h | ⟨_, h, -⟩
      · exact .inl (.inr (.inl h))
      · cases h
        exact .inl (.inl rfl)
      · cases h
        rcases entry_cases hm with h | ⟨-, h⟩
        · exact .inl (.inr (.inr h))
        · exact .inr (.inl h)
    · rcases ih _ _ hrest hc.loopRest hx e with h | h | h
      · exact .inl (.inr (.inr h))
      · exact .inr (.inl h)
      · exact .inr (.inr h)
  | exit id brk weights rest ih =>
    rintro lp k ⟨h, m, t, f, hlp, hk, hs, hf, he, hr⟩ hc x y hx e
    simp only [ids, List.mem_cons] at hx ⊢
    rcases hx with rfl | hx
    · rcases hop_go hs e with rfl | rfl
      · rcases entry_cases he with h' | ⟨-, h'⟩
        · exact .inl (.inr h')
        · exact .inr (.inl h')
      · cases brk with
        | true => subst hf; exact .inr (.inr ⟨h, hlp, hk⟩)
        | false => subst hf; exact .inr (.inl hk)
    · rcases ih _ _ hr hc.exit hx e with h | h | h
      · exact .inl (.inr h)
      · exact .inr (.inl h)
      · exact .inr (.inr h)

/-- Control can come from the start of a part to its end. -/
theorem from_entry {s : Program} {e m : BlockId} {A : BlockId → Prop} (he : s.entry (some m) = some e)
    (hs : ∀ x ∈ s.ids, Walk succ (· ∈ s.ids) x m) (ha : ∀ x ∈ s.ids, A x) : e = m ∨ Walk succ A e m := by
  rcases entry_cases he with h | ⟨-, h⟩
  · exact .inr ((hs e h).mono ha)
  · exact .inl (Option.some.inj h).symm

/-- A step, and then maybe a walk -/
theorem step_or {A : BlockId → Prop} {x y z : BlockId} (hx : A x) (e : Hop succ x y) (h : y = z ∨ Walk succ A y z) :
    Walk succ A x z := by
  rcases h with rfl | h
  · exact .one hx e
  · exact .step hx e h

/-- A walk, and then maybe another -/
theorem walk_or {A : BlockId → Prop} {x y z : BlockId} (h' : Walk succ A x y) (h : y = z ∨ Walk succ A y z) :
    Walk succ A x z := by
  rcases h with rfl | h
  · exact h'
  · exact h'.trans h

/-- From every block of a program whose loops have breaks control can come to what follows the program, and if
there is a break it can come from the start of the program to where the loop around it ends. -/
theorem comes (s : Program) : LoopsEndAll s.toChains →
    (∀ (lp : Option (BlockId × BlockId)) (k : BlockId), Goes succ lp (some k) s →
      ∀ x ∈ s.ids, Walk succ (· ∈ s.ids) x k) ∧
    (canBreakAny s.toChains = true → ∀ (h m e : BlockId) (k : Option BlockId), Goes succ (some (h, m)) k s →
      s.entry k = some e → Walk succ (· ∈ s.ids) e m) := by
  induction s with
  | done => exact fun _ => ⟨fun _ _ _ x hx => by simp [ids] at hx, fun h => by simp [toChains, canBreakAny] at h⟩
  | ret id => exact fun _ => ⟨fun _ _ h => absurd h.1 (by simp), fun h => by simp [toChains, canBreakAny, canBreak] at h⟩
  | atom id rest ih =>
    intro hl
    obtain ⟨ih1, ih2⟩ := ih hl.2
    have up : ∀ x ∈ rest.ids, x ∈ (Program.atom id rest).ids := fun x hx => List.mem_cons_of_mem _ hx
    have hid : id ∈ (Program.atom id rest).ids := List.mem_cons_self
    constructor
    · rintro lp k ⟨⟨t, hs, he⟩, hr⟩ x hx
      rcases List.mem_cons.mp hx with rfl | hx
      · exact step_or hid ⟨t, t, hs, .inl rfl⟩ (from_entry he (ih1 _ _ hr) up)
      · exact (ih1 _ _ hr x hx).mono up
    · rintro hb h m e k ⟨⟨t, hs, he⟩, hr⟩ hen
      cases hen
      exact .step hid ⟨t, t, hs, .inl rfl⟩ ((ih2 (by simpa [toChains, canBreakAny, canBreak] using hb) _ _ _ _ hr he).mono up)
  | sel id left right hint weights rest ihl ihr ih =>
    intro hl
    obtain ⟨⟨hll, hlr⟩, hrest⟩ := hl
    obtain ⟨il1, il2⟩ := ihl ((loopsEnd_toChain _).mp hll)
    obtain ⟨ir1, ir2⟩ := ihr ((loopsEnd_toChain _).mp hlr)
    obtain ⟨ih1, ih2⟩ := ih hrest
    have upl : ∀ x ∈ left.ids, x ∈ (Program.sel id left right hint weights rest).ids := fun x hx => by simp [ids, hx]
    have upr : ∀ x ∈ right.ids, x ∈ (Program.sel id left right hint weights rest).ids := fun x hx => by simp [ids, hx]
    have up : ∀ x ∈ rest.ids, x ∈ (Program.sel id left right hint weights rest).ids := fun x hx => by simp [ids, hx]
    have hid : id ∈ (Program.sel id left right hint weights rest).ids := List.mem_cons_self
    constructor
    · rintro lp k ⟨t, f, m, hs, hm, ht, hf, gl, gr, gs⟩ x hx
      have hend := from_entry hm (ih1 _ _ gs) up
      simp only [ids, List.mem_cons, List.mem_append] at hx
      rcases hx with rfl | (hx | hx) | hx
      · exact walk_or (step_or hid ⟨t, f, hs, .inl rfl⟩ (from_entry ht (il1 _ _ gl) upl)) hend
      · exact walk_or ((il1 _ _ gl x hx).mono upl) hend
      · exact walk_or ((ir1 _ _ gr x hx).mono upr) hend
      · exact (ih1 _ _ gs x hx).mono up
    · rintro hb h m' e k ⟨t, f, m, hs, hm, ht, hf, gl, gr, gs⟩ hen
      cases hen
      simp only [toChains, canBreakAny, canBreak, Bool.or_eq_true, canBreak_toChain] at hb
      rcases hb with (hb | hb) | hb
      · exact .step hid ⟨t, f, hs, .inl rfl⟩ ((il2 hb _ _ _ _ gl ht).mono upl)
      · exact .step hid ⟨t, f, hs, .inr rfl⟩ ((ir2 hb _ _ _ _ gr hf).mono upr)
      · exact (step_or hid ⟨t, f, hs, .inl rfl⟩ (from_entry ht (il1 _ _ gl) upl)).trans ((ih2 hb _ _ _ _ gs hm).mono up)
  | loop id body hint rest ihb ih =>
    intro hl
    obtain ⟨⟨hbr, hlb⟩, hrest⟩ := hl
    rw [canBreak_toChain] at hbr
    obtain ⟨ib1, ib2⟩ := ihb ((loopsEnd_toChain _).mp hlb)
    obtain ⟨ih1, ih2⟩ := ih hrest
    have upb : ∀ x ∈ body.ids, x ∈ (Program.loop id body hint rest).ids := fun x hx => by simp [ids, hx]
    have up : ∀ x ∈ rest.ids, x ∈ (Program.loop id body hint rest).ids := fun x hx => by simp [ids, hx]
    have hid : id ∈ (Program.loop id body hint rest).ids := List.mem_cons_self
    constructor
    · rintro lp k ⟨t, m, hs, hm, ht, gb, gs⟩ x hx
      have hout : Walk succ (· ∈ (Program.loop id body hint rest).ids) id k :=
        walk_or (.step hid ⟨t, t, hs, .inl rfl⟩ ((ib2 hbr _ _ _ _ gb ht).mono upb)) (from_entry hm (ih1 _ _ gs) up)
      simp only [ids, List.mem_cons, List.mem_append] at hx
      rcases hx with rfl | hx | hx
      · exact hout
      · exact ((ib1 _ _ gb x hx).mono upb).trans hout
      · exact (ih1 _ _ gs x hx).mono up
    · rintro hb h m' e k ⟨t, m, hs, hm, ht, gb, gs⟩ hen
      cases hen
      have hb' : canBreakAny rest.toChains = true := by simpa [toChains, canBreakAny, canBreak] using hb
      exact (Walk.step hid ⟨t, t, hs, .inl rfl⟩ ((ib2 hbr _ _ _ _ gb ht).mono upb)).trans
        ((ih2 hb' _ _ _ _ gs hm).mono up)
  | exit id brk weights rest ih =>
    intro hl
    obtain ⟨ih1, ih2⟩ := ih ((loopsEnd_toChain _).mp hl.1.1)
    have up : ∀ x ∈ rest.ids, x ∈ (Program.exit id brk weights rest).ids := fun x hx => List.mem_cons_of_mem _ hx
    have hid : id ∈ (Program.exit id brk weights rest).ids := List.mem_cons_self
    constructor
    · rintro lp k ⟨h, m, t, f, hlp, hk, hs, hf, he, hr⟩ x hx
      rcases List.mem_cons.mp hx with rfl | hx
      · exact step_or hid ⟨t, f, hs, .inl rfl⟩ (from_entry he (ih1 _ _ hr) up)
      · exact (ih1 _ _ hr x hx).mono up
    · rintro hb h m e k ⟨h', m', t, f, hlp, hk, hs, hf, he, hr⟩ hen
      cases hlp
      cases hen
      cases brk with
      | true => exact .one hid ⟨t, f, hs, .inr hf.symm⟩
      | false =>
        have hb' : canBreakAny rest.toChains = true := by
          simpa [toChains, canBreakAny, canBreak, canBreak_toChain] using hb
        exact .step hid ⟨t, f, hs, .inl rfl⟩ ((ih2 hb' _ _ _ _ hr he).mono up)

/-- Control can come from the start of a program to each of its blocks. -/
theorem arrives (s : Program) : LoopsEndAll s.toChains → ∀ (lp : Option (BlockId × BlockId)) (k : Option BlockId)
    (e : BlockId), Goes succ lp k s → s.entry k = some e → ∀ x ∈ s.ids, x = e ∨ Walk succ (· ∈ s.ids) e x := by
  have part : ∀ {p s : Program} {e x : BlockId}, (∀ x ∈ p.ids, x ∈ s.ids) → (x = e ∨ Walk succ (· ∈ p.ids) e x) →
      e = x ∨ Walk succ (· ∈ s.ids) e x := fun hp h => h.elim (fun h => .inl h.symm) (fun h => .inr (h.mono hp))
  induction s with
  | done => exact fun _ _ _ _ _ _ x hx => by simp [ids] at hx
  | ret id =>
    intro _ lp k e _ he x hx
    cases he
    exact .inl (List.mem_singleton.mp hx)
  | atom id rest ih =>
    rintro hl lp k e ⟨⟨t, hs, ht⟩, hr⟩ he x hx
    cases he
    have up : ∀ x ∈ rest.ids, x ∈ (Program.atom id rest).ids := fun x hx => List.mem_cons_of_mem _ hx
    rcases List.mem_cons.mp hx with rfl | hx
    · exact .inl rfl
    · exact .inr (step_or List.mem_cons_self ⟨t, t, hs, .inl rfl⟩ (part up (ih hl.2 _ _ _ hr ht x hx)))
  | sel id left right hint weights rest ihl ihr ih =>
    rintro ⟨⟨hll, hlr⟩, hrest⟩ lp k e ⟨t, f, m, hs, hm, ht, hf, gl, gr, gs⟩ he x hx
    cases he
    have upl : ∀ x ∈ left.ids, x ∈ (Program.sel id left right hint weights rest).ids := fun x hx => by simp [ids, hx]
    have upr : ∀ x ∈ right.ids, x ∈ (Program.sel id left right hint weights rest).ids := fun x hx => by simp [ids, hx]
    have up : ∀ x ∈ rest.ids, x ∈ (Program.sel id left right hint weights rest).ids := fun x hx => by simp [ids, hx]
    have hid : id ∈ (Program.sel id left right hint weights rest).ids := List.mem_cons_self
    have hll' := (loopsEnd_toChain _).mp hll
    simp only [ids, List.mem_cons, List.mem_append] at hx
    rcases hx with rfl | (hx | hx) | hx
    · exact .inl rfl
    · exact .inr (step_or hid ⟨t, f, hs, .inl rfl⟩ (part upl (ihl hll' _ _ _ gl ht x hx)))
    · exact .inr (step_or hid ⟨t, f, hs, .inr rfl⟩ (part upr (ihr ((loopsEnd_toChain _).mp hlr) _ _ _ gr hf x hx)))
    · exact .inr (walk_or (step_or hid ⟨t, f, hs, .inl rfl⟩ (from_entry ht ((comes left hll').1 _ _ gl) upl))
        (part up (ih hrest _ _ _ gs hm x hx)))
  | loop id body hint rest ihb ih =>
    rintro ⟨⟨hbr, hlb⟩, hrest⟩ lp k e ⟨t, m, hs, hm, ht, gb, gs⟩ he x hx
    cases he
    have upb : ∀ x ∈ body.ids, x ∈ (Program.loop id body hint rest).ids := fun x hx => by simp [ids, hx]
    have up : ∀ x ∈ rest.ids, x ∈ (Program.loop id body hint rest).ids := fun x hx => by simp [ids, hx]
    have hid : id ∈ (Program.loop id body hint rest).ids := List.mem_cons_self
    have hlb' := (loopsEnd_toChain _).mp hlb
    rw [canBreak_toChain] at hbr
    simp only [ids, List.mem_cons, List.mem_append] at hx
    rcases hx with rfl | hx | hx
    · exact .inl rfl
    · exact .inr (step_or hid ⟨t, t, hs, .inl rfl⟩ (part upb (ihb hlb' _ _ _ gb ht x hx)))
    · exact .inr (walk_or (.step hid ⟨t, t, hs, .inl rfl⟩ (((comes body hlb').2 hbr _ _ _ _ gb ht).mono upb))
        (part up (ih hrest _ _ _ gs hm x hx)))
  | exit id brk weights rest ih =>
    rintro hl lp k e ⟨h, m, t, f, hlp, hk, hs, hf, ht, hr⟩ he x hx
    cases he
    have up : ∀ x ∈ rest.ids, x ∈ (Program.exit id brk weights rest).ids := fun x hx => List.mem_cons_of_mem _ hx
    rcases List.mem_cons.mp hx with rfl | hx
    · exact .inl rfl
    · exact .inr (step_or List.mem_cons_self ⟨t, f, hs, .inl rfl⟩
        (part up (ih ((loopsEnd_toChain _).mp hl.1.1) _ _ _ hr ht x hx)))

/-- A program has the blocks of any other that starts at the same block and ends at the same. -/
theorem same_blocks {s t : Program} (gs : Goes succ lp k s) (gt : Goes succ lp k t) (cs : Clear lp k s)
    (ct : Clear lp k t) (ls : LoopsEndAll s.toChains) (he : s.entry k = t.entry k) : ∀ x ∈ s.ids, x ∈ t.ids := by
  intro x hx
  obtain ⟨e, hse⟩ : ∃ e, s.entry k = some e := by
    cases s <;> first | exact ⟨_, rfl⟩ | (simp [ids] at hx)
  have hes : e ∈ s.ids := by
    rcases entry_cases hse with h | ⟨rfl, -⟩
    · exact h
    · simp [ids] at hx
  have het : e ∈ t.ids := by
    rcases entry_cases (he ▸ hse) with h | ⟨-, h⟩
    · exact h
    · exact absurd hes (cs.last e h)
  have keep : ∀ x y, x ∈ t.ids → Hop succ x y → y ∈ s.ids → y ∈ t.ids := by
    intro x y hx e hy
    rcases stays t lp k gt ct hx e with h | h | ⟨a, h, -⟩
    · exact h
    · exact absurd hy (cs.last y h)
    · exact absurd hy (cs.loop a y h).2.1
  rcases arrives s ls lp k e gs hse x hx with rfl | w
  · exact het
  · obtain ⟨z, -, hz, hzx⟩ := w.keeps (B := (· ∈ t.ids)) (fun a b _ ha e hb => keep a b ha e hb) het
    exact keep z x hz hzx hx

/-- `A` keeps off the block that follows the program and off the block where the loop around it ends, so a walk in
`A` from a block of the program stays in it up to its last step. -/
theorem within {p : Program} (g : Goes succ lp k p) (c : Clear lp k p) {A : BlockId → Prop}
    (hk : ∀ x, A x → k ≠ some x) (hl : ∀ x, A x → ∀ h, lp ≠ some (h, x)) {x y : BlockId} (w : Walk succ A x y)
    (hx : x ∈ p.ids) : y ∈ p.ids ∨ k = some y ∨ ∃ h, lp = some (h, y) ∧ k = some h := by
  obtain ⟨z, -, hz, e⟩ := w.keeps (B := (· ∈ p.ids)) (fun a b _ ha e hb => by
    rcases stays p lp k g c ha e with h | h | ⟨a, h, -⟩
    · exact h
    · exact absurd h (hk b hb)
    · exact absurd h (hl b hb a)) hx
  exact stays p lp k g c hz e

theorem Clear.off {s : Program} (c : Clear lp k s) {x : BlockId} (hx : x ∈ s.ids) :
    k ≠ some x ∧ ∀ h, lp ≠ some (h, x) :=
  ⟨fun h => c.last x h hx, fun h e => (c.loop h x e).2.1 hx⟩

section
variable {a : BlockId} {l r rest l' r' rest' : Program} {hint hint' : SelectionControl}
  {w w' : Option BranchWeights} {m m' : BlockId}

/-- A walk from the block of a selection that keeps off its merge block ends on one of its sides, or there. -/
theorem sides (g : Goes succ lp k (.sel a l r hint w rest)) (c : Clear lp k (.sel a l r hint w rest))
    (hm : rest.entry k = some m) {A : BlockId → Prop} (hk : ¬ A m) (hl : ∀ x, A x → ∀ h, lp ≠ some (h, x)) {y : BlockId}
    (v : Walk succ A a y) : y ∈ l.ids ∨ y ∈ r.ids ∨ y = m ∨ ∃ h, lp = some (h, y) := by
  obtain ⟨t, f, m₁, hs, hm₁, ht, hf, gl, gr, gs⟩ := g
  cases hm.symm.trans hm₁
  obtain ⟨cl, cr⟩ := c.selParts hm
  have one : ∀ z y, z = a ∨ z ∈ l.ids ∨ z ∈ r.ids → Hop succ z y →
      y ∈ l.ids ∨ y ∈ r.ids ∨ y = m ∨ ∃ h, lp = some (h, y) := by
    rintro z y (rfl | hz | hz) e
    · rcases hop_go hs e with rfl | rfl
      · rcases entry_cases ht with h | ⟨-, h⟩
        · exact .inl h
        · exact .inr (.inr (.inl (Option.some.inj h).symm))
      · rcases entry_cases hf with h | ⟨-, h⟩
        · exact .inr (.inl h)
        · exact .inr (.inr (.inl (Option.some.inj h).symm))
    · rcases stays l _ _ gl cl hz e with h | h | ⟨a, h, -⟩
      · exact .inl h
      · exact .inr (.inr (.inl (Option.some.inj h).symm))
      · exact .inr (.inr (.inr ⟨a, h⟩))
    · rcases stays r _ _ gr cr hz e with h | h | ⟨a, h, -⟩
      · exact .inr (.inl h)
      · exact .inr (.inr (.inl (Option.some.inj h).symm))
      · exact .inr (.inr (.inr ⟨a, h⟩))
  obtain ⟨z, -, hz, e⟩ := v.keeps (B := fun z => z = a ∨ z ∈ l.ids ∨ z ∈ r.ids) (fun x y _ hx e hy => by
    rcases one x y hx e with h | h | h | ⟨a, h⟩
    · exact .inr (.inl h)
    · exact .inr (.inr h)
    · subst h; exact absurd hy hk
    · exact absurd h (hl y hy a)) (.inl rfl)
  exact one z y hz e

/-- Control can come from the block of a selection to its merge block on either side. -/
theorem both (g : Goes succ lp k (.sel a l r hint w rest)) (hl : LoopsEndAll (Program.sel a l r hint w rest).toChains)
    (hm : rest.entry k = some m) :
    Walk succ (fun x => x = a ∨ x ∈ l.ids) a m ∧ Walk succ (fun x => x = a ∨ x ∈ r.ids) a m := by
  obtain ⟨t, f, m₁, hs, hm₁, ht, hf, gl, gr, gs⟩ := g
  cases hm.symm.trans hm₁
  obtain ⟨⟨hll, hlr⟩, -⟩ := hl
  exact ⟨step_or (.inl rfl) ⟨t, f, hs, .inl rfl⟩
      (from_entry ht ((comes l ((loopsEnd_toChain _).mp hll)).1 _ _ gl) (fun x hx => .inr hx)),
    step_or (.inl rfl) ⟨t, f, hs, .inr rfl⟩
      (from_entry hf ((comes r ((loopsEnd_toChain _).mp hlr)).1 _ _ gr) (fun x hx => .inr hx))⟩

theorem sel_disjoint (c : Clear lp k (.sel a l r hint w rest)) : a ∉ l.ids ∧ a ∉ r.ids ∧ a ∉ rest.ids ∧
    (∀ x ∈ l.ids, x ∉ r.ids ∧ x ∉ rest.ids) ∧ ∀ x ∈ r.ids, x ∉ rest.ids := by
  have hn := c.nodup
  simp only [ids, List.nodup_cons, List.mem_append, not_or, List.nodup_append] at hn
  obtain ⟨⟨⟨h1, h2⟩, h3⟩, ⟨h4, h5, h6⟩, h7, h8⟩ := hn
  exact ⟨h1, h2, h3, fun x hx => ⟨fun hy => h6 x hx x hy rfl, fun hy => h8 x (.inl hx) x hy rfl⟩,
    fun x hx hy => h8 x (.inr hx) x hy rfl⟩

/-- If two selections of the same block do not merge at the same block, the one merges on a side of the other. -/
theorem merges_inside (g : Goes succ lp k (.sel a l r hint w rest)) (c : Clear lp k (.sel a l r hint w rest))
    (hl : LoopsEndAll (Program.sel a l r hint w rest).toChains) (hm : rest.entry k = some m)
    (g' : Goes succ lp k (.sel a l' r' hint' w' rest')) (c' : Clear lp k (.sel a l' r' hint' w' rest'))
    (hm' : rest'.entry k = some m') (hne : m ≠ m') : m ∈ l'.ids ∨ m ∈ r'.ids := by
  obtain ⟨wl, wr⟩ := both g hl hm
  have hma' : m' ≠ a := by
    rintro rfl
    rcases entry_cases hm' with h | ⟨-, h⟩
    · exact (sel_disjoint c').2.2.1 h
    · exact c'.last _ h List.mem_cons_self
  have key : ∀ A : BlockId → Prop, (∀ x, A x → x ∈ (Program.sel a l r hint w rest).ids) → ¬ A m' → Walk succ A a m →
      m ∈ l'.ids ∨ m ∈ r'.ids := by
    intro A hA hn v
    rcases sides g' c' hm' hn (fun x hx => (c.off (hA x hx)).2) v with h | h | h | ⟨b, h⟩
    · exact .inl h
    · exact .inr h
    · exact absurd h hne
    · exact absurd rfl ((c.merge (before := a :: (l.ids ++ r.ids)) rfl hm).2 b m h)
  by_cases hml : m' ∈ l.ids
  · refine key _ (fun x hx => ?_) ?_ wr
    · rcases hx with rfl | hx <;> simp [ids, *]
    · rintro (h | h)
      · exact hma' h
      · exact ((sel_disjoint c).2.2.2.1 _ hml).1 h
  · refine key _ (fun x hx => ?_) ?_ wl
    · rcases hx with rfl | hx <;> simp [ids, *]
    · rintro (h | h)
      · exact hma' h
      · exact hml h

/-- Two selections of the same block merge at the same block. -/
theorem merges_agree (g : Goes succ lp k (.sel a l r hint w rest)) (c : Clear lp k (.sel a l r hint w rest))
    (hl : LoopsEndAll (Program.sel a l r hint w rest).toChains) (hm : rest.entry k = some m)
    (g' : Goes succ lp k (.sel a l' r' hint' w' rest')) (c' : Clear lp k (.sel a l' r' hint' w' rest'))
    (hl' : LoopsEndAll (Program.sel a l' r' hint' w' rest').toChains) (hm' : rest'.entry k = some m') : m = m' := by
  refine Decidable.byContradiction fun hne => ?_
  have h1 := merges_inside g c hl hm g' c' hm' hne
  have h2 := merges_inside g' c' hl' hm' g c hm (fun h => hne h.symm)
  have hin : m' ∈ (Program.sel a l r hint w rest).ids := by rcases h2 with h | h <;> simp [ids, h]
  have hin' : m ∈ (Program.sel a l' r' hint' w' rest').ids := by rcases h1 with h | h <;> simp [ids, h]
  have hrest' : m' ∈ rest'.ids := by
    rcases entry_cases hm' with h | ⟨-, h⟩
    · exact h
    · exact absurd hin (c.last _ h)
  have back : ∃ A : BlockId → Prop, (∀ x, A x → x ∈ (Program.sel a l r hint w rest).ids) ∧ Walk succ A m' m := by
    obtain ⟨t, f, m₁, hs, hm₁, ht, hf, gl, gr, gs⟩ := g
    cases hm.symm.trans hm₁
    obtain ⟨⟨hll, hlr⟩, -⟩ := hl
    rcases h2 with h | h
    · exact ⟨_, fun x hx => by simp only [ids, List.mem_cons, List.mem_append]; exact .inr (.inl (.inl hx)),
        (comes l ((loopsEnd_toChain _).mp hll)).1 _ _ gl m' h⟩
    · exact ⟨_, fun x hx => by simp only [ids, List.mem_cons, List.mem_append]; exact .inr (.inl (.inr hx)),
        (comes r ((loopsEnd_toChain _).mp hlr)).1 _ _ gr m' h⟩
  obtain ⟨A, hA, v⟩ := back
  obtain ⟨t, f, m₁, hs, hm₁, ht, hf, gl, gr, gs⟩ := g'
  rcases within gs c'.selRest (fun x hx => (c.off (hA x hx)).1) (fun x hx => (c.off (hA x hx)).2) v hrest' with
    h | h | ⟨b, h, -⟩
  · rcases h1 with h1 | h1
    · exact ((sel_disjoint c').2.2.2.1 _ h1).2 h
    · exact (sel_disjoint c').2.2.2.2 _ h1 h
  · exact c'.last _ h hin'
  · exact (c'.loop _ _ h).2.1 hin'

end

section
variable {a : BlockId} {body rest body' rest' : Program} {hint hint' : LoopControl} {m m' : BlockId}

theorem loop_disjoint (c : Clear lp k (.loop a body hint rest)) : a ∉ body.ids ∧ a ∉ rest.ids ∧
    ∀ x ∈ body.ids, x ∉ rest.ids := by
  have hn := c.nodup
  simp only [ids, List.nodup_cons, List.mem_append, not_or, List.nodup_append] at hn
  obtain ⟨⟨h1, h2⟩, h3, h4, h5⟩ := hn
  exact ⟨h1, h2, fun x hx hy => h5 x hx x hy rfl⟩

/-- A loop does not end inside another loop of the same block. -/
theorem ends_outside (g : Goes succ lp k (.loop a body hint rest)) (c : Clear lp k (.loop a body hint rest))
    (hl : LoopsEndAll (Program.loop a body hint rest).toChains)
    (g' : Goes succ lp k (.loop a body' hint' rest')) (c' : Clear lp k (.loop a body' hint' rest'))
    (hm' : rest'.entry k = some m') : m' ∉ body.ids := by
  intro hb
  obtain ⟨t, m, hs, hm, ht, gb, gs⟩ := g
  obtain ⟨t', m₁, hs', hm₁, ht', gb', gs'⟩ := g'
  have up : ∀ x ∈ body.ids, x ∈ (Program.loop a body hint rest).ids := fun x hx => by simp [ids, hx]
  have hrest' : m' ∈ rest'.ids := by
    rcases entry_cases hm' with h | ⟨-, h⟩
    · exact h
    · exact absurd (up _ hb) (c.last _ h)
  have v := (comes body ((loopsEnd_toChain _).mp hl.1.2)).1 _ _ gb m' hb
  rcases within gs' c'.loopRest (fun x hx => (c.off (up x hx)).1) (fun x hx => (c.off (up x hx)).2) v hrest' with
    h | h | ⟨b, h, -⟩
  · exact (loop_disjoint c').2.1 h
  · exact c'.last _ h List.mem_cons_self
  · exact (c'.loop _ _ h).2.1 List.mem_cons_self

/-- Two loops of the same block end at the same block. -/
theorem ends_agree (g : Goes succ lp k (.loop a body hint rest)) (c : Clear lp k (.loop a body hint rest))
    (hl : LoopsEndAll (Program.loop a body hint rest).toChains) (hm : rest.entry k = some m)
    (g' : Goes succ lp k (.loop a body' hint' rest')) (c' : Clear lp k (.loop a body' hint' rest'))
    (hl' : LoopsEndAll (Program.loop a body' hint' rest').toChains) (hm' : rest'.entry k = some m') : m = m' := by
  have h1 := ends_outside g c hl g' c' hm'
  have h2 := ends_outside g' c' hl' g c hm
  obtain ⟨t, m₁, hs, hm₁, ht, gb, gs⟩ := g
  cases hm.symm.trans hm₁
  obtain ⟨t', m₂, hs', hm₂, ht', gb', gs'⟩ := g'
  cases hm'.symm.trans hm₂
  obtain ⟨⟨hbr, hlb⟩, -⟩ := hl
  rw [canBreak_toChain] at hbr
  have v : Walk succ (fun x => x = a ∨ x ∈ body.ids) a m := .step (.inl rfl) ⟨t, t, hs, .inl rfl⟩
    (((comes body ((loopsEnd_toChain _).mp hlb)).2 hbr _ _ _ _ gb ht).mono fun x hx => .inr hx)
  have hma' : m' ≠ a := by
    rintro rfl
    exact (c'.merge (before := m' :: body'.ids) rfl hm').1 List.mem_cons_self
  have hma : m ≠ a := by
    rintro rfl
    exact (c.merge (before := m :: body.ids) rfl hm).1 List.mem_cons_self
  have one : ∀ z y, z = a ∨ z ∈ body'.ids → Hop succ z y → (y = a ∨ y ∈ body'.ids) ∨ y = m' := by
    rintro z y (rfl | hz) e
    · have hy : y = t' := by rcases hop_go hs' e with h | h <;> exact h
      subst hy
      rcases entry_cases ht' with h | ⟨-, h⟩
      · exact .inl (.inr h)
      · exact .inl (.inl (Option.some.inj h).symm)
    · rcases stays body' _ _ gb' (c'.loopBody hm') hz e with h | h | ⟨b, h, -⟩
      · exact .inl (.inr h)
      · exact .inl (.inl (Option.some.inj h).symm)
      · cases h
        exact .inr rfl
  obtain ⟨z, -, hz, e⟩ := v.keeps (B := fun x => x = a ∨ x ∈ body'.ids) (fun x y _ hx e hy => by
    rcases one x y hx e with h | h
    · exact h
    · subst h
      rcases hy with h | h
      · exact absurd h hma'
      · exact absurd h h1) (.inl rfl)
  rcases one z m hz e with (h | h) | h
  · exact absurd h hma
  · exact absurd h h2
  · exact h

/-- A block that starts a loop is come back to from another block. -/
theorem comes_back (g : Goes succ lp k (.loop a body hint rest)) (hl : LoopsEndAll (Program.loop a body hint rest).toChains) :
    ∃ b ∈ body.ids, Hop succ a b ∧ Walk succ (· ∈ body.ids) b a := by
  obtain ⟨t, m, hs, hm, ht, gb, gs⟩ := g
  obtain ⟨⟨hbr, hlb⟩, -⟩ := hl
  have htb : t ∈ body.ids := by
    rcases entry_cases ht with h | ⟨rfl, -⟩
    · exact h
    · simp [toChain, canBreak, canBreakAny] at hbr
  exact ⟨t, htb, ⟨t, t, hs, .inl rfl⟩, (comes body ((loopsEnd_toChain _).mp hlb)).1 _ _ gb t htb⟩

/-- No loop starts at a block that is not come back to. -/
theorem not_loop {t : Program} (g : Goes succ lp k (.loop a body hint rest)) (c : Clear lp k (.loop a body hint rest))
    (hl : LoopsEndAll (Program.loop a body hint rest).toChains) (gt : Goes succ lp k t) (ct : Clear lp k t)
    (ha : a ∈ t.ids) (hno : ∀ z ∈ t.ids, z ≠ a → ¬ Hop succ z a) : False := by
  obtain ⟨b, hb, e, v⟩ := comes_back g hl
  have up : ∀ x ∈ body.ids, x ∈ (Program.loop a body hint rest).ids := fun x hx => by simp [ids, hx]
  have off : ∀ x ∈ body.ids, x ≠ a := fun x hx h => (loop_disjoint c).1 (h ▸ hx)
  have one : ∀ z y, z ∈ t.ids → Hop succ z y → y ∈ body.ids → y ∈ t.ids ∧ y ≠ a := by
    intro z y hz e hy
    refine ⟨?_, off y hy⟩
    rcases stays t _ _ gt ct hz e with h | h | ⟨b, h, -⟩
    · exact h
    · exact absurd h (c.off (up y hy)).1
    · exact absurd h ((c.off (up y hy)).2 b)
  obtain ⟨z, hzb, hz, e'⟩ := v.keeps (B := (· ∈ t.ids)) (fun x y _ hx e hy => (one x y hx e hy).1) (one a b ha e hb).1
  exact hno z hz (off z hzb) e'

end

/-- Nothing in a selection or after it goes back to its block. -/
theorem sel_no_return {a : BlockId} {l r rest : Program} {hint : SelectionControl} {w : Option BranchWeights}
    (g : Goes succ lp k (.sel a l r hint w rest)) (c : Clear lp k (.sel a l r hint w rest)) :
    ∀ z ∈ (Program.sel a l r hint w rest).ids, z ≠ a → ¬ Hop succ z a := by
  obtain ⟨t, f, m, hs, hm, ht, hf, gl, gr, gs⟩ := g
  obtain ⟨cl, cr⟩ := c.selParts hm
  obtain ⟨d1, d2, d3, -⟩ := sel_disjoint c
  have hid : a ∈ (Program.sel a l r hint w rest).ids := List.mem_cons_self
  have hma := (c.merge (before := a :: (l.ids ++ r.ids)) rfl hm).1
  intro z hz hne e
  simp only [ids, List.mem_cons, List.mem_append] at hz
  rcases hz with rfl | (hz | hz) | hz
  · exact hne rfl
  · rcases stays l _ _ gl cl hz e with h | h | ⟨b, h, -⟩
    · exact d1 h
    · cases h; exact hma List.mem_cons_self
    · exact (c.loop _ _ h).2.1 hid
  · rcases stays r _ _ gr cr hz e with h | h | ⟨b, h, -⟩
    · exact d2 h
    · cases h; exact hma List.mem_cons_self
    · exact (c.loop _ _ h).2.1 hid
  · rcases stays rest _ _ gs c.selRest hz e with h | h | ⟨b, h, -⟩
    · exact d3 h
    · exact c.last _ h hid
    · exact (c.loop _ _ h).2.1 hid

/-- Nothing after a block that leaves the loop goes back to it. -/
theorem exit_no_return {a : BlockId} {brk : Bool} {rest : Program} {w : Option BranchWeights}
    (g : Goes succ lp k (.exit a brk w rest)) (c : Clear lp k (.exit a brk w rest)) :
    ∀ z ∈ (Program.exit a brk w rest).ids, z ≠ a → ¬ Hop succ z a := by
  obtain ⟨h, m, t, f, hlp, hk, hs, hf, ht, hr⟩ := g
  have hid : a ∈ (Program.exit a brk w rest).ids := List.mem_cons_self
  intro z hz hne e
  rcases List.mem_cons.mp hz with rfl | hz
  · exact hne rfl
  · rcases stays rest _ _ hr c.exit hz e with h | h | ⟨b, h, -⟩
    · exact (List.nodup_cons.mp c.nodup).1 h
    · exact c.last _ h hid
    · exact (c.loop _ _ h).2.1 hid

theorem bare_toChain (s : Program) : bare s.toChain = bundle (bareAll s.toChains) := by
  cases s <;> rfl

/-- The kinds of programs: every one that neither is at an end, nor returns, nor leaves or starts a loop, is a
selection, maybe with nothing on its sides. -/
inductive Kind (succ : BlockId → Option Step) (lp : Option (BlockId × BlockId)) (k : Option BlockId) (s : Program) :
    Prop where
  | done : s = .done → Kind succ lp k s
  | ret (a : BlockId) : s = .ret a → Kind succ lp k s
  | sel (a : BlockId) (l r rest : Program) (hint : SelectionControl) (w : Option BranchWeights) :
      Goes succ lp k (.sel a l r hint w rest) → Clear lp k (.sel a l r hint w rest) →
      LoopsEndAll (Program.sel a l r hint w rest).toChains →
      bareAll s.toChains = bareAll (Program.sel a l r hint w rest).toChains → s.entry k = some a →
      s.ids = (Program.sel a l r hint w rest).ids → Kind succ lp k s
  | loop (a : BlockId) (body rest : Program) (hint : LoopControl) : s = .loop a body hint rest → Kind succ lp k s
  | brk (a : BlockId) (rest : Program) (w : Option BranchWeights) : s = .exit a true w rest → Kind succ lp k s

theorem kind {s : Program} (g : Goes succ lp k s) (c : Clear lp k s) (hl : LoopsEndAll s.toChains) :
    Kind succ lp k s := by
  cases s with
  | done => exact .done rfl
  | ret a => exact .ret a rfl
  | atom a rest =>
    obtain ⟨⟨t, hs, he⟩, hr⟩ := g
    refine .sel a .done .done rest { flatten := false, dont_flatten := false } none ⟨t, t, t, hs, he, rfl, rfl, (fun h => by cases h), (fun h => by cases h), hr⟩
      ⟨c.nodup, c.last, c.loop⟩ ⟨⟨trivial, trivial⟩, hl.2⟩ rfl rfl rfl
  | sel a l r hint w rest => exact .sel a l r rest hint w g c hl rfl rfl rfl
  | loop a body hint rest => exact .loop a body rest hint rfl
  | exit a brk w rest =>
    cases brk with
    | true => exact .brk a rest w rfl
    | false =>
      obtain ⟨h, m, t, f, hlp, hk, hs, hf, he, hr⟩ := g
      have hi : (Program.exit a false w rest).ids = (Program.sel a rest .done { flatten := false, dont_flatten := false } none .done).ids := by simp [ids]
      subst hk
      refine .sel a rest .done .done { flatten := false, dont_flatten := false } none
        ⟨t, h, h, by rw [hs, hf]; rfl, rfl, he, rfl, hr, (fun h => by cases h), (fun h => by cases h)⟩
        ⟨hi ▸ c.nodup, hi ▸ c.last, hi ▸ c.loop⟩ ⟨⟨hl.1.1, trivial⟩, trivial⟩ rfl rfl hi

theorem same_go {a t f t' f' : BlockId} (h : succ a = some (.go t f)) (h' : succ a = some (.go t' f')) :
    t = t' ∧ f = f' := by
  rw [h] at h'
  cases h'
  exact ⟨rfl, rfl⟩

/-- A block that leaves a loop is not the block of a selection. -/
theorem brk_not_sel {a : BlockId} {rest₁ l r rest : Program} {hint : SelectionControl} {w₁ w : Option BranchWeights}
    (g₁ : Goes succ lp k (.exit a true w₁ rest₁)) (g : Goes succ lp k (.sel a l r hint w rest))
    (c : Clear lp k (.sel a l r hint w rest)) : False := by
  obtain ⟨h, m₁, t₁, f₁, hlp, hk, hs₁, hf₁, -⟩ := g₁
  obtain ⟨t, f, m, hs, hm, ht, hf, -⟩ := g
  obtain ⟨-, e⟩ := same_go hs hs₁
  subst e hf₁
  rcases entry_cases hf with h' | ⟨-, h'⟩
  · exact (c.loop _ _ hlp).2.1 (by simp [ids, h'])
  · cases h'
    exact (c.merge (before := a :: (l.ids ++ r.ids)) rfl hm).2 _ _ hlp rfl

/-- Two programs that start and end at the same blocks, and whose blocks go to the same blocks, are the same up to
what `bare` takes away. -/
theorem unique : ∀ (n : Nat) (s t : Program) (lp : Option (BlockId × BlockId)) (k : Option BlockId),
    s.ids.length ≤ n → Goes succ lp k s → Goes succ lp k t → Clear lp k s → Clear lp k t →
    LoopsEndAll s.toChains → LoopsEndAll t.toChains → s.entry k = t.entry k →
    bareAll s.toChains = bareAll t.toChains := by
  intro n
  induction n with
  | zero =>
    intro s t lp k hn gs gt cs ct ls lt he
    have hs : s = .done := by cases s <;> simp_all [ids]
    subst hs
    obtain ⟨e, rfl⟩ := Option.ne_none_iff_exists'.mp gs
    rcases entry_cases he.symm with h | ⟨rfl, -⟩
    · exact absurd h (ct.last e rfl)
    · rfl
  | succ n ih =>
    intro s t lp k hn gs gt cs ct ls lt he
    rcases kind gs cs ls with rfl | ⟨a, rfl⟩ | ⟨a, l, r, rest, hint, w, g, c, ll, hb, hea, hi⟩ | ⟨a, body, rest, hint, rfl⟩ |
      ⟨a, rest, w, rfl⟩
    · obtain ⟨e, rfl⟩ := Option.ne_none_iff_exists'.mp gs
      rcases entry_cases he.symm with h | ⟨rfl, -⟩
      · exact absurd h (ct.last e rfl)
      · rfl
    · obtain ⟨rfl, hs⟩ := gs
      rcases kind gt ct lt with rfl | ⟨a', rfl⟩ | ⟨a', l', r', rest', hint', w', g', c', ll', hb', hea', hi'⟩ |
        ⟨a', body', rest', hint', rfl⟩ | ⟨a', rest', w', rfl⟩
      · cases he
      · cases he; rfl
      · rw [hea'] at he
        cases he
        obtain ⟨_, _, _, hs', _⟩ := g'
        rw [hs] at hs'
        cases hs'
      · cases he
        obtain ⟨_, _, hs', _⟩ := gt
        rw [hs] at hs'
        cases hs'
      · obtain ⟨_, _, _, _, _, hk, _⟩ := gt
        cases hk
    · rw [hea] at he
      rcases kind gt ct lt with rfl | ⟨a', rfl⟩ | ⟨a', l', r', rest', hint', w', g', c', ll', hb', hea', hi'⟩ |
        ⟨a', body', rest', hint', rfl⟩ | ⟨a', rest', w', rfl⟩
      · exact absurd List.mem_cons_self (c.last a he.symm)
      · cases he
        obtain ⟨_, _, _, hs', _⟩ := g
        rw [gt.2] at hs'
        cases hs'
      · rw [hea'] at he
        cases he
        rw [hb, hb']
        obtain ⟨m, hm⟩ : ∃ m, rest.entry k = some m := by obtain ⟨_, _, m, _, hm, _⟩ := g; exact ⟨m, hm⟩
        obtain ⟨m', hm'⟩ : ∃ m', rest'.entry k = some m' := by obtain ⟨_, _, m, _, hm, _⟩ := g'; exact ⟨m, hm⟩
        have e := merges_agree g c ll hm g' c' ll' hm'
        subst e
        obtain ⟨t₁, f₁, m₁, hs₁, hm₁, ht₁, hf₁, gl₁, gr₁, gs₁⟩ := g
        cases hm.symm.trans hm₁
        obtain ⟨t₂, f₂, m₂, hs₂, hm₂, ht₂, hf₂, gl₂, gr₂, gs₂⟩ := g'
        cases hm'.symm.trans hm₂
        obtain ⟨rfl, rfl⟩ := same_go hs₁ hs₂
        obtain ⟨cl, cr⟩ := c.selParts hm
        obtain ⟨cl', cr'⟩ := c'.selParts hm'
        rw [hi] at hn
        simp only [ids, List.length_cons, List.length_append] at hn
        have el := ih l l' _ _ (by omega) gl₁ gl₂ cl cl' ((loopsEnd_toChain _).mp ll.1.1)
          ((loopsEnd_toChain _).mp ll'.1.1) (ht₁.trans ht₂.symm)
        have er := ih r r' _ _ (by omega) gr₁ gr₂ cr cr' ((loopsEnd_toChain _).mp ll.1.2)
          ((loopsEnd_toChain _).mp ll'.1.2) (hf₁.trans hf₂.symm)
        have es := ih rest rest' _ _ (by omega) gs₁ gs₂ c.selRest c'.selRest ll.2 ll'.2 (hm.trans hm'.symm)
        simp only [toChains, bareAll, bare, bare_toChain, el, er, es]
      · cases he
        exact (not_loop gt ct lt g c List.mem_cons_self (sel_no_return g c)).elim
      · cases he
        exact (brk_not_sel gt g c).elim
    · rcases kind gt ct lt with rfl | ⟨a', rfl⟩ | ⟨a', l', r', rest', hint', w', g', c', ll', hb', hea', hi'⟩ |
        ⟨a', body', rest', hint', rfl⟩ | ⟨a', rest', w', rfl⟩
      · exact absurd List.mem_cons_self (cs.last a he.symm)
      · cases he
        obtain ⟨_, _, hs', _⟩ := gs
        rw [gt.2] at hs'
        cases hs'
      · rw [hea'] at he
        cases he
        exact (not_loop gs cs ls g' c' List.mem_cons_self (sel_no_return g' c')).elim
      · cases he
        obtain ⟨m, hm⟩ : ∃ m, rest.entry k = some m := by obtain ⟨_, m, _, hm, _⟩ := gs; exact ⟨m, hm⟩
        obtain ⟨m', hm'⟩ : ∃ m', rest'.entry k = some m' := by obtain ⟨_, m, _, hm, _⟩ := gt; exact ⟨m, hm⟩
        have e := ends_agree gs cs ls hm gt ct lt hm'
        subst e
        obtain ⟨t₁, m₁, hs₁, hm₁, ht₁, gb₁, gs₁⟩ := gs
        cases hm.symm.trans hm₁
        obtain ⟨t₂, m₂, hs₂, hm₂, ht₂, gb₂, gs₂⟩ := gt
        cases hm'.symm.trans hm₂
        obtain ⟨rfl, -⟩ := same_go hs₁ hs₂
        simp only [ids, List.length_cons, List.length_append] at hn
        have eb := ih body body' _ _ (by omega) gb₁ gb₂ (cs.loopBody hm) (ct.loopBody hm')
          ((loopsEnd_toChain _).mp ls.1.2) ((loopsEnd_toChain _).mp lt.1.2) (ht₁.trans ht₂.symm)
        have es := ih rest rest' _ _ (by omega) gs₁ gs₂ cs.loopRest ct.loopRest ls.2 lt.2 (hm.trans hm'.symm)
        simp only [toChains, bareAll, bare, bare_toChain, eb, es]
      · cases he
        exact (not_loop gs cs ls gt ct List.mem_cons_self (exit_no_return gt ct)).elim
    · rcases kind gt ct lt with rfl | ⟨a', rfl⟩ | ⟨a', l', r', rest', hint', w', g', c', ll', hb', hea', hi'⟩ |
        ⟨a', body', rest', hint', rfl⟩ | ⟨a', rest', w', rfl⟩
      · exact absurd List.mem_cons_self (cs.last a he.symm)
      · cases he
        obtain ⟨_, _, _, _, _, hk, _⟩ := gs
        cases gt.1.symm.trans hk
      · rw [hea'] at he
        cases he
        exact (brk_not_sel gs g' c').elim
      · cases he
        exact (not_loop gt ct lt gs cs List.mem_cons_self (exit_no_return gs cs)).elim
      · cases he
        obtain ⟨h₁, m₁, t₁, f₁, hlp₁, hk₁, hs₁, hf₁, ht₁, gs₁⟩ := gs
        obtain ⟨h₂, m₂, t₂, f₂, hlp₂, hk₂, hs₂, hf₂, ht₂, gs₂⟩ := gt
        obtain ⟨rfl, -⟩ := same_go hs₁ hs₂
        simp only [ids, List.length_cons] at hn
        have es := ih rest rest' _ _ (by omega) gs₁ gs₂ cs.exit ct.exit ((loopsEnd_toChain _).mp ls.1.1)
          ((loopsEnd_toChain _).mp lt.1.1) (ht₁.trans ht₂.symm)
        simp only [toChains, bareAll, bare, bare_toChain, es]

variable {X Y : Type}

/-- Where a basic block goes -/
def stepOf (blocks : List (BasicBlock X)) (id : BlockId) : Option Step :=
  (blockOf blocks id).map fun b =>
    match b.branch with
    | .OpReturn _ => .stop
    | .OpBranch op => .go ⟨op.target_label.val⟩ ⟨op.target_label.val⟩
    | .OpBranchConditional op => .go ⟨op.true_label.val⟩ ⟨op.false_label.val⟩

theorem goes_of_spelled {blocks : List (BasicBlock X)} : ∀ (s : Program) (lp : Option (BlockId × BlockId))
    (k : Option BlockId), s.SpelledBy blocks lp k → Goes (stepOf blocks) lp k s := by
  intro s
  induction s with
  | done => exact fun _ _ h => h
  | ret id =>
    rintro lp k ⟨hk, b, r, hb, hr⟩
    exact ⟨hk, by simp [stepOf, hb, hr]⟩
  | atom id rest ih =>
    rintro lp k ⟨⟨b, op, hb, -, hop, he⟩, hr⟩
    exact ⟨⟨_, by simp only [stepOf, hb, hop, Option.map_some], he⟩, ih _ _ hr⟩
  | sel id left right hint weights rest ihl ihr ih =>
    rintro lp k ⟨b, op, sm, hb, -, hop, -, -, hm, ht, hf, hl, hr, hs⟩
    exact ⟨_, _, _, by simp only [stepOf, hb, hop, Option.map_some], hm, ht, hf, ihl _ _ hl, ihr _ _ hr, ih _ _ hs⟩
  | loop id body hint rest ihb ih =>
    rintro lp k ⟨b, op, lm, hb, -, hop, -, hm, ht, hl, hs⟩
    exact ⟨_, _, by simp only [stepOf, hb, hop, Option.map_some], hm, ht, ihb _ _ hl, ih _ _ hs⟩
  | exit id brk weights rest ih =>
    rintro lp k ⟨h, m, b, op, hlp, hk, hb, -, hop, -, hf, ht, hs⟩
    exact ⟨h, m, _, _, hlp, hk, by simp only [stepOf, hb, hop, Option.map_some], hf, ht, ih _ _ hs⟩

theorem goes_congr {succ' : BlockId → Option Step} : ∀ (s : Program) (lp : Option (BlockId × BlockId))
    (k : Option BlockId), (∀ x ∈ s.ids, succ x = succ' x) → Goes succ lp k s → Goes succ' lp k s := by
  intro s
  induction s with
  | done => exact fun _ _ _ h => h
  | ret id => exact fun _ _ h g => ⟨g.1, (h id List.mem_cons_self) ▸ g.2⟩
  | atom id rest ih =>
    rintro lp k h ⟨⟨t, hs, he⟩, hr⟩
    exact ⟨⟨t, (h id List.mem_cons_self) ▸ hs, he⟩, ih _ _ (fun x hx => h x (List.mem_cons_of_mem _ hx)) hr⟩
  | sel id left right hint weights rest ihl ihr ih =>
    rintro lp k h ⟨t, f, m, hs, hm, ht, hf, gl, gr, gs⟩
    exact ⟨t, f, m, (h id List.mem_cons_self) ▸ hs, hm, ht, hf, ihl _ _ (fun x hx => h x (by simp [ids, hx])) gl,
      ihr _ _ (fun x hx => h x (by simp [ids, hx])) gr, ih _ _ (fun x hx => h x (by simp [ids, hx])) gs⟩
  | loop id body hint rest ihb ih =>
    rintro lp k h ⟨t, m, hs, hm, ht, gb, gs⟩
    exact ⟨t, m, (h id List.mem_cons_self) ▸ hs, hm, ht, ihb _ _ (fun x hx => h x (by simp [ids, hx])) gb,
      ih _ _ (fun x hx => h x (by simp [ids, hx])) gs⟩
  | exit id brk weights rest ih =>
    rintro lp k h ⟨hd, m, t, f, hlp, hk, hs, hf, ht, gs⟩
    exact ⟨hd, m, t, f, hlp, hk, (h id List.mem_cons_self) ▸ hs, hf, ht,
      ih _ _ (fun x hx => h x (List.mem_cons_of_mem _ hx)) gs⟩

theorem goes_some : ∀ (s : Program) (lp : Option (BlockId × BlockId)) (k : Option BlockId), Goes succ lp k s →
    ∀ x ∈ s.ids, succ x ≠ none := by
  intro s
  induction s with
  | done => exact fun _ _ _ x hx => by simp [ids] at hx
  | ret id =>
    intro lp k g x hx
    cases List.mem_singleton.mp hx
    rw [g.2]
    exact nofun
  | atom id rest ih =>
    rintro lp k ⟨⟨t, hs, he⟩, hr⟩ x hx
    rcases List.mem_cons.mp hx with rfl | hx
    · rw [hs]; exact nofun
    · exact ih _ _ hr x hx
  | sel id left right hint weights rest ihl ihr ih =>
    rintro lp k ⟨t, f, m, hs, hm, ht, hf, gl, gr, gs⟩ x hx
    simp only [ids, List.mem_cons, List.mem_append] at hx
    rcases hx with rfl | (hx | hx) | hx
    · rw [hs]; exact nofun
    · exact ihl _ _ gl x hx
    · exact ihr _ _ gr x hx
    · exact ih _ _ gs x hx
  | loop id body hint rest ihb ih =>
    rintro lp k ⟨t, m, hs, hm, ht, gb, gs⟩ x hx
    simp only [ids, List.mem_cons, List.mem_append] at hx
    rcases hx with rfl | hx | hx
    · rw [hs]; exact nofun
    · exact ihb _ _ gb x hx
    · exact ih _ _ gs x hx
  | exit id brk weights rest ih =>
    rintro lp k ⟨hd, m, t, f, hlp, hk, hs, hf, ht, gs⟩ x hx
    rcases List.mem_cons.mp hx with rfl | hx
    · rw [hs]; exact nofun
    · exact ih _ _ gs x hx

/-- Execution depends only on where the blocks go. -/
theorem runBlocks_cons (blocks : List (BasicBlock X)) (d : Bool) (ds : List Bool) (id : BlockId) :
    runBlocks blocks (d :: ds) id =
      match stepOf blocks id with
      | none => ([], .stuck)
      | some .stop => ([id], .returned)
      | some (.go t f) => (id :: (runBlocks blocks ds (if d then t else f)).1, (runBlocks blocks ds (if d then t else f)).2) := by
  rw [runBlocks, stepOf]
  cases hb : blockOf blocks id with
  | none => rfl
  | some b =>
    simp only [Option.map_some]
    cases b.branch with
    | OpReturn _ => rfl
    | OpBranch op => cases d <;> rfl
    | OpBranchConditional op => cases d <;> rfl

/-- A block that is visited if it exists -/
theorem runBlocks_one {blocks : List (BasicBlock X)} {id : BlockId} (h : stepOf blocks id ≠ none) (d : Bool) :
    (runBlocks blocks [d] id).1 = [id] := by
  rw [runBlocks_cons]
  cases hs : stepOf blocks id with
  | none => exact absurd hs h
  | some st => cases st <;> rfl

theorem runBlocks_one' {blocks : List (BasicBlock X)} {id id' : BlockId} {d : Bool}
    (h : (runBlocks blocks [d] id).1 = [id']) : id = id' := by
  rw [runBlocks_cons] at h
  cases hs : stepOf blocks id with
  | none => rw [hs] at h; cases h
  | some st =>
    rw [hs] at h
    cases st <;> (cases h; rfl)

/-- If all executions from a block are the same in two functions, the block goes to the same blocks in both, and
all executions from there are the same. -/
theorem same_step {blocks : List (BasicBlock X)} {blocks' : List (BasicBlock Y)} {x : BlockId} (hx : stepOf blocks x ≠ none)
    (hy : ∀ y, Hop (stepOf blocks) x y → stepOf blocks y ≠ none)
    (h : ∀ ds, runBlocks blocks ds x = runBlocks blocks' ds x) :
    stepOf blocks x = stepOf blocks' x ∧
      ∀ y, Hop (stepOf blocks) x y → ∀ ds, runBlocks blocks ds y = runBlocks blocks' ds y := by
  have h1 := h [true]
  rw [runBlocks_cons, runBlocks_cons] at h1
  cases hs : stepOf blocks x with
  | none => exact absurd hs hx
  | some st =>
    cases st with
    | stop =>
      refine ⟨?_, fun y ⟨t, f, e, _⟩ => by rw [hs] at e; cases e⟩
      rw [hs] at h1
      cases hs' : stepOf blocks' x with
      | none => rw [hs'] at h1; cases h1
      | some st' =>
        cases st' with
        | stop => rfl
        | go t f => rw [hs'] at h1; cases h1
    | go t f =>
      rw [hs] at h1
      cases hs' : stepOf blocks' x with
      | none => rw [hs'] at h1; cases h1
      | some st' =>
        cases st' with
        | stop => rw [hs'] at h1; cases h1
        | go t' f' =>
          have hd : ∀ (d : Bool) (ds : List Bool),
              runBlocks blocks ds (if d then t else f) = runBlocks blocks' ds (if d then t' else f') := by
            intro d ds
            have e := h (d :: ds)
            rw [runBlocks_cons, runBlocks_cons, hs, hs'] at e
            simp only [Prod.mk.injEq, List.cons.injEq, true_and] at e
            exact Prod.ext e.1 e.2
          have ht : t' = t := runBlocks_one' (blocks := blocks') (d := true)
            ((congrArg Prod.fst (hd true [true])).symm.trans (runBlocks_one (hy t ⟨t, f, hs, .inl rfl⟩) true))
          have hf : f' = f := runBlocks_one' (blocks := blocks') (d := true)
            ((congrArg Prod.fst (hd false [true])).symm.trans (runBlocks_one (hy f ⟨t, f, hs, .inr rfl⟩) true))
          subst ht hf
          refine ⟨rfl, fun y e ds => ?_⟩
          rcases hop_go hs e with rfl | rfl
          · exact hd true ds
          · exact hd false ds

/-- Two functions with the same executions have the same recovered control flow, up to what `bare` takes away. -/
theorem determined {blocks : List (BasicBlock X)} {blocks' : List (BasicBlock Y)} {s t : Program} {e e' : BlockId}
    (hs : s.SpelledBy blocks none none) (ht : t.SpelledBy blocks' none none) (he : s.entry none = some e)
    (he' : t.entry none = some e') (ds : s.ids.Nodup) (dt : t.ids.Nodup) (ls : LoopsEndAll s.toChains)
    (lt : LoopsEndAll t.toChains) (h : ∀ ds, runBlocks blocks ds e = runBlocks blocks' ds e') :
    bareAll s.toChains = bareAll t.toChains := by
  have gs := goes_of_spelled s _ _ hs
  have gt := goes_of_spelled t _ _ ht
  have cs : Clear none none s := ⟨ds, nofun, nofun⟩
  have ct : Clear none none t := ⟨dt, nofun, nofun⟩
  have ee : e' = e := by
    have hes : e ∈ s.ids := by
      rcases entry_cases he with h | ⟨-, h⟩
      · exact h
      · cases h
    exact runBlocks_one' (blocks := blocks') (d := true)
      ((congrArg Prod.fst (h [true])).symm.trans (runBlocks_one (goes_some s _ _ gs e hes) true))
  subst ee
  have hop : ∀ x y, x ∈ s.ids → Hop (stepOf blocks) x y → y ∈ s.ids := by
    intro x y hx e
    rcases stays s _ _ gs cs hx e with h | h | ⟨_, h, _⟩
    · exact h
    · cases h
    · cases h
  have step : ∀ x ∈ s.ids, (∀ ds, runBlocks blocks ds x = runBlocks blocks' ds x) →
      stepOf blocks x = stepOf blocks' x ∧
        ∀ y, Hop (stepOf blocks) x y → ∀ ds, runBlocks blocks ds y = runBlocks blocks' ds y := fun x hx =>
    same_step (goes_some s _ _ gs x hx) (fun y e => goes_some s _ _ gs y (hop x y hx e))
  have all : ∀ x ∈ s.ids, ∀ ds, runBlocks blocks ds x = runBlocks blocks' ds x := by
    intro x hx
    rcases arrives s ls _ _ _ gs he x hx with rfl | w
    · exact h
    · obtain ⟨z, hz, hb, e⟩ := w.keeps (B := fun x => ∀ ds, runBlocks blocks ds x = runBlocks blocks' ds x)
        (fun x y hx hb e _ => (step x hx hb).2 y e) h
      exact (step z hz hb).2 x e
  exact unique s.ids.length s t none none (Nat.le_refl _) (goes_congr s _ _ (fun x hx => (step x hx (all x hx)).1) gs) gt
    cs ct ls lt (he.trans he'.symm)

/-! ### `bare` keeps executions -/

/-- To start the next round of the loop early is to come to the end of its body. -/
def calm (e : Effect) : Effect :=
  match e.signal with
  | .continues => { e with signal := .next }
  | _ => e

theorem exec_bundle (cs : List ControlFlowChain) (ds : List Bool) : exec (bundle cs) ds = execAll cs ds := by
  match cs with
  | [] => rfl
  | [c] => exact (andThen_nothing _).symm
  | _ :: _ :: _ => rfl

theorem exec_choice (id : BlockId) (l r : ControlFlowChain) (hint : SelectionControl) (w : Option BranchWeights)
    (ds : List Bool) : exec (choice id l r) ds = exec (.Selection id l r hint w) ds := by
  unfold choice
  split
  · cases ds with
    | nil => rfl
    | cons d ds => cases d <;> rfl
  · cases ds <;> rfl

theorem repeat_signal (body : List Bool → Effect) : ∀ n ds, (repeatUntilBreak body n ds).signal ≠ .continues := by
  intro n
  induction n with
  | zero => intro ds; exact nofun
  | succ n ih =>
    intro ds
    simp only [repeatUntilBreak]
    split
    · exact ih _
    · exact ih _
    · exact nofun
    · next h => rw [h]; exact nofun

theorem repeat_calm {body body' : List Bool → Effect} (h : ∀ ds, body' ds = calm (body ds)) : ∀ n ds,
    repeatUntilBreak body' n ds = repeatUntilBreak body n ds := by
  intro n
  induction n with
  | zero => intro ds; rfl
  | succ n ih =>
    intro ds
    simp only [repeatUntilBreak, h, calm]
    cases hs : (body ds).signal <;> simp [hs, ih]

theorem calm_of {e : Effect} (h : e.signal ≠ .continues) : calm e = e := by
  unfold calm
  split
  · next h' => exact absurd h' h
  · rfl

theorem calm_andThen {e : Effect} (h : e.signal ≠ .continues) {f g : List Bool → Effect} (hf : ∀ ds, f ds = calm (g ds)) :
    andThen e f = calm (andThen e g) := by
  obtain ⟨tr, sig, rest⟩ := e
  cases sig with
  | next =>
    simp only [andThen, hf, calm]
    cases hs : (g rest).signal <;> simp [hs]
  | breaks => rfl
  | continues => exact absurd rfl h
  | running => rfl

theorem andThen_signal {e : Effect} (h : e.signal ≠ .continues) {f : List Bool → Effect}
    (hf : ∀ ds, (f ds).signal ≠ .continues) : (andThen e f).signal ≠ .continues := by
  obtain ⟨tr, sig, rest⟩ := e
  cases sig with
  | next => exact hf rest
  | breaks => exact h
  | continues => exact h
  | running => exact h

theorem visit_signal (id : BlockId) (ds : List Bool) : (visit id ds).signal ≠ .continues := by
  cases ds <;> exact nofun

theorem exec_bare : ∀ (s : Program) (tail more : Bool), s.WellFormed tail more → ∀ ds,
    execAll (bareAll s.toChains) ds = calm (execAll s.toChains ds) ∧
      (tail = false → (execAll s.toChains ds).signal ≠ .continues) := by
  intro s
  have whole : ∀ {s : Program} {ds : List Bool}, execAll (bareAll s.toChains) ds = calm (execAll s.toChains ds) →
      exec (bare s.toChain) ds = calm (exec s.toChain ds) := by
    intro s ds h
    rw [bare_toChain, exec_bundle, exec_toChain, h]
  induction s with
  | done => exact fun _ _ _ ds => ⟨rfl, fun _ => nofun⟩
  | ret id =>
    intro _ _ _ ds
    cases ds <;> exact ⟨rfl, fun _ => nofun⟩
  | atom id rest ih =>
    intro tail more h ds
    refine ⟨calm_andThen (visit_signal id ds) fun ds => (ih _ _ h ds).1, fun ht => ?_⟩
    exact andThen_signal (visit_signal id ds) fun ds => (ih _ _ h ds).2 ht
  | sel id left right hint weights rest ihl ihr ih =>
    rintro tail more ⟨hl, hr, hs⟩ ds
    have hsel : ∀ ds, exec (bare (.Selection id left.toChain right.toChain hint weights)) ds =
        calm (exec (.Selection id left.toChain right.toChain hint weights) ds) := by
      intro ds
      rw [bare, exec_choice id _ _ hint weights]
      cases ds with
      | nil => rfl
      | cons d ds =>
        simp only [exec]
        cases d with
        | true =>
          exact calm_andThen (e := ⟨[id], .next, ds⟩) (fun h => nomatch h) (f := fun ds => exec (bare left.toChain) ds)
            (g := fun ds => exec left.toChain ds) fun ds => whole (ihl _ _ hl ds).1
        | false =>
          exact calm_andThen (e := ⟨[id], .next, ds⟩) (fun h => nomatch h) (f := fun ds => exec (bare right.toChain) ds)
            (g := fun ds => exec right.toChain ds) fun ds => whole (ihr _ _ hr ds).1
    have hsig : (tail && rest.finished) = false → ∀ ds,
        (exec (.Selection id left.toChain right.toChain hint weights) ds).signal ≠ .continues := by
      intro ht ds
      cases ds with
      | nil => exact nofun
      | cons d ds =>
        simp only [exec]
        cases d with
        | true =>
          exact andThen_signal (e := ⟨[id], .next, ds⟩) (f := fun ds => exec left.toChain ds) (fun h => nomatch h)
            fun ds => by rw [exec_toChain]; exact (ihl _ _ hl ds).2 ht
        | false =>
          exact andThen_signal (e := ⟨[id], .next, ds⟩) (f := fun ds => exec right.toChain ds) (fun h => nomatch h)
            fun ds => by rw [exec_toChain]; exact (ihr _ _ hr ds).2 ht
    refine ⟨?_, fun ht => andThen_signal (hsig (by rw [ht]; rfl) ds) fun ds => (ih _ _ hs ds).2 ht⟩
    cases hrest : rest.finished with
    | true =>
      have hd : rest = .done := by cases rest <;> simp_all [finished]
      subst hd
      exact (andThen_nothing _).trans ((hsel ds).trans (congrArg calm (andThen_nothing _).symm))
    | false =>
      have hn := hsig (by rw [hrest, Bool.and_false]) ds
      show andThen (exec (bare (.Selection id left.toChain right.toChain hint weights)) ds)
        (fun ds => execAll (bareAll rest.toChains) ds) = _
      rw [hsel, calm_of hn]
      exact calm_andThen hn fun ds => (ih _ _ hs ds).1
  | loop id body hint rest ihb ih =>
    rintro tail more ⟨hb, hs⟩ ds
    have hloop : exec (bare (.Loop id body.toChain hint none)) ds = exec (.Loop id body.toChain hint none) ds := by
      simp only [bare, exec]
      exact repeat_calm (fun ds => calm_andThen (visit_signal id ds) fun ds => whole (ihb _ _ hb ds).1) _ _
    have hn : (exec (.Loop id body.toChain hint none) ds).signal ≠ .continues := by
      simp only [exec]
      exact repeat_signal _ _ _
    refine ⟨?_, fun ht => andThen_signal hn fun ds => (ih _ _ hs ds).2 ht⟩
    show andThen (exec (bare (.Loop id body.toChain hint none)) ds) (fun ds => execAll (bareAll rest.toChains) ds) = _
    rw [hloop]
    exact calm_andThen hn fun ds => (ih _ _ hs ds).1
  | exit id brk weights rest ih =>
    rintro tail more ⟨ht, hs⟩ ds
    refine ⟨?_, fun h => by rw [h] at ht; cases ht⟩
    show andThen (exec (bare (.Selection id rest.toChain (if brk then .Break else .Continue) _ weights)) ds)
      (fun ds => ⟨[], .next, ds⟩) = calm (andThen (exec (.Selection id rest.toChain
        (if brk then .Break else .Continue) { flatten := false, dont_flatten := false } weights) ds)
        (fun ds => ⟨[], .next, ds⟩))
    rw [andThen_nothing, andThen_nothing, bare, exec_choice id _ _ { flatten := false, dont_flatten := false } weights]
    cases ds with
    | nil => rfl
    | cons d ds =>
      simp only [exec]
      cases d with
      | true =>
        exact calm_andThen (e := ⟨[id], .next, ds⟩) (fun h => nomatch h) (f := fun ds => exec (bare rest.toChain) ds)
          (g := fun ds => exec rest.toChain ds) fun ds => whole (ih _ _ hs ds).1
      | false => cases brk <;> rfl

theorem runProgram_bare {s : Program} (h : s.WellFormed false false) (ds : List Bool) :
    runProgram (bare s.toChain) ds = runProgram s.toChain ds := by
  obtain ⟨h1, h2⟩ := exec_bare s _ _ h ds
  rw [calm_of (h2 rfl)] at h1
  rw [runProgram, runProgram, bare_toChain, exec_bundle, exec_toChain, h1]

end Magma.Canon
