import Verif.Proofs.StandardFlow
/-! Structured functions that are plain at every block that is read are recovered, and no others. -/

namespace Magma.Standard
open Magma Spec
variable {X : Type} {blocks : List (BasicBlock X)} {first : UInt32}

theorem innermost_mem {cs : List Construct} {head merge : UInt32} (h : innermost cs = some (head, merge)) :
    ∃ m, Construct.loop head m ∈ cs := by
  induction cs with
  | nil => cases h
  | cons c cs ih =>
    cases c with
    | selection m' =>
      obtain ⟨m, hm⟩ := ih h
      exact ⟨m, List.mem_cons_of_mem _ hm⟩
    | loop a m' =>
      cases h
      exact ⟨merge, List.mem_cons_self⟩

theorem Trail.reached {k : List Place} (h : Trail blocks first k) : ∀ {q l}, k = q :: l → Reached blocks first q.1 := by
  induction h with
  | start => intro q l hk; cases hk; exact .start
  | @step p q l ht hst ih =>
    intro q' l' hk
    cases hk
    obtain ⟨b, ha, hn, -⟩ := step_does hst
    exact .step (by rw [ha.2.1]; exact ih rfl) ha.1 hn

theorem Entered.loop {r a m : UInt32} (h : Entered blocks r (.loop a m)) : a = r := by
  obtain ⟨b, -, -, ho⟩ := h
  cases he : endOf b <;> rw [he] at ho <;> simp only [opened, reduceCtorEq, Option.some.injEq] at ho
  cases ho
  rfl

/-- A construct around the place was opened by a block before it. -/
theorem Trail.around {q : Place} {l : List Place} (h : Trail blocks first (q :: l)) {c : Construct} (hc : c ∈ q.2) :
    ∃ r cs l1 l2, l = l1 ++ (r, cs) :: l2 ∧ Entered blocks r c := by
  obtain ⟨cs1, cs, hcs⟩ := List.append_of_mem hc
  obtain ⟨r, t, l1, l2, h1, h2, -⟩ := h.opened hcs
  cases l1 with
  | nil => exact ⟨r, cs, [], l2, (List.cons.inj h1).2, h2⟩
  | cons a l1 => exact ⟨r, cs, l1 ++ [(t, c :: cs)], l2, by rw [(List.cons.inj h1).2]; simp, h2⟩

theorem Trail.last {q : Place} {l : List Place} (h : Trail blocks first (q :: l)) (hq : q.2 ≠ []) :
    ∃ c cs r, q.2 = c :: cs ∧ Entered blocks r c := by
  cases hc : q.2 with
  | nil => exact absurd hc hq
  | cons c cs =>
    obtain ⟨r, -, -, -, -, h2⟩ := h.around (c := c) (by rw [hc]; exact List.mem_cons_self)
    exact ⟨c, cs, r, rfl, h2⟩

section
variable (hs : Structured blocks first)
include hs

theorem Structured.same {r r' : UInt32} {c : Construct} (h : Entered blocks r c) (h' : Entered blocks r' c) : r = r' :=
  hs.own _ _ _ h.header h'.header

/-- A block does not dominate the header of a construct around it, nor the block where that is left. -/
theorem Structured.outer {p : Place} {l : List Place} (h : Trail blocks first (p :: l)) (hp : ¬ Stops p)
    {c : Construct} (hc : c ∈ p.2) {r : UInt32} (hr : Entered blocks r c) :
    p.1 ≠ r ∧ ¬ Dominates blocks first p.1 r ∧ ¬ Dominates blocks first p.1 c.stop := by
  obtain ⟨r', cs, l1, l2, rfl, hr'⟩ := h.around hc
  have hrr := hs.same hr' hr
  subst hrr
  have hn := hs.nodup h hp
  have hnot : p.1 ∉ (((r', cs) :: l2).map Prod.fst) := fun hm => (List.nodup_cons.mp hn).1 (by
    rw [List.map_append]
    exact List.mem_append_right _ hm)
  have hw : Walk blocks first (r' :: l2.map Prod.fst) := (h.cut (l1 := p :: l1) rfl).walk
  have hd : ¬ Dominates blocks first p.1 r' := fun hd => hnot (hd _ hw)
  refine ⟨fun h => hnot (by rw [h]; exact List.mem_cons_self), hd, fun hd' => ?_⟩
  cases c with
  | loop a m =>
    have := hr.loop
    subst this
    exact hd hd'
  | selection m =>
    rcases List.mem_cons.mp (hd' _ (.step hw hr.header.edge)) with h' | h'
    · exact hp (List.mem_map.mpr ⟨_, hc, h'.symm⟩)
    · exact hnot h'

/-- The block of a place is part of the constructs of the headers of which it is inside. -/
theorem Structured.within {p : Place} {l : List Place} (h : Trail blocks first (p :: l)) (hp : ¬ Stops p) {x m : UInt32}
    (hh : Header blocks x m) (hi : Inside blocks first x m p.1) :
    x = p.1 ∨ ∃ c ∈ p.2, Entered blocks x c ∧ mergeC c = m := by
  rcases List.mem_cons.mp (hi.1 _ h.walk) with hx | hx
  · exact .inl hx
  · refine .inr ?_
    obtain ⟨r, hr, hrx⟩ := List.mem_map.mp hx
    obtain ⟨s, hs1, hs2⟩ := h.after hr
    obtain ⟨b, ha, -, hcase⟩ := step_does hs2
    obtain ⟨b', hb', hl', hm'⟩ := hh
    have : b = b' := hs.unique ha.1 hb' (by rw [ha.2.1, hl', hrx])
    subst this
    rcases hcase with ⟨-, ⟨h1, h2⟩ | ⟨h1, -⟩⟩ | ⟨c, h1, h2, -⟩
    · exfalso
      obtain ⟨b2, ha2, hn2, -⟩ := step_does hs2
      have : b2 = b := hs.unique ha2.1 ha.1 (by rw [ha2.2.1, ha.2.1])
      subst this
      cases he : endOf b2 <;> rw [he] at hm' h2 hn2 <;> simp_all [mergeOf, Standard.opened, next]
    · rw [hm'] at h1
      cases h1
      exact absurd hi (hs.behind ⟨b, hb', hl', hm'⟩ h.walk rfl (hs.nodup h hp) (List.mem_map_of_mem hs1))
    · have hent : Entered blocks x c := ⟨b, hb', hl', by rw [← hrx]; exact h2⟩
      refine ⟨c, (h.stack hs1).subset (by rw [h1]; exact List.mem_cons_self), hent, ?_⟩
      obtain ⟨b3, hb3, hl3, hm3⟩ := hent.header
      have : b3 = b := hs.unique hb3 hb' (by rw [hl3, hl'])
      subst this
      rw [hm'] at hm3
      exact (Option.some.inj hm3).symm

/-- What holds at a block holds at the next, if the block stays in its constructs. -/
theorem Structured.kept_step {p q : Place} {l : List Place} (ht : Trail blocks first (p :: l)) (hst : Step blocks p q)
    (ih : ∀ c ∈ p.2, ∀ r, Entered blocks r c → Inside blocks first r (mergeC c) p.1 ∨ p.1 = c.stop)
    {c : Construct} (hc : c ∈ q.2) {r : UInt32} (hr : Entered blocks r c) :
    ∃ b, At blocks p b ∧ q.1 ∈ next (endOf b) ∧ Inside blocks first r (mergeC c) (labelId b) ∧
      ¬ (labelId b = r ∧ q.1 = mergeC c ∧ q.1 ∉ targets (endOf b)) := by
  obtain ⟨b, ha, hn, hcase⟩ := step_does hst
  refine ⟨b, ha, hn, ?_⟩
  rw [ha.2.1]
  have old (hc : c ∈ p.2) : Inside blocks first r (mergeC c) p.1 ∧
      ¬ (p.1 = r ∧ q.1 = mergeC c ∧ q.1 ∉ targets (endOf b)) := by
    refine ⟨?_, fun h => (hs.outer ht ha.2.2 hc hr).1 h.1⟩
    rcases ih c hc r hr with h | h
    · exact h
    · exact absurd (List.mem_map.mpr ⟨c, hc, h.symm⟩) ha.2.2
  rcases hcase with ⟨h1, -⟩ | ⟨c0, h1, h2, h3⟩
  · exact old (h1 ▸ hc)
  · rw [h1] at hc
    rcases List.mem_cons.mp hc with rfl | hc
    · have hrp : r = p.1 := hs.same hr ⟨b, ha.1, ha.2.1, h2⟩
      subst hrp
      exact ⟨hs.own_inside hr.header ht.walk (hs.nodup ht ha.2.2), fun h => h.2.2 h3⟩
    · exact old hc

end

section
variable (hs : Structured blocks first)
  (hp : ∀ b ∈ blocks, Reached blocks first (labelId b) → Tame blocks first b)
include hs hp

theorem kept_of_plain {k : List Place} (h : Trail blocks first k) : ∀ {q l}, k = q :: l → ∀ c ∈ q.2, ∀ r,
    Entered blocks r c → Inside blocks first r (mergeC c) q.1 ∨ q.1 = c.stop := by
  induction h with
  | start => intro q l hk c hc; cases hk; cases hc
  | @step p q l ht hst ih =>
    intro q' l' hk c hc r hr
    cases hk
    obtain ⟨b, ha, hn, hi, hno⟩ := hs.kept_step ht hst (ih rfl) hc hr
    exact (hp b ha.1 (by rw [ha.2.1]; exact ht.reached rfl)).stays _ _ _ hr.opens hi _ hn hno

/-- A body ends where the innermost construct is left. -/
theorem top_of_plain {q : Place} {l : List Place} (h : Trail blocks first (q :: l)) (hq : Stops q) :
    ∃ c cs, q.2 = c :: cs ∧ q.1 = c.stop := by
  obtain ⟨c, hc, hstop⟩ := List.mem_map.mp hq
  obtain ⟨cs1, cs, hcs⟩ := List.append_of_mem hc
  cases cs1 with
  | nil => exact ⟨c, cs, hcs, hstop.symm⟩
  | cons c' cs1 =>
    refine ⟨c', _, hcs, ?_⟩
    obtain ⟨r', t, l1, l2, h1, h2, h3⟩ := h.opened (cs1 := []) (c := c') (cs := cs1 ++ c :: cs) hcs
    have ht : Trail blocks first ((r', cs1 ++ c :: cs) :: l2) :=
      h.cut (l1 := l1 ++ [(t, c' :: (cs1 ++ c :: cs))]) (by rw [h1]; simp)
    obtain ⟨r, -, -, -, -, hr⟩ := ht.around (c := c) (by simp)
    obtain ⟨b, ha, -⟩ := step_does h3
    rcases kept_of_plain hs hp h rfl c' (by rw [hcs]; exact List.mem_cons_self) r' h2 with h4 | h4
    · exact absurd (hstop ▸ h4.1) (hs.outer ht ha.2.2 (by simp) hr).2.2
    · exact h4

theorem no_strays {t : UInt32} {c : Construct} {cs : List Construct} {l : List Place}
    (h : Trail blocks first ((t, c :: cs) :: l)) : ¬ Strays blocks t (c :: cs) c.stop := by
  rintro ⟨y, hy, hend⟩
  obtain ⟨l', ht⟩ := trail_of_path (h.path.trans hy)
  rcases hend with ⟨h1, h2⟩ | ⟨b, ha, hret⟩
  · obtain ⟨c', cs', h3, h4⟩ := top_of_plain hs hp ht h1
    cases h3
    exact h2 h4
  · obtain ⟨r, -, -, -, -, hr⟩ := ht.around (c := c) List.mem_cons_self
    rcases kept_of_plain hs hp ht rfl c List.mem_cons_self r hr with h3 | h3
    · exact (hp b ha.1 (by rw [ha.2.1]; exact ht.reached rfl)).returns hret _ _ hr.header (by rw [ha.2.1]; exact h3)
    · exact ha.2.2 (List.mem_map.mpr ⟨c, List.mem_cons_self, h3.symm⟩)

/-- A conditional branch without merge block is directly inside of its loop. -/
theorem exit_of_plain {p : Place} {l : List Place} (h : Trail blocks first (p :: l)) {b : BasicBlock X}
    (ha : At blocks p b) {t f : UInt32} {w : Option BranchWeights} (he : endOf b = .choose t f w) :
    ∃ x m cs, p.2 = .loop x m :: cs ∧ (f = m ∨ f = x) := by
  obtain ⟨x, m, hloop, hh, hi, hf, hin⟩ :=
    (hp b ha.1 (by rw [ha.2.1]; exact h.reached rfl)).exit t f w he
  rw [ha.2.1] at hi hin
  rcases hs.within h ha.2.2 hh hi with hx | ⟨c, hc, hc1, hc2⟩
  · exfalso
    obtain ⟨b', hb', hl', hm'⟩ := hh
    have : b' = b := hs.unique hb' ha.1 (by rw [hl', ha.2.1, hx])
    subst this
    rw [he] at hm'
    cases hm'
  · obtain ⟨c', cs, hcs⟩ : ∃ c' cs, p.2 = c' :: cs := by
      cases hcs : p.2 with
      | nil => rw [hcs] at hc; cases hc
      | cons c' cs => exact ⟨c', cs, rfl⟩
    have hcc : c = c' := by
      rw [hcs] at hc
      rcases List.mem_cons.mp hc with hc | hc
      · exact hc
      · exfalso
        obtain ⟨r', t', l1, l2, h1, h2, h3⟩ := h.opened (cs1 := []) hcs
        have ht : Trail blocks first ((r', cs) :: l2) := h.cut (l1 := l1 ++ [(t', c' :: cs)]) (by rw [h1]; simp)
        obtain ⟨b2, ha2, -⟩ := step_does h3
        have hout := hs.outer ht ha2.2.2 hc hc1
        have hk : Inside blocks first r' (mergeC c') p.1 := by
          rcases kept_of_plain hs hp h rfl c' (by rw [hcs]; exact List.mem_cons_self) r' h2 with h4 | h4
          · exact h4
          · exact absurd (List.mem_map.mpr ⟨c', by rw [hcs]; exact List.mem_cons_self, h4.symm⟩) ha.2.2
        rcases hin r' _ h2.header hk with h5 | h5
        · exact hout.1 h5
        · exact hout.2.1 h5.1
    subst hcc
    obtain ⟨b1, hb1, hl1, hlo⟩ := hloop
    obtain ⟨b2, hb2, hl2, ho⟩ := hc1
    have : b2 = b1 := hs.unique hb2 hb1 (by rw [hl1, hl2])
    subst this
    cases he2 : endOf b2 <;> rw [he2] at ho hlo <;> simp only [isLoop, opened, reduceCtorEq, Option.some.injEq] at ho hlo
    subst ho
    cases hc2
    exact ⟨x, _, cs, hcs, hf⟩

/-- Nothing is wrong with any place of the function. -/
theorem fine_of_plain (hfirst : ∃ b ∈ blocks, labelId b = first) (p : Place) (hpath : Path blocks (first, []) p)
    (e : Fault ControlFlowError) (hb : Blamed blocks p e) : e = .diverge := by
  obtain ⟨l, ht⟩ := trail_of_path hpath
  have plain {b : BasicBlock X} (ha : At blocks p b) : Tame blocks first b :=
    hp b ha.1 (by rw [ha.2.1]; exact ht.reached rfl)
  cases e with
  | diverge => rfl
  | panic msg =>
    obtain ⟨b, ha, ⟨t, f, w, m, h, he⟩ | ⟨t, m, h, he⟩⟩ := hb
    · exact absurd he ((plain ha).loop _ _ _ _ _)
    · exact absurd he ((plain ha).selection _ _ _)
  | err e =>
    exfalso
    cases e with
    | DuplicateBlockId id => exact hb
    | NoBlocks => exact hb
    | Failed => exact hb
    | UnknownBlockId id =>
      obtain ⟨-, -, hno⟩ := hb
      have : ∃ b ∈ blocks, labelId b = p.1 := by
        cases ht with
        | start => exact hfirst
        | step _ hst => exact hs.known _ _ (step_edge hst)
      obtain ⟨b, hb, hl⟩ := this
      exact hno b hb hl
    | CouldNotPredictConverge id =>
      obtain ⟨-, b, ha, t, f, w, he, hf⟩ := hb
      obtain ⟨x, m, cs, h1, h2⟩ := exit_of_plain hs hp ht ha he
      have := hf x m (by rw [h1]; rfl)
      rcases h2 with h2 | h2
      · exact this.1 h2
      · exact this.2 h2
    | InvalidConvergePrediction ty id =>
      cases ty with
      | Selection =>
        obtain ⟨-, b, ha, t, f, w, m, hh, he, h | h⟩ := hb
        · exact no_strays hs hp (.step ht (.left ha he)) h
        · exact no_strays hs hp (.step ht (.right ha he)) h
      | Loop =>
        obtain ⟨-, b, ha, ⟨t, m, hh, he, h⟩ | ⟨t, f, w, head, merge, he, hin, hf, h⟩⟩ := hb
        · exact no_strays hs hp (.step ht (.body ha he)) h
        · obtain ⟨x, m, cs, h1, -⟩ := exit_of_plain hs hp ht ha he
          obtain ⟨y, ys⟩ := p
          simp only at h1 hin h
          subst h1
          cases hin
          exact no_strays hs hp (.step ht (.stay ha he rfl hf)) h

end

section
variable (hs : Structured blocks first)
  (hf : ∀ p, Path blocks (first, []) p → ∀ e, Blamed blocks p e → e = .diverge)
include hs hf

omit hs in
/-- A block that is read on from, with where it goes -/
theorem fine_step {q : Place} {l : List Place} (h : Trail blocks first (q :: l)) (hq : ¬ Stops q) :
    ∃ b, At blocks q b ∧ (endOf b = .returns ∨ ∀ v ∈ next (endOf b), ∃ cs, Step blocks q (v, cs) ∧
      (v ∈ targets (endOf b) → ∀ c, opened q.1 (endOf b) = some c → ∃ cs', Step blocks q (v, c :: cs'))) ∧
      ∃ y, (endOf b ≠ .returns → Step blocks q (y, q.2)) := by
  have fine := hf q h.path
  have hat : ∃ b, At blocks q b := by
    refine Classical.byContradiction fun hno => ?_
    have := fine (.err (.UnknownBlockId ⟨q.1⟩)) ⟨rfl, hq, fun b hb hl => hno ⟨b, hb, hl, hq⟩⟩
    cases this
  obtain ⟨b, ha⟩ := hat
  refine ⟨b, ha, ?_⟩
  obtain ⟨u, cs⟩ := q
  cases he : endOf b with
  | returns => exact ⟨.inl rfl, u, fun h => absurd rfl h⟩
  | goto t =>
    refine ⟨.inr fun v hv => ?_, t, fun _ => .goto ha he⟩
    simp only [next, List.mem_singleton] at hv
    subst hv
    exact ⟨cs, .goto ha he, fun _ c hc => by cases hc⟩
  | gotoLoop t m hh =>
    refine ⟨.inr fun v hv => ?_, m, fun _ => .after ha he⟩
    simp only [next, List.mem_cons, List.not_mem_nil, or_false] at hv
    refine ⟨?_, ?_, fun ht c hc => ?_⟩
    · exact if v = t then .loop u m :: cs else cs
    · by_cases hvt : v = t
      · rw [if_pos hvt]; subst hvt; exact .body ha he
      · rw [if_neg hvt]
        rcases hv with hv | hv
        · exact absurd hv hvt
        · subst hv; exact .after ha he
    · simp only [targets, List.mem_singleton] at ht
      subst ht
      cases hc
      exact ⟨cs, .body ha he⟩
  | chooseSelection t f w m hh =>
    refine ⟨.inr fun v hv => ?_, m, fun _ => .join ha he⟩
    simp only [next, List.mem_cons, List.not_mem_nil, or_false] at hv
    refine ⟨if v = t ∨ v = f then .selection m :: cs else cs, ?_, fun ht c hc => ?_⟩
    · by_cases hvt : v = t ∨ v = f
      · rw [if_pos hvt]
        rcases hvt with rfl | rfl
        · exact .left ha he
        · exact .right ha he
      · rw [if_neg hvt]
        rcases hv with hv | hv | hv
        · exact absurd (.inl hv) hvt
        · exact absurd (.inr hv) hvt
        · subst hv; exact .join ha he
    · simp only [targets, List.mem_cons, List.not_mem_nil, or_false] at ht
      cases hc
      rcases ht with rfl | rfl
      · exact ⟨cs, .left ha he⟩
      · exact ⟨cs, .right ha he⟩
  | choose t f w =>
    have hin : ∃ head merge, innermost cs = some (head, merge) ∧ (f = merge ∨ f = head) := by
      refine Classical.byContradiction fun hno => ?_
      have := fine (.err (.CouldNotPredictConverge ⟨u⟩)) ⟨rfl, b, ha, t, f, w, he, fun head merge hin =>
        ⟨fun h => hno ⟨head, merge, hin, .inl h⟩, fun h => hno ⟨head, merge, hin, .inr h⟩⟩⟩
      cases this
    obtain ⟨head, merge, h1, h2⟩ := hin
    refine ⟨.inr fun v hv => ?_, t, fun _ => .stay ha he h1 h2⟩
    simp only [next, List.mem_singleton] at hv
    subst hv
    exact ⟨cs, .stay ha he h1 h2, fun _ c hc => by cases hc⟩
  | chooseLoop t f w m hh =>
    have := fine (.panic "") ⟨b, ha, .inl ⟨_, _, _, _, _, he⟩⟩
    cases this
  | gotoSelection t m hh =>
    have := fine (.panic "") ⟨b, ha, .inr ⟨_, _, _, he⟩⟩
    cases this

/-- One gets to a place that ends, in the same constructs. -/
theorem fine_end : ∀ (n : Nat) {v : UInt32} {cs : List Construct} {l : List Place},
    Trail blocks first ((v, cs) :: l) → blocks.length + 1 ≤ n + l.length →
    ∃ y, Relation.ReflTransGen (fun a b => Step blocks (a, cs) (b, cs)) v y ∧
      (Stops (y, cs) ∨ ∃ b, At blocks (y, cs) b ∧ endOf b = .returns) := by
  intro n
  induction n with
  | zero =>
    intro v cs l h hn
    have := hs.short h
    omega
  | succ n ih =>
    intro v cs l h hn
    by_cases hq : Stops (v, cs)
    · exact ⟨v, .refl, .inl hq⟩
    · obtain ⟨b, ha, -, y, hy⟩ := fine_step hf h hq
      by_cases hr : endOf b = .returns
      · exact ⟨v, .refl, .inr ⟨b, ha, hr⟩⟩
      · obtain ⟨z, h1, h2⟩ := ih (.step h (hy hr)) (by simp only [List.length_cons]; omega)
        exact ⟨z, .head (hy hr) h1, h2⟩

omit hs hf in
theorem lift_path {a y : UInt32} {cs : List Construct}
    (h : Relation.ReflTransGen (fun a b => Step blocks (a, cs) (b, cs)) a y) : Path blocks (a, cs) (y, cs) := by
  induction h with
  | refl => exact .refl
  | tail _ hst ih => exact ih.tail hst

omit hs in
/-- The inside of a construct is left where it should be. -/
theorem fine_leaves {v y : UInt32} {c : Construct} {cs : List Construct} {l : List Place}
    (h : Trail blocks first ((v, c :: cs) :: l))
    (hy : Relation.ReflTransGen (fun a b => Step blocks (a, c :: cs) (b, c :: cs)) v y)
    (hend : Stops (y, c :: cs) ∨ ∃ b, At blocks (y, c :: cs) b ∧ endOf b = .returns) : y = c.stop := by
  refine Classical.byContradiction fun hne => ?_
  obtain ⟨r, t, l1, l2, h1, h2, h3⟩ := h.opened (cs1 := []) rfl
  have hmem : ((t, c :: cs) : Place) ∈ (v, c :: cs) :: l := by rw [h1]; simp
  have hst : Strays blocks t (c :: cs) c.stop :=
    ⟨y, (h.from hmem).trans (lift_path hy), hend.imp (fun h => ⟨h, hne⟩) id⟩
  have ht : Trail blocks first ((r, cs) :: l2) := h.cut (l1 := l1 ++ [(t, c :: cs)]) (by rw [h1]; simp)
  have fine := hf _ ht.path
  generalize hq : ((t, c :: cs) : Place) = q at h3
  cases h3 with
  | goto => simp at hq
  | after => simp at hq
  | join => simp at hq
  | stay => simp at hq
  | body ha he =>
    simp only [Prod.mk.injEq, List.cons.injEq] at hq
    obtain ⟨rfl, rfl, -⟩ := hq
    have := fine (.err (.InvalidConvergePrediction .Loop ⟨r⟩)) ⟨rfl, _, ha, .inl ⟨_, _, _, he, hst⟩⟩
    cases this
  | left ha he =>
    simp only [Prod.mk.injEq, List.cons.injEq] at hq
    obtain ⟨rfl, rfl, -⟩ := hq
    have := fine (.err (.InvalidConvergePrediction .Selection ⟨r⟩)) ⟨rfl, _, ha, _, _, _, _, _, he, .inl hst⟩
    cases this
  | right ha he =>
    simp only [Prod.mk.injEq, List.cons.injEq] at hq
    obtain ⟨rfl, rfl, -⟩ := hq
    have := fine (.err (.InvalidConvergePrediction .Selection ⟨r⟩)) ⟨rfl, _, ha, _, _, _, _, _, he, .inr hst⟩
    cases this

omit hf in
/-- Once a construct has been left, one does not get back into it in the same constructs. -/
theorem stays_out {v y : UInt32} {cs : List Construct} {l : List Place} (h : Trail blocks first ((v, cs) :: l))
    {x m : UInt32} (hh : Header blocks x m) (hx : x ∈ l.map Prod.fst)
    (hy : Relation.ReflTransGen (fun a b => Step blocks (a, cs) (b, cs)) v y) (hv : ¬ Inside blocks first x m v) :
    ¬ Inside blocks first x m y ∧ ∃ l', Trail blocks first ((y, cs) :: l') ∧ x ∈ l'.map Prod.fst := by
  induction hy with
  | refl => exact ⟨hv, l, h, hx⟩
  | @tail a b _ hst ih =>
    obtain ⟨h1, l', h2, h3⟩ := ih
    refine ⟨fun hb => ?_, _, .step h2 hst, List.mem_cons_of_mem _ h3⟩
    obtain ⟨b0, ha, -⟩ := step_does hst
    by_cases hbx : b = x
    · subst hbx
      exact h1 (hs.part _ _ _ ⟨step_edge hst, _, h2.walk, hs.nodup h2 ha.2.2, List.mem_cons_of_mem _ h3⟩ hh)
    · exact h1 (hs.enters (step_edge hst) hh hb hbx h2.walk)

/-- No construct is left at a block where it should not be. -/
theorem no_escape : ∀ (cs1 : List Construct) {v : UInt32} {cs : List Construct} {c : Construct} {l : List Place} {x : UInt32},
    Trail blocks first ((v, cs1 ++ c :: cs) :: l) → Entered blocks x c →
    (∀ p ∈ l, (c :: cs) <:+ p.2 → Inside blocks first x (mergeC c) p.1) →
    ¬ Inside blocks first x (mergeC c) v → v ≠ c.stop → False := by
  intro cs1
  induction cs1 with
  | nil =>
    intro v cs c l x h hx hin hv hstop
    simp only [List.nil_append] at h
    obtain ⟨y, hy, hend⟩ := fine_end hs hf (blocks.length + 1) h (by omega)
    have hyc := fine_leaves hf h hy hend
    obtain ⟨x', cs', l1, l2, hl, hx'⟩ := h.around (c := c) List.mem_cons_self
    have := hs.same hx' hx
    subst this
    have hxl : x' ∈ l.map Prod.fst := by rw [hl]; simp
    obtain ⟨hout, l', ht', -⟩ := stays_out hs h hx.header hxl hy hv
    have hgo := h.goes (r := (x', cs')) (by rw [hl]; simp)
    have htx : Trail blocks first ((x', cs') :: l2) := h.cut (l1 := (v, c :: cs) :: l1) (by rw [hl]; rfl)
    have hself : Inside blocks first x' (mergeC c) x' :=
      hs.own_inside hx.header htx.walk (hs.nodup htx hgo.1)
    cases c with
    | loop a m =>
      have := hx.loop
      subst this
      rw [hyc] at hout
      exact hout hself
    | selection m =>
      simp only [Construct.stop] at hyc hstop
      subst hyc
      -- the merge block does not dominate the block
      have hnot : y ∉ ((v, Construct.selection y :: cs) :: l).map Prod.fst := by
        intro hm
        rcases List.mem_cons.mp hm with hm | hm
        · exact hstop hm.symm
        · obtain ⟨l3, h3, h4⟩ := h.walk.cut (List.mem_cons_of_mem _ hm)
          obtain ⟨p, hp, hpy⟩ := List.mem_map.mp hm
          by_cases hsuf : (Construct.selection y :: cs) <:+ p.2
          · refine (h.goes hp).1 (List.mem_map.mpr ⟨.selection y, hsuf.subset List.mem_cons_self, hpy.symm⟩)
          · -- the place is before the header, but the header dominates the merge block
            obtain ⟨r, t, m1, m2, k1, k2, k3⟩ := h.opened (cs1 := []) (c := .selection y) (cs := cs) rfl
            have hr := hs.same k2 hx
            subst hr
            have hp2 : p ∈ (r, cs) :: m2 := by
              have : p ∈ m1 ++ (t, Construct.selection y :: cs) :: (r, cs) :: m2 := by
                rw [← k1]; exact List.mem_cons_of_mem _ hp
              rcases List.mem_append.mp this with h5 | h5
              · exfalso
                obtain ⟨n1, n2, rfl⟩ := List.append_of_mem h5
                have h6 : Trail blocks first (p :: (n2 ++ (t, Construct.selection y :: cs) :: (r, cs) :: m2)) :=
                  h.cut (l1 := n1) (by rw [k1]; simp)
                exact hsuf (h6.stack (r := (t, Construct.selection y :: cs)) (by simp))
              · rcases List.mem_cons.mp h5 with rfl | h5
                · exact absurd List.suffix_rfl hsuf
                · exact h5
            have htr : Trail blocks first ((r, cs) :: m2) :=
              h.cut (l1 := m1 ++ [(t, Construct.selection y :: cs)]) (by rw [k1]; simp)
            obtain ⟨b0, ha0, -⟩ := step_does k3
            have hnd := hs.nodup htr ha0.2.2
            rcases List.mem_cons.mp hp2 with rfl | hp2
            · exact (hs.merges _ _ hx.header).1 hpy
            · obtain ⟨l4, h7, h8⟩ := htr.walk.cut (u := y) (List.mem_map.mpr ⟨p, List.mem_cons_of_mem _ hp2, hpy⟩)
              have h9 := (hs.merges _ _ hx.header).2 _ h7
              rcases List.suffix_cons_iff.mp h8 with h10 | h10
              · exact (hs.merges _ _ hx.header).1 (List.cons.inj h10).1.symm
              · exact (List.nodup_cons.mp hnd).1 (h10.subset h9)
      have hmd : ¬ Dominates blocks first y v := fun hd => hnot (hd _ h.walk)
      have hxd : ¬ Dominates blocks first x' v := fun hd => hv ⟨hd, hmd⟩
      obtain ⟨w, hw, hxw⟩ : ∃ w, Walk blocks first (v :: w) ∧ x' ∉ v :: w := by
        refine Classical.byContradiction fun hno => hxd fun w hw => ?_
        exact Classical.byContradiction fun h => hno ⟨w, hw, h⟩
      have along : ∀ z, Relation.ReflTransGen
          (fun a b => Step blocks (a, Construct.selection y :: cs) (b, Construct.selection y :: cs)) v z →
          ∃ w, Walk blocks first (z :: w) ∧ x' ∉ z :: w := by
        intro z hz
        induction hz with
        | refl => exact ⟨w, hw, hxw⟩
        | @tail a b hab hst ih =>
          obtain ⟨w', h5, h6⟩ := ih
          refine ⟨_, .step h5 (step_edge hst), fun hmem => ?_⟩
          rcases List.mem_cons.mp hmem with hmem | hmem
          · exact (stays_out hs h hx.header hxl (hab.tail hst) hv).1 (by rw [← hmem]; exact hself)
          · exact h6 hmem
      obtain ⟨w', h5, h6⟩ := along y hy
      exact h6 ((hs.merges _ _ hx.header).2 _ h5)
  | cons c' cs1 ih =>
    intro v cs c l x h hx hin hv hstop
    obtain ⟨y, hy, hend⟩ := fine_end hs hf (blocks.length + 1) h (by omega)
    have hyc := fine_leaves hf h hy hend
    obtain ⟨x1, cs2, l1, l2, hl, hx1⟩ := h.around (c := c) (by simp)
    have := hs.same hx1 hx
    subst this
    have hxl : x1 ∈ l.map Prod.fst := by rw [hl]; simp
    obtain ⟨hout, -, -, -⟩ := stays_out hs h hx.header hxl hy hv
    have htx : Trail blocks first ((x1, cs2) :: l2) := h.cut (l1 := (v, c' :: cs1 ++ c :: cs) :: l1) (by rw [hl]; rfl)
    have hself : Inside blocks first x1 (mergeC c) x1 :=
      hs.own_inside hx.header htx.walk (hs.nodup htx (h.goes (r := (x1, cs2)) (by rw [hl]; simp)).1)
    obtain ⟨x', t, l3, l4, h1, h2, h3⟩ := h.opened (cs1 := []) (c := c') (cs := cs1 ++ c :: cs) rfl
    have ht' : Trail blocks first ((x', cs1 ++ c :: cs) :: l4) :=
      h.cut (l1 := l3 ++ [(t, c' :: (cs1 ++ c :: cs))]) (by rw [h1]; simp)
    have hsub : ∀ p ∈ (x', cs1 ++ c :: cs) :: l4, p ∈ l := by
      intro p hp
      cases l3 with
      | nil => rw [(List.cons.inj h1).2]; exact hp
      | cons a l3 => rw [(List.cons.inj h1).2]; exact List.mem_append_right _ (List.mem_cons_of_mem _ hp)
    have hx'in : Inside blocks first x1 (mergeC c) x' :=
      hin _ (hsub _ List.mem_cons_self) ⟨cs1, rfl⟩
    obtain ⟨b0, ha0, -⟩ := step_does h3
    cases c' with
    | loop a m =>
      have := h2.loop
      subst this
      rw [hyc] at hout
      exact hout hx'in
    | selection m =>
      have hne : x' ≠ x1 := (hs.outer ht' ha0.2.2 (c := c) (by simp) hx).1
      have hjoin : Step blocks (x', cs1 ++ c :: cs) (m, cs1 ++ c :: cs) := by
        generalize hq : ((t, Construct.selection m :: (cs1 ++ c :: cs)) : Place) = q at h3
        cases h3 with
        | left ha he =>
          simp only [Prod.mk.injEq, List.cons.injEq, Construct.selection.injEq] at hq
          rw [hq.2.1]
          exact .join ha he
        | right ha he =>
          simp only [Prod.mk.injEq, List.cons.injEq, Construct.selection.injEq] at hq
          rw [hq.2.1]
          exact .join ha he
        | goto => simp at hq
        | body => simp at hq
        | after => simp at hq
        | join => simp at hq
        | stay => simp at hq
      simp only [Construct.stop] at hyc
      subst hyc
      refine ih (.step ht' hjoin) hx (fun p hp => hin p (hsub p hp)) hout ?_
      cases c with
      | loop a m =>
        have := hx.loop
        subst this
        rintro rfl
        exact hout hself
      | selection m =>
        rintro rfl
        exact hne (hs.own _ _ _ h2.header hx.header)

theorem kept_of_fine {k : List Place} (h : Trail blocks first k) : ∀ {q l}, k = q :: l → ∀ c ∈ q.2, ∀ r,
    Entered blocks r c → Inside blocks first r (mergeC c) q.1 ∨ q.1 = c.stop := by
  have all : ∀ (n : Nat) {q : Place} {l : List Place}, l.length = n → Trail blocks first (q :: l) → ∀ c ∈ q.2, ∀ r,
      Entered blocks r c → Inside blocks first r (mergeC c) q.1 ∨ q.1 = c.stop := by
    intro n
    induction n using Nat.strongRecOn with
    | _ n ih =>
      intro q l hn ht c hc r hr
      refine Classical.byContradiction fun hno => ?_
      obtain ⟨cs1, cs, hcs⟩ := List.append_of_mem hc
      obtain ⟨v, qs⟩ := q
      simp only at hcs
      subst hcs
      refine no_escape hs hf cs1 ht hr (fun p hp hsuf => ?_) (fun h => hno (.inl h)) (fun h => hno (.inr h))
      obtain ⟨n1, n2, rfl⟩ := List.append_of_mem hp
      have hcp : c ∈ p.2 := hsuf.subset List.mem_cons_self
      rcases ih n2.length (by rw [← hn]; simp; omega) rfl (ht.cut (l1 := (v, cs1 ++ c :: cs) :: n1) rfl) c hcp r hr
        with h | h
      · exact h
      · exact absurd (List.mem_map.mpr ⟨c, hcp, h.symm⟩) (ht.goes hp).1
  intro q l hk
  subst hk
  exact all _ rfl h

omit hs hf in
/-- A block at which a body ends is read at another place. -/
theorem read_on : ∀ (n : Nat) {v : UInt32} {cs : List Construct} {l : List Place}, cs.length = n →
    Trail blocks first ((v, cs) :: l) → ∃ cs' l', Trail blocks first ((v, cs') :: l') ∧ ¬ Stops (v, cs') := by
  intro n
  induction n using Nat.strongRecOn with
  | _ n ih =>
    intro v cs l hn h
    by_cases hq : Stops (v, cs)
    · obtain ⟨c, hc, hstop⟩ := List.mem_map.mp hq
      obtain ⟨cs1, cs2, rfl⟩ := List.append_of_mem hc
      obtain ⟨r, t, l1, l2, h1, h2, h3⟩ := h.opened rfl
      have ht : Trail blocks first ((r, cs2) :: l2) := h.cut (l1 := l1 ++ [(t, c :: cs2)]) (by rw [h1]; simp)
      obtain ⟨b0, ha0, -⟩ := step_does h3
      cases c with
      | loop a m =>
        have := h2.loop
        subst this
        simp only [Construct.stop] at hstop
        subst hstop
        exact ⟨cs2, l2, ht, ha0.2.2⟩
      | selection m =>
        simp only [Construct.stop] at hstop
        subst hstop
        have hjoin : Step blocks (r, cs2) (m, cs2) := by
          generalize hq : ((t, Construct.selection m :: cs2) : Place) = q at h3
          cases h3 with
          | left ha he =>
            simp only [Prod.mk.injEq, List.cons.injEq, Construct.selection.injEq] at hq
            rw [hq.2.1]
            exact .join ha he
          | right ha he =>
            simp only [Prod.mk.injEq, List.cons.injEq, Construct.selection.injEq] at hq
            rw [hq.2.1]
            exact .join ha he
          | goto => simp at hq
          | body => simp at hq
          | after => simp at hq
          | join => simp at hq
          | stay => simp at hq
        exact ih cs2.length (by rw [← hn]; simp; omega) rfl (.step ht hjoin)
    · exact ⟨cs, l, h, hq⟩

theorem visited {v : UInt32} (h : Reached blocks first v) :
    ∃ cs l, Trail blocks first ((v, cs) :: l) ∧ ¬ Stops (v, cs) := by
  induction h with
  | start => exact ⟨[], [], .start, fun h => by cases h⟩
  | @step b v _ hb hv ih =>
    obtain ⟨cs, l, ht, hq⟩ := ih
    obtain ⟨b', ha, hgo, -⟩ := fine_step hf ht hq
    have : b' = b := hs.unique ha.1 hb ha.2.1
    subst this
    rcases hgo with hr | hgo
    · rw [hr] at hv
      cases hv
    · obtain ⟨cs', hst, -⟩ := hgo v hv
      exact read_on _ rfl (.step ht hst)

theorem plain_of_fine (b : BasicBlock X) (hb : b ∈ blocks) (hr : Reached blocks first (labelId b)) :
    Tame blocks first b := by
  obtain ⟨cs, l, ht, hq⟩ := visited hs hf hr
  obtain ⟨b', ha, hgo, -⟩ := fine_step hf ht hq
  have : b' = b := hs.unique ha.1 hb ha.2.1
  subst this
  have fine := hf _ ht.path
  have kept : ∀ c ∈ cs, ∀ r, Entered blocks r c → Inside blocks first r (mergeC c) (labelId b') := by
    intro c hc r hr
    rcases kept_of_fine hs hf ht rfl c hc r hr with h | h
    · exact h
    · exact absurd (List.mem_map.mpr ⟨c, hc, h.symm⟩) hq
  refine ⟨fun t f w m h he => ?_, fun t m h he => ?_, fun he x m hh hi => ?_, fun x m s ho hi v hv hno => ?_,
    fun t f w he => ?_⟩
  · have := fine (.panic "") ⟨b', ha, .inl ⟨_, _, _, _, _, he⟩⟩
    cases this
  · have := fine (.panic "") ⟨b', ha, .inr ⟨_, _, _, he⟩⟩
    cases this
  · rcases hs.within ht hq hh hi with hx | ⟨c, hc, -, -⟩
    · obtain ⟨b2, hb2, hl2, hm2⟩ := hh
      have : b2 = b' := hs.unique hb2 hb (by rw [hl2, hx])
      subst this
      rw [he] at hm2
      cases hm2
    · cases cs with
      | nil => cases hc
      | cons c0 cs =>
        have := fine_leaves hf ht .refl (.inr ⟨b', ha, he⟩)
        exact hq (List.mem_map.mpr ⟨c0, List.mem_cons_self, this.symm⟩)
  · have hret : endOf b' ≠ .returns := fun h => by rw [h] at hv; cases hv
    have hgo := hgo.resolve_left hret v hv
    have opens_stop {c : Construct} (hc : Entered blocks x c) : s = c.stop := by
      obtain ⟨b1, hb1, hl1, hm1, hs1⟩ := ho
      obtain ⟨b2, hb2, hl2, hm2, hs2⟩ := hc.opens
      have : b1 = b2 := hs.unique hb1 hb2 (by rw [hl1, hl2])
      subst this
      rw [hm1] at hm2
      cases hm2
      rw [hs1, hs2]
    rcases hs.within ht hq ho.header hi with hx | ⟨c, hc, hc1, hc2⟩
    · -- the block is the header itself
      subst hx
      obtain ⟨b2, hb2, hl2, hm2, -⟩ := ho
      have : b2 = b' := hs.unique hb2 hb hl2
      subst this
      have htar : v ∈ targets (endOf b2) := by
        refine Classical.byContradiction fun hn => hno ⟨rfl, ?_, hn⟩
        rcases next_named hv with h | h
        · exact absurd h hn
        · rw [hm2] at h
          exact (Option.some.inj h).symm
      have hop : ∃ c, opened (labelId b2) (endOf b2) = some c ∧ mergeC c = m := by
        cases he : endOf b2 <;> rw [he] at hm2 hv <;> simp only [mergeOf, reduceCtorEq, Option.some.injEq] at hm2 <;>
          first | (cases hv; done) | exact ⟨_, rfl, hm2⟩
      obtain ⟨c, hop, hcm⟩ := hop
      obtain ⟨-, -, hpush⟩ := hgo
      obtain ⟨cs', hst⟩ := hpush htar c hop
      have hent : Entered blocks (labelId b2) c := ⟨b2, hb, rfl, hop⟩
      have := kept_of_fine hs hf (.step ht hst) rfl c List.mem_cons_self _ hent
      rw [hcm, ← opens_stop hent] at this
      exact this
    · obtain ⟨cs', hst, -⟩ := hgo
      have hcs' : c ∈ cs' := (step_stack hst).subset hc
      have := kept_of_fine hs hf (.step ht hst) rfl c hcs' _ hc1
      rw [hc2, ← opens_stop hc1] at this
      exact this
  · have hin : ∃ head merge, innermost cs = some (head, merge) ∧ (f = merge ∨ f = head) := by
      refine Classical.byContradiction fun hno => ?_
      have := fine (.err (.CouldNotPredictConverge ⟨labelId b'⟩)) ⟨rfl, b', ha, t, f, w, he, fun head merge hin =>
        ⟨fun h => hno ⟨head, merge, hin, .inl h⟩, fun h => hno ⟨head, merge, hin, .inr h⟩⟩⟩
      cases this
    obtain ⟨head, merge, h1, h2⟩ := hin
    have hst : Step blocks (labelId b', cs) (t, cs) := .stay ha he h1 h2
    have h0 : ¬ Strays blocks t cs head := fun hstr => by
      have := fine (.err (.InvalidConvergePrediction .Loop ⟨labelId b'⟩))
        ⟨rfl, b', ha, .inr ⟨t, f, w, head, merge, he, h1, h2, hstr⟩⟩
      cases this
    cases cs with
    | nil => cases h1
    | cons c cs =>
      obtain ⟨y, hy, hend⟩ := fine_end hs hf (blocks.length + 1) (.step ht hst) (by omega)
      have hyc := fine_leaves hf (.step ht hst) hy hend
      have hyh : y = head := by
        refine Classical.byContradiction fun hne => h0 ⟨y, lift_path hy, ?_⟩
        exact hend.imp (fun h => ⟨h, hne⟩) id
      obtain ⟨r, t', l1, l2, k1, k2, k3⟩ := ht.opened (cs1 := []) rfl
      have htr : Trail blocks first ((r, cs) :: l2) := ht.cut (l1 := l1 ++ [(t', c :: cs)]) (by rw [k1]; simp)
      obtain ⟨b0, ha0, -⟩ := step_does k3
      cases c with
      | selection m =>
        exfalso
        -- the header of the loop is around the selection, so it is not its merge block
        simp only [Construct.stop] at hyc
        obtain ⟨m', hm'⟩ := innermost_mem (cs := cs) h1
        obtain ⟨r2, -, -, -, -, hr2⟩ := htr.around hm'
        have := hr2.loop
        subst this
        refine (hs.outer htr ha0.2.2 hm' hr2).2.1 ?_
        rw [← hyh, hyc]
        exact (hs.merges _ _ k2.header).2
      | loop a m =>
        cases h1
        have := k2.loop
        subst this
        refine ⟨head, merge, ?_, k2.header, kept _ List.mem_cons_self _ k2, h2, fun x' m' hh hi => ?_⟩
        · obtain ⟨b3, hb3, hl3, ho3⟩ := k2
          refine ⟨b3, hb3, hl3, ?_⟩
          cases he3 : endOf b3 <;> rw [he3] at ho3 <;> simp only [opened, reduceCtorEq, Option.some.injEq] at ho3
          rfl
        · rcases hs.within ht hq hh hi with hx | ⟨c, hc, hc1, hc2⟩
          · exfalso
            obtain ⟨b4, hb4, hl4, hm4⟩ := hh
            have : b4 = b' := hs.unique hb4 hb (by rw [hl4, hx])
            subst this
            rw [he] at hm4
            cases hm4
          · rcases List.mem_cons.mp hc with rfl | hc
            · exact .inl (hs.same hc1 k2)
            · right
              rcases kept_of_fine hs hf htr rfl c hc _ hc1 with h | h
              · rw [hc2] at h
                exact h
              · exact absurd (List.mem_map.mpr ⟨c, hc, h.symm⟩) ha0.2.2

end

end Magma.Standard
