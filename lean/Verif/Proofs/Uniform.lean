import Verif.Spec.Uniform
import Verif.Spec.Flow
import Verif.Proofs.Meaning
/-! Invocations that agree on variables stay together outside the constructs in which they may part. -/

namespace Magma.Lockstep
open Spec
variable {V W X : Type}

/-- Configurations agree on variables, and control came from the same block, unless it may have strayed. -/
structure Together (same : V → Bool) (stray : Bool) (c c' : Config (V → W)) : Prop where
  last : stray = false → c.last = c'.last
  agree : AgreeOn same c c'

theorem Together.mono {same : V → Bool} {s t : Bool} {c c' : Config (V → W)} (h : Together same s c c') (hs : s = true → t = true) :
    Together same t c c' :=
  ⟨fun ht => h.last (by cases s; rfl; rw [hs rfl] at ht; exact ht), h.agree⟩

/-- An effect on one configuration, as seen from what is `same`: nothing -/
structure Aside (same : V → Bool) (chain : List UInt32) (brk cont : Bool) (c : Config (V → W)) (e : Effect.On (V → W)) : Prop where
  agree : AgreeOn same e.config c
  trace : ∀ id ∈ e.trace, id.val ∈ chain
  brk : e.signal = .breaks → brk = true
  cont : e.signal = .continues → cont = true

section
variable {A : Access X V} {M : Machine X (V → W)} {same : V → Bool} {blocks : List (BasicBlock X)}

theorem code_quiet (hA : A.Right M) (last : Option UInt32) {v : V} (hv : same v = true) :
    ∀ (code : List (GroupCode X)) (st : V → W), (code.all fun i => (A.writes i).all fun v => !same v) = true →
      code.foldl (fun s i => M.run last i s) st v = st v
  | [], _, _ => rfl
  | i :: code, st, h => by
    simp only [List.all_cons, Bool.and_eq_true] at h
    rw [List.foldl_cons, code_quiet hA last hv code _ h.2]
    refine hA.keeps last i st v fun hm => ?_
    have := List.all_eq_true.mp h.1 v hm
    simp [hv] at this

theorem arrive_quiet (hA : A.Right M) {id : BlockId} (h : A.quiet same blocks id = true) (c : Config (V → W)) :
    AgreeOn same (M.arrive blocks id c) c := by
  intro v hv
  unfold Machine.arrive
  unfold Access.quiet at h
  split
  · rfl
  · next b hb =>
    rw [hb] at h
    exact code_quiet hA _ hv _ _ h

theorem code_steady (hA : A.Right M) {asks : GroupCode X → Bool} (hL : M.AsksLast asks) {stray : Bool}
    {last last' : Option UInt32} (hl : stray = false → last = last') :
    ∀ (code : List (GroupCode X)) (st st' : V → W), (∀ v, same v = true → st v = st' v) →
      (code.all fun i => ((A.writes i).all fun v => !same v) || ((A.reads i).all same && !(stray && asks i))) = true →
      ∀ v, same v = true → code.foldl (fun s i => M.run last i s) st v = code.foldl (fun s i => M.run last' i s) st' v
  | [], _, _, hs, _ => hs
  | i :: code, st, st', hs, h => by
    simp only [List.all_cons, Bool.and_eq_true] at h
    rw [List.foldl_cons, List.foldl_cons]
    refine code_steady hA hL hl code _ _ ?_ h.2
    intro v hv
    rcases (Bool.or_eq_true _ _).mp h.1 with hw | hr
    · have hm : v ∉ A.writes i := fun hm => by
        have := List.all_eq_true.mp hw v hm
        simp [hv] at this
      rw [hA.keeps last i st v hm, hA.keeps last' i st' v hm, hs v hv]
    · simp only [Bool.and_eq_true, Bool.not_eq_true', Bool.and_eq_false_iff] at hr
      have hrun : M.run last i st = M.run last' i st := by
        rcases hr.2 with h0 | h0
        · rw [hl h0]
        · exact hL i h0 _ _ _
      rw [hrun]
      by_cases hm : v ∈ A.writes i
      · exact hA.sets last' i st st' (fun u hu => hs u (List.all_eq_true.mp hr.1 u hu)) v hm
      · rw [hA.keeps last' i st v hm, hA.keeps last' i st' v hm, hs v hv]

theorem arrive_steady (hA : A.Right M) {asks : GroupCode X → Bool} (hL : M.AsksLast asks) {stray : Bool} {id : BlockId}
    (h : A.steady asks same blocks id stray = true) {c c' : Config (V → W)} (hc : Together same stray c c')
    (hk : (blockOf blocks id).isSome) :
    Together same false (M.arrive blocks id c) (M.arrive blocks id c') := by
  unfold Machine.arrive
  unfold Access.steady at h
  split
  · next hb => simp [hb] at hk
  · next b hb =>
    rw [hb] at h
    exact ⟨fun _ => rfl, code_steady hA hL hc.last _ _ _ hc.agree h⟩

theorem decides_together (hA : A.Right M) {id : BlockId} (h : A.varies same blocks id = false) {c c' : Config (V → W)}
    (hc : AgreeOn same c c') : M.decides blocks id c = M.decides blocks id c' := by
  unfold Machine.decides
  unfold Access.varies at h
  split
  · rfl
  · next b hb =>
    rw [hb] at h
    split
    · next op hop =>
      simp only [hop] at h
      refine hA.tests _ _ _ fun v hv => hc v ?_
      have := List.any_eq_false.mp h v hv
      simpa using this
    · rfl

theorem agree_trans {c c' c'' : Config (V → W)} (h : AgreeOn same c c') (h' : AgreeOn same c' c'') : AgreeOn same c c'' :=
  fun v hv => (h v hv).trans (h' v hv)

theorem agree_symm {c c' : Config (V → W)} (h : AgreeOn same c c') : AgreeOn same c' c := fun v hv => (h v hv).symm

theorem visit_aside (hA : A.Right M) {id : BlockId} (h : A.quiet same blocks id = true) (n : Nat) (c : Config (V → W)) :
    Aside same [id.val] false false c (M.visit blocks id n c) := by
  cases n with
  | zero => exact ⟨fun _ _ => rfl, by simp [Machine.visit], by simp [Machine.visit], by simp [Machine.visit]⟩
  | succ n => exact ⟨arrive_quiet hA h c, by simp [Machine.visit], by simp [Machine.visit], by simp [Machine.visit]⟩

theorem Aside.andThen {l l' : List UInt32} {b b' k k' : Bool} {c : Config (V → W)} {e : Effect.On (V → W)}
    (h : Aside same l b k c e) {second : Nat → Config (V → W) → Effect.On (V → W)}
    (h' : ∀ n c, Aside same l' b' k' c (second n c)) : Aside same (l ++ l') (b || b') (k || k') c (e.andThen second) := by
  unfold Effect.On.andThen
  split
  · have h2 := h' e.rest e.config
    refine ⟨agree_trans h2.agree h.agree, ?_, fun he => by simp [h2.brk he], fun he => by simp [h2.cont he]⟩
    intro id hid
    simp only [List.mem_append] at hid ⊢
    exact hid.imp (h.trace id) (h2.trace id)
  · exact ⟨h.agree, fun id hid => List.mem_append_left _ (h.trace id hid), fun he => by simp [h.brk he], fun he => by simp [h.cont he]⟩

theorem Aside.mono {l l' : List UInt32} {b b' k k' : Bool} {c : Config (V → W)} {e : Effect.On (V → W)}
    (h : Aside same l b k c e) (hl : ∀ x ∈ l, x ∈ l') (hb : b = true → b' = true) (hk : k = true → k' = true) :
    Aside same l' b' k' c e :=
  ⟨h.agree, fun id hid => hl _ (h.trace id hid), fun he => hb (h.brk he), fun he => hk (h.cont he)⟩

theorem repeat_aside {l : List UInt32} {b k : Bool} {body : Nat → Config (V → W) → Effect.On (V → W)}
    (h : ∀ n c, Aside same l b k c (body n c)) : ∀ (r n : Nat) (c : Config (V → W)),
      Aside same l false false c (repeatOn body r n c)
  | 0, n, c => ⟨fun _ _ => rfl, by simp [repeatOn], by simp [repeatOn], by simp [repeatOn]⟩
  | r + 1, n, c => by
    have h1 := h n c
    have h2 := repeat_aside h r (body n c).rest (body n c).config
    have h3 : Aside same l false false c
        ⟨(body n c).trace ++ (repeatOn body r (body n c).rest (body n c).config).trace,
          (repeatOn body r (body n c).rest (body n c).config).signal, (repeatOn body r (body n c).rest (body n c).config).rest,
          (repeatOn body r (body n c).rest (body n c).config).config⟩ :=
      ⟨agree_trans h2.agree h1.agree, fun id hid => (List.mem_append.mp hid).elim (h1.trace id) (h2.trace id), h2.brk, h2.cont⟩
    rw [repeatOn]
    split
    · exact h3
    · exact h3
    · exact ⟨h1.agree, h1.trace, by simp, by simp⟩
    · next hr => exact ⟨h1.agree, h1.trace, by simp [hr], by simp [hr]⟩

mutual
/-- Blocks that write nothing that is `same` -/
theorem exec_aside (hA : A.Right M) : ∀ (chain : ControlFlowChain),
    (∀ id ∈ chainIds chain, A.quiet same blocks ⟨id⟩ = true) → ∀ (n : Nat) (c : Config (V → W)),
    Aside same (chainIds chain) (canBreak chain) (canContinue chain) c (execOn M blocks chain n c)
  | .Atom id, h, n, c => by
    rw [execOn]
    exact visit_aside hA (h id.val (by simp [chainIds])) n c
  | .Block chains, h, n, c => by
    rw [execOn, chainIds, canBreak, canContinue]
    exact exec_all_aside hA chains (by simpa [chainIds] using h) n c
  | .Selection id left right _ _, h, n, c => by
    simp only [chainIds, List.mem_cons, List.mem_append] at h
    rw [execOn, chainIds, canBreak, canContinue]
    refine ((visit_aside hA (h id.val (.inl rfl)) n c).andThen (l' := chainIds left ++ chainIds right)
      (b' := canBreak left || canBreak right) (k' := canContinue left || canContinue right) fun n c => ?_).mono
        (by simp) (by simp) (by simp)
    split
    · exact (exec_aside hA left (fun x hx => h x (.inr (.inl hx))) n c).mono (fun x hx => List.mem_append_left _ hx)
        (fun hb => by simp [hb]) (fun hb => by simp [hb])
    · exact (exec_aside hA right (fun x hx => h x (.inr (.inr hx))) n c).mono (fun x hx => List.mem_append_right _ hx)
        (fun hb => by simp [hb]) (fun hb => by simp [hb])
  | .Loop id inner _ _, h, n, c => by
    simp only [chainIds, List.mem_cons] at h
    rw [execOn, chainIds, canBreak, canContinue]
    exact repeat_aside (fun n c => (visit_aside hA (h id.val (.inl rfl)) n c).andThen
      fun n c => exec_aside hA inner (fun x hx => h x (.inr hx)) n c) _ _ _
  | .Break, _, n, c => by
    rw [execOn]
    exact ⟨fun _ _ => rfl, by simp, by simp [canBreak], by simp⟩
  | .Continue, _, n, c => by
    rw [execOn]
    exact ⟨fun _ _ => rfl, by simp, by simp, by simp [canContinue]⟩
theorem exec_all_aside (hA : A.Right M) : ∀ (chains : List ControlFlowChain),
    (∀ id ∈ chainIdsAll chains, A.quiet same blocks ⟨id⟩ = true) → ∀ (n : Nat) (c : Config (V → W)),
    Aside same (chainIdsAll chains) (canBreakAny chains) (canContinueAny chains) c (execAllOn M blocks chains n c)
  | [], _, n, c => by
    rw [execAllOn]
    exact ⟨fun _ _ => rfl, by simp, by simp, by simp⟩
  | chain :: chains, h, n, c => by
    simp only [chainIdsAll, List.mem_append] at h
    rw [execAllOn, chainIdsAll, canBreakAny, canContinueAny]
    exact (exec_aside hA chain (fun x hx => h x (.inl hx)) n c).andThen
      fun n c => exec_all_aside hA chains (fun x hx => h x (.inr hx)) n c
end

/-- How a chain ends -/
theorem signal_can (hA : A.Right M) (chain : ControlFlowChain) (n : Nat) (c : Config (V → W))
    (h : (execOn M blocks chain n c).signal ≠ .next) (hr : (execOn M blocks chain n c).signal ≠ .running) :
    (canBreak chain || canContinue chain) = true := by
  have ha := exec_aside (same := fun _ => false) (blocks := blocks) hA chain (fun id _ => by unfold Access.quiet; split <;> simp) n c
  cases hs : (execOn M blocks chain n c).signal with
  | next => exact absurd hs h
  | breaks => simp [ha.brk hs]
  | continues => simp [ha.cont hs]
  | running => exact absurd hs hr

/-- Two effects that look the same from outside: both end, with the same signal (or one with a continue, if they may part),
the visits of blocks that are not `apart` are the same, and the configurations are together. -/
structure Alike (same : V → Bool) (apart : List UInt32) (part stray : Bool) (e e' : Effect.On (V → W)) : Prop where
  signal : e.signal = e'.signal ∨
    (part = true ∧ (e.signal = .next ∨ e.signal = .continues) ∧ (e'.signal = .next ∨ e'.signal = .continues))
  trace : visitsBut apart e.trace = visitsBut apart e'.trace
  config : Together same stray e.config e'.config

theorem Alike.mono {apart : List UInt32} {p p' s s' : Bool} {e e' : Effect.On (V → W)} (h : Alike same apart p s e e')
    (hp : p = true → p' = true) (hs : s = true → s' = true) : Alike same apart p' s' e e' :=
  ⟨h.signal.imp id fun x => ⟨hp x.1, x.2⟩, h.trace, h.config.mono hs⟩

theorem visitsBut_append (apart : List UInt32) (t u : List BlockId) :
    visitsBut apart (t ++ u) = visitsBut apart t ++ visitsBut apart u := List.filter_append ..

theorem visitsBut_none {apart l : List UInt32} {t : List BlockId} (h : ∀ id ∈ t, id.val ∈ l) (hl : ∀ x ∈ l, x ∈ apart) :
    visitsBut apart t = [] := by
  rw [visitsBut, List.filter_eq_nil_iff]
  intro id hid
  simp [hl _ (h id hid)]

theorem visit_together (hA : A.Right M) {asks : GroupCode X → Bool} (hL : M.AsksLast asks) {apart : List UInt32} {stray : Bool}
    {id : BlockId} (h : A.steady asks same blocks id stray = true) (hk : (blockOf blocks id).isSome) {n n' : Nat}
    {c c' : Config (V → W)} (hc : Together same stray c c') (hn : (M.visit blocks id n c).signal ≠ .running)
    (hn' : (M.visit blocks id n' c').signal ≠ .running) :
    Alike same apart false false (M.visit blocks id n c) (M.visit blocks id n' c') := by
  cases n with
  | zero => exact absurd rfl hn
  | succ n =>
    cases n' with
    | zero => exact absurd rfl hn'
    | succ n' => exact ⟨.inl rfl, rfl, arrive_steady hA hL h hc hk⟩

theorem visit_signal (id : BlockId) (n : Nat) (c : Config (V → W)) :
    (M.visit blocks id n c).signal = .next ∨ (M.visit blocks id n c).signal = .running := by
  cases n <;> simp [Machine.visit]

theorem andThen_running {e : Effect.On (V → W)} {second : Nat → Config (V → W) → Effect.On (V → W)}
    (h : (e.andThen second).signal ≠ .running) : e.signal ≠ .running := by
  intro he
  apply h
  simp [Effect.On.andThen, he]

theorem andThen_next {e : Effect.On (V → W)} {second : Nat → Config (V → W) → Effect.On (V → W)} (h : e.signal = .next) :
    e.andThen second = ⟨e.trace ++ (second e.rest e.config).trace, (second e.rest e.config).signal,
      (second e.rest e.config).rest, (second e.rest e.config).config⟩ := by
  simp [Effect.On.andThen, h]

theorem andThen_other {e : Effect.On (V → W)} {second : Nat → Config (V → W) → Effect.On (V → W)} (h : e.signal ≠ .next) :
    e.andThen second = e := by
  unfold Effect.On.andThen
  split
  · next hn => exact absurd hn h
  · rfl

/-- A visit together, and then something alike -/
theorem visit_then (hA : A.Right M) {asks : GroupCode X → Bool} (hL : M.AsksLast asks) {apart : List UInt32} {stray part t : Bool}
    {id : BlockId} (h : A.steady asks same blocks id stray = true) (hk : (blockOf blocks id).isSome)
    {second second' : Nat → Config (V → W) → Effect.On (V → W)} {n n' : Nat} {c c' : Config (V → W)}
    (hc : Together same stray c c')
    (h2 : ∀ n n' c c', Together same false c c' → (second n c).signal ≠ .running → (second' n' c').signal ≠ .running →
      Alike same apart part t (second n c) (second' n' c'))
    (hn : ((M.visit blocks id n c).andThen second).signal ≠ .running)
    (hn' : ((M.visit blocks id n' c').andThen second').signal ≠ .running) :
    Alike same apart part t ((M.visit blocks id n c).andThen second) ((M.visit blocks id n' c').andThen second') := by
  have h1 := visit_together hA hL (apart := apart) h hk hc (andThen_running hn) (andThen_running hn')
  have e1 := (visit_signal (M := M) (blocks := blocks) id n c).resolve_right (andThen_running hn)
  have e2 := (visit_signal (M := M) (blocks := blocks) id n' c').resolve_right (andThen_running hn')
  rw [andThen_next e1] at hn ⊢
  rw [andThen_next e2] at hn' ⊢
  have h3 := h2 _ _ _ _ h1.config hn hn'
  refine ⟨h3.signal, ?_, h3.config⟩
  simp only [visitsBut_append, h1.trace, h3.trace]

theorem repeat_together {apart : List UInt32} {part s t : Bool} {body : Nat → Config (V → W) → Effect.On (V → W)}
    (hts : t = true → s = true)
    (h : ∀ n n' c c', Together same s c c' → (body n c).signal ≠ .running → (body n' c').signal ≠ .running →
      Alike same apart part t (body n c) (body n' c')) :
    ∀ (k k' n n' : Nat) (c c' : Config (V → W)), Together same s c c' → (repeatOn body k n c).signal ≠ .running →
      (repeatOn body k' n' c').signal ≠ .running →
      Alike same apart false t (repeatOn body k n c) (repeatOn body k' n' c')
  | 0, _, _, _, _, _, _, hn, _ => absurd rfl hn
  | _ + 1, 0, _, _, _, _, _, _, hn' => absurd rfl hn'
  | k + 1, k' + 1, n, n', c, c', hc, hn, hn' => by
    have r1 : (body n c).signal ≠ .running := fun he => hn (by simp [repeatOn, he])
    have r2 : (body n' c').signal ≠ .running := fun he => hn' (by simp [repeatOn, he])
    have hb := h n n' c c' hc r1 r2
    have key : ∀ (e : Effect.On (V → W)), e.signal ≠ .running → e.signal = .breaks ∨ (e.signal = .next ∨ e.signal = .continues) := by
      intro e he
      cases hs : e.signal <;> simp_all
    have hboth : ((body n c).signal = .breaks ∧ (body n' c').signal = .breaks) ∨
        (((body n c).signal = .next ∨ (body n c).signal = .continues) ∧
          ((body n' c').signal = .next ∨ (body n' c').signal = .continues)) := by
      rcases hb.signal with he | ⟨-, he, he'⟩
      · rcases key _ r1 with h1 | h1
        · exact .inl ⟨h1, he ▸ h1⟩
        · exact .inr ⟨h1, he ▸ h1⟩
      · exact .inr ⟨he, he'⟩
    have more : ∀ (j m : Nat) (d : Config (V → W)), ((body m d).signal = .next ∨ (body m d).signal = .continues) →
        repeatOn body (j + 1) m d = ⟨(body m d).trace ++ (repeatOn body j (body m d).rest (body m d).config).trace,
          (repeatOn body j (body m d).rest (body m d).config).signal, (repeatOn body j (body m d).rest (body m d).config).rest,
          (repeatOn body j (body m d).rest (body m d).config).config⟩ := by
      intro j m d hd
      rw [repeatOn]
      rcases hd with hd | hd <;> simp only [hd]
    rcases hboth with ⟨h1, h2⟩ | ⟨h1, h2⟩
    · have e1 : repeatOn body (k + 1) n c = ⟨(body n c).trace, .next, (body n c).rest, (body n c).config⟩ := by
        rw [repeatOn]; simp only [h1]
      have e2 : repeatOn body (k' + 1) n' c' = ⟨(body n' c').trace, .next, (body n' c').rest, (body n' c').config⟩ := by
        rw [repeatOn]; simp only [h2]
      rw [e1, e2]
      exact ⟨.inl rfl, hb.trace, hb.config⟩
    · rw [more k n c h1] at hn ⊢
      rw [more k' n' c' h2] at hn' ⊢
      have ih := repeat_together hts h k k' _ _ _ _ (hb.config.mono hts) hn hn'
      refine ⟨ih.signal, ?_, ih.config⟩
      simp only [visitsBut_append, hb.trace, ih.trace]

/-- What is known about a part of the program -/
structure Checked (A : Access X V) (asks : GroupCode X → Bool) (same : V → Bool) (blocks : List (BasicBlock X))
    (apart : List UInt32) (ids inApart : List UInt32) (shared : List (BlockId × Bool)) : Prop where
  known : ∀ id ∈ ids, (blockOf blocks ⟨id⟩).isSome
  inside : ∀ id ∈ inApart, id ∈ apart
  quiet : ∀ id ∈ apart, A.quiet same blocks ⟨id⟩ = true
  steady : ∀ p ∈ shared, A.steady asks same blocks p.1 p.2 = true

theorem Checked.mono {asks : GroupCode X → Bool} {apart i i' a a' : List UInt32} {s s' : List (BlockId × Bool)}
    (h : Checked A asks same blocks apart i a s) (hi : ∀ x ∈ i', x ∈ i) (ha : ∀ x ∈ a', x ∈ a) (hs : ∀ x ∈ s', x ∈ s) :
    Checked A asks same blocks apart i' a' s' :=
  ⟨fun x hx => h.known x (hi x hx), fun x hx => h.inside x (ha x hx), h.quiet, fun x hx => h.steady x (hs x hx)⟩

mutual
theorem exec_together (hA : A.Right M) {asks : GroupCode X → Bool} (hL : M.AsksLast asks) {apart : List UInt32} :
    ∀ (chain : ControlFlowChain) (before : Bool),
      Checked A asks same blocks apart (chainIds chain) (visitedApart (A.varies same blocks) chain)
        (visitedTogether (A.varies same blocks) before chain) →
      mayLeave (A.varies same blocks) chain = false →
      ∀ (n n' : Nat) (c c' : Config (V → W)), Together same before c c' → (execOn M blocks chain n c).signal ≠ .running →
        (execOn M blocks chain n' c').signal ≠ .running →
        Alike same apart (mayPart (A.varies same blocks) chain) (mayStray (A.varies same blocks) before chain)
          (execOn M blocks chain n c) (execOn M blocks chain n' c')
  | .Atom id, before, h, _, n, n', c, c', hc, hn, hn' => by
    rw [execOn] at hn hn' ⊢
    rw [execOn, mayPart, mayStray]
    exact visit_together hA hL (h.steady (id, before) (by simp [visitedTogether])) (h.known id.val (by simp [chainIds])) hc hn hn'
  | .Block chains, before, h, hl, n, n', c, c', hc, hn, hn' => by
    simp only [execOn, mayPart, mayStray, chainIds, visitedApart, visitedTogether, mayLeave] at *
    exact exec_all_together hA hL chains before h hl n n' c c' hc hn hn'
  | .Selection id left right _ _, before, h, hl, n, n', c, c', hc, hn, hn' => by
    simp only [execOn, mayPart, mayStray, chainIds, visitedApart, visitedTogether, mayLeave] at *
    refine visit_then hA hL (h.steady (id, before) (by simp)) (h.known id.val (by simp)) hc ?_ hn hn'
    intro n n' c c' hc hn hn'
    cases hv : A.varies same blocks id with
    | true =>
      simp only [hv, if_true, Bool.true_and] at h hl ⊢
      have hla : ∀ x ∈ chainIds left, x ∈ apart := fun x hx => h.inside x (List.mem_append_left _ hx)
      have hra : ∀ x ∈ chainIds right, x ∈ apart := fun x hx => h.inside x (List.mem_append_right _ hx)
      have side : ∀ n c, Aside same (chainIds left ++ chainIds right) false (canContinue left || canContinue right) c
          (if M.decides blocks id c then execOn M blocks left n c else execOn M blocks right n c) := by
        simp only [Bool.or_eq_false_iff] at hl
        intro n c
        split
        · exact (exec_aside hA left (fun x hx => h.quiet x (hla x hx)) n c).mono (fun x hx => List.mem_append_left _ hx)
            (by simp [hl.1.1.1]) (fun hb => by simp [hb])
        · exact (exec_aside hA right (fun x hx => h.quiet x (hra x hx)) n c).mono (fun x hx => List.mem_append_right _ hx)
            (by simp [hl.1.1.2]) (fun hb => by simp [hb])
      have ho : ∀ (e : Effect.On (V → W)) (k : Bool) (l : List UInt32) (c : Config (V → W)), Aside same l false k c e →
          e.signal ≠ .running → e.signal = .next ∨ (k = true ∧ e.signal = .continues) := by
        intro e k l c ha hr
        cases hs : e.signal with
        | next => exact .inl rfl
        | breaks => exact absurd (ha.brk hs) (by simp)
        | continues => exact .inr ⟨ha.cont hs, rfl⟩
        | running => exact absurd hs hr
      have s1 := side n c
      have s2 := side n' c'
      refine ⟨?_, ?_, ⟨by simp, ?_⟩⟩
      · rcases ho _ _ _ _ s1 hn with o1 | ⟨k1, o1⟩ <;> rcases ho _ _ _ _ s2 hn' with o2 | ⟨k2, o2⟩
        · exact .inl (o1.trans o2.symm)
        · exact .inr ⟨k2, .inl o1, .inr o2⟩
        · exact .inr ⟨k1, .inr o1, .inl o2⟩
        · exact .inl (o1.trans o2.symm)
      · rw [visitsBut_none s1.trace h.inside, visitsBut_none s2.trace h.inside]
      · exact agree_trans s1.agree (agree_trans hc.agree (agree_symm s2.agree))
    | false =>
      simp only [hv, Bool.false_eq_true, if_false, Bool.false_and, Bool.false_or, Bool.or_eq_false_iff] at h hl ⊢
      rw [decides_together hA hv hc.agree] at hn ⊢
      split at hn
      · next hd =>
        simp only [hd, if_true] at hn' ⊢
        exact (exec_together hA hL left false (h.mono (fun x hx => by simp [hx]) (fun x hx => by simp [hx])
          (fun x hx => by simp [hx])) hl.1 n n' c c' hc hn hn').mono (fun hb => by simp [hb]) (fun hb => by simp [hb])
      · next hd =>
        simp only [hd] at hn' ⊢
        exact (exec_together hA hL right false (h.mono (fun x hx => by simp [hx]) (fun x hx => by simp [hx])
          (fun x hx => by simp [hx])) hl.2 n n' c c' hc hn hn').mono (fun hb => by simp [hb]) (fun hb => by simp [hb])
  | .Loop id inner _ _, before, h, hl, n, n', c, c', hc, hn, hn' => by
    simp only [execOn, mayPart, mayStray, chainIds, visitedApart, visitedTogether] at *
    cases hv : mayLeave (A.varies same blocks) inner with
    | true =>
      simp only [hv, if_true, Bool.true_or] at h ⊢
      have side : ∀ k n c, Aside same (id.val :: chainIds inner) false false c
          (repeatOn (fun n c => (M.visit blocks id n c).andThen (fun n c => execOn M blocks inner n c)) k n c) :=
        repeat_aside fun n c => (visit_aside hA (h.quiet _ (h.inside id.val (by simp))) n c).andThen
          fun n c => exec_aside hA inner (fun x hx => h.quiet _ (h.inside x (by simp [hx]))) n c
      have ho : ∀ (e : Effect.On (V → W)) (l : List UInt32) (c : Config (V → W)), Aside same l false false c e →
          e.signal ≠ .running → e.signal = .next := by
        intro e l c ha hr
        cases hs : e.signal with
        | next => rfl
        | breaks => exact absurd (ha.brk hs) (by simp)
        | continues => exact absurd (ha.cont hs) (by simp)
        | running => exact absurd hs hr
      have s1 := side (n + 1) n c
      have s2 := side (n' + 1) n' c'
      refine ⟨.inl ((ho _ _ _ s1 hn).trans (ho _ _ _ s2 hn').symm), ?_, ⟨by simp, ?_⟩⟩
      · rw [visitsBut_none s1.trace h.inside, visitsBut_none s2.trace h.inside]
      · exact agree_trans s1.agree (agree_trans hc.agree (agree_symm s2.agree))
    | false =>
      simp only [hv, Bool.false_eq_true, if_false, Bool.false_or] at h ⊢
      refine repeat_together (s := before || mayStray (A.varies same blocks) false inner)
        (part := mayPart (A.varies same blocks) inner) (fun hb => by simp [hb]) ?_ _ _ _ _ _ _
        (hc.mono fun hb => by simp [hb]) hn hn'
      intro n n' c c' hc hn hn'
      refine visit_then hA hL (h.steady _ (List.mem_cons_self ..)) (h.known id.val (by simp)) hc ?_ hn hn'
      intro n n' c c' hc hn hn'
      exact exec_together hA hL inner false (h.mono (fun x hx => by simp [hx]) (fun x hx => hx) (fun x hx => by simp [hx]))
        hv n n' c c' hc hn hn'
  | .Break, before, _, _, n, n', c, c', hc, _, _ => by
    rw [execOn, execOn, mayPart, mayStray]
    exact ⟨.inl rfl, rfl, hc⟩
  | .Continue, before, _, _, n, n', c, c', hc, _, _ => by
    rw [execOn, execOn, mayPart, mayStray]
    exact ⟨.inl rfl, rfl, hc⟩
theorem exec_all_together (hA : A.Right M) {asks : GroupCode X → Bool} (hL : M.AsksLast asks) {apart : List UInt32} :
    ∀ (chains : List ControlFlowChain) (before : Bool),
      Checked A asks same blocks apart (chainIdsAll chains) (visitedApartAll (A.varies same blocks) chains)
        (visitedTogetherAll (A.varies same blocks) before chains) →
      mayLeaveAny (A.varies same blocks) chains = false →
      ∀ (n n' : Nat) (c c' : Config (V → W)), Together same before c c' → (execAllOn M blocks chains n c).signal ≠ .running →
        (execAllOn M blocks chains n' c').signal ≠ .running →
        Alike same apart (mayPartAny (A.varies same blocks) chains) (mayStrayAll (A.varies same blocks) before chains)
          (execAllOn M blocks chains n c) (execAllOn M blocks chains n' c')
  | [], before, _, _, n, n', c, c', hc, _, _ => by
    rw [execAllOn, execAllOn, mayPartAny, mayStrayAll]
    exact ⟨.inl rfl, rfl, hc⟩
  | chain :: chains, before, h, hl, n, n', c, c', hc, hn, hn' => by
    simp only [execAllOn, mayPartAny, mayStrayAll, chainIdsAll, visitedApartAll, visitedTogetherAll, mayLeaveAny,
      Bool.or_eq_false_iff] at *
    have h1 := exec_together hA hL chain before (h.mono (fun x hx => by simp [hx]) (fun x hx => by simp [hx])
      (fun x hx => by simp [hx])) hl.1.1 n n' c c' hc (andThen_running hn) (andThen_running hn')
    have hrest := exec_all_together hA hL chains (mayStray (A.varies same blocks) before chain)
      (h.mono (fun x hx => by simp [hx]) (fun x hx => by simp [hx]) (fun x hx => by simp [hx])) hl.2
    rcases h1.signal with he | ⟨hp, h2, h3⟩
    · by_cases hs : (execOn M blocks chain n c).signal = .next
      · rw [andThen_next hs] at hn ⊢
        rw [andThen_next (he ▸ hs)] at hn' ⊢
        have h4 := (hrest _ _ _ _ h1.config hn hn').mono (p' := mayPart (A.varies same blocks) chain ||
          mayPartAny (A.varies same blocks) chains) (s' := mayStrayAll (A.varies same blocks)
            (mayStray (A.varies same blocks) before chain) chains ||
              ((canBreak chain || canContinue chain) && mayStray (A.varies same blocks) before chain))
          (fun hb => by simp [hb]) (fun hb => by simp [hb])
        exact ⟨h4.signal, by simp only [visitsBut_append, h1.trace, h4.trace], h4.config⟩
      · rw [andThen_other hs, andThen_other (he ▸ hs)]
        refine h1.mono (fun hb => by simp [hb]) (fun hb => ?_)
        have := signal_can (M := M) (blocks := blocks) hA chain n c hs (andThen_running hn)
        simp [hb, this]
    · have hnil : chains = [] := by
        have := hl.1.2
        simpa [hp] using this
      subst hnil
      have hsimple : ∀ (e : Effect.On (V → W)), e.andThen (fun n c => execAllOn M blocks [] n c) = e := by
        intro e
        unfold Effect.On.andThen
        split
        · next hs => simp [execAllOn, ← hs]
        · rfl
      rw [hsimple, hsimple]
      exact h1.mono (fun hb => by simp [hb]) (fun hb => by simp [mayStrayAll, hb])
end
end

mutual
theorem shaped_can : ∀ (chain : ControlFlowChain), WellShaped false chain → canBreak chain = false ∧ canContinue chain = false
  | .Atom _, _ => by simp [canBreak, canContinue]
  | .Block chains, h => by
    simp only [WellShaped] at h
    simpa [canBreak, canContinue] using items_can chains h
  | .Selection _ left right _ _, h => by
    simp only [WellShaped] at h
    simp [canBreak, canContinue, shaped_can left h.1, else_can right h.2]
  | .Loop _ _ _ _, _ => by simp [canBreak, canContinue]
  | .Break, h => by simp [WellShaped] at h
  | .Continue, h => by simp [WellShaped] at h
theorem else_can : ∀ (chain : ControlFlowChain), ElseShaped false chain → canBreak chain = false ∧ canContinue chain = false
  | .Atom _, _ => by simp [canBreak, canContinue]
  | .Block chains, h => by
    simp only [ElseShaped] at h
    simpa [canBreak, canContinue] using items_can chains h
  | .Selection _ left right _ _, h => by
    simp only [ElseShaped] at h
    simp [canBreak, canContinue, shaped_can left h.1, else_can right h.2]
  | .Loop _ _ _ _, _ => by simp [canBreak, canContinue]
  | .Break, h => by simp [ElseShaped] at h
  | .Continue, h => by simp [ElseShaped] at h
theorem items_can : ∀ (chains : List ControlFlowChain), Items false chains →
    canBreakAny chains = false ∧ canContinueAny chains = false
  | [], _ => by simp [canBreakAny, canContinueAny]
  | chain :: chains, h => by
    simp only [Items] at h
    simp [canBreakAny, canContinueAny, item_can chain h.1, items_can chains h.2]
theorem item_can : ∀ (chain : ControlFlowChain), ItemShaped false chain → canBreak chain = false ∧ canContinue chain = false
  | .Atom _, _ => by simp [canBreak, canContinue]
  | .Block chains, h => by simp [ItemShaped] at h
  | .Selection _ left right _ _, h => by
    simp only [ItemShaped] at h
    simp [canBreak, canContinue, shaped_can left h.1, else_can right h.2]
  | .Loop _ _ _ _, _ => by simp [canBreak, canContinue]
  | .Break, h => by simp [ItemShaped] at h
  | .Continue, h => by simp [ItemShaped] at h
end

mutual
theorem stays_part (varies : BlockId → Bool) : ∀ (chain : ControlFlowChain), canContinue chain = false → mayPart varies chain = false
  | .Atom _, _ => by simp [mayPart]
  | .Block chains, h => by
    rw [mayPart]
    exact stays_part_any varies chains (by simpa [canContinue] using h)
  | .Selection id left right _ _, h => by
    simp only [canContinue, Bool.or_eq_false_iff] at h
    rw [mayPart]
    split <;> simp [h.1, h.2, stays_part varies left h.1, stays_part varies right h.2]
  | .Loop _ _ _ _, _ => by simp [mayPart]
  | .Break, _ => by simp [mayPart]
  | .Continue, _ => by simp [mayPart]
theorem stays_part_any (varies : BlockId → Bool) : ∀ (chains : List ControlFlowChain), canContinueAny chains = false →
    mayPartAny varies chains = false
  | [], _ => by simp [mayPartAny]
  | chain :: chains, h => by
    simp only [canContinueAny, Bool.or_eq_false_iff] at h
    simp [mayPartAny, stays_part varies chain h.1, stays_part_any varies chains h.2]
end

mutual
/-- Without breaks and continues nobody leaves. -/
theorem stays (varies : BlockId → Bool) : ∀ (chain : ControlFlowChain), canBreak chain = false ∧ canContinue chain = false →
    mayLeave varies chain = false
  | .Atom _, _ => by simp [mayLeave]
  | .Block chains, h => by
    rw [mayLeave]
    exact stays_any varies chains (by simpa [canContinue, canBreak] using h)
  | .Selection id left right _ _, h => by
    simp only [canContinue, canBreak, Bool.or_eq_false_iff] at h
    simp [mayLeave, h.1.1, h.1.2, stays varies left ⟨h.1.1, h.2.1⟩, stays varies right ⟨h.1.2, h.2.2⟩]
  | .Loop _ _ _ _, _ => by simp [mayLeave]
  | .Break, _ => by simp [mayLeave]
  | .Continue, _ => by simp [mayLeave]
theorem stays_any (varies : BlockId → Bool) : ∀ (chains : List ControlFlowChain),
    canBreakAny chains = false ∧ canContinueAny chains = false → mayLeaveAny varies chains = false
  | [], _ => by simp [mayLeaveAny]
  | chain :: chains, h => by
    simp only [canContinueAny, canBreakAny, Bool.or_eq_false_iff] at h
    simp [mayLeaveAny, stays varies chain ⟨h.1.1, h.2.1⟩, stays_any varies chains ⟨h.1.2, h.2.2⟩,
      stays_part varies chain h.2.1]
end

end Magma.Lockstep
