import Verif.Proofs.Uniform
/-! Invocations that agree on variables stay together also as long as they have not returned. -/

namespace Magma.Lockstep
open Spec
variable {V W X : Type}

/-- As long as nothing is visited but blocks that may be visited apart, nothing that is `same` changes. -/
def Unseen (same : V → Bool) (apart : List UInt32) (c : Config (V → W)) (e : Effect.On (V → W)) : Prop :=
  visitsBut apart e.trace = [] → AgreeOn same e.config c

/-- One of two effects may be ahead of the other; one that has ended is not behind. If none is ahead they agree. -/
structure Ahead (same : V → Bool) (apart : List UInt32) (e e' : Effect.On (V → W)) : Prop where
  left : e.signal ≠ .running → visitsBut apart e'.trace <+: visitsBut apart e.trace
  right : e'.signal ≠ .running → visitsBut apart e.trace <+: visitsBut apart e'.trace
  comparable : visitsBut apart e.trace <+: visitsBut apart e'.trace ∨ visitsBut apart e'.trace <+: visitsBut apart e.trace
  agree : visitsBut apart e.trace = visitsBut apart e'.trace → AgreeOn same e.config e'.config

theorem Ahead.of_eq {same : V → Bool} {apart : List UInt32} {e e' : Effect.On (V → W)}
    (h : visitsBut apart e.trace = visitsBut apart e'.trace) (ha : AgreeOn same e.config e'.config) : Ahead same apart e e' :=
  ⟨fun _ => h ▸ List.prefix_refl _, fun _ => h ▸ List.prefix_refl _, .inl (h ▸ List.prefix_refl _), fun _ => ha⟩

/-- Nothing has been visited yet. -/
theorem Ahead.start {same : V → Bool} {apart : List UInt32} {e e' : Effect.On (V → W)} {c' : Config (V → W)}
    (h : visitsBut apart e.trace = []) (hr : e.signal = .running) (ha : AgreeOn same e.config c') (hu : Unseen same apart c' e') :
    Ahead same apart e e' :=
  ⟨fun hn => absurd hr hn, fun _ => h ▸ List.nil_prefix, .inl (h ▸ List.nil_prefix),
    fun he => agree_trans ha (agree_symm (hu (he.symm.trans h)))⟩

theorem Ahead.symm {same : V → Bool} {apart : List UInt32} {e e' : Effect.On (V → W)} (h : Ahead same apart e e') :
    Ahead same apart e' e :=
  ⟨h.right, h.left, h.comparable.symm, fun he => agree_symm (h.agree he.symm)⟩

/-- Both go on after the same visits. -/
theorem Ahead.after {same : V → Bool} {apart : List UInt32} {t t' : List BlockId} (ht : visitsBut apart t = visitsBut apart t')
    {e e' d d' : Effect.On (V → W)} (h : Ahead same apart e e') (hd : d.trace = t ++ e.trace) (hd' : d'.trace = t' ++ e'.trace)
    (hs : d.signal = e.signal) (hs' : d'.signal = e'.signal) (hc : d.config = e.config) (hc' : d'.config = e'.config) :
    Ahead same apart d d' := by
  refine ⟨fun hr => ?_, fun hr => ?_, ?_, fun he => ?_⟩
  · rw [hd, hd', visitsBut_append, visitsBut_append, ht]
    exact (List.prefix_append_right_inj _).mpr (h.left (hs ▸ hr))
  · rw [hd, hd', visitsBut_append, visitsBut_append, ht]
    exact (List.prefix_append_right_inj _).mpr (h.right (hs' ▸ hr))
  · rw [hd, hd', visitsBut_append, visitsBut_append, ht]
    exact h.comparable.imp (List.prefix_append_right_inj _).mpr (List.prefix_append_right_inj _).mpr
  · rw [hd, hd', visitsBut_append, visitsBut_append, ht] at he
    rw [hc, hc']
    exact h.agree (List.append_cancel_left he)

/-- One has not ended, and the other goes on. -/
theorem Ahead.further {same : V → Bool} {apart : List UInt32} {e e' d' : Effect.On (V → W)} (h : Ahead same apart e e')
    (hr : e.signal = .running) (hr' : e'.signal ≠ .running) {u : List BlockId} (hd : d'.trace = e'.trace ++ u)
    (hu : visitsBut apart u = [] → AgreeOn same d'.config e'.config) : Ahead same apart e d' := by
  have h1 := h.right hr'
  have : visitsBut apart e.trace <+: visitsBut apart d'.trace := by
    rw [hd, visitsBut_append]
    exact h1.trans (List.prefix_append ..)
  refine ⟨fun hn => absurd hr hn, fun _ => this, .inl this, fun he => ?_⟩
  rw [hd, visitsBut_append] at he
  have hlen := h1.length_le
  have hnil : visitsBut apart u = [] := by
    have := congrArg List.length he
    rw [List.length_append] at this
    exact List.eq_nil_of_length_eq_zero (by omega)
  rw [hnil, List.append_nil] at he
  exact agree_trans (h.agree he) (agree_symm (hu hnil))

theorem andThen_more {same : V → Bool} {apart : List UInt32} (e : Effect.On (V → W))
    {second : Nat → Config (V → W) → Effect.On (V → W)} (h : ∀ n c, Unseen same apart c (second n c)) :
    ∃ u, (e.andThen second).trace = e.trace ++ u ∧ (visitsBut apart u = [] → AgreeOn same (e.andThen second).config e.config) := by
  unfold Effect.On.andThen
  split
  · exact ⟨_, rfl, h _ _⟩
  · exact ⟨[], by simp, fun _ _ _ => rfl⟩

theorem Unseen.andThen {same : V → Bool} {apart : List UInt32} {c : Config (V → W)} {e : Effect.On (V → W)}
    (h : Unseen same apart c e) {second : Nat → Config (V → W) → Effect.On (V → W)}
    (h' : ∀ n c, Unseen same apart c (second n c)) : Unseen same apart c (e.andThen second) := by
  obtain ⟨u, hu, ha⟩ := andThen_more e h'
  intro he
  rw [hu, visitsBut_append, List.append_eq_nil_iff] at he
  exact agree_trans (ha he.2) (h he.1)

theorem repeat_more {same : V → Bool} {apart : List UInt32} {body : Nat → Config (V → W) → Effect.On (V → W)}
    (h : ∀ n c, Unseen same apart c (body n c)) : ∀ (k n : Nat) (c : Config (V → W)),
      ∃ u, (repeatOn body (k + 1) n c).trace = (body n c).trace ++ u ∧
        (visitsBut apart u = [] → AgreeOn same (repeatOn body (k + 1) n c).config (body n c).config)
  | k, n, c => by
    have again : ∀ m d, Unseen same apart d (repeatOn body k m d) := by
      cases k with
      | zero => exact fun m d _ _ _ => rfl
      | succ k =>
        intro m d he
        obtain ⟨u, hu, ha⟩ := repeat_more h k m d
        rw [hu, visitsBut_append, List.append_eq_nil_iff] at he
        exact agree_trans (ha he.2) (h m d he.1)
    rw [repeatOn]
    split
    · exact ⟨_, rfl, again _ _⟩
    · exact ⟨_, rfl, again _ _⟩
    · exact ⟨[], by simp, fun _ _ _ => rfl⟩
    · exact ⟨[], by simp, fun _ _ _ => rfl⟩

theorem repeat_unseen {same : V → Bool} {apart : List UInt32} {body : Nat → Config (V → W) → Effect.On (V → W)}
    (h : ∀ n c, Unseen same apart c (body n c)) : ∀ (k n : Nat) (c : Config (V → W)), Unseen same apart c (repeatOn body k n c)
  | 0, _, _ => fun _ _ _ => rfl
  | k + 1, n, c => by
    intro he
    obtain ⟨u, hu, ha⟩ := repeat_more h k n c
    rw [hu, visitsBut_append, List.append_eq_nil_iff] at he
    exact agree_trans (ha he.2) (h n c he.1)

section
variable {A : Access X V} {M : Machine X (V → W)} {same : V → Bool} {blocks : List (BasicBlock X)}

theorem visit_unseen (hA : A.Right M) {apart : List UInt32} (hq : ∀ id ∈ apart, A.quiet same blocks ⟨id⟩ = true) (id : BlockId) (n : Nat)
    (c : Config (V → W)) : Unseen same apart c (M.visit blocks id n c) := by
  cases n with
  | zero => exact fun _ _ _ => rfl
  | succ n =>
    intro he
    have : id.val ∈ apart := by simpa [Machine.visit, visitsBut] using he
    exact arrive_quiet hA (hq _ this) c

mutual
theorem exec_unseen (hA : A.Right M) {apart : List UInt32} (hq : ∀ id ∈ apart, A.quiet same blocks ⟨id⟩ = true) :
    ∀ (chain : ControlFlowChain) (n : Nat) (c : Config (V → W)), Unseen same apart c (execOn M blocks chain n c)
  | .Atom id, n, c => by
    rw [execOn]
    exact visit_unseen hA hq id n c
  | .Block chains, n, c => by
    rw [execOn]
    exact exec_all_unseen hA hq chains n c
  | .Selection id left right _ _, n, c => by
    rw [execOn]
    refine (visit_unseen hA hq id n c).andThen fun n c => ?_
    split
    · exact exec_unseen hA hq left n c
    · exact exec_unseen hA hq right n c
  | .Loop id inner _ _, n, c => by
    rw [execOn]
    exact repeat_unseen (fun n c => (visit_unseen hA hq id n c).andThen fun n c => exec_unseen hA hq inner n c) _ _ _
  | .Break, n, c => by
    rw [execOn]
    exact fun _ _ _ => rfl
  | .Continue, n, c => by
    rw [execOn]
    exact fun _ _ _ => rfl
theorem exec_all_unseen (hA : A.Right M) {apart : List UInt32} (hq : ∀ id ∈ apart, A.quiet same blocks ⟨id⟩ = true) :
    ∀ (chains : List ControlFlowChain) (n : Nat) (c : Config (V → W)), Unseen same apart c (execAllOn M blocks chains n c)
  | [], n, c => by
    rw [execAllOn]
    exact fun _ _ _ => rfl
  | chain :: chains, n, c => by
    rw [execAllOn]
    exact (exec_unseen hA hq chain n c).andThen fun n c => exec_all_unseen hA hq chains n c
end

/-- A visit together, and then something of which one may be ahead -/
theorem visit_then_ahead (hA : A.Right M) {asks : GroupCode X → Bool} (hL : M.AsksLast asks) {apart : List UInt32} {stray : Bool}
    {id : BlockId} (h : A.steady asks same blocks id stray = true) (hk : (blockOf blocks id).isSome)
    {second second' : Nat → Config (V → W) → Effect.On (V → W)} {n n' : Nat} {c c' : Config (V → W)}
    (hc : Together same stray c c') (hq : ∀ id ∈ apart, A.quiet same blocks ⟨id⟩ = true)
    (hu : ∀ n c, Unseen same apart c (second n c)) (hu' : ∀ n c, Unseen same apart c (second' n c))
    (h2 : ∀ n n' c c', Together same false c c' → Ahead same apart (second n c) (second' n' c')) :
    Ahead same apart ((M.visit blocks id n c).andThen second) ((M.visit blocks id n' c').andThen second') := by
  cases n with
  | zero => exact .start rfl rfl hc.agree ((visit_unseen hA hq id n' c').andThen hu')
  | succ n =>
    cases n' with
    | zero => exact (Ahead.start rfl rfl (agree_symm hc.agree) ((visit_unseen hA hq id (n + 1) c).andThen hu)).symm
    | succ n' =>
      exact (h2 n n' _ _ (arrive_steady hA hL h hc hk)).after (t := [id]) (t' := [id]) rfl rfl rfl rfl rfl rfl rfl

theorem repeat_ahead {apart : List UInt32} {part s t : Bool} {body : Nat → Config (V → W) → Effect.On (V → W)}
    (hts : t = true → s = true)
    (h : ∀ n n' c c', Together same s c c' → (body n c).signal ≠ .running → (body n' c').signal ≠ .running →
      Alike same apart part t (body n c) (body n' c'))
    (ha : ∀ n n' c c', Together same s c c' → Ahead same apart (body n c) (body n' c'))
    (hu : ∀ n c, Unseen same apart c (body n c)) :
    ∀ (k k' n n' : Nat) (c c' : Config (V → W)), Together same s c c' →
      Ahead same apart (repeatOn body k n c) (repeatOn body k' n' c')
  | 0, k', _, n', _, c', hc => .start rfl rfl hc.agree (repeat_unseen hu k' n' c')
  | k + 1, 0, n, _, c, _, hc => (Ahead.start rfl rfl (agree_symm hc.agree) (repeat_unseen hu (k + 1) n c)).symm
  | k + 1, k' + 1, n, n', c, c', hc => by
    have hb := ha n n' c c' hc
    have run : ∀ (j m : Nat) (d : Config (V → W)), (body m d).signal = .running → repeatOn body (j + 1) m d = body m d := by
      intro j m d hd
      rw [repeatOn]
      simp only [hd]
    by_cases r1 : (body n c).signal = .running
    · rw [run k n c r1]
      by_cases r2 : (body n' c').signal = .running
      · rw [run k' n' c' r2]
        exact hb
      · obtain ⟨u, hx, hy⟩ := repeat_more hu k' n' c'
        exact hb.further r1 r2 hx hy
    · by_cases r2 : (body n' c').signal = .running
      · rw [run k' n' c' r2]
        obtain ⟨u, hx, hy⟩ := repeat_more hu k n c
        exact (hb.symm.further r2 r1 hx hy).symm
      · have hal := h n n' c c' hc r1 r2
        have more : ∀ (j m : Nat) (d : Config (V → W)), ((body m d).signal = .next ∨ (body m d).signal = .continues) →
            repeatOn body (j + 1) m d = ⟨(body m d).trace ++ (repeatOn body j (body m d).rest (body m d).config).trace,
              (repeatOn body j (body m d).rest (body m d).config).signal, (repeatOn body j (body m d).rest (body m d).config).rest,
              (repeatOn body j (body m d).rest (body m d).config).config⟩ := by
          intro j m d hd
          rw [repeatOn]
          rcases hd with hd | hd <;> simp only [hd]
        have brk : ∀ (j m : Nat) (d : Config (V → W)), (body m d).signal = .breaks →
            repeatOn body (j + 1) m d = ⟨(body m d).trace, .next, (body m d).rest, (body m d).config⟩ := by
          intro j m d hd
          rw [repeatOn]
          simp only [hd]
        have hboth : ((body n c).signal = .breaks ∧ (body n' c').signal = .breaks) ∨
            (((body n c).signal = .next ∨ (body n c).signal = .continues) ∧
              ((body n' c').signal = .next ∨ (body n' c').signal = .continues)) := by
          rcases hal.signal with he | ⟨-, he, he'⟩
          · rw [← he]
            cases hs : (body n c).signal with
            | next => simp
            | continues => simp
            | breaks => simp
            | running => exact absurd hs r1
          · exact .inr ⟨he, he'⟩
        rcases hboth with ⟨h1, h2⟩ | ⟨h1, h2⟩
        · rw [brk k n c h1, brk k' n' c' h2]
          exact .of_eq hal.trace hal.config.agree
        · rw [more k n c h1, more k' n' c' h2]
          exact (repeat_ahead hts h ha hu k k' _ _ _ _ (hal.config.mono hts)).after hal.trace rfl rfl rfl rfl rfl rfl

mutual
theorem exec_ahead (hA : A.Right M) {asks : GroupCode X → Bool} (hL : M.AsksLast asks) {apart : List UInt32} :
    ∀ (chain : ControlFlowChain) (before : Bool),
      Checked A asks same blocks apart (chainIds chain) (visitedApart (A.varies same blocks) chain)
        (visitedTogether (A.varies same blocks) before chain) →
      mayLeave (A.varies same blocks) chain = false →
      ∀ (n n' : Nat) (c c' : Config (V → W)), Together same before c c' →
        Ahead same apart (execOn M blocks chain n c) (execOn M blocks chain n' c')
  | .Atom id, before, h, _, n, n', c, c', hc => by
    rw [execOn, execOn]
    cases n with
    | zero => exact .start rfl rfl hc.agree (visit_unseen hA h.quiet id n' c')
    | succ n =>
      cases n' with
      | zero => exact (Ahead.start rfl rfl (agree_symm hc.agree) (visit_unseen hA h.quiet id (n + 1) c)).symm
      | succ n' =>
        exact .of_eq rfl (arrive_steady hA hL (h.steady (id, before) (by simp [visitedTogether])) hc
          (h.known id.val (by simp [chainIds]))).agree
  | .Block chains, before, h, hl, n, n', c, c', hc => by
    simp only [execOn, chainIds, visitedApart, visitedTogether, mayLeave] at *
    exact exec_all_ahead hA hL chains before h hl n n' c c' hc
  | .Selection id left right _ _, before, h, hl, n, n', c, c', hc => by
    simp only [execOn, chainIds, visitedApart, visitedTogether, mayLeave] at *
    refine visit_then_ahead hA hL (h.steady (id, before) (by simp)) (h.known id.val (by simp)) hc h.quiet
      (fun n c => ?_) (fun n c => ?_) ?_
    · split
      · exact exec_unseen hA h.quiet left n c
      · exact exec_unseen hA h.quiet right n c
    · split
      · exact exec_unseen hA h.quiet left n c
      · exact exec_unseen hA h.quiet right n c
    intro n n' c c' hc
    cases hv : A.varies same blocks id with
    | true =>
      simp only [hv, if_true] at h
      have hq : ∀ x ∈ chainIds left ++ chainIds right, A.quiet same blocks ⟨x⟩ = true := fun x hx => h.quiet x (h.inside x hx)
      have side : ∀ n c, visitsBut apart
          (if M.decides blocks id c then execOn M blocks left n c else execOn M blocks right n c).trace = [] ∧ AgreeOn same
          (if M.decides blocks id c then execOn M blocks left n c else execOn M blocks right n c).config c := by
        intro n c
        split
        · have := exec_aside hA left (fun x hx => hq x (List.mem_append_left _ hx)) n c
          exact ⟨visitsBut_none this.trace fun x hx => h.inside x (List.mem_append_left _ hx), this.agree⟩
        · have := exec_aside hA right (fun x hx => hq x (List.mem_append_right _ hx)) n c
          exact ⟨visitsBut_none this.trace fun x hx => h.inside x (List.mem_append_right _ hx), this.agree⟩
      exact .of_eq ((side n c).1.trans (side n' c').1.symm)
        (agree_trans (side n c).2 (agree_trans hc.agree (agree_symm (side n' c').2)))
    | false =>
      simp only [hv, Bool.false_eq_true, if_false, Bool.false_and, Bool.false_or, Bool.or_eq_false_iff] at h hl
      rw [decides_together hA hv hc.agree]
      split
      · exact exec_ahead hA hL left false (h.mono (fun x hx => by simp [hx]) (fun x hx => by simp [hx])
          (fun x hx => by simp [hx])) hl.1 n n' c c' hc
      · exact exec_ahead hA hL right false (h.mono (fun x hx => by simp [hx]) (fun x hx => by simp [hx])
          (fun x hx => by simp [hx])) hl.2 n n' c c' hc
  | .Loop id inner _ _, before, h, hl, n, n', c, c', hc => by
    simp only [execOn, chainIds, visitedApart, visitedTogether] at *
    cases hv : mayLeave (A.varies same blocks) inner with
    | true =>
      simp only [hv, if_true] at h
      have side : ∀ k n c, Aside same (id.val :: chainIds inner) false false c
          (repeatOn (fun n c => (M.visit blocks id n c).andThen (fun n c => execOn M blocks inner n c)) k n c) :=
        repeat_aside fun n c => (visit_aside hA (h.quiet _ (h.inside id.val (by simp))) n c).andThen
          fun n c => exec_aside hA inner (fun x hx => h.quiet _ (h.inside x (by simp [hx]))) n c
      exact .of_eq ((visitsBut_none (side _ n c).trace h.inside).trans (visitsBut_none (side _ n' c').trace h.inside).symm)
        (agree_trans (side _ n c).agree (agree_trans hc.agree (agree_symm (side _ n' c').agree)))
    | false =>
      simp only [hv, Bool.false_eq_true, if_false] at h
      have hin : Checked A asks same blocks apart (chainIds inner) (visitedApart (A.varies same blocks) inner)
          (visitedTogether (A.varies same blocks) false inner) :=
        h.mono (fun x hx => by simp [hx]) (fun x hx => hx) (fun x hx => by simp [hx])
      refine repeat_ahead (s := before || mayStray (A.varies same blocks) false inner)
        (t := mayStray (A.varies same blocks) false inner)
        (part := mayPart (A.varies same blocks) inner) (fun hb => by simp [hb]) ?_ ?_
        (fun n c => (visit_unseen hA h.quiet id n c).andThen fun n c => exec_unseen hA h.quiet inner n c) _ _ _ _ _ _
        (hc.mono fun hb => by simp [hb])
      · intro n n' c c' hc hn hn'
        exact visit_then hA hL (h.steady _ (List.mem_cons_self ..)) (h.known id.val (by simp)) hc
          (fun n n' c c' hc hn hn' => exec_together hA hL inner false hin hv n n' c c' hc hn hn') hn hn'
      · intro n n' c c' hc
        exact visit_then_ahead hA hL (h.steady _ (List.mem_cons_self ..)) (h.known id.val (by simp)) hc h.quiet
          (fun n c => exec_unseen hA h.quiet inner n c) (fun n c => exec_unseen hA h.quiet inner n c)
          (fun n n' c c' hc => exec_ahead hA hL inner false hin hv n n' c c' hc)
  | .Break, before, _, _, n, n', c, c', hc => by
    rw [execOn, execOn]
    exact .of_eq rfl hc.agree
  | .Continue, before, _, _, n, n', c, c', hc => by
    rw [execOn, execOn]
    exact .of_eq rfl hc.agree
theorem exec_all_ahead (hA : A.Right M) {asks : GroupCode X → Bool} (hL : M.AsksLast asks) {apart : List UInt32} :
    ∀ (chains : List ControlFlowChain) (before : Bool),
      Checked A asks same blocks apart (chainIdsAll chains) (visitedApartAll (A.varies same blocks) chains)
        (visitedTogetherAll (A.varies same blocks) before chains) →
      mayLeaveAny (A.varies same blocks) chains = false →
      ∀ (n n' : Nat) (c c' : Config (V → W)), Together same before c c' →
        Ahead same apart (execAllOn M blocks chains n c) (execAllOn M blocks chains n' c')
  | [], before, _, _, n, n', c, c', hc => by
    rw [execAllOn, execAllOn]
    exact .of_eq rfl hc.agree
  | chain :: chains, before, h, hl, n, n', c, c', hc => by
    simp only [execAllOn, chainIdsAll, visitedApartAll, visitedTogetherAll, mayLeaveAny, Bool.or_eq_false_iff] at *
    have hin := h.mono (i' := chainIds chain) (a' := visitedApart (A.varies same blocks) chain)
      (s' := visitedTogether (A.varies same blocks) before chain) (fun x hx => by simp [hx]) (fun x hx => by simp [hx])
      (fun x hx => by simp [hx])
    have hb := exec_ahead hA hL chain before hin hl.1.1 n n' c c' hc
    have hrest := exec_all_ahead hA hL chains (mayStray (A.varies same blocks) before chain)
      (h.mono (fun x hx => by simp [hx]) (fun x hx => by simp [hx]) (fun x hx => by simp [hx])) hl.2
    have run : ∀ (e : Effect.On (V → W)) (s : Nat → Config (V → W) → Effect.On (V → W)), e.signal = .running → e.andThen s = e :=
      fun e s he => andThen_other (by rw [he]; simp)
    by_cases r1 : (execOn M blocks chain n c).signal = .running
    · rw [run _ _ r1]
      by_cases r2 : (execOn M blocks chain n' c').signal = .running
      · rw [run _ _ r2]
        exact hb
      · obtain ⟨u, hx, hy⟩ := andThen_more (same := same) (apart := apart) (execOn M blocks chain n' c')
          fun n c => exec_all_unseen hA h.quiet chains n c
        exact hb.further r1 r2 hx hy
    · by_cases r2 : (execOn M blocks chain n' c').signal = .running
      · rw [run _ _ r2]
        obtain ⟨u, hx, hy⟩ := andThen_more (same := same) (apart := apart) (execOn M blocks chain n c)
          fun n c => exec_all_unseen hA h.quiet chains n c
        exact (hb.symm.further r2 r1 hx hy).symm
      · have hal := exec_together hA hL chain before hin hl.1.1 n n' c c' hc r1 r2
        rcases hal.signal with he | ⟨hp, h2, h3⟩
        · by_cases hs : (execOn M blocks chain n c).signal = .next
          · rw [andThen_next hs, andThen_next (he ▸ hs)]
            exact (hrest _ _ _ _ hal.config).after hal.trace rfl rfl rfl rfl rfl rfl
          · rw [andThen_other hs, andThen_other (he ▸ hs)]
            exact hb
        · have hnil : chains = [] := by
            have := hl.1.2
            simpa [hp] using this
          subst hnil
          have hsimple : ∀ (e : Effect.On (V → W)), (e.andThen (fun n c => execAllOn M blocks [] n c)) = e := by
            intro e
            unfold Effect.On.andThen
            split
            · next hs => simp [execAllOn, ← hs]
            · rfl
          rw [hsimple, hsimple]
          exact hb
end
end

end Magma.Lockstep
