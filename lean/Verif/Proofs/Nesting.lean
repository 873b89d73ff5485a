import Verif.Proofs.Largest
import Verif.Spec.Nesting
import Verif.Spec.Indentation
/-! How deep the constructs of a program can be nested. On the way to the innermost construct every block that
starts a construct comes once. A conditional exit comes at most twice: once where it goes on with a loop and once
where it leaves a loop, because no two of the loops around end or start at the same block. -/

namespace Magma.Nesting
open Spec Largest
variable {X : Type} {blocks : List (BasicBlock X)}

/-- The number of constructs one inside the other -/
def deep : Program → Nat
  | .done => 0
  | .ret _ => 0
  | .atom _ rest => deep rest
  | .exit _ _ _ rest => deep rest + 1
  | .sel _ left right _ _ rest => max (max (deep left) (deep right) + 1) (deep rest)
  | .loop _ body _ rest => max (deep body + 1) (deep rest)

mutual
theorem deep_toChain : ∀ (s : Program), constructsDeep s.toChain = deep s
  | .done => rfl
  | .ret _ => rfl
  | .atom _ rest => by
    show max 0 (constructsDeepAll rest.toChains) = deep rest
    rw [deep_toChains rest, Nat.zero_max]
  | .exit _ brk _ rest => by
    show max (constructsDeep rest.toChain) (constructsDeep (if brk then .Break else .Continue)) + 1 = deep rest + 1
    rw [deep_toChain rest]
    cases brk <;> exact congrArg (· + 1) (Nat.max_zero _)
  | .sel _ left right _ _ rest => by
    show max (max (constructsDeep left.toChain) (constructsDeep right.toChain) + 1) (constructsDeepAll rest.toChains) = _
    rw [deep_toChain left, deep_toChain right, deep_toChains rest]
    rfl
  | .loop _ body _ rest => by
    show max (constructsDeep body.toChain + 1) (constructsDeepAll rest.toChains) = _
    rw [deep_toChain body, deep_toChains rest]
    rfl
theorem deep_toChains : ∀ (s : Program), constructsDeepAll s.toChains = deep s
  | .done => rfl
  | .ret _ => rfl
  | .atom _ rest => by
    show max 0 (constructsDeepAll rest.toChains) = deep rest
    rw [deep_toChains rest, Nat.zero_max]
  | .exit _ brk _ rest => by
    show max (max (constructsDeep rest.toChain) (constructsDeep (if brk then .Break else .Continue)) + 1) 0 =
      deep rest + 1
    rw [deep_toChain rest]
    cases brk <;> exact (Nat.max_zero _).trans (congrArg (· + 1) (Nat.max_zero _))
  | .sel _ left right _ _ rest => by
    show max (max (constructsDeep left.toChain) (constructsDeep right.toChain) + 1) (constructsDeepAll rest.toChains) = _
    rw [deep_toChain left, deep_toChain right, deep_toChains rest]
    rfl
  | .loop _ body _ rest => by
    show max (constructsDeep body.toChain + 1) (constructsDeepAll rest.toChains) = _
    rw [deep_toChain body, deep_toChains rest]
    rfl
end

/-! ### Counting blocks -/

/-- The block is a conditional branch without a construct. -/
def exits (b : BasicBlock X) : Bool :=
  match endOf b with
  | .choose _ _ _ => true
  | _ => false

/-- The label is that of a block with the property. -/
def Is (blocks : List (BasicBlock X)) (q : BasicBlock X → Bool) (id : BlockId) : Prop :=
  ∃ b, blockOf blocks id = some b ∧ q b = true

theorem length_le (q : BasicBlock X → Bool) : ∀ (ids : List BlockId), ids.Nodup → (∀ x ∈ ids, Is blocks q x) →
    ids.length ≤ count blocks q ids
  | [], _, _ => Nat.zero_le _
  | y :: ids, hn, hq => by
    obtain ⟨b, hb, hqb⟩ := hq y List.mem_cons_self
    rw [List.nodup_cons] at hn
    have ih := length_le q ids hn.2 (fun x hx => hq x (List.mem_cons_of_mem _ hx))
    have := count_more (blocks := blocks) q hb hqb (a := ids) (ids := y :: ids)
      (fun x hx => List.mem_cons_of_mem _ hx) List.mem_cons_self hn.1
    rw [List.length_cons]
    omega

theorem length_le_countP (q : BasicBlock X → Bool) {ids : List BlockId} (hn : ids.Nodup)
    (hq : ∀ x ∈ ids, Is blocks q x) : ids.length ≤ blocks.countP q :=
  Nat.le_trans (length_le q ids hn hq) (count_le q ids)

/-! ### Two constructs or more -/

theorem Rooted.after {x y : BlockId} (h : Rooted blocks x) (hn : next blocks x = some y) : Rooted blocks y := by
  obtain ⟨n, r, hu, hr⟩ := h
  cases hu with
  | refl => rw [hr] at hn; cases hn
  | step h hu => rw [hn] at h; cases h; exact ⟨_, r, hu, hr⟩

/-- A conditional exit on the way that leaves its loop: the loop around the program, or one in it -/
def Leaving (blocks : List (BasicBlock X)) (lp : Option (BlockId × BlockId)) (k : Option BlockId) (s : Program)
    (e : BlockId) : Prop :=
  e ∈ s.ids ∧ ∃ b t f w, blockOf blocks e = some b ∧ endOf b = .choose t f w ∧
    ((∃ h, lp = some (h, ⟨f⟩) ∧ ∀ x, s.entry k = some x → ∀ j, ¬ Up blocks (j + 1) e x) ∨
      ∃ h ∈ s.ids, next blocks h = some ⟨f⟩)

/-- A conditional exit on the way that starts its loop again -/
def Again (blocks : List (BasicBlock X)) (lp : Option (BlockId × BlockId)) (k : Option BlockId) (s : Program)
    (e : BlockId) : Prop :=
  e ∈ s.ids ∧ ∃ b t f w, blockOf blocks e = some b ∧ endOf b = .choose t f w ∧
    ((∃ m, lp = some (⟨f⟩, m) ∧ ∀ x, s.entry k = some x → ∀ j, ¬ Up blocks (j + 1) e x) ∨ ⟨f⟩ ∈ s.ids)

/-- The blocks on the way to the innermost construct: those that start constructs, the exits that leave a loop and
the exits that start it again -/
structure Lists (blocks : List (BasicBlock X)) (lp : Option (BlockId × BlockId)) (k : Option BlockId) (s : Program)
    (hs bs cs : List BlockId) : Prop where
  once : hs.Nodup
  onceLeaving : bs.Nodup
  onceAgain : cs.Nodup
  headers : ∀ x ∈ hs, Is blocks starts x ∧ x ∈ s.ids
  leaving : ∀ x ∈ bs, Leaving blocks lp k s x
  again : ∀ x ∈ cs, Again blocks lp k s x

/-- There is such a way of this length. -/
def Way (blocks : List (BasicBlock X)) (lp : Option (BlockId × BlockId)) (k : Option BlockId) (s : Program)
    (d : Nat) : Prop :=
  ∃ hs bs cs : List BlockId, d = hs.length + bs.length + cs.length ∧ Lists blocks lp k s hs bs cs

/-- Going on at the same level: `s` starts with `id` and goes on with `rest`. -/
theorem Lists.on {lp : Option (BlockId × BlockId)} {k : Option BlockId} {s rest : Program} {hs' bs cs : List BlockId}
    {id t : BlockId} (hw : Lists blocks lp k rest hs' bs cs) (hs : s.entry k = some id) (hn : next blocks id = some t)
    (hr : rest.entry k = some t) (hi : ∀ x ∈ rest.ids, x ∈ s.ids) : Lists blocks lp k s hs' bs cs := by
  obtain ⟨h2, h3, h4, h5, h6, h7⟩ := hw
  have up {e x : BlockId} (h : ∀ x, rest.entry k = some x → ∀ j, ¬ Up blocks (j + 1) e x) (hx : s.entry k = some x)
      (j : Nat) : ¬ Up blocks (j + 1) e x := by
    intro hu
    rw [hs] at hx
    cases hx
    exact h t hr (j + 1) (hu.trans (.step hn (.refl _)))
  refine ⟨h2, h3, h4, fun x hx => ⟨(h5 x hx).1, hi _ (h5 x hx).2⟩, fun x hx => ?_, fun x hx => ?_⟩
  · obtain ⟨a0, b, t', f, w, a1, a2, a3⟩ := h6 x hx
    refine ⟨hi _ a0, b, t', f, w, a1, a2, a3.imp ?_ ?_⟩
    · rintro ⟨h, c1, c2⟩
      exact ⟨h, c1, fun x hx j => up c2 hx j⟩
    · rintro ⟨h, c1, c2⟩
      exact ⟨h, hi _ c1, c2⟩
  · obtain ⟨a0, b, t', f, w, a1, a2, a3⟩ := h7 x hx
    refine ⟨hi _ a0, b, t', f, w, a1, a2, a3.imp ?_ (hi _)⟩
    rintro ⟨m, c1, c2⟩
    exact ⟨m, c1, fun x hx j => up c2 hx j⟩

theorem Way.on {lp : Option (BlockId × BlockId)} {k : Option BlockId} {s rest : Program} {d : Nat}
    {id t : BlockId} (hw : Way blocks lp k rest d) (hs : s.entry k = some id) (hn : next blocks id = some t)
    (hr : rest.entry k = some t) (hi : ∀ x ∈ rest.ids, x ∈ s.ids) : Way blocks lp k s d := by
  obtain ⟨hs', bs, cs, h1, hw⟩ := hw
  exact ⟨hs', bs, cs, h1, hw.on hs hn hr hi⟩

/-- Going into a side of a selection -/
theorem Way.side {lp : Option (BlockId × BlockId)} {k : Option BlockId} {s side : Program} {d : Nat} {id m : BlockId}
    (hw : Way blocks lp (some m) side d) (hs : s.entry k = some id) (hn : next blocks id = some m)
    (hm : Rooted blocks m) (hsh : Shape blocks (some m) side) (hq : Is blocks starts id) (hid : id ∈ s.ids)
    (hi : ∀ x ∈ side.ids, x ∈ s.ids) (hno : id ∉ side.ids) : Way blocks lp k s (d + 1) := by
  obtain ⟨hs', bs, cs, h1, h2, h3, h4, h5, h6, h7⟩ := hw
  have up {e x : BlockId} (he : e ∈ side.ids) (hx : s.entry k = some x) (j : Nat) : ¬ Up blocks (j + 1) e x := by
    intro hu
    rw [hs] at hx
    cases hx
    rcases closed_up hsh hu he with h | ⟨i, h⟩
    · exact hno h
    · exact hm.no_cycle i (h.trans (.step hn (.refl _)))
  refine ⟨id :: hs', bs, cs, by rw [h1, List.length_cons]; omega,
    List.nodup_cons.mpr ⟨fun h => hno (h5 _ h).2, h2⟩, h3, h4, fun x hx => ?_, fun x hx => ?_, fun x hx => ?_⟩
  · rcases List.mem_cons.mp hx with rfl | hx
    · exact ⟨hq, hid⟩
    · exact ⟨(h5 x hx).1, hi _ (h5 x hx).2⟩
  · obtain ⟨a0, b, t', f, w, a1, a2, a3⟩ := h6 x hx
    refine ⟨hi _ a0, b, t', f, w, a1, a2, a3.imp ?_ ?_⟩
    · rintro ⟨h, c1, -⟩
      exact ⟨h, c1, fun x hx j => up a0 hx j⟩
    · rintro ⟨h, c1, c2⟩
      exact ⟨h, hi _ c1, c2⟩
  · obtain ⟨a0, b, t', f, w, a1, a2, a3⟩ := h7 x hx
    refine ⟨hi _ a0, b, t', f, w, a1, a2, a3.imp ?_ (hi _)⟩
    rintro ⟨m, c1, -⟩
    exact ⟨m, c1, fun x hx j => up a0 hx j⟩

/-- Going into the body of a loop -/
theorem Way.body {lp : Option (BlockId × BlockId)} {k : Option BlockId} {s body : Program} {d : Nat} {id m : BlockId}
    (hw : Way blocks (some (id, m)) (some id) body d) (hn : next blocks id = some m) (hq : Is blocks starts id)
    (hid : id ∈ s.ids) (hi : ∀ x ∈ body.ids, x ∈ s.ids) (hno : id ∉ body.ids) : Way blocks lp k s (d + 1) := by
  obtain ⟨hs', bs, cs, h1, h2, h3, h4, h5, h6, h7⟩ := hw
  refine ⟨id :: hs', bs, cs, by rw [h1, List.length_cons]; omega,
    List.nodup_cons.mpr ⟨fun h => hno (h5 _ h).2, h2⟩, h3, h4, fun x hx => ?_, fun x hx => ?_, fun x hx => ?_⟩
  · rcases List.mem_cons.mp hx with rfl | hx
    · exact ⟨hq, hid⟩
    · exact ⟨(h5 x hx).1, hi _ (h5 x hx).2⟩
  · obtain ⟨a0, b, t', f, w, a1, a2, a3⟩ := h6 x hx
    refine ⟨hi _ a0, b, t', f, w, a1, a2, .inr ?_⟩
    rcases a3 with ⟨h, c1, -⟩ | ⟨h, c1, c2⟩
    · cases c1
      exact ⟨id, hid, hn⟩
    · exact ⟨h, hi _ c1, c2⟩
  · obtain ⟨a0, b, t', f, w, a1, a2, a3⟩ := h7 x hx
    refine ⟨hi _ a0, b, t', f, w, a1, a2, .inr ?_⟩
    rcases a3 with ⟨m, c1, -⟩ | c1
    · cases c1
      exact hid
    · exact hi _ c1

theorem le_max {P : Nat → Prop} {a b : Nat} (ha : P a) (hb : P b) : P (max a b) := by
  rcases Nat.le_total a b with h | h
  · rwa [Nat.max_eq_right h]
  · rwa [Nat.max_eq_left h]

/-- The way to the innermost construct -/
theorem way : ∀ (s : Program) {lp : Option (BlockId × BlockId)} {k : Option BlockId}, s.SpelledBy blocks lp k →
    (∀ v, k = some v → Rooted blocks v) → (∀ h m, lp = some (h, m) → next blocks h = some m) →
    Way blocks lp k s (deep s)
  | .done, _, _, _, _, _ => ⟨[], [], [], rfl, .nil, .nil, .nil, nofun, nofun, nofun⟩
  | .ret _, _, _, _, _, _ => ⟨[], [], [], rfl, .nil, .nil, .nil, nofun, nofun, nofun⟩
  | .atom id rest, lp, k, ⟨⟨b, op, h1, h2, h3, h4⟩, h5⟩, hk, hl =>
    (way rest h5 hk hl).on rfl (by rw [next_eq h1, endOf, h3, h2]; rfl) h4 fun x hx => List.mem_cons_of_mem _ hx
  | .sel id left right hi we rest, lp, k, hsp@⟨b, op, sm, h1, h2, h3, _, _, h4, h5, h6, h7, h8, h9⟩, hk, hl => by
    have he : endOf b = .chooseSelection op.true_label.val op.false_label.val op.weights sm.merge_block.val
      sm.selection_control := by rw [endOf, h3, h2]
    have hn : next blocks id = some ⟨sm.merge_block.val⟩ := by rw [next_eq h1, he]; rfl
    have hr : Rooted blocks id := rooted _ (shape_of_spelled _ hsp) hk id List.mem_cons_self
    have hm : Rooted blocks ⟨sm.merge_block.val⟩ := Rooted.after hr hn
    have hm' : ∀ v, some (⟨sm.merge_block.val⟩ : BlockId) = some v → Rooted blocks v := fun v hv => by
      cases hv; exact hm
    have hq : Is blocks starts id := ⟨b, h1, by rw [starts, he]⟩
    have sl := shape_of_spelled left h7
    have sr := shape_of_spelled right h8
    refine le_max ?_ ?_
    · refine le_max (P := fun n => Way blocks lp k _ (n + 1)) ?_ ?_
      · exact (way left h7 hm' hl).side rfl hn hm sl hq List.mem_cons_self
          (fun x hx => List.mem_cons_of_mem _ (List.mem_append_left _ (List.mem_append_left _ hx)))
          (not_inside h1 he hm sl (.inl h5))
      · exact (way right h8 hm' hl).side rfl hn hm sr hq List.mem_cons_self
          (fun x hx => List.mem_cons_of_mem _ (List.mem_append_left _ (List.mem_append_right _ hx)))
          (not_inside h1 he hm sr (.inr h6))
    · exact (way rest h9 hk hl).on rfl hn h4 fun x hx => List.mem_cons_of_mem _ (List.mem_append_right _ hx)
  | .loop id body hi rest, lp, k, hsp@⟨b, op, lm, h1, h2, h3, _, h4, h5, h6, h7⟩, hk, hl => by
    have he : endOf b = .gotoLoop op.target_label.val lm.merge_block.val lm.loop_control := by rw [endOf, h3, h2]
    have hn : next blocks id = some ⟨lm.merge_block.val⟩ := by rw [next_eq h1, he]; rfl
    have hr : Rooted blocks id := rooted _ (shape_of_spelled _ hsp) hk id List.mem_cons_self
    have hq : Is blocks starts id := ⟨b, h1, by rw [starts, he]⟩
    refine le_max ?_ ?_
    · exact (way body h6 (fun v hv => by cases hv; exact hr) (fun h m e => by cases e; exact hn)).body hn hq
        List.mem_cons_self (fun x hx => List.mem_cons_of_mem _ (List.mem_append_left _ hx))
        (end_not_mem (shape_of_spelled body h6) hr)
    · exact (way rest h7 hk hl).on rfl hn h4 fun x hx => List.mem_cons_of_mem _ (List.mem_append_right _ hx)
  | .exit id brk we rest, lp, k, hsp@⟨head, merge, b, op, hlp, hkk, h1, h2, h3, _, h4, h5, h6⟩, hk, hl => by
    have he : endOf b = .choose op.true_label.val op.false_label.val op.weights := by rw [endOf, h3, h2]
    have hn : next blocks id = some ⟨op.true_label.val⟩ := by rw [next_eq h1, he]; rfl
    have hr : Rooted blocks id := rooted _ (shape_of_spelled _ hsp) hk id List.mem_cons_self
    have hh : Rooted blocks head := hk _ hkk
    have hnh : next blocks head = some merge := hl _ _ hlp
    have hsr := shape_of_spelled rest h6
    have hw := way rest h6 hk hl
    obtain ⟨hs', bs, cs, g1, g⟩ := hw
    have g' : Lists blocks lp k (.exit id brk we rest) hs' bs cs :=
      g.on rfl hn h5 fun x hx => List.mem_cons_of_mem _ hx
    have here : ∀ x, Program.entry k (.exit id brk we rest) = some x → ∀ j, ¬ Up blocks (j + 1) id x := by
      intro x hx j hu
      cases hx
      exact hr.no_cycle j hu
    show Way blocks lp k _ (deep rest + 1)
    subst hlp hkk
    cases brk with
    | true =>
      have h4 : (⟨op.false_label.val⟩ : BlockId) = merge := h4
      have hno : id ∉ bs := by
        intro hin
        obtain ⟨-, b', t', f', w', c1, c2, c3⟩ := g.leaving id hin
        cases after_unique h1 c1 he c2
        rcases c3 with ⟨h, -, c4⟩ | ⟨h, c4, c5⟩
        · exact c4 _ h5 0 (.step hn (.refl _))
        · obtain ⟨n, hu⟩ := below rest hsr h c4
          rw [h4] at c5
          cases hu with
          | step c6 hu =>
            rw [c5] at c6
            cases c6
            exact hh.no_cycle n (.step hnh hu)
      refine ⟨hs', id :: bs, cs, by rw [g1, List.length_cons]; omega, g'.once,
        List.nodup_cons.mpr ⟨hno, g'.onceLeaving⟩, g'.onceAgain, g'.headers, fun x hx => ?_, g'.again⟩
      rcases List.mem_cons.mp hx with rfl | hx
      · exact ⟨List.mem_cons_self, b, _, _, _, h1, he, .inl ⟨head, by rw [h4], here⟩⟩
      · exact g'.leaving x hx
    | false =>
      have h4 : (⟨op.false_label.val⟩ : BlockId) = head := h4
      have hno : id ∉ cs := by
        intro hin
        obtain ⟨-, b', t', f', w', c1, c2, c3⟩ := g.again id hin
        cases after_unique h1 c1 he c2
        rcases c3 with ⟨h, -, c4⟩ | c4
        · exact c4 _ h5 0 (.step hn (.refl _))
        · rw [h4] at c4
          exact end_not_mem hsr hh c4
      refine ⟨hs', bs, id :: cs, by rw [g1, List.length_cons]; omega, g'.once, g'.onceLeaving,
        List.nodup_cons.mpr ⟨hno, g'.onceAgain⟩, g'.headers, g'.leaving, fun x hx => ?_⟩
      rcases List.mem_cons.mp hx with rfl | hx
      · exact ⟨List.mem_cons_self, b, _, _, _, h1, he, .inl ⟨merge, by rw [h4], here⟩⟩
      · exact g'.again x hx

/-! ### One construct or none -/

/-- No block of the program starts a construct. -/
def Plain (blocks : List (BasicBlock X)) (s : Program) : Prop := ∀ x ∈ s.ids, ¬ Is blocks starts x

theorem Plain.rest {s rest : Program} {id : BlockId} (h : Plain blocks s) (hi : s.ids = id :: rest.ids) :
    Plain blocks rest := fun x hx => h x (by rw [hi]; exact List.mem_cons_of_mem _ hx)

/-- Without constructs, all blocks are in a row. -/
theorem plain : ∀ (s : Program) {k : Option BlockId}, Shape blocks k s → (∀ v, k = some v → Rooted blocks v) →
    Plain blocks s → (∀ x ∈ s.ids, ∃ e j, s.entry k = some e ∧ Up blocks j e x) ∧
      ∃ es : List BlockId, es.length = deep s ∧ es.Nodup ∧ ∀ x ∈ es, Is blocks exits x ∧ x ∈ s.ids
  | .done, _, _, _, _ => ⟨nofun, [], rfl, .nil, nofun⟩
  | .ret id, _, _, _, _ => ⟨fun x hx => by
      cases List.mem_singleton.mp hx
      exact ⟨_, 0, rfl, .refl _⟩, [], rfl, .nil, nofun⟩
  | .atom id rest, k, ⟨⟨b, t, h1, h2, h3⟩, h4⟩, hk, hp => by
    obtain ⟨ih, es, e1, e2, e3⟩ := plain rest h4 hk (hp.rest rfl)
    refine ⟨fun x hx => ?_, es, e1, e2, fun x hx => ⟨(e3 x hx).1, List.mem_cons_of_mem _ (e3 x hx).2⟩⟩
    rcases List.mem_cons.mp hx with rfl | hx
    · exact ⟨_, 0, rfl, .refl _⟩
    · obtain ⟨e, j, he, hu⟩ := ih x hx
      rw [h3] at he
      cases he
      exact ⟨id, j + 1, rfl, .step (by rw [next_eq h1, h2]; rfl) hu⟩
  | .exit id brk w0 rest, k, hs@⟨⟨b, t, f, w, h1, h2, h3⟩, h4⟩, hk, hp => by
    obtain ⟨ih, es, e1, e2, e3⟩ := plain rest h4 hk (hp.rest rfl)
    have hn : next blocks id = some ⟨t⟩ := by rw [next_eq h1, h2]; rfl
    have hr : Rooted blocks id := rooted _ hs hk id List.mem_cons_self
    have hno : id ∉ rest.ids := by
      intro h
      obtain ⟨e, j, he, hu⟩ := ih id h
      rw [h3] at he
      cases he
      exact hr.no_cycle j (.step hn hu)
    refine ⟨fun x hx => ?_, id :: es, congrArg (· + 1) e1, List.nodup_cons.mpr ⟨fun h => hno (e3 _ h).2, e2⟩,
      fun x hx => ?_⟩
    · rcases List.mem_cons.mp hx with rfl | hx
      · exact ⟨_, 0, rfl, .refl _⟩
      · obtain ⟨e, j, he, hu⟩ := ih x hx
        rw [h3] at he
        cases he
        exact ⟨id, j + 1, rfl, .step hn hu⟩
    · rcases List.mem_cons.mp hx with rfl | hx
      · exact ⟨⟨b, h1, by rw [exits, h2]⟩, List.mem_cons_self⟩
      · exact ⟨(e3 x hx).1, List.mem_cons_of_mem _ (e3 x hx).2⟩
  | .sel id left right hi we rest, _, ⟨b, t, f, w, m, h, h1, h2, _⟩, _, hp =>
    absurd ⟨b, h1, by rw [starts, h2]⟩ (hp id List.mem_cons_self)
  | .loop id body hi rest, _, ⟨b, t, m, h, h1, h2, _⟩, _, hp =>
    absurd ⟨b, h1, by rw [starts, h2]⟩ (hp id List.mem_cons_self)

theorem plain_le {s : Program} {k : Option BlockId} (hs : Shape blocks k s) (hk : ∀ v, k = some v → Rooted blocks v)
    (hp : Plain blocks s) : deep s ≤ blocks.countP exits := by
  obtain ⟨-, es, h1, h2, h3⟩ := plain s hs hk hp
  rw [← h1]
  exact length_le_countP exits h2 fun x hx => (h3 x hx).1

/-- If only one block starts a construct, there is none in that construct. -/
theorem plain_of_one (h1 : headers blocks ≤ 1) {id : BlockId} (hq : Is blocks starts id) {s : Program}
    (hno : id ∉ s.ids) : Plain blocks s := by
  intro x hx hs
  have hne : id ≠ x := fun h => hno (h ▸ hx)
  have := length_le_countP (blocks := blocks) starts (ids := [id, x])
    (List.nodup_cons.mpr ⟨fun h => hne (List.mem_singleton.mp h), List.nodup_cons.mpr ⟨nofun, .nil⟩⟩)
    (fun y hy => by
      rcases List.mem_cons.mp hy with rfl | hy
      · exact hq
      · cases List.mem_singleton.mp hy
        exact hs)
  have e : headers blocks = blocks.countP starts := rfl
  rw [← e] at this
  simp only [List.length_cons, List.length_nil] at this
  omega

/-- With one construct -/
theorem one (h1 : headers blocks ≤ 1) : ∀ (s : Program), s.SpelledBy blocks none none →
    deep s ≤ blocks.countP exits + 1
  | .done, h => absurd rfl h
  | .ret _, _ => Nat.zero_le _
  | .atom _ rest, ⟨_, h⟩ => one h1 rest h
  | .exit _ _ _ _, ⟨_, _, _, _, h, _⟩ => by cases h
  | .sel id left right hi we rest, hsp@⟨b, op, sm, g1, g2, g3, _, _, g4, g5, g6, g7, g8, g9⟩ => by
    have he : endOf b = .chooseSelection op.true_label.val op.false_label.val op.weights sm.merge_block.val
      sm.selection_control := by rw [endOf, g3, g2]
    have hn : next blocks id = some ⟨sm.merge_block.val⟩ := by rw [next_eq g1, he]; rfl
    have hr : Rooted blocks id := rooted _ (shape_of_spelled _ hsp) nofun id List.mem_cons_self
    have hm : Rooted blocks ⟨sm.merge_block.val⟩ := Rooted.after hr hn
    have hm' : ∀ v, some (⟨sm.merge_block.val⟩ : BlockId) = some v → Rooted blocks v := fun v hv => by
      cases hv; exact hm
    have hq : Is blocks starts id := ⟨b, g1, by rw [starts, he]⟩
    have sl := shape_of_spelled left g7
    have sr := shape_of_spelled right g8
    have al := plain_le sl hm' (plain_of_one h1 hq (not_inside g1 he hm sl (.inl g5)))
    have ar := plain_le sr hm' (plain_of_one h1 hq (not_inside g1 he hm sr (.inr g6)))
    have ih := one h1 rest g9
    show max (max (deep left) (deep right) + 1) (deep rest) ≤ _
    omega
  | .loop id body hi rest, hsp@⟨b, op, lm, g1, g2, g3, _, g4, g5, g6, g7⟩ => by
    have he : endOf b = .gotoLoop op.target_label.val lm.merge_block.val lm.loop_control := by rw [endOf, g3, g2]
    have hr : Rooted blocks id := rooted _ (shape_of_spelled _ hsp) nofun id List.mem_cons_self
    have hq : Is blocks starts id := ⟨b, g1, by rw [starts, he]⟩
    have hb := shape_of_spelled body g6
    have ab := plain_le hb (fun v hv => by cases hv; exact hr) (plain_of_one h1 hq (end_not_mem hb hr))
    have ih := one h1 rest g7
    show max (deep body + 1) (deep rest) ≤ _
    omega

/-- With no construct -/
theorem none_deep (h0 : headers blocks = 0) : ∀ (s : Program), s.SpelledBy blocks none none → deep s = 0
  | .done, h => absurd rfl h
  | .ret _, _ => rfl
  | .atom _ rest, ⟨_, h⟩ => none_deep h0 rest h
  | .exit _ _ _ _, ⟨_, _, _, _, h, _⟩ => by cases h
  | .sel id left right hi we rest, ⟨b, op, sm, g1, g2, g3, _⟩ => by
    have : 0 < blocks.countP starts := List.countP_pos_iff.mpr ⟨b, (blockOf_some g1).1, by rw [starts, endOf, g3, g2]⟩
    rw [headers] at h0
    omega
  | .loop id body hi rest, ⟨b, op, lm, g1, g2, g3, _⟩ => by
    have : 0 < blocks.countP starts := List.countP_pos_iff.mpr ⟨b, (blockOf_some g1).1, by rw [starts, endOf, g3, g2]⟩
    rw [headers] at h0
    omega

/-! ### The bound -/

/-- One block neither starts a construct nor exits. -/
theorem spare {s : Program} (hs : Shape blocks none s) : headers blocks + blocks.countP exits + 1 ≤ blocks.length := by
  obtain ⟨_, y, b, -, -, hb, hr, -⟩ := last_ret 0 s hs
  have c := countP_not blocks
  have h1 : blocks.countP exits + 1 ≤ blocks.countP (fun b => !starts b) := by
    have h2 : 1 ≤ blocks.countP (fun b => match endOf b with | .returns => true | _ => false) :=
      List.countP_pos_iff.mpr ⟨b, (blockOf_some hb).1, by rw [hr]⟩
    have h3 := countP_add (α := BasicBlock X) exits (fun b => match endOf b with | .returns => true | _ => false)
      (fun b => !starts b) blocks (fun a _ h => by
        rw [exits] at h; rw [starts]; cases he : endOf a <;> rw [he] at h <;> simp at h ⊢)
      (fun a _ h => by
        rw [starts]; cases he : endOf a <;> rw [he] at h <;> simp at h ⊢)
      (fun a _ h h' => by
        rw [exits] at h; cases he : endOf a <;> rw [he] at h h' <;> simp at h h')
    omega
  omega

/-- How deep constructs are nested -/
theorem bound {s : Program} (hs : s.SpelledBy blocks none none) :
    deep s ≤ nestedMost blocks.length (headers blocks) := by
  have hsh := shape_of_spelled s hs
  have sp := spare hsh
  rw [nestedMost]
  by_cases h0 : headers blocks = 0
  · rw [if_pos h0, none_deep h0 s hs]
    exact Nat.le_refl 0
  · rw [if_neg h0]
    by_cases h1 : headers blocks = 1
    · rw [if_pos h1]
      have := one (Nat.le_of_eq h1) s hs
      omega
    · rw [if_neg h1]
      obtain ⟨hs', bs, cs, h2, h3⟩ := way s hs nofun nofun
      have exs {x : BlockId} {b : BasicBlock X} {t f : UInt32} {w : Option BranchWeights}
          (h : blockOf blocks x = some b) (he : endOf b = .choose t f w) : Is blocks exits x :=
        ⟨b, h, by rw [exits, he]⟩
      have a1 := length_le_countP (blocks := blocks) starts h3.once fun x hx => (h3.headers x hx).1
      have a2 := length_le_countP (blocks := blocks) exits h3.onceLeaving fun x hx => by
        obtain ⟨-, b, t, f, w, c1, c2, -⟩ := h3.leaving x hx
        exact exs c1 c2
      have a3 := length_le_countP (blocks := blocks) exits h3.onceAgain fun x hx => by
        obtain ⟨-, b, t, f, w, c1, c2, -⟩ := h3.again x hx
        exact exs c1 c2
      have e : headers blocks = blocks.countP starts := rfl
      rw [← e] at a1
      omega

end Magma.Nesting
