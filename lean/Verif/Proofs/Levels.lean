import Verif.Proofs.Nesting
import Verif.Proofs.Twofold
import Verif.Spec.PrintDepth
import Verif.Proofs.PrintCost
/-! How many levels the chain of a program has. Every block on the way to the innermost level stands for two levels
at most: the blocks that start a construct are there once, with the list they are in; a conditional exit is there
twice, and so is the block before it, with which the list starts that the exit is in. -/

namespace Magma.Levels
open Spec Largest Nesting
variable {X : Type} {blocks : List (BasicBlock X)}

/-- The levels of a list that does not start with this program, if the program alone has `n` levels -/
def within (n : Nat) : Program → Nat
  | .done => 2
  | .ret _ => 2
  | .exit _ _ _ _ => n + 1
  | _ => n

/-- The levels of the chain of a program -/
def levels : Program → Nat
  | .done => 1
  | .ret _ => 1
  | .atom _ rest => within (levels rest) rest
  | .exit _ _ _ rest => levels rest + 1
  | .sel _ left right _ _ rest => max (max (levels left) (levels right) + 2) (within (levels rest) rest)
  | .loop _ body _ rest => max (levels body + 2) (within (levels rest) rest)

theorem within_pos {n : Nat} (h : 0 < n) : ∀ (s : Program), 0 < within n s
  | .done => Nat.two_pos
  | .ret _ => Nat.two_pos
  | .exit _ _ _ _ => Nat.succ_pos _
  | .atom _ _ => h
  | .sel _ _ _ _ _ _ => h
  | .loop _ _ _ _ => h

theorem levels_pos : ∀ (s : Program), 0 < levels s
  | .done => Nat.one_pos
  | .ret _ => Nat.one_pos
  | .exit _ _ _ _ => Nat.succ_pos _
  | .sel _ _ _ _ _ _ => by rw [levels]; omega
  | .loop _ _ _ _ => by rw [levels]; omega
  | .atom _ rest => within_pos (levels_pos rest) rest

theorem nesting_pos : ∀ (c : ControlFlowChain), 0 < chainNesting c
  | .Block _ => Nat.succ_pos _
  | .Selection _ _ _ _ _ => by rw [chainNesting_selection]; exact Nat.succ_pos _
  | .Loop _ _ _ _ => Nat.succ_pos _
  | .Atom _ => Nat.one_pos
  | .Break => Nat.one_pos
  | .Continue => Nat.one_pos

theorem nesting_selection (id : BlockId) (left right : ControlFlowChain) (hint : SelectionControl)
    (weights : Option BranchWeights) : chainNesting (.Selection id left right hint weights) =
      max (chainNesting left) (chainNesting right) + 1 := by
  rw [chainNesting_selection]
  have h1 := nesting_pos left
  rw [elseNesting]
  by_cases h : right.isEmptyBlock
  · rw [if_pos h]
    match right, h with
    | .Block [], _ =>
      show max _ 0 + 1 = max _ 1 + 1
      omega
  · rw [if_neg h]

theorem nesting_items : ∀ (s : Program), chainNesting s.toChain = levels s ∧
    within (levels s) s = max 2 (chainNestingAll s.toChains + 1)
  | .done => ⟨rfl, rfl⟩
  | .ret _ => ⟨rfl, rfl⟩
  | .atom _ rest => by
    obtain ⟨-, h2⟩ := nesting_items rest
    constructor
    · show max 1 (chainNestingAll rest.toChains) + 1 = within (levels rest) rest
      omega
    · show within (levels rest) rest = max 2 (max 1 (chainNestingAll rest.toChains) + 1)
      omega
  | .exit id brk weights rest => by
    obtain ⟨h1, -⟩ := nesting_items rest
    have hp := levels_pos rest
    have h : chainNesting (Program.exit id brk weights rest).toChain = levels rest + 1 := by
      show chainNesting (.Selection _ rest.toChain (if brk then .Break else .Continue) _ _) = levels rest + 1
      rw [nesting_selection, h1]
      cases brk <;> (show max _ 1 + 1 = _; omega)
    refine ⟨h, ?_⟩
    show levels rest + 1 + 1 = max 2 (max (chainNesting (Program.exit id brk weights rest).toChain) 0 + 1)
    rw [h]
    omega
  | .sel id left right hint weights rest => by
    obtain ⟨hl, -⟩ := nesting_items left
    obtain ⟨hr, -⟩ := nesting_items right
    obtain ⟨-, h2⟩ := nesting_items rest
    have h := nesting_selection id left.toChain right.toChain hint weights
    rw [hl, hr] at h
    constructor
    · show max (chainNesting (.Selection id left.toChain right.toChain hint weights)) (chainNestingAll rest.toChains) + 1 =
        max (max (levels left) (levels right) + 2) (within (levels rest) rest)
      omega
    · show max (max (levels left) (levels right) + 2) (within (levels rest) rest) =
        max 2 (max (chainNesting (.Selection id left.toChain right.toChain hint weights)) (chainNestingAll rest.toChains) + 1)
      omega
  | .loop id body hint rest => by
    obtain ⟨hb, -⟩ := nesting_items body
    obtain ⟨-, h2⟩ := nesting_items rest
    have hp := levels_pos body
    constructor
    · show max (chainNesting body.toChain + 1) (chainNestingAll rest.toChains) + 1 =
        max (levels body + 2) (within (levels rest) rest)
      omega
    · show max (levels body + 2) (within (levels rest) rest) =
        max 2 (max (chainNesting body.toChain + 1) (chainNestingAll rest.toChains) + 1)
      omega

theorem nesting_toChain (s : Program) : chainNesting s.toChain = levels s := (nesting_items s).1

/-! ### Two layers of blocks -/

/-- Two lists of different blocks. `qs` are blocks that do not exit, `bs` and `cs` are exits. In the first list there
are blocks of `qs`, those of `bs`, the blocks before them, and a block of `cs` if a block of `qs` is before it; the
other way round in the second list. -/
structure Layers (blocks : List (BasicBlock X)) (us vs qs bs cs : List BlockId) : Prop where
  onceU : us.Nodup
  onceV : vs.Nodup
  inU : ∀ x ∈ us, x ∈ qs ∨ x ∈ bs ∨ (¬ Is blocks exits x ∧ ∃ e ∈ bs, next blocks x = some e) ∨
    (x ∈ cs ∧ ∃ q ∈ qs, next blocks q = some x)
  inV : ∀ x ∈ vs, x ∈ qs ∨ x ∈ cs ∨ (¬ Is blocks exits x ∧ ∃ e ∈ cs, next blocks x = some e) ∨
    (x ∈ bs ∧ ∃ q ∈ qs, next blocks q = some x)
  exitsB : ∀ x ∈ bs, Is blocks exits x
  exitsC : ∀ x ∈ cs, Is blocks exits x
  inside : ∀ x ∈ qs, ¬ Is blocks exits x

theorem Layers.swap {us vs qs bs cs : List BlockId} (h : Layers blocks us vs qs bs cs) : Layers blocks vs us qs cs bs :=
  ⟨h.onceV, h.onceU, h.inV, h.inU, h.exitsC, h.exitsB, h.inside⟩

/-- A block that starts a construct -/
theorem Layers.start {us vs qs bs cs : List BlockId} (h : Layers blocks us vs qs bs cs) {x : BlockId}
    (hx : ¬ Is blocks exits x) (hq : x ∉ qs) (hb : ∀ e ∈ bs, next blocks x ≠ some e)
    (hc : ∀ e ∈ cs, next blocks x ≠ some e) : Layers blocks (x :: us) (x :: vs) (x :: qs) bs cs := by
  have nu : x ∉ us := by
    intro hu
    rcases h.inU x hu with a | a | ⟨-, e, a, b⟩ | ⟨a, -⟩
    · exact hq a
    · exact hx (h.exitsB x a)
    · exact hb e a b
    · exact hx (h.exitsC x a)
  have nv : x ∉ vs := by
    intro hu
    rcases h.inV x hu with a | a | ⟨-, e, a, b⟩ | ⟨a, -⟩
    · exact hq a
    · exact hx (h.exitsC x a)
    · exact hc e a b
    · exact hx (h.exitsB x a)
  refine ⟨List.nodup_cons.mpr ⟨nu, h.onceU⟩, List.nodup_cons.mpr ⟨nv, h.onceV⟩, fun y hy => ?_, fun y hy => ?_,
    h.exitsB, h.exitsC, fun y hy => ?_⟩
  · rcases List.mem_cons.mp hy with rfl | hy
    · exact .inl List.mem_cons_self
    · rcases h.inU y hy with a | a | a | ⟨a, q, b, c⟩
      · exact .inl (List.mem_cons_of_mem _ a)
      · exact .inr (.inl a)
      · exact .inr (.inr (.inl a))
      · exact .inr (.inr (.inr ⟨a, q, List.mem_cons_of_mem _ b, c⟩))
  · rcases List.mem_cons.mp hy with rfl | hy
    · exact .inl List.mem_cons_self
    · rcases h.inV y hy with a | a | a | ⟨a, q, b, c⟩
      · exact .inl (List.mem_cons_of_mem _ a)
      · exact .inr (.inl a)
      · exact .inr (.inr (.inl a))
      · exact .inr (.inr (.inr ⟨a, q, List.mem_cons_of_mem _ b, c⟩))
  · rcases List.mem_cons.mp hy with rfl | hy
    · exact hx
    · exact h.inside y hy

/-- An exit, for the first list -/
theorem Layers.exit {us vs qs bs cs : List BlockId} (h : Layers blocks us vs qs bs cs) {e : BlockId}
    (he : Is blocks exits e) (hb : e ∉ bs) (hc : e ∈ cs → ∀ q ∈ qs, next blocks q ≠ some e) :
    Layers blocks (e :: us) vs qs (e :: bs) cs := by
  refine ⟨List.nodup_cons.mpr ⟨fun hu => ?_, h.onceU⟩, h.onceV, fun y hy => ?_, fun y hy => ?_, fun y hy => ?_, h.exitsC,
    h.inside⟩
  · rcases h.inU e hu with a | a | ⟨a, -⟩ | ⟨a, q, b, c⟩
    · exact h.inside e a he
    · exact hb a
    · exact a he
    · exact hc a q b c
  · rcases List.mem_cons.mp hy with rfl | hy
    · exact .inr (.inl List.mem_cons_self)
    · rcases h.inU y hy with a | a | ⟨a, e', b, c⟩ | a
      · exact .inl a
      · exact .inr (.inl (List.mem_cons_of_mem _ a))
      · exact .inr (.inr (.inl ⟨a, e', List.mem_cons_of_mem _ b, c⟩))
      · exact .inr (.inr (.inr a))
  · rcases h.inV y hy with a | a | a | ⟨a, b⟩
    · exact .inl a
    · exact .inr (.inl a)
    · exact .inr (.inr (.inl a))
    · exact .inr (.inr (.inr ⟨List.mem_cons_of_mem _ a, b⟩))
  · rcases List.mem_cons.mp hy with rfl | hy
    · exact he
    · exact h.exitsB y hy

/-- An exit, for the first list, and the block before it -/
theorem Layers.lift {us vs qs bs cs : List BlockId} (h : Layers blocks us vs qs bs cs) {e p : BlockId}
    (he : Is blocks exits e) (hb : e ∉ bs) (hc : e ∈ cs → ∀ q ∈ qs, next blocks q ≠ some e)
    (hp : ¬ Is blocks exits p) (hn : next blocks p = some e) :
    ∃ us' vs', Layers blocks us' vs' qs (e :: bs) cs ∧ us'.length + vs'.length = us.length + vs.length + 2 := by
  have h' := h.exit he hb hc
  by_cases hq : p ∈ qs
  · refine ⟨e :: us, e :: vs, ⟨h'.onceU, List.nodup_cons.mpr ⟨fun hv => ?_, h.onceV⟩, h'.inU, fun y hy => ?_, h'.exitsB,
      h'.exitsC, h'.inside⟩, by simp only [List.length_cons]; omega⟩
    · rcases h.inV e hv with a | a | ⟨a, -⟩ | ⟨a, -⟩
      · exact h.inside e a he
      · exact hc a p hq hn
      · exact a he
      · exact hb a
    · rcases List.mem_cons.mp hy with rfl | hy
      · exact .inr (.inr (.inr ⟨List.mem_cons_self, p, hq, hn⟩))
      · exact h'.inV y hy
  · refine ⟨p :: e :: us, vs, ⟨List.nodup_cons.mpr ⟨fun hu => ?_, h'.onceU⟩, h'.onceV, fun y hy => ?_, h'.inV, h'.exitsB,
      h'.exitsC, h'.inside⟩, by simp only [List.length_cons]; omega⟩
    · rcases List.mem_cons.mp hu with rfl | hu
      · exact hp he
      · rcases h.inU p hu with a | a | ⟨-, e', a, b⟩ | ⟨a, -⟩
        · exact hq a
        · exact hp (h.exitsB p a)
        · rw [hn] at b
          cases b
          exact hb a
        · exact hp (h.exitsC p a)
    · rcases List.mem_cons.mp hy with rfl | hy
      · exact .inr (.inr (.inl ⟨hp, e, List.mem_cons_self, hn⟩))
      · exact h'.inU y hy

/-! ### The roles of exits -/

abbrev Loops := Option (BlockId × BlockId)

theorem up_on {k : Option BlockId} {s rest : Program} {id t e : BlockId}
    (h : ∀ x, rest.entry k = some x → ∀ j, ¬ Up blocks (j + 1) e x) (hs : s.entry k = some id)
    (hn : next blocks id = some t) (hr : rest.entry k = some t) :
    ∀ x, s.entry k = some x → ∀ j, ¬ Up blocks (j + 1) e x := by
  intro x hx j hu
  rw [hs] at hx
  cases hx
  exact h t hr (j + 1) (hu.trans (.step hn (.refl _)))

theorem leaving_on {lp : Loops} {k : Option BlockId} {s rest : Program} {id t e : BlockId}
    (h : Leaving blocks lp k rest e) (hs : s.entry k = some id) (hn : next blocks id = some t)
    (hr : rest.entry k = some t) (hi : ∀ x ∈ rest.ids, x ∈ s.ids) : Leaving blocks lp k s e := by
  obtain ⟨a0, b, t', f, w, a1, a2, a3⟩ := h
  refine ⟨hi _ a0, b, t', f, w, a1, a2, a3.imp ?_ ?_⟩
  · rintro ⟨h, c1, c2⟩
    exact ⟨h, c1, up_on c2 hs hn hr⟩
  · rintro ⟨h, c1, c2⟩
    exact ⟨h, hi _ c1, c2⟩

theorem again_on {lp : Loops} {k : Option BlockId} {s rest : Program} {id t e : BlockId}
    (h : Again blocks lp k rest e) (hs : s.entry k = some id) (hn : next blocks id = some t)
    (hr : rest.entry k = some t) (hi : ∀ x ∈ rest.ids, x ∈ s.ids) : Again blocks lp k s e := by
  obtain ⟨a0, b, t', f, w, a1, a2, a3⟩ := h
  refine ⟨hi _ a0, b, t', f, w, a1, a2, a3.imp ?_ (hi _)⟩
  rintro ⟨h, c1, c2⟩
  exact ⟨h, c1, up_on c2 hs hn hr⟩

theorem up_side {k : Option BlockId} {s side : Program} {id m e : BlockId} (hs : s.entry k = some id)
    (hn : next blocks id = some m) (hm : Rooted blocks m) (hsh : Shape blocks (some m) side)
    (hno : id ∉ side.ids) (he : e ∈ side.ids) : ∀ x, s.entry k = some x → ∀ j, ¬ Up blocks (j + 1) e x := by
  intro x hx j hu
  rw [hs] at hx
  cases hx
  rcases closed_up hsh hu he with h | ⟨i, h⟩
  · exact hno h
  · exact hm.no_cycle i (h.trans (.step hn (.refl _)))

theorem leaving_side {lp : Loops} {k : Option BlockId} {s side : Program} {id m e : BlockId}
    (h : Leaving blocks lp (some m) side e) (hs : s.entry k = some id) (hn : next blocks id = some m)
    (hm : Rooted blocks m) (hsh : Shape blocks (some m) side) (hi : ∀ x ∈ side.ids, x ∈ s.ids)
    (hno : id ∉ side.ids) : Leaving blocks lp k s e := by
  obtain ⟨a0, b, t', f, w, a1, a2, a3⟩ := h
  refine ⟨hi _ a0, b, t', f, w, a1, a2, a3.imp ?_ ?_⟩
  · rintro ⟨h, c1, -⟩
    exact ⟨h, c1, up_side hs hn hm hsh hno a0⟩
  · rintro ⟨h, c1, c2⟩
    exact ⟨h, hi _ c1, c2⟩

theorem again_side {lp : Loops} {k : Option BlockId} {s side : Program} {id m e : BlockId}
    (h : Again blocks lp (some m) side e) (hs : s.entry k = some id) (hn : next blocks id = some m)
    (hm : Rooted blocks m) (hsh : Shape blocks (some m) side) (hi : ∀ x ∈ side.ids, x ∈ s.ids)
    (hno : id ∉ side.ids) : Again blocks lp k s e := by
  obtain ⟨a0, b, t', f, w, a1, a2, a3⟩ := h
  refine ⟨hi _ a0, b, t', f, w, a1, a2, a3.imp ?_ (hi _)⟩
  rintro ⟨h, c1, -⟩
  exact ⟨h, c1, up_side hs hn hm hsh hno a0⟩

theorem leaving_body {lp : Loops} {k : Option BlockId} {s body : Program} {id m e : BlockId}
    (h : Leaving blocks (some (id, m)) (some id) body e) (hn : next blocks id = some m) (hid : id ∈ s.ids)
    (hi : ∀ x ∈ body.ids, x ∈ s.ids) : Leaving blocks lp k s e := by
  obtain ⟨a0, b, t', f, w, a1, a2, a3⟩ := h
  refine ⟨hi _ a0, b, t', f, w, a1, a2, .inr ?_⟩
  rcases a3 with ⟨h, c1, -⟩ | ⟨h, c1, c2⟩
  · cases c1
    exact ⟨id, hid, hn⟩
  · exact ⟨h, hi _ c1, c2⟩

theorem again_body {lp : Loops} {k : Option BlockId} {s body : Program} {id m e : BlockId}
    (h : Again blocks (some (id, m)) (some id) body e) (hid : id ∈ s.ids)
    (hi : ∀ x ∈ body.ids, x ∈ s.ids) : Again blocks lp k s e := by
  obtain ⟨a0, b, t', f, w, a1, a2, a3⟩ := h
  refine ⟨hi _ a0, b, t', f, w, a1, a2, .inr ?_⟩
  rcases a3 with ⟨m, c1, -⟩ | c1
  · cases c1
    exact hid
  · exact hi _ c1

/-- Not both roles at once, and none of them again in what follows -/
theorem not_exit {x : BlockId} {b : BasicBlock X} (h : blockOf blocks x = some b) (he : exits b = false) :
    ¬ Is blocks exits x := by
  rintro ⟨b', h', h2⟩
  rw [h] at h'
  cases h'
  rw [he] at h2
  cases h2

/-- Every exit has one of the two roles. -/
theorem role : ∀ (s : Program) {lp : Loops} {k : Option BlockId}, s.SpelledBy blocks lp k →
    (∀ v, k = some v → Rooted blocks v) → ∀ e ∈ s.ids, Is blocks exits e →
    Leaving blocks lp k s e ∨ Again blocks lp k s e
  | .done, _, _, _, _, e, he, _ => by cases he
  | .ret id, _, _, ⟨_, b, r, h1, h2⟩, _, e, he, hx => by
    cases List.mem_singleton.mp he
    exact absurd hx (not_exit h1 (by rw [exits, endOf, h2]))
  | .atom id rest, lp, k, ⟨⟨b, op, h1, h2, h3, h4⟩, h5⟩, hk, e, he, hx => by
    have hn : next blocks id = some ⟨op.target_label.val⟩ := by rw [next_eq h1, endOf, h3, h2]; rfl
    rcases List.mem_cons.mp he with rfl | he
    · exact absurd hx (not_exit h1 (by rw [exits, endOf, h3, h2]))
    · have hi : ∀ x ∈ rest.ids, x ∈ (Program.atom id rest).ids := fun x hx => List.mem_cons_of_mem _ hx
      exact (role rest h5 hk e he hx).imp (leaving_on · rfl hn h4 hi) (again_on · rfl hn h4 hi)
  | .sel id left right hi we rest, lp, k, hsp@⟨b, op, sm, h1, h2, h3, _, _, h4, h5, h6, h7, h8, h9⟩, hk, e, he, hx => by
    have hend : endOf b = .chooseSelection op.true_label.val op.false_label.val op.weights sm.merge_block.val
      sm.selection_control := by rw [endOf, h3, h2]
    have hn : next blocks id = some ⟨sm.merge_block.val⟩ := by rw [next_eq h1, hend]; rfl
    have hr : Rooted blocks id := rooted _ (shape_of_spelled _ hsp) hk id List.mem_cons_self
    have hm : Rooted blocks ⟨sm.merge_block.val⟩ := Rooted.after hr hn
    have hm' : ∀ v, some (⟨sm.merge_block.val⟩ : BlockId) = some v → Rooted blocks v := fun v hv => by
      cases hv; exact hm
    have sl := shape_of_spelled left h7
    have sr := shape_of_spelled right h8
    rcases List.mem_cons.mp he with rfl | he
    · exact absurd hx (not_exit h1 (by rw [exits, hend]))
    · rcases List.mem_append.mp he with he | he
      · rcases List.mem_append.mp he with he | he
        · have hi' : ∀ x ∈ left.ids, x ∈ (Program.sel id left right hi we rest).ids :=
            fun x hx => List.mem_cons_of_mem _ (List.mem_append_left _ (List.mem_append_left _ hx))
          have hno := not_inside h1 hend hm sl (.inl h5)
          exact (role left h7 hm' e he hx).imp (leaving_side · rfl hn hm sl hi' hno) (again_side · rfl hn hm sl hi' hno)
        · have hi' : ∀ x ∈ right.ids, x ∈ (Program.sel id left right hi we rest).ids :=
            fun x hx => List.mem_cons_of_mem _ (List.mem_append_left _ (List.mem_append_right _ hx))
          have hno := not_inside h1 hend hm sr (.inr h6)
          exact (role right h8 hm' e he hx).imp (leaving_side · rfl hn hm sr hi' hno) (again_side · rfl hn hm sr hi' hno)
      · have hi' : ∀ x ∈ rest.ids, x ∈ (Program.sel id left right hi we rest).ids :=
          fun x hx => List.mem_cons_of_mem _ (List.mem_append_right _ hx)
        exact (role rest h9 hk e he hx).imp (leaving_on · rfl hn h4 hi') (again_on · rfl hn h4 hi')
  | .loop id body hi rest, lp, k, hsp@⟨b, op, lm, h1, h2, h3, _, h4, h5, h6, h7⟩, hk, e, he, hx => by
    have hend : endOf b = .gotoLoop op.target_label.val lm.merge_block.val lm.loop_control := by rw [endOf, h3, h2]
    have hn : next blocks id = some ⟨lm.merge_block.val⟩ := by rw [next_eq h1, hend]; rfl
    have hr : Rooted blocks id := rooted _ (shape_of_spelled _ hsp) hk id List.mem_cons_self
    rcases List.mem_cons.mp he with rfl | he
    · exact absurd hx (not_exit h1 (by rw [exits, hend]))
    · rcases List.mem_append.mp he with he | he
      · have hi' : ∀ x ∈ body.ids, x ∈ (Program.loop id body hi rest).ids :=
          fun x hx => List.mem_cons_of_mem _ (List.mem_append_left _ hx)
        exact (role body h6 (fun v hv => by cases hv; exact hr) e he hx).imp
          (leaving_body · hn List.mem_cons_self hi') (again_body · List.mem_cons_self hi')
      · have hi' : ∀ x ∈ rest.ids, x ∈ (Program.loop id body hi rest).ids :=
          fun x hx => List.mem_cons_of_mem _ (List.mem_append_right _ hx)
        exact (role rest h7 hk e he hx).imp (leaving_on · rfl hn h4 hi') (again_on · rfl hn h4 hi')
  | .exit id brk we rest, lp, k, hsp@⟨head, merge, b, op, hlp, hkk, h1, h2, h3, _, h4, h5, h6⟩, hk, e, he, hx => by
    have hend : endOf b = .choose op.true_label.val op.false_label.val op.weights := by rw [endOf, h3, h2]
    have hn : next blocks id = some ⟨op.true_label.val⟩ := by rw [next_eq h1, hend]; rfl
    have hr : Rooted blocks id := rooted _ (shape_of_spelled _ hsp) hk id List.mem_cons_self
    rcases List.mem_cons.mp he with rfl | he
    · have here : ∀ x, Program.entry k (.exit e brk we rest) = some x → ∀ j, ¬ Up blocks (j + 1) e x := by
        intro x hx j hu
        cases hx
        exact hr.no_cycle j hu
      cases brk with
      | true => exact .inl ⟨List.mem_cons_self, b, _, _, _, h1, hend, .inl ⟨head, by rw [hlp]; exact congrArg _ (congrArg _ h4.symm), here⟩⟩
      | false => exact .inr ⟨List.mem_cons_self, b, _, _, _, h1, hend, .inl ⟨merge, by rw [hlp]; exact congrArg (fun x => some (x, merge)) h4.symm, here⟩⟩
    · have hi' : ∀ x ∈ rest.ids, x ∈ (Program.exit id brk we rest).ids := fun x hx => List.mem_cons_of_mem _ hx
      exact (role rest h6 hk e he hx).imp (leaving_on · rfl hn h5 hi') (again_on · rfl hn h5 hi')

/-! ### The way to the innermost level -/

/-- The blocks on the way -/
structure Stack (blocks : List (BasicBlock X)) (lp : Loops) (k : Option BlockId) (s : Program)
    (us vs qs bs cs : List BlockId) : Prop where
  layers : Layers blocks us vs qs bs cs
  leaving : ∀ e ∈ bs, Leaving blocks lp k s e
  again : ∀ e ∈ cs, Again blocks lp k s e
  inside : ∀ q ∈ qs, q ∈ s.ids ∧ next blocks q ≠ none
  before : ∀ q ∈ qs, ∀ e, next blocks q = some e → ∀ b t f w, blockOf blocks e = some b → endOf b = .choose t f w →
    (e ∈ cs → ∃ y ∈ s.ids, next blocks y = some ⟨f⟩) ∧ (e ∈ bs → ⟨f⟩ ∈ s.ids)

/-- There is a way with this many levels. -/
def Way (blocks : List (BasicBlock X)) (lp : Loops) (k : Option BlockId) (s : Program) (d : Nat) : Prop :=
  ∃ us vs qs bs cs, d ≤ us.length + vs.length + 1 ∧ Stack blocks lp k s us vs qs bs cs

theorem Way.nil (lp : Loops) (k : Option BlockId) (s : Program) : Way blocks lp k s 1 :=
  ⟨[], [], [], [], [], Nat.le_refl 1, ⟨.nil, .nil, nofun, nofun, nofun, nofun, nofun⟩, nofun, nofun, nofun, nofun⟩

theorem Way.single (lp : Loops) (k : Option BlockId) {s : Program} {id t : BlockId} (hid : id ∈ s.ids)
    (hx : ¬ Is blocks exits id) (hn : next blocks id = some t) : Way blocks lp k s 2 := by
  refine ⟨[id], [], [id], [], [], Nat.le_refl 2, ⟨List.nodup_cons.mpr ⟨nofun, .nil⟩, .nil,
    fun x hx => .inl hx, nofun, nofun, nofun, fun x h => ?_⟩, nofun, nofun, fun x h => ?_, fun _ _ _ _ _ _ _ _ _ _ => ⟨nofun, nofun⟩⟩
  · cases List.mem_singleton.mp h
    exact hx
  · cases List.mem_singleton.mp h
    exact ⟨hid, by rw [hn]; nofun⟩

theorem Way.on {lp : Loops} {k : Option BlockId} {s rest : Program} {d : Nat} {id t : BlockId}
    (hw : Way blocks lp k rest d) (hs : s.entry k = some id) (hn : next blocks id = some t)
    (hr : rest.entry k = some t) (hi : ∀ x ∈ rest.ids, x ∈ s.ids) : Way blocks lp k s d := by
  obtain ⟨us, vs, qs, bs, cs, h1, h2, h3, h4, h5, h6⟩ := hw
  refine ⟨us, vs, qs, bs, cs, h1, h2, fun e he => leaving_on (h3 e he) hs hn hr hi,
    fun e he => again_on (h4 e he) hs hn hr hi, fun q hq => ⟨hi _ (h5 q hq).1, (h5 q hq).2⟩,
    fun q hq e hne b t f w hb he => ?_⟩
  obtain ⟨a1, a2⟩ := h6 q hq e hne b t f w hb he
  exact ⟨fun h => let ⟨y, c1, c2⟩ := a1 h; ⟨y, hi _ c1, c2⟩, fun h => hi _ (a2 h)⟩

/-- Going into a construct -/
theorem Way.into {lp lp' : Loops} {k k' : Option BlockId} {s part : Program} {d : Nat} {id m : BlockId}
    (hw : Way blocks lp' k' part d) (hx : ¬ Is blocks exits id) (hn : next blocks id = some m) (hid : id ∈ s.ids)
    (hi : ∀ x ∈ part.ids, x ∈ s.ids) (hno : id ∉ part.ids) (hm : m ∉ part.ids)
    (hl : ∀ e, Leaving blocks lp' k' part e → Leaving blocks lp k s e)
    (ha : ∀ e, Again blocks lp' k' part e → Again blocks lp k s e) : Way blocks lp k s (d + 2) := by
  obtain ⟨us, vs, qs, bs, cs, h1, h2, h3, h4, h5, h6⟩ := hw
  have nb : ∀ e ∈ bs, next blocks id ≠ some e := by
    intro e he h
    rw [hn] at h
    cases h
    exact hm (h3 _ he).1
  have nc : ∀ e ∈ cs, next blocks id ≠ some e := by
    intro e he h
    rw [hn] at h
    cases h
    exact hm (h4 _ he).1
  refine ⟨id :: us, id :: vs, id :: qs, bs, cs, by simp only [List.length_cons]; omega,
    h2.start hx (fun h => hno (h5 _ h).1) nb nc, fun e he => hl e (h3 e he), fun e he => ha e (h4 e he),
    fun q hq => ?_, fun q hq e hne b t f w hb he => ?_⟩
  · rcases List.mem_cons.mp hq with rfl | hq
    · exact ⟨hid, by rw [hn]; nofun⟩
    · exact ⟨hi _ (h5 q hq).1, (h5 q hq).2⟩
  · rcases List.mem_cons.mp hq with rfl | hq
    · exact ⟨fun h => absurd hne (nc e h), fun h => absurd hne (nb e h)⟩
    · obtain ⟨a1, a2⟩ := h6 q hq e hne b t f w hb he
      exact ⟨fun h => let ⟨y, c1, c2⟩ := a1 h; ⟨y, hi _ c1, c2⟩, fun h => hi _ (a2 h)⟩

/-- A way through a conditional exit, also from the block before -/
def Lifted (blocks : List (BasicBlock X)) (lp : Loops) (k : Option BlockId) : Program → Nat → Prop
  | .exit id brk we rest, d => ∀ p, ¬ Is blocks exits p → next blocks p = some id →
    Way blocks lp k (.exit id brk we rest) (d + 1)
  | _, _ => True

theorem Way.through {lp : Loops} {k : Option BlockId} {s rest : Program} {id t : BlockId}
    (hw : Way blocks lp k rest (levels rest)) (hw' : Lifted blocks lp k rest (levels rest))
    (hx : ¬ Is blocks exits id) (hs : s.entry k = some id) (hn : next blocks id = some t)
    (hr : rest.entry k = some t) (hid : id ∈ s.ids) (hi : ∀ x ∈ rest.ids, x ∈ s.ids) :
    Way blocks lp k s (within (levels rest) rest) :=
  match rest with
  | .done => .single lp k hid hx hn
  | .ret _ => .single lp k hid hx hn
  | .atom _ _ => hw.on hs hn hr hi
  | .sel _ _ _ _ _ _ => hw.on hs hn hr hi
  | .loop _ _ _ _ => hw.on hs hn hr hi
  | .exit e _ _ _ => (hw' id hx (by rw [hn]; exact hr.symm)).on hs hn hr hi

theorem way : ∀ (s : Program) {lp : Loops} {k : Option BlockId}, s.SpelledBy blocks lp k →
    (∀ v, k = some v → Rooted blocks v) →
    (∀ h m, lp = some (h, m) → next blocks h = some m ∧ ¬ Is blocks exits h) →
    Way blocks lp k s (levels s) ∧ Lifted blocks lp k s (levels s)
  | .done, lp, k, _, _, _ => ⟨.nil lp k _, trivial⟩
  | .ret _, lp, k, _, _, _ => ⟨.nil lp k _, trivial⟩
  | .atom id rest, lp, k, ⟨⟨b, op, h1, h2, h3, h4⟩, h5⟩, hk, hl => by
    obtain ⟨w1, w2⟩ := way rest h5 hk hl
    exact ⟨w1.through w2 (not_exit h1 (by rw [exits, endOf, h3, h2])) rfl (by rw [next_eq h1, endOf, h3, h2]; rfl) h4
      List.mem_cons_self fun x hx => List.mem_cons_of_mem _ hx, trivial⟩
  | .sel id left right hi we rest, lp, k, hsp@⟨b, op, sm, h1, h2, h3, _, _, h4, h5, h6, h7, h8, h9⟩, hk, hl => by
    have he : endOf b = .chooseSelection op.true_label.val op.false_label.val op.weights sm.merge_block.val
      sm.selection_control := by rw [endOf, h3, h2]
    have hn : next blocks id = some ⟨sm.merge_block.val⟩ := by rw [next_eq h1, he]; rfl
    have hr : Rooted blocks id := rooted _ (shape_of_spelled _ hsp) hk id List.mem_cons_self
    have hm : Rooted blocks ⟨sm.merge_block.val⟩ := Rooted.after hr hn
    have hm' : ∀ v, some (⟨sm.merge_block.val⟩ : BlockId) = some v → Rooted blocks v := fun v hv => by
      cases hv; exact hm
    have hx : ¬ Is blocks exits id := not_exit h1 (by rw [exits, he])
    have sl := shape_of_spelled left h7
    have sr := shape_of_spelled right h8
    have il : ∀ x ∈ left.ids, x ∈ (Program.sel id left right hi we rest).ids :=
      fun x hx => List.mem_cons_of_mem _ (List.mem_append_left _ (List.mem_append_left _ hx))
    have ir : ∀ x ∈ right.ids, x ∈ (Program.sel id left right hi we rest).ids :=
      fun x hx => List.mem_cons_of_mem _ (List.mem_append_left _ (List.mem_append_right _ hx))
    have nl := not_inside h1 he hm sl (.inl h5)
    have nr := not_inside h1 he hm sr (.inr h6)
    refine ⟨?_, trivial⟩
    rw [levels]
    refine le_max ?_ ?_
    · refine le_max (P := fun n => Way blocks lp k _ (n + 2)) ?_ ?_
      · exact (way left h7 hm' hl).1.into hx hn List.mem_cons_self il nl (end_not_mem sl hm)
          (fun e h => leaving_side h rfl hn hm sl il nl) (fun e h => again_side h rfl hn hm sl il nl)
      · exact (way right h8 hm' hl).1.into hx hn List.mem_cons_self ir nr (end_not_mem sr hm)
          (fun e h => leaving_side h rfl hn hm sr ir nr) (fun e h => again_side h rfl hn hm sr ir nr)
    · obtain ⟨w1, w2⟩ := way rest h9 hk hl
      exact w1.through w2 hx rfl hn h4 List.mem_cons_self
        fun x hx => List.mem_cons_of_mem _ (List.mem_append_right _ hx)
  | .loop id body hi rest, lp, k, hsp@⟨b, op, lm, h1, h2, h3, _, h4, h5, h6, h7⟩, hk, hl => by
    have he : endOf b = .gotoLoop op.target_label.val lm.merge_block.val lm.loop_control := by rw [endOf, h3, h2]
    have hn : next blocks id = some ⟨lm.merge_block.val⟩ := by rw [next_eq h1, he]; rfl
    have hr : Rooted blocks id := rooted _ (shape_of_spelled _ hsp) hk id List.mem_cons_self
    have hx : ¬ Is blocks exits id := not_exit h1 (by rw [exits, he])
    have sb := shape_of_spelled body h6
    have ib : ∀ x ∈ body.ids, x ∈ (Program.loop id body hi rest).ids :=
      fun x hx => List.mem_cons_of_mem _ (List.mem_append_left _ hx)
    have nm : (⟨lm.merge_block.val⟩ : BlockId) ∉ body.ids := by
      intro h
      obtain ⟨n, hu⟩ := below body sb _ h
      exact hr.no_cycle (n + 1) (.step hn hu)
    refine ⟨?_, trivial⟩
    rw [levels]
    refine le_max ?_ ?_
    · exact (way body h6 (fun v hv => by cases hv; exact hr) (fun h m e => by cases e; exact ⟨hn, hx⟩)).1.into hx hn
        List.mem_cons_self ib (end_not_mem sb hr) nm
        (fun e h => leaving_body h hn List.mem_cons_self ib) (fun e h => again_body h List.mem_cons_self ib)
    · obtain ⟨w1, w2⟩ := way rest h7 hk hl
      exact w1.through w2 hx rfl hn h4 List.mem_cons_self
        fun x hx => List.mem_cons_of_mem _ (List.mem_append_right _ hx)
  | .exit id brk we rest, lp, k, hsp@⟨head, merge, b, op, hlp, hkk, h1, h2, h3, _, h4, h5, h6⟩, hk, hl => by
    have he : endOf b = .choose op.true_label.val op.false_label.val op.weights := by rw [endOf, h3, h2]
    have hn : next blocks id = some ⟨op.true_label.val⟩ := by rw [next_eq h1, he]; rfl
    have hr : Rooted blocks id := rooted _ (shape_of_spelled _ hsp) hk id List.mem_cons_self
    have hh : Rooted blocks head := hk _ hkk
    obtain ⟨hnh, hxh⟩ := hl _ _ hlp
    have hx : Is blocks exits id := ⟨b, h1, by rw [exits, he]⟩
    have hsr := shape_of_spelled rest h6
    obtain ⟨us, vs, qs, bs, cs, g1, g2, g3, g4, g5, g6⟩ := (way rest h6 hk hl).1
    have ir : ∀ x ∈ rest.ids, x ∈ (Program.exit id brk we rest).ids := fun x hx => List.mem_cons_of_mem _ hx
    have g3' := fun e h => leaving_on (s := .exit id brk we rest) (g3 e h) rfl hn h5 ir
    have g4' := fun e h => again_on (s := .exit id brk we rest) (g4 e h) rfl hn h5 ir
    have here : ∀ x, Program.entry k (.exit id brk we rest) = some x → ∀ j, ¬ Up blocks (j + 1) id x := by
      intro x hx j hu
      cases hx
      exact hr.no_cycle j hu
    have ne : head ≠ merge := by
      intro h
      rw [← h] at hnh
      exact hh.no_cycle 0 (.step hnh (.refl _))
    have roles := role rest h6 hk id
    subst hlp hkk
    have near : ∀ q ∈ qs, next blocks q = some id → id ∈ rest.ids := by
      intro q hq hqn
      rcases closed rest hsr q (g5 q hq).1 id hqn with h | h
      · exact absurd (h ▸ hx) hxh
      · exact h
    have noMerge : ∀ y ∈ rest.ids, next blocks y ≠ some merge := by
      intro y hy c5
      obtain ⟨n, hu⟩ := below rest hsr y hy
      cases hu with
      | step c6 hu =>
        rw [c5] at c6
        cases c6
        exact hh.no_cycle n (.step hnh hu)
    have g5' : ∀ q ∈ qs, q ∈ (Program.exit id brk we rest).ids ∧ next blocks q ≠ none :=
      fun q hq => ⟨ir _ (g5 q hq).1, (g5 q hq).2⟩
    cases brk with
    | true =>
      have h4 : (⟨op.false_label.val⟩ : BlockId) = merge := h4
      have notL : ¬ Leaving blocks (some (head, merge)) (some head) rest id := by
        rintro ⟨-, b', t', f', w', c1, c2, c3⟩
        cases after_unique h1 c1 he c2
        rcases c3 with ⟨h, -, c4⟩ | ⟨h, c4, c5⟩
        · exact c4 _ h5 0 (.step hn (.refl _))
        · exact noMerge h c4 (by rw [c5, h4])
      have hno : id ∉ bs := fun h => notL (g3 id h)
      have hc : id ∈ cs → ∀ q ∈ qs, next blocks q ≠ some id := by
        intro hi q hq hqn
        obtain ⟨y, c1, c2⟩ := (g6 q hq id hqn b _ _ _ h1 he).1 hi
        exact noMerge y c1 (by rw [c2, h4])
      have all : ∀ us' vs', Layers blocks us' vs' qs (id :: bs) cs →
          Stack blocks (some (head, merge)) (some head) (.exit id true we rest) us' vs' qs (id :: bs) cs := by
        intro us' vs' hL
        refine ⟨hL, fun x hx => ?_, g4', g5', fun q hq e hne b' t f w hb' hb2 => ⟨fun h => ?_, fun h => ?_⟩⟩
        · rcases List.mem_cons.mp hx with rfl | hx
          · exact ⟨List.mem_cons_self, b, _, _, _, h1, he, .inl ⟨head, by rw [h4], here⟩⟩
          · exact g3' x hx
        · obtain ⟨y, c1, c2⟩ := (g6 q hq e hne b' t f w hb' hb2).1 h
          exact ⟨y, ir _ c1, c2⟩
        · rcases List.mem_cons.mp h with rfl | h
          · cases after_unique h1 hb' he hb2
            rcases roles (near q hq hne) hx with c | c
            · exact absurd c notL
            · obtain ⟨-, b2, t2, f2, w2, c1, c2, c3⟩ := c
              cases after_unique h1 c1 he c2
              rcases c3 with ⟨m, c4, -⟩ | c4
              · cases c4
                exact absurd h4 ne
              · exact ir _ c4
          · exact ir _ ((g6 q hq e hne b' t f w hb' hb2).2 h)
      refine ⟨⟨id :: us, vs, qs, id :: bs, cs, ?_, all _ _ (g2.exit hx hno hc)⟩, fun p hp hpn => ?_⟩
      · rw [levels, List.length_cons]
        omega
      · obtain ⟨us', vs', hL, hlen⟩ := g2.lift hx hno hc hp hpn
        exact ⟨us', vs', qs, id :: bs, cs, by rw [levels]; omega, all _ _ hL⟩
    | false =>
      have h4 : (⟨op.false_label.val⟩ : BlockId) = head := h4
      have notA : ¬ Again blocks (some (head, merge)) (some head) rest id := by
        rintro ⟨-, b', t', f', w', c1, c2, c3⟩
        cases after_unique h1 c1 he c2
        rcases c3 with ⟨h, -, c4⟩ | c4
        · exact c4 _ h5 0 (.step hn (.refl _))
        · rw [h4] at c4
          exact end_not_mem hsr hh c4
      have hno : id ∉ cs := fun h => notA (g4 id h)
      have hc : id ∈ bs → ∀ q ∈ qs, next blocks q ≠ some id := by
        intro hi q hq hqn
        have c1 := (g6 q hq id hqn b _ _ _ h1 he).2 hi
        rw [h4] at c1
        exact end_not_mem hsr hh c1
      have all : ∀ us' vs', Layers blocks us' vs' qs bs (id :: cs) →
          Stack blocks (some (head, merge)) (some head) (.exit id false we rest) us' vs' qs bs (id :: cs) := by
        intro us' vs' hL
        refine ⟨hL, g3', fun x hx => ?_, g5', fun q hq e hne b' t f w hb' hb2 => ⟨fun h => ?_, fun h => ?_⟩⟩
        · rcases List.mem_cons.mp hx with rfl | hx
          · exact ⟨List.mem_cons_self, b, _, _, _, h1, he, .inl ⟨merge, by rw [h4], here⟩⟩
          · exact g4' x hx
        · rcases List.mem_cons.mp h with rfl | h
          · cases after_unique h1 hb' he hb2
            rcases roles (near q hq hne) hx with c | c
            · obtain ⟨-, b2, t2, f2, w2, c1, c2, c3⟩ := c
              cases after_unique h1 c1 he c2
              rcases c3 with ⟨m, c4, -⟩ | ⟨y, c4, c5⟩
              · cases c4
                exact absurd h4.symm ne
              · exact ⟨y, ir _ c4, c5⟩
            · exact absurd c notA
          · obtain ⟨y, c1, c2⟩ := (g6 q hq e hne b' t f w hb' hb2).1 h
            exact ⟨y, ir _ c1, c2⟩
        · exact ir _ ((g6 q hq e hne b' t f w hb' hb2).2 h)
      refine ⟨⟨us, id :: vs, qs, bs, id :: cs, ?_, all _ _ (g2.swap.exit hx hno hc).swap⟩, fun p hp hpn => ?_⟩
      · rw [levels, List.length_cons]
        omega
      · obtain ⟨us', vs', hL, hlen⟩ := g2.swap.lift hx hno hc hp hpn
        exact ⟨vs', us', qs, bs, id :: cs, by rw [levels]; omega, all _ _ hL.swap⟩

/-! ### Two constructs or more -/

/-- The block does not end the function. -/
def goesOn (b : BasicBlock X) : Bool :=
  match endOf b with
  | .returns => false
  | _ => true

theorem goesOn_of_next {x : BlockId} (h : next blocks x ≠ none) : Is blocks goesOn x := by
  rw [next] at h
  match hb : blockOf blocks x with
  | none => rw [hb] at h; exact absurd rfl h
  | some b =>
    refine ⟨b, hb, ?_⟩
    rw [hb] at h
    rw [goesOn]
    cases he : endOf b with
    | returns =>
      rw [Option.bind_some, he] at h
      exact absurd rfl h
    | _ => rfl

theorem goesOn_of_exits {x : BlockId} (h : Is blocks exits x) : Is blocks goesOn x := by
  obtain ⟨b, h1, h2⟩ := h
  refine ⟨b, h1, ?_⟩
  rw [exits] at h2
  rw [goesOn]
  cases he : endOf b <;> rw [he] at h2 <;> first | rfl | cases h2

/-- One block ends the function. -/
theorem goesOn_lt {s : Program} (hs : Shape blocks none s) : blocks.countP goesOn + 1 ≤ blocks.length := by
  obtain ⟨_, y, b, -, -, hb, hr, -⟩ := last_ret 0 s hs
  have h2 : 1 ≤ blocks.countP (fun b => match endOf b with | .returns => true | _ => false) :=
    List.countP_pos_iff.mpr ⟨b, (blockOf_some hb).1, by rw [hr]⟩
  have h3 := countP_add (α := BasicBlock X) goesOn (fun b => match endOf b with | .returns => true | _ => false)
    (fun _ => true) blocks (fun _ _ _ => rfl) (fun _ _ _ => rfl)
    (fun a _ h h' => by rw [goesOn] at h; cases he : endOf a <;> rw [he] at h h' <;> simp at h h')
  rw [List.countP_true] at h3
  omega

theorem many {s : Program} (hs : s.SpelledBy blocks none none) : levels s ≤ 2 * blocks.length - 1 := by
  obtain ⟨⟨us, vs, qs, bs, cs, h1, h2⟩, -⟩ := way s hs nofun nofun
  have hb := goesOn_lt (shape_of_spelled s hs)
  have g (x : BlockId) {e : BlockId} (h : next blocks x = some e) : Is blocks goesOn x :=
    goesOn_of_next (by rw [h]; nofun)
  have a1 := length_le_countP (blocks := blocks) goesOn h2.layers.onceU fun x hx => by
    rcases h2.layers.inU x hx with a | a | ⟨-, e, -, a⟩ | ⟨a, -⟩
    · exact goesOn_of_next (h2.inside x a).2
    · exact goesOn_of_exits (h2.layers.exitsB x a)
    · exact g x a
    · exact goesOn_of_exits (h2.layers.exitsC x a)
  have a2 := length_le_countP (blocks := blocks) goesOn h2.layers.onceV fun x hx => by
    rcases h2.layers.inV x hx with a | a | ⟨-, e, -, a⟩ | ⟨a, -⟩
    · exact goesOn_of_next (h2.inside x a).2
    · exact goesOn_of_exits (h2.layers.exitsC x a)
    · exact g x a
    · exact goesOn_of_exits (h2.layers.exitsB x a)
  omega

/-! ### One construct or none -/

/-- The block neither starts a construct nor ends the function. -/
def inRow (b : BasicBlock X) : Bool :=
  match endOf b with
  | .choose _ _ _ => true
  | .goto _ => true
  | _ => false

theorem plain_levels : ∀ (s : Program) {k : Option BlockId}, Shape blocks k s → Plain blocks s →
    levels s ≤ s.ids.length + 1 ∧ within (levels s) s ≤ s.ids.length + 2
  | .done, _, _, _ => ⟨Nat.le_refl _, Nat.le_refl _⟩
  | .ret _, _, _, _ => ⟨Nat.le_succ _, Nat.le_succ _⟩
  | .atom id rest, _, ⟨_, h⟩, hp => by
    have := plain_levels rest h (hp.rest rfl)
    show within (levels rest) rest ≤ rest.ids.length + 1 + 1 ∧ within (levels rest) rest ≤ rest.ids.length + 1 + 2
    omega
  | .exit id _ _ rest, _, ⟨_, h⟩, hp => by
    have := plain_levels rest h (hp.rest rfl)
    show levels rest + 1 ≤ rest.ids.length + 1 + 1 ∧ levels rest + 1 + 1 ≤ rest.ids.length + 1 + 2
    omega
  | .sel id left right hi we rest, _, ⟨b, t, f, w, m, h, h1, h2, _⟩, hp =>
    absurd ⟨b, h1, by rw [starts, h2]⟩ (hp id List.mem_cons_self)
  | .loop id body hi rest, _, ⟨b, t, m, h, h1, h2, _⟩, hp =>
    absurd ⟨b, h1, by rw [starts, h2]⟩ (hp id List.mem_cons_self)

theorem plain_row : ∀ (s : Program) {v : BlockId}, Shape blocks (some v) s → Rooted blocks v → Plain blocks s →
    s.ids.Nodup ∧ ∀ x ∈ s.ids, Is blocks inRow x
  | .done, _, _, _, _ => ⟨.nil, nofun⟩
  | .ret _, _, ⟨h, _⟩, _, _ => by cases h
  | .atom id rest, v, hs@⟨⟨b, t, h1, h2, h3⟩, h4⟩, hv, hp => by
    obtain ⟨i1, i2⟩ := plain_row rest h4 hv (hp.rest rfl)
    have hk : ∀ w, some v = some w → Rooted blocks w := fun w h => by cases h; exact hv
    have hr : Rooted blocks id := rooted _ hs hk id List.mem_cons_self
    refine ⟨List.nodup_cons.mpr ⟨fun h => ?_, i1⟩, fun x hx => ?_⟩
    · obtain ⟨e, j, he, hu⟩ := (plain rest h4 hk (hp.rest rfl)).1 id h
      rw [h3] at he
      cases he
      exact hr.no_cycle j (.step (by rw [next_eq h1, h2]; rfl) hu)
    · rcases List.mem_cons.mp hx with rfl | hx
      · exact ⟨b, h1, by rw [inRow, h2]⟩
      · exact i2 x hx
  | .exit id brk w0 rest, v, hs@⟨⟨b, t, f, w, h1, h2, h3⟩, h4⟩, hv, hp => by
    obtain ⟨i1, i2⟩ := plain_row rest h4 hv (hp.rest rfl)
    have hk : ∀ w, some v = some w → Rooted blocks w := fun w h => by cases h; exact hv
    have hr : Rooted blocks id := rooted _ hs hk id List.mem_cons_self
    refine ⟨List.nodup_cons.mpr ⟨fun h => ?_, i1⟩, fun x hx => ?_⟩
    · obtain ⟨e, j, he, hu⟩ := (plain rest h4 hk (hp.rest rfl)).1 id h
      rw [h3] at he
      cases he
      exact hr.no_cycle j (.step (by rw [next_eq h1, h2]; rfl) hu)
    · rcases List.mem_cons.mp hx with rfl | hx
      · exact ⟨b, h1, by rw [inRow, h2]⟩
      · exact i2 x hx
  | .sel id left right hi we rest, _, ⟨b, t, f, w, m, h, h1, h2, _⟩, _, hp =>
    absurd ⟨b, h1, by rw [starts, h2]⟩ (hp id List.mem_cons_self)
  | .loop id body hi rest, _, ⟨b, t, m, h, h1, h2, _⟩, _, hp =>
    absurd ⟨b, h1, by rw [starts, h2]⟩ (hp id List.mem_cons_self)

theorem plain_le {s : Program} {v : BlockId} (hs : Shape blocks (some v) s) (hv : Rooted blocks v)
    (hp : Plain blocks s) : levels s ≤ blocks.countP inRow + 1 := by
  obtain ⟨h1, h2⟩ := plain_row s hs hv hp
  have h3 := length_le_countP inRow h1 h2
  have h4 := (plain_levels s hs hp).1
  omega

theorem inRow_lt {s : Program} (hs : Shape blocks none s) :
    headers blocks + blocks.countP inRow + 1 ≤ blocks.length := by
  have h1 := goesOn_lt hs
  have h2 := countP_add (α := BasicBlock X) starts inRow goesOn blocks
    (fun a _ h => by rw [starts] at h; rw [goesOn]; cases he : endOf a <;> rw [he] at h <;> simp at h ⊢)
    (fun a _ h => by rw [inRow] at h; rw [goesOn]; cases he : endOf a <;> rw [he] at h <;> simp at h ⊢)
    (fun a _ h h' => by
      rw [starts] at h; rw [inRow] at h'; cases he : endOf a <;> rw [he] at h h' <;> simp at h h')
  have e : headers blocks = blocks.countP starts := rfl
  omega

/-- Outside of loops there are no exits. -/
theorem within_top : ∀ (s : Program), s.SpelledBy blocks none none → within (levels s) s ≤ max 2 (levels s)
  | .done, _ => Nat.le_max_left _ _
  | .ret _, _ => Nat.le_max_left _ _
  | .atom _ _, _ => Nat.le_max_right _ _
  | .sel _ _ _ _ _ _, _ => Nat.le_max_right _ _
  | .loop _ _ _ _, _ => Nat.le_max_right _ _
  | .exit _ _ _ _, ⟨_, _, _, _, h, _⟩ => by cases h

/-- With one construct -/
theorem one (h1 : headers blocks ≤ 1) : ∀ (s : Program), s.SpelledBy blocks none none →
    levels s ≤ blocks.countP inRow + 3
  | .done, h => absurd rfl h
  | .ret _, _ => Nat.le_add_left 1 _
  | .atom _ rest, ⟨_, h⟩ => by
    have ih := one h1 rest h
    have := within_top rest h
    show within (levels rest) rest ≤ _
    omega
  | .exit _ _ _ _, ⟨_, _, _, _, h, _⟩ => by cases h
  | .sel id left right hi we rest, hsp@⟨b, op, sm, g1, g2, g3, _, _, g4, g5, g6, g7, g8, g9⟩ => by
    have he : endOf b = .chooseSelection op.true_label.val op.false_label.val op.weights sm.merge_block.val
      sm.selection_control := by rw [endOf, g3, g2]
    have hn : next blocks id = some ⟨sm.merge_block.val⟩ := by rw [next_eq g1, he]; rfl
    have hr : Rooted blocks id := rooted _ (shape_of_spelled _ hsp) nofun id List.mem_cons_self
    have hm : Rooted blocks ⟨sm.merge_block.val⟩ := Rooted.after hr hn
    have hq : Is blocks starts id := ⟨b, g1, by rw [starts, he]⟩
    have sl := shape_of_spelled left g7
    have sr := shape_of_spelled right g8
    have al := plain_le sl hm (plain_of_one h1 hq (not_inside g1 he hm sl (.inl g5)))
    have ar := plain_le sr hm (plain_of_one h1 hq (not_inside g1 he hm sr (.inr g6)))
    have ih := one h1 rest g9
    have := within_top rest g9
    rw [levels]
    omega
  | .loop id body hi rest, hsp@⟨b, op, lm, g1, g2, g3, _, g4, g5, g6, g7⟩ => by
    have he : endOf b = .gotoLoop op.target_label.val lm.merge_block.val lm.loop_control := by rw [endOf, g3, g2]
    have hr : Rooted blocks id := rooted _ (shape_of_spelled _ hsp) nofun id List.mem_cons_self
    have hq : Is blocks starts id := ⟨b, g1, by rw [starts, he]⟩
    have hb := shape_of_spelled body g6
    have ab := plain_le hb hr (plain_of_one h1 hq (end_not_mem hb hr))
    have ih := one h1 rest g7
    have := within_top rest g7
    rw [levels]
    omega

/-- With no construct -/
theorem no_construct (h0 : headers blocks = 0) : ∀ (s : Program), s.SpelledBy blocks none none →
    levels s ≤ 2 ∧ (1 < levels s → 0 < blocks.countP inRow)
  | .done, h => absurd rfl h
  | .ret _, _ => ⟨Nat.le_succ 1, fun h => absurd h (Nat.lt_irrefl 1)⟩
  | .atom _ rest, ⟨⟨b, op, g1, g2, g3, _⟩, h⟩ => by
    have ih := (no_construct h0 rest h).1
    have := within_top rest h
    refine ⟨?_, fun _ => List.countP_pos_iff.mpr ⟨b, (blockOf_some g1).1, by rw [inRow, endOf, g3, g2]⟩⟩
    show within (levels rest) rest ≤ _
    omega
  | .exit _ _ _ _, ⟨_, _, _, _, h, _⟩ => by cases h
  | .sel id left right hi we rest, ⟨b, op, sm, g1, g2, g3, _⟩ => by
    have : 0 < blocks.countP starts := List.countP_pos_iff.mpr ⟨b, (blockOf_some g1).1, by rw [starts, endOf, g3, g2]⟩
    rw [headers] at h0
    omega
  | .loop id body hi rest, ⟨b, op, lm, g1, g2, g3, _⟩ => by
    have : 0 < blocks.countP starts := List.countP_pos_iff.mpr ⟨b, (blockOf_some g1).1, by rw [starts, endOf, g3, g2]⟩
    rw [headers] at h0
    omega

/-! ### The bound -/

theorem bound {s : Program} (hs : s.SpelledBy blocks none none) :
    levels s ≤ levelsMost blocks.length (headers blocks) := by
  have sp := inRow_lt (shape_of_spelled s hs)
  rw [levelsMost]
  by_cases h0 : headers blocks = 0
  · rw [if_pos h0]
    obtain ⟨h1, h2⟩ := no_construct h0 s hs
    by_cases h3 : 1 < levels s
    · have := h2 h3
      omega
    · omega
  · rw [if_neg h0]
    by_cases h1 : headers blocks = 1
    · rw [if_pos h1]
      have := one (Nat.le_of_eq h1) s hs
      omega
    · rw [if_neg h1]
      exact many hs

/-! ### It is reached -/

theorem levels_row (n : Nat) (brk : Bool) (rest : Program) : ∀ i, levels (Twofold.row n brk i rest) = i + levels rest
  | 0 => (Nat.zero_add _).symm
  | i + 1 => by
    show levels (Twofold.row n brk i rest) + 1 = _
    rw [levels_row n brk rest i]
    omega

theorem levels_inner (x n : Nat) (rest : Program) (h : within (levels rest) rest = 2) :
    levels (Twofold.inner x n rest) = x + 3 := by
  show max (levels (Twofold.row n true x .done) + 2) (within (levels rest) rest) = _
  rw [levels_row, h]
  show max (x + 1 + 2) 2 = _
  omega

theorem levels_inside (x p : Nat) : ∀ i, levels (Twofold.inside x p i) = 2 * i + 2 * x + 3
  | 0 => by
    rw [Twofold.inside, levels_row, levels_inner x (p + 2) .done rfl]
    omega
  | i + 1 => by
    show max (levels (Twofold.inside x p i) + 2) 2 = _
    rw [levels_inside x p i]
    omega

theorem levels_program (x p : Nat) : levels (Twofold.program x p) = 2 * p + 2 * x + 5 := by
  show max (levels (Twofold.inside x p p) + 2) 2 = _
  rw [levels_inside]
  omega

end Magma.Levels
