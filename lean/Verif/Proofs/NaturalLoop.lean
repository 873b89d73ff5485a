import Verif.Spec.NaturalLoop
import Verif.Spec.Dominance
import Verif.Proofs.Canonical
import Verif.Proofs.Course
/-! Cycles of a structured program go through the start of a loop. -/

namespace Magma.Canon
open Spec Spec.Program
variable {succ : BlockId → Option Step} {lp : Option (BlockId × BlockId)} {k : Option BlockId}

/-- The program has a loop that starts at `a` and contains `b`. -/
def InLoop (a b : BlockId) : Program → Prop
  | .done => False
  | .ret _ => False
  | .atom _ rest => InLoop a b rest
  | .sel _ l r _ _ rest => InLoop a b l ∨ InLoop a b r ∨ InLoop a b rest
  | .loop id body _ rest => (a = id ∧ (b = a ∨ b ∈ body.ids)) ∨ InLoop a b body ∨ InLoop a b rest
  | .exit _ _ _ rest => InLoop a b rest

/-- In `E` control can come from everywhere to everywhere. -/
structure Knot (succ : BlockId → Option Step) (E : BlockId → Prop) : Prop where
  any : ∃ x, E x
  all : ∀ x y, E x → E y → Walk succ E x y

theorem Walk.last {A : BlockId → Prop} {x y : BlockId} (h : Walk succ A x y) :
    ∃ z, A z ∧ Hop succ z y ∧ (x = z ∨ Walk succ A x z) := by
  induction h with
  | one ha e => exact ⟨_, ha, e, .inl rfl⟩
  | @step x y z ha e _ ih =>
    obtain ⟨v, hv, e', h⟩ := ih
    refine ⟨v, hv, e', .inr ?_⟩
    rcases h with rfl | h
    · exact .one ha e
    · exact .step ha e h

/-- A knot that has a block in a part of the program that is not left for others of its blocks lies in it. -/
theorem Knot.inside {E : BlockId → Prop} (n : Knot succ E) {p : Program} (g : Goes succ lp k p) (c : Clear lp k p)
    (hk : ∀ x, E x → k ≠ some x) (hl : ∀ x, E x → ∀ h, lp ≠ some (h, x)) {x : BlockId} (hx : E x) (hp : x ∈ p.ids) :
    ∀ y, E y → y ∈ p.ids := by
  intro y hy
  rcases within g c hk hl (n.all x y hx hy) hp with h | h | ⟨a, h, -⟩
  · exact h
  · exact absurd h (hk y hy)
  · exact absurd h (hl y hy a)

theorem self_no_hop {a t f : BlockId} (h : succ a = some (.go t f)) (ht : t ≠ a) (hf : f ≠ a) : ¬ Hop succ a a := by
  intro e
  rcases hop_go h e with h | h
  · exact ht h.symm
  · exact hf h.symm

/-- A knot has none of the blocks that are not come back to. -/
theorem Knot.avoids {E : BlockId → Prop} (n : Knot succ E) {a : BlockId} (h : ∀ z, E z → ¬ Hop succ z a) : ¬ E a := by
  intro ha
  obtain ⟨z, hz, e, -⟩ := (n.all a a ha ha).last
  exact h z hz e

theorem entry_ne {s rest : Program} {a t : BlockId} (c : Clear lp k s) (hi : s.ids = a :: rest.ids)
    (h : rest.entry k = some t) : t ≠ a :=
  fun e => (c.merge (before := [a]) hi h).1 (List.mem_singleton.mpr e)

/-- A knot among the blocks of a program has the block that starts a loop with all of its blocks. -/
theorem knot : ∀ (s : Program) (lp : Option (BlockId × BlockId)) (k : Option BlockId), Goes succ lp k s → Clear lp k s →
    ∀ E : BlockId → Prop, Knot succ E → (∀ x, E x → x ∈ s.ids) → ∃ a, E a ∧ ∀ b, E b → InLoop a b s := by
  intro s
  induction s with
  | done =>
    intro lp k _ _ E n hE
    obtain ⟨x, hx⟩ := n.any
    have := hE x hx
    simp [ids] at this
  | ret id =>
    intro lp k g _ E n hE
    obtain ⟨x, hx⟩ := n.any
    obtain ⟨z, hz, ⟨t, f, e, -⟩, -⟩ := (n.all x x hx hx).last
    have := List.mem_singleton.mp (hE z hz)
    subst this
    rw [g.2] at e
    cases e
  | atom id rest ih =>
    intro lp k g c E n hE
    obtain ⟨⟨t, hs, ht⟩, gr⟩ := g
    have hid : id ∈ (Program.atom id rest).ids := List.mem_cons_self
    have no : ¬ E id := n.avoids fun z hz e => by
      rcases List.mem_cons.mp (hE z hz) with rfl | h
      · have := entry_ne c rfl ht
        exact self_no_hop hs this this e
      · rcases stays rest _ _ gr c.atom h e with h | h | ⟨b, h, -⟩
        · exact (List.nodup_cons.mp c.nodup).1 h
        · exact c.last _ h hid
        · exact (c.loop _ _ h).2.1 hid
    refine ih lp k gr c.atom E n fun x hx => ?_
    rcases List.mem_cons.mp (hE x hx) with rfl | h
    · exact absurd hx no
    · exact h
  | exit id brk w rest ih =>
    intro lp k g c E n hE
    obtain ⟨h, m, t, f, hlp, hk, hs, hf, ht, gr⟩ := by exact g
    have hid : id ∈ (Program.exit id brk w rest).ids := List.mem_cons_self
    have no : ¬ E id := n.avoids fun z hz e => by
      by_cases hne : z = id
      · subst hne
        refine self_no_hop hs (entry_ne c rfl ht) ?_ e
        intro hfz
        cases brk with
        | true => exact (c.loop _ _ hlp).2.1 (by rw [if_pos rfl] at hf; rw [← hf, hfz]; exact hid)
        | false => exact (c.loop _ _ hlp).1 (by rw [if_neg (by simp)] at hf; rw [← hf, hfz]; exact hid)
      · exact exit_no_return g c z (hE z hz) hne e
    refine ih lp k gr c.exit E n fun x hx => ?_
    rcases List.mem_cons.mp (hE x hx) with rfl | h
    · exact absurd hx no
    · exact h
  | sel id l r hint w rest ihl ihr ih =>
    intro lp k g c E n hE
    obtain ⟨t, f, m, hs, hm, ht, hf, gl, gr, gs⟩ := by exact g
    obtain ⟨cl, cr⟩ := c.selParts hm
    have hma := (c.merge (before := id :: (l.ids ++ r.ids)) rfl hm).1
    simp only [List.mem_cons, List.mem_append, not_or] at hma
    have no : ¬ E id := n.avoids fun z hz e => by
      by_cases hne : z = id
      · subst hne
        refine self_no_hop hs ?_ ?_ e
        · rintro rfl
          rcases entry_cases ht with h | ⟨-, h⟩
          · exact (sel_disjoint c).1 h
          · exact hma.1 (Option.some.inj h)
        · rintro rfl
          rcases entry_cases hf with h | ⟨-, h⟩
          · exact (sel_disjoint c).2.1 h
          · exact hma.1 (Option.some.inj h)
      · exact sel_no_return g c z (hE z hz) hne e
    have out : ∀ x, E x → k ≠ some x ∧ ∀ h, lp ≠ some (h, x) := fun x hx => c.off (hE x hx)
    by_cases hr : ∃ x, E x ∧ x ∈ rest.ids
    · obtain ⟨x, hx, hxr⟩ := hr
      obtain ⟨a, ha, h⟩ := ih lp k gs c.selRest E n
        (n.inside gs c.selRest (fun y hy => (out y hy).1) (fun y hy => (out y hy).2) hx hxr)
      exact ⟨a, ha, fun b hb => .inr (.inr (h b hb))⟩
    · have off : ∀ x, E x → some m ≠ some x := by
        intro x hx h
        cases h
        rcases entry_cases hm with h | ⟨-, h⟩
        · exact hr ⟨m, hx, h⟩
        · exact (out m hx).1 h
      obtain ⟨x, hx⟩ := n.any
      have hxs := hE x hx
      simp only [ids, List.mem_cons, List.mem_append] at hxs
      rcases hxs with rfl | (h | h) | h
      · exact absurd hx no
      · obtain ⟨a, ha, h⟩ := ihl _ _ gl cl E n (n.inside gl cl off (fun y hy => (out y hy).2) hx h)
        exact ⟨a, ha, fun b hb => .inl (h b hb)⟩
      · obtain ⟨a, ha, h⟩ := ihr _ _ gr cr E n (n.inside gr cr off (fun y hy => (out y hy).2) hx h)
        exact ⟨a, ha, fun b hb => .inr (.inl (h b hb))⟩
      · exact absurd ⟨x, hx, h⟩ hr
  | loop id body hint rest ihb ih =>
    intro lp k g c E n hE
    obtain ⟨t, m, hs, hm, ht, gb, gs⟩ := g
    have out : ∀ x, E x → k ≠ some x ∧ ∀ h, lp ≠ some (h, x) := fun x hx => c.off (hE x hx)
    by_cases hr : ∃ x, E x ∧ x ∈ rest.ids
    · obtain ⟨x, hx, hxr⟩ := hr
      obtain ⟨a, ha, h⟩ := ih lp k gs c.loopRest E n
        (n.inside gs c.loopRest (fun y hy => (out y hy).1) (fun y hy => (out y hy).2) hx hxr)
      exact ⟨a, ha, fun b hb => .inr (.inr (h b hb))⟩
    · have part : ∀ x, E x → x = id ∨ x ∈ body.ids := by
        intro x hx
        have := hE x hx
        simp only [ids, List.mem_cons, List.mem_append] at this
        rcases this with h | h | h
        · exact .inl h
        · exact .inr h
        · exact absurd ⟨x, hx, h⟩ hr
      by_cases hi : E id
      · exact ⟨id, hi, fun b hb => .inl ⟨rfl, part b hb⟩⟩
      · obtain ⟨a, ha, h⟩ := ihb _ _ gb (c.loopBody hm) E n fun x hx => by
          rcases part x hx with rfl | h
          · exact absurd hx hi
          · exact h
        exact ⟨a, ha, fun b hb => .inr (.inl (h b hb))⟩

/-- From the blocks of a loop control can come back to its start. -/
theorem comes_round : ∀ (s : Program) (lp : Option (BlockId × BlockId)) (k : Option BlockId), Goes succ lp k s →
    Clear lp k s → LoopsEndAll s.toChains → ∀ {a b : BlockId}, InLoop a b s →
      a ∈ s.ids ∧ b ∈ s.ids ∧ ∃ u, u ≠ a ∧ InLoop a u s ∧ Hop succ u a ∧ (b = a ∨ b = u ∨ Walk succ (· ≠ a) b u ∧ b ≠ a) := by
  intro s
  induction s with
  | done => exact fun _ _ _ _ _ _ _ h => h.elim
  | ret id => exact fun _ _ _ _ _ _ _ h => h.elim
  | atom id rest ih =>
    intro lp k g c hl a b h
    obtain ⟨h1, h2, u, h3, h4⟩ := ih lp k g.2 c.atom hl.2 h
    exact ⟨List.mem_cons_of_mem _ h1, List.mem_cons_of_mem _ h2, u, h3, h4⟩
  | exit id brk w rest ih =>
    intro lp k g c hl a b h
    obtain ⟨-, -, -, -, -, -, -, -, -, gr⟩ := g
    obtain ⟨h1, h2, u, h3, h4⟩ := ih lp k gr c.exit ((loopsEnd_toChain _).mp hl.1.1) h
    exact ⟨List.mem_cons_of_mem _ h1, List.mem_cons_of_mem _ h2, u, h3, h4⟩
  | sel id l r hint w rest ihl ihr ih =>
    intro lp k g c hl a b h
    obtain ⟨t, f, m, hs, hm, ht, hf, gl, gr, gs⟩ := g
    obtain ⟨cl, cr⟩ := c.selParts hm
    obtain ⟨⟨hl1, hl2⟩, hl3⟩ := hl
    rcases h with h | h | h
    · obtain ⟨h1, h2, u, h3, h4, h5⟩ := ihl _ _ gl cl ((loopsEnd_toChain _).mp hl1) h
      exact ⟨by simp [ids, h1], by simp [ids, h2], u, h3, .inl h4, h5⟩
    · obtain ⟨h1, h2, u, h3, h4, h5⟩ := ihr _ _ gr cr ((loopsEnd_toChain _).mp hl2) h
      exact ⟨by simp [ids, h1], by simp [ids, h2], u, h3, .inr (.inl h4), h5⟩
    · obtain ⟨h1, h2, u, h3, h4, h5⟩ := ih _ _ gs c.selRest hl3 h
      exact ⟨by simp [ids, h1], by simp [ids, h2], u, h3, .inr (.inr h4), h5⟩
  | loop id body hint rest ihb ih =>
    intro lp k g c hl a b h
    have back := comes_back g hl
    obtain ⟨t, m, hs, hm, ht, gb, gs⟩ := g
    obtain ⟨⟨hbr, hlb⟩, hlr⟩ := hl
    rcases h with ⟨rfl, h⟩ | h | h
    · have ne : ∀ x ∈ body.ids, x ≠ a := fun x hx e => (loop_disjoint c).1 (e ▸ hx)
      rcases h with rfl | h
      · obtain ⟨x, hx, -, w⟩ := back
        obtain ⟨z, hz, e, -⟩ := w.last
        exact ⟨List.mem_cons_self, List.mem_cons_self, z, ne z hz, .inl ⟨rfl, .inr hz⟩, e, .inl rfl⟩
      · obtain ⟨z, hz, e, h'⟩ := ((comes body ((loopsEnd_toChain _).mp hlb)).1 _ _ gb b h).last
        refine ⟨List.mem_cons_self, by simp [ids, h], z, ne z hz, .inl ⟨rfl, .inr hz⟩, e, .inr ?_⟩
        rcases h' with h' | h'
        · exact .inl h'
        · exact .inr ⟨h'.mono ne, ne b h⟩
    · obtain ⟨h1, h2, u, h3, h4, h5⟩ := ihb _ _ gb (c.loopBody hm) ((loopsEnd_toChain _).mp hlb) h
      exact ⟨by simp [ids, h1], by simp [ids, h2], u, h3, .inr (.inl h4), h5⟩
    · obtain ⟨h1, h2, u, h3, h4, h5⟩ := ih _ _ gs c.loopRest hlr h
      exact ⟨by simp [ids, h1], by simp [ids, h2], u, h3, .inr (.inr h4), h5⟩

/-- A program has the loops its chain has. -/
theorem withinLoop_toChain (a b : BlockId) (s : Program) :
    (WithinLoop a.val b.val s.toChain ↔ InLoop a b s) ∧ (WithinLoopAny a.val b.val s.toChains ↔ InLoop a b s) := by
  have val : ∀ {x y : BlockId}, x.val = y.val ↔ x = y := by
    intro x y; cases x; cases y; simp
  induction s with
  | done => simp [toChain, toChains, WithinLoop, WithinLoopAny, InLoop]
  | ret id => simp [toChain, toChains, WithinLoop, WithinLoopAny, InLoop]
  | atom id rest ih => simp [toChain, toChains, WithinLoop, WithinLoopAny, InLoop, ih]
  | exit id brk w rest ih =>
    cases brk <;> simp [toChain, toChains, WithinLoop, WithinLoopAny, InLoop, ih]
  | sel id l r hint w rest ihl ihr ih =>
    simp [toChain, toChains, WithinLoop, WithinLoopAny, InLoop, ihl, ihr, ih, or_assoc]
  | loop id body hint rest ihb ih =>
    have : b.val ∈ chainIds body.toChain ↔ b ∈ body.ids := by
      rw [(chainIds_toChain body).1, List.mem_map]
      exact ⟨fun ⟨x, hx, e⟩ => val.mp e ▸ hx, fun h => ⟨b, h, rfl⟩⟩
    simp only [toChain, toChains, WithinLoop, WithinLoopAny, InLoop, ihb, ih, val, this, or_assoc, and_self]

end Magma.Canon
