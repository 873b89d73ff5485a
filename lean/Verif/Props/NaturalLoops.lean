import Verif.Proofs.NaturalGraph
import Verif.Props.Canonical
import Verif.Props.Dominators
/-! C97: recovered loops and the natural loops of the control flow graph. -/

namespace Magma.Props
open Spec Standard
variable {X : Type}

/-- The structured program behind recovered control flow, and what its blocks have to do with it -/
theorem program_of {f : FunctionDefinition X} {fuel : Nat} {chain : ControlFlowChain}
    (h : findControlFlow fuel f = .ok chain) (hd : (chainIds chain).Nodup) {first : BasicBlock X}
    {more : List (BasicBlock X)} (hb : f.blocks = first :: more) :
    ∃ s : Program, chain = s.toChain ∧ Canon.Goes (Canon.stepOf f.blocks) none none s ∧ Canon.Clear none none s ∧
      s.entry none = some ⟨labelId first⟩ ∧ (∀ b, Comes f.blocks (labelId first) b → ⟨b⟩ ∈ s.ids) := by
  have hn := labels_distinct h
  obtain ⟨s, first', more', hb', -, hs, he, -, rfl⟩ := C30_accepted_iff.mp ⟨fuel, h⟩
  cases hb.symm.trans hb'
  rw [(Program.chainIds_toChain s).1, ids_nodup_vals] at hd
  have g := Canon.goes_of_spelled s _ _ hs
  have c : Canon.Clear none none s := ⟨hd, nofun, nofun⟩
  refine ⟨s, rfl, g, c, he, ?_⟩
  rintro b ⟨l, hl⟩
  have hes : (⟨labelId first⟩ : BlockId) ∈ s.ids := by
    rcases Canon.entry_cases he with h | ⟨-, h⟩
    · exact h
    · cases h
  by_cases hp : l = []
  · subst hp
    obtain ⟨t, e⟩ := hl.head
    cases e
    exact hes
  · rcases Canon.within g c (A := fun _ => True) (fun _ _ => nofun) (fun _ _ _ => nofun)
      (course_walk hn hl hp fun _ _ => trivial) hes with h | h | ⟨_, h, -⟩
    · exact h
    · cases h
    · cases h

/-- C97: every cycle along branches that can be come to lies in a recovered loop, and the block that starts this loop is on
the cycle. -/
theorem C97_cycle {f : FunctionDefinition X} {fuel : Nat} {chain : ControlFlowChain}
    (h : findControlFlow fuel f = .ok chain) (hd : (chainIds chain).Nodup) {first : BasicBlock X}
    {more : List (BasicBlock X)} (hb : f.blocks = first :: more) {u : UInt32} {l : List UInt32}
    (hu : Comes f.blocks (labelId first) u) (hl : Course f.blocks u (u :: l ++ [u])) :
    ∃ a ∈ u :: l, ∀ b ∈ u :: l, WithinLoop a b chain := by
  have hn := labels_distinct h
  obtain ⟨s, rfl, g, c, -, hin⟩ := program_of h hd hb
  have walkTo : ∀ x ∈ u :: l, Canon.Walk (Canon.stepOf f.blocks) (fun x => x.val ∈ u :: l) ⟨x⟩ ⟨u⟩ := by
    intro x hx
    obtain ⟨p, q, hpq⟩ := List.append_of_mem hx
    have hl := hl
    rw [hpq, List.append_assoc] at hl
    refine course_walk hn (p := x :: q) hl.split.2 (by simp) fun z hz => ?_
    rw [hpq]
    exact List.mem_append_right _ hz
  have walkFrom : ∀ x ∈ u :: l, Canon.Walk (Canon.stepOf f.blocks) (fun x => x.val ∈ u :: l) ⟨u⟩ ⟨x⟩ := by
    intro x hx
    by_cases hxu : x = u
    · exact hxu ▸ walkTo u List.mem_cons_self
    · obtain ⟨p, q, rfl⟩ := List.append_of_mem ((List.mem_cons.mp hx).resolve_left hxu)
      have hl : Course f.blocks u ((u :: p) ++ x :: (q ++ [u])) := by simpa using hl
      refine course_walk hn hl.split.1 (by simp) fun z hz => ?_
      rw [← List.cons_append]
      exact List.mem_append_left _ hz
  obtain ⟨a, ha, hall⟩ := Canon.knot s none none g c (fun x => x.val ∈ u :: l)
    ⟨⟨⟨u⟩, List.mem_cons_self⟩, fun x y hx hy => (walkTo x.val hx).trans (walkFrom y.val hy)⟩ (by
      intro x hx
      refine hin x.val ?_
      obtain ⟨p, hp⟩ := hu
      obtain ⟨p', q', hpq⟩ := List.append_of_mem hx
      rw [hpq, List.append_assoc] at hl
      have h2 := hl.split.1
      obtain ⟨t, ht⟩ := h2.head
      refine ⟨p ++ p', ?_⟩
      rw [List.append_assoc, ht]
      exact hp.join (ht ▸ h2))
  exact ⟨a.val, ha, fun b hb => (Canon.withinLoop_toChain a ⟨b⟩ s).1.mpr (hall ⟨b⟩ hb)⟩

/-- C97: what is in the natural loop of a block is in the recovered loop that starts there. -/
theorem C97_found {f : FunctionDefinition X} {fuel : Nat} {chain : ControlFlowChain}
    (h : findControlFlow fuel f = .ok chain) (hd : (chainIds chain).Nodup) {first : BasicBlock X}
    {more : List (BasicBlock X)} (hb : f.blocks = first :: more) {a b : UInt32}
    (hn : NaturalLoop f.blocks (labelId first) a b) : WithinLoop a b chain := by
  obtain ⟨u, hu, hcb, hab⟩ := hn
  obtain ⟨hua, hcu, hdu⟩ := id hu
  -- a cycle through `a` and `b` that `a` dominates
  have cycle : ∃ r, Course f.blocks a (a :: r ++ [a]) ∧ b ∈ a :: r ∧
      ∀ y ∈ r, ∃ l, Course f.blocks y (l ++ [u]) ∧ a ∉ l ++ [u] := by
    rcases hab with rfl | ⟨l, hl, ha⟩
    · by_cases hub : u = b
      · subst hub
        obtain ⟨x, hx, rfl, ht⟩ := id hua
        exact ⟨[], .step hua (.stop hx), List.mem_cons_self, nofun⟩
      · have hself : Course f.blocks u ([] ++ [u]) := by
          obtain ⟨x, hx, rfl, -⟩ := id hua
          exact .stop hx
        obtain ⟨r, h1, -, h3⟩ := closes hu hcu hself (by simpa using fun e => hub e.symm)
        exact ⟨r, h1, List.mem_cons_self, h3⟩
    · obtain ⟨r, h1, h2, h3⟩ := closes hu hcb hl ha
      exact ⟨r, h1, List.mem_cons_of_mem _ h2, h3⟩
  obtain ⟨r, hr, hbr, hall⟩ := cycle
  have hca : Comes f.blocks (labelId first) a := by
    obtain ⟨p, hp⟩ := hcu
    obtain ⟨x, y, hxy⟩ := List.append_of_mem (hdu p hp)
    rw [hxy] at hp
    exact ⟨x, hp.split.1⟩
  obtain ⟨c, hc, hw⟩ := C97_cycle h hd hb hca hr
  by_cases hac : c = a
  · exact hac ▸ hw b hbr
  · exfalso
    obtain ⟨l, hl, hal⟩ := hall c ((List.mem_cons.mp hc).resolve_left hac)
    -- the start of the loop comes before `a`
    have h1 : ∀ l, Course f.blocks (labelId first) (l ++ [a]) → c ∈ l := by
      rcases guards_of_within (a := ⟨c⟩) (b := ⟨a⟩) (hw a List.mem_cons_self) with e | hg
      · cases e
        exact absurd rfl hac
      · exact (C91_dominates h hb ⟨c⟩ ⟨a⟩).mpr ((C91_nesting h hd).1 hg)
    -- and after it
    have h2 : ∀ p, Course f.blocks (labelId first) (p ++ [c]) → a ∈ p := by
      intro p hp
      obtain ⟨t, ht⟩ := hl.head
      have hj : Course f.blocks (labelId first) (p ++ l ++ [u]) := by
        rw [List.append_assoc, ht]
        exact hp.join (ht ▸ hl)
      have := hdu _ hj
      rw [List.append_assoc, List.mem_append] at this
      exact this.resolve_right hal
    exact before_asymm h2 h1 hca

/-- C97: if no block comes twice and every loop has a break, the recovered loops are exactly the natural loops. -/
theorem C97_natural {f : FunctionDefinition X} {fuel : Nat} {chain : ControlFlowChain}
    (h : findControlFlow fuel f = .ok chain) (hd : (chainIds chain).Nodup) (hl : LoopsEnd chain) {first : BasicBlock X}
    {more : List (BasicBlock X)} (hb : f.blocks = first :: more) (a b : UInt32) :
    WithinLoop a b chain ↔ NaturalLoop f.blocks (labelId first) a b := by
  refine ⟨fun hw => ?_, C97_found h hd hb⟩
  obtain ⟨s, rfl, g, c, he, -⟩ := program_of h hd hb
  have hl' := (Program.loopsEnd_toChain s).mp hl
  obtain ⟨ha, hbs, u, hne, hu, e, hab⟩ := Canon.comes_round s _ _ g c hl' ((Canon.withinLoop_toChain ⟨a⟩ ⟨b⟩ s).1.mp hw)
  have hus := (Canon.comes_round s _ _ g c hl' hu).2.1
  have known : ∀ x ∈ s.ids, ∃ b ∈ f.blocks, labelId b = x.val := by
    intro x hx
    have := Canon.goes_some s _ _ g x hx
    unfold Canon.stepOf at this
    cases hx : blockOf f.blocks x with
    | none => rw [hx] at this; exact absurd rfl this
    | some b => exact ⟨b, Standard.blockOf_mem hx⟩
  have come : ∀ x ∈ s.ids, Comes f.blocks (labelId first) x.val := by
    intro x hx
    rcases Canon.arrives s hl' _ _ _ g he x hx with rfl | w
    · exact ⟨[], .stop (hb ▸ List.mem_cons_self)⟩
    · obtain ⟨p, hp, -⟩ := walk_course w (known x hx)
      exact ⟨p, hp⟩
  refine ⟨u.val, ⟨branch_of_hop e, come u hus, ?_⟩, come ⟨b⟩ hbs, ?_⟩
  · intro p hp
    rcases guards_of_within ((Canon.withinLoop_toChain ⟨a⟩ u s).1.mpr hu) with e | hg
    · exact absurd e hne
    · exact List.mem_append_left _ ((C91_dominates h hb ⟨a⟩ u).mpr ((C91_nesting h hd).1 hg) p hp)
  · have hnu : a ≠ u.val := fun e => hne (by cases u; cases e; rfl)
    rcases hab with e | e | ⟨w, -⟩
    · exact .inl (congrArg BlockId.val e)
    · subst e
      obtain ⟨x, hx, hxl⟩ := known _ hus
      have hxl : labelId x = b := hxl
      subst hxl
      exact .inr ⟨[], .stop hx, by simpa using hnu⟩
    · obtain ⟨p, hp, hpa⟩ := walk_course w (known u hus)
      refine .inr ⟨p, hp, ?_⟩
      rw [List.mem_append, List.mem_singleton]
      rintro (h | h)
      · exact hpa a h rfl
      · exact hnu h

/-! ### Samples -/

/-- The loop of the sample, at block 12, with the blocks 13, 14 and 15: a natural loop -/
example : NaturalLoop sampleBlocks 10 12 15 :=
  (C97_natural sample_found (by decide) (by simp [sampleChain, LoopsEnd, LoopsEndAll, canBreak]) rfl 12 15).mp
    (by simp [sampleChain, WithinLoop, WithinLoopAny, chainIds, chainIdsAll])
/-- Block 16, after the loop, is not in it. -/
example : ¬ NaturalLoop sampleBlocks 10 12 16 := fun h =>
  absurd ((C97_natural sample_found (by decide) (by simp [sampleChain, LoopsEnd, LoopsEndAll, canBreak]) rfl 12 16).mpr h)
    (by simp [sampleChain, WithinLoop, WithinLoopAny, chainIds, chainIdsAll])

/-- Blocks 12 and 15 of the sample, as C97_found takes them: the branch goes back from block 15. -/
example (h : NaturalLoop sampleBlocks 10 12 15) : WithinLoop 12 15 sampleChain :=
  C97_found sample_found (by decide) rfl h

/-- A loop at block 12 with the blocks 13 and 11, and a branch from outside to block 11 -/
def sideDoorBlocks : List (BasicBlock Empty) :=
  [ emptyBlock 10 (some (.OpSelectionMerge ⟨⟨12⟩, ⟨false, false⟩⟩)) (.OpBranchConditional ⟨⟨5⟩, ⟨11⟩, ⟨12⟩, none⟩),
    emptyBlock 11 none (.OpBranch ⟨⟨12⟩⟩),
    emptyBlock 12 (some (.OpLoopMerge ⟨⟨19⟩, ⟨11⟩, ⟨false, false, false, none⟩⟩)) (.OpBranch ⟨⟨13⟩⟩),
    emptyBlock 13 none (.OpBranchConditional ⟨⟨6⟩, ⟨11⟩, ⟨19⟩, none⟩),
    emptyBlock 19 none (.OpReturn {}) ]

/-- C97 needs that no block is mentioned twice: here block 11 is. The recovered control flow has a loop, but the function has
no natural loop, since neither block 11 nor block 12 dominates the other. Control flow is recovered from functions that
are not reducible. -/
theorem C97_twice : ∃ chain, findControlFlow 9 (functionOf sideDoorBlocks) = .ok chain ∧ LoopsEnd chain ∧
    WithinLoop 12 11 chain ∧ ∀ a b, ¬ NaturalLoop sideDoorBlocks 10 a b := by
  have c0 : ∀ b ∈ sideDoorBlocks, Course sideDoorBlocks (labelId b) [labelId b] := fun b hb => .stop hb
  have e : ∀ b ∈ sideDoorBlocks, ∀ v ∈ targets (endOf b), Branch sideDoorBlocks (labelId b) v := fun b hb v hv =>
    ⟨b, hb, rfl, hv⟩
  simp only [sideDoorBlocks, List.forall_mem_cons, List.not_mem_nil, false_imp_iff, implies_true, and_true] at c0 e
  obtain ⟨s10, s11, s12, s13, -⟩ := c0
  obtain ⟨e10, e11, e12, e13, -⟩ := e
  refine ⟨.Block [.Selection ⟨10⟩ (.Block [.Atom ⟨11⟩]) (.Block []) ⟨false, false⟩ none,
      .Loop ⟨12⟩ (.Selection ⟨13⟩ (.Block [.Atom ⟨11⟩]) .Break ⟨false, false⟩ none) ⟨false, false, false, none⟩ none,
      .Atom ⟨19⟩], rfl, by simp [LoopsEnd, LoopsEndAll, canBreak],
    by simp [WithinLoop, WithinLoopAny, chainIds, chainIdsAll], ?_⟩
  rintro a b ⟨u, ⟨⟨x, hx, rfl, ht⟩, -, hd⟩, -⟩
  simp only [sideDoorBlocks, List.mem_cons, List.not_mem_nil, or_false] at hx
  rcases hx with rfl | rfl | rfl | rfl | rfl
  · have := hd [] s10
    rcases List.mem_cons.mp ht with rfl | ht
    · revert this; decide
    · cases List.mem_singleton.mp ht
      revert this; decide
  · have := hd [10] (.step (e10 11 (by decide)) s11)
    cases List.mem_singleton.mp ht
    revert this; decide
  · have := hd [10] (.step (e10 12 (by decide)) s12)
    cases List.mem_singleton.mp ht
    revert this; decide
  · have := hd [10, 12] (.step (e10 12 (by decide)) (.step (e12 13 (by decide)) s13))
    rcases List.mem_cons.mp ht with rfl | ht
    · revert this; decide
    · cases List.mem_singleton.mp ht
      revert this; decide
  · cases ht

/-- A loop that never ends, and then another loop -/
def neverBlocks : List (BasicBlock Empty) :=
  [ emptyBlock 10 (some (.OpLoopMerge ⟨⟨12⟩, ⟨11⟩, ⟨false, false, false, none⟩⟩)) (.OpBranch ⟨⟨11⟩⟩),
    emptyBlock 11 none (.OpBranch ⟨⟨10⟩⟩),
    emptyBlock 12 (some (.OpLoopMerge ⟨⟨19⟩, ⟨14⟩, ⟨false, false, false, none⟩⟩)) (.OpBranch ⟨⟨13⟩⟩),
    emptyBlock 13 none (.OpBranchConditional ⟨⟨6⟩, ⟨14⟩, ⟨19⟩, none⟩),
    emptyBlock 14 none (.OpBranch ⟨⟨12⟩⟩),
    emptyBlock 19 none (.OpReturn {}) ]

/-- C97 needs that every loop has a break: what comes after a loop without one is recovered, but is not come to. -/
theorem C97_endless : ∃ chain, findControlFlow 9 (functionOf neverBlocks) = .ok chain ∧ (chainIds chain).Nodup ∧
    WithinLoop 12 13 chain ∧ ∀ b, ¬ NaturalLoop neverBlocks 10 12 b := by
  refine ⟨.Block [.Loop ⟨10⟩ (.Block [.Atom ⟨11⟩]) ⟨false, false, false, none⟩ none,
      .Loop ⟨12⟩ (.Selection ⟨13⟩ (.Block [.Atom ⟨14⟩]) .Break ⟨false, false⟩ none) ⟨false, false, false, none⟩ none,
      .Atom ⟨19⟩], rfl, by decide, by simp [WithinLoop, WithinLoopAny, chainIds, chainIdsAll], ?_⟩
  have key : ∀ u l, Course neverBlocks u l → (u = 10 ∨ u = 11) → ∀ x ∈ l, x = 10 ∨ x = 11 := by
    intro u l h
    induction h with
    | stop _ => exact fun h x hx => List.mem_singleton.mp hx ▸ h
    | step e _ ih =>
      intro h x hx
      rcases List.mem_cons.mp hx with rfl | hx
      · exact h
      · refine ih ?_ x hx
        obtain ⟨b, hb, rfl, ht⟩ := e
        simp only [neverBlocks, List.mem_cons, List.not_mem_nil, or_false] at hb
        rcases hb with rfl | rfl | rfl | rfl | rfl | rfl
        · exact .inr (List.mem_singleton.mp ht)
        · exact .inl (List.mem_singleton.mp ht)
        all_goals exact absurd h (by decide)
  rintro b ⟨u, ⟨⟨x, hx, rfl, ht⟩, ⟨l, hl⟩, -⟩, -⟩
  have hu := key _ _ hl (.inl rfl) (labelId x) (by simp)
  simp only [neverBlocks, List.mem_cons, List.not_mem_nil, or_false] at hx
  rcases hx with rfl | rfl | rfl | rfl | rfl | rfl <;> revert hu ht <;> decide

/-- A cycle of the sample, and the loop around it -/
example : ∃ a ∈ [14, 12, 13], ∀ b ∈ [14, 12, 13], WithinLoop a b sampleChain := by
  have e : ∀ b ∈ sampleBlocks, ∀ v ∈ targets (endOf b), Branch sampleBlocks (labelId b) v := fun b hb v hv =>
    ⟨b, hb, rfl, hv⟩
  have s14 : Course sampleBlocks 14 [14] := .stop (b := sampleBlocks[4]) (by simp [sampleBlocks])
  simp only [sampleBlocks, List.forall_mem_cons, List.not_mem_nil, false_imp_iff, implies_true, and_true] at e
  obtain ⟨e10, -, e12, e13, e14, -⟩ := e
  have round : Course sampleBlocks 12 [12, 13, 14] := .step (e12 13 (by decide)) (.step (e13 14 (by decide)) s14)
  exact C97_cycle sample_found (by decide) rfl (u := 14) (l := [12, 13]) ⟨[10, 12, 13], .step (e10 12 (by decide)) round⟩
    (.step (e14 12 (by decide)) round)

end Magma.Props
