import Verif.Proofs.Excerpt
import Verif.Props.ControlFlow
/-! C98: what is recovered for a construct does not depend on what is around it. -/

namespace Magma.Props
open Spec Magma.Excerpt
variable {X Y : Type}

/-- A program of blocks of the function is one of blocks of its excerpt. -/
theorem excerpt_ends {f : FunctionDefinition X} {g : FunctionDefinition Y} {chain : ControlFlowChain} {start m : UInt32}
    (hg : IsExcerpt f g chain start m) {s : Program} {lp : Option (BlockId × BlockId)} {k : Option BlockId}
    (hs : ∀ x ∈ s.ids, x.val ∈ chainIds chain) (h : Spelt (endsOf f.blocks) lp k s) : Spelt (endsOf g.blocks) lp k s := by
  refine h.congr fun x hx e he => ?_
  obtain ⟨b, hb, rfl⟩ := endsOf_iff.mp he
  obtain ⟨hb, hl⟩ := blockOf_some hb
  obtain ⟨b', hb', hl', he'⟩ := hg.ends b hb (hl ▸ hs x hx)
  have := blockOf_mem hg.labels hb'
  rw [hl', hl] at this
  exact endsOf_iff.mpr ⟨b', this, he'⟩

theorem excerpt_last {f : FunctionDefinition X} {g : FunctionDefinition Y} {chain : ControlFlowChain} {start m : UInt32}
    (hg : IsExcerpt f g chain start m) : endsOf g.blocks ⟨m⟩ = some .returns := by
  obtain ⟨b, hb, rfl, he⟩ := hg.last
  exact endsOf_iff.mpr ⟨b, blockOf_mem hg.labels hb, he⟩

/-- Control flow is recovered from an excerpt for which there is a program. -/
theorem excerpt_found {f : FunctionDefinition X} {g : FunctionDefinition Y} {chain : ControlFlowChain} {start m : UInt32}
    (hg : IsExcerpt f g chain start m) {s : Program} (hs : Spelt (endsOf g.blocks) none none s)
    (he : s.entry none = some ⟨start⟩) (hn : s.Nested [] none) : ∃ fuel, findControlFlow fuel g = .ok s.toChain := by
  obtain ⟨b, more, hb, rfl⟩ := hg.first
  exact C30_accepted_iff.mpr ⟨s, b, more, hb, hg.labels, (spelt_iff s none none).mpr hs, he, hn, rfl⟩

theorem arm_found {f : FunctionDefinition X} {g : FunctionDefinition Y} {s : Program} {lp : Option (BlockId × BlockId)}
    {avoid : List BlockId} {start m : UInt32} (hs : Spelt (endsOf f.blocks) lp (some ⟨m⟩) s)
    (hn : s.Nested avoid (some ⟨m⟩)) (he : s.entry (some ⟨m⟩) = some ⟨start⟩) (hc : SelfContained s.toChain)
    (hg : IsExcerpt f g s.toChain start m) : ∃ fuel, findControlFlow fuel g = .ok (followedBy s.toChain m) := by
  have hc := (noExit_iff s).1.mp hc
  have hs' := excerpt_ends hg (fun x hx => by rw [(ids_toChain s).1]; exact List.mem_map_of_mem hx) hs
  rw [← close_toChain hc hs]
  exact excerpt_found hg (close_spelt (excerpt_last hg) hc hs') (by rw [close_entry]; exact he) (close_nested hn)

theorem found_spelt {f : FunctionDefinition X} {fuel : Nat} {chain : ControlFlowChain}
    (h : findControlFlow fuel f = .ok chain) : ∃ s : Program, chain = s.toChain ∧ (f.blocks.map labelId).Nodup ∧
      Spelt (endsOf f.blocks) none none s ∧ s.Nested [] none := by
  obtain ⟨s, first, more, hb, hn, hs, he, hnest, rfl⟩ := C30_accepted_iff.mp ⟨fuel, h⟩
  exact ⟨s, rfl, hn, (spelt_iff s none none).mp hs, hnest⟩

/-- C98, for the first arm of a selection: if nothing in it leaves a loop around the selection, and the blocks of the arm
and the block where the selection merges are made a function of their own, what is recovered for that function is the
arm, and then the block where it merges. -/
theorem C98_left {f : FunctionDefinition X} {g : FunctionDefinition Y} {fuel : Nat}
    {chain left right : ControlFlowChain} {hint hint' : SelectionControl} {w w' : Option BranchWeights}
    {b : BasicBlock X} {t e m : UInt32} (h : findControlFlow fuel f = .ok chain)
    (hi : PartOf (.Selection ⟨labelId b⟩ left right hint w) chain) (hb : b ∈ f.blocks)
    (he : endOf b = .chooseSelection t e w' m hint') (hc : SelfContained left) (hg : IsExcerpt f g left t m) :
    ∃ fuel', findControlFlow fuel' g = .ok (followedBy left m) := by
  obtain ⟨s, rfl, hd, hs, hn⟩ := found_spelt h
  obtain ⟨l, r, lp, avoid, rfl, rfl, -, -, h1, h2, h3, h4, h5, h6, -⟩ := selection_at
    (endsOf_iff.mpr ⟨b, blockOf_mem hd hb, he⟩) hs hn (inside_items (fun _ e => by cases e) hi)
  exact arm_found h3 h5 h1 hc hg

/-- C98, for the second arm of a selection -/
theorem C98_right {f : FunctionDefinition X} {g : FunctionDefinition Y} {fuel : Nat}
    {chain left right : ControlFlowChain} {hint hint' : SelectionControl} {w w' : Option BranchWeights}
    {b : BasicBlock X} {t e m : UInt32} (h : findControlFlow fuel f = .ok chain)
    (hi : PartOf (.Selection ⟨labelId b⟩ left right hint w) chain) (hb : b ∈ f.blocks)
    (he : endOf b = .chooseSelection t e w' m hint') (hc : SelfContained right) (hg : IsExcerpt f g right e m) :
    ∃ fuel', findControlFlow fuel' g = .ok (followedBy right m) := by
  obtain ⟨s, rfl, hd, hs, hn⟩ := found_spelt h
  obtain ⟨l, r, lp, avoid, rfl, rfl, -, -, h1, h2, h3, h4, h5, h6, -⟩ := selection_at
    (endsOf_iff.mpr ⟨b, blockOf_mem hd hb, he⟩) hs hn (inside_items (fun _ e => by cases e) hi)
  exact arm_found h4 h6 h2 hc hg

/-- C98, for a selection: it is recovered as it was, and then the block where it merges. -/
theorem C98_selection {f : FunctionDefinition X} {g : FunctionDefinition Y} {fuel : Nat}
    {chain left right : ControlFlowChain} {hint hint' : SelectionControl} {w w' : Option BranchWeights}
    {b : BasicBlock X} {t e m : UInt32} (h : findControlFlow fuel f = .ok chain)
    (hi : PartOf (.Selection ⟨labelId b⟩ left right hint w) chain) (hb : b ∈ f.blocks)
    (he : endOf b = .chooseSelection t e w' m hint') (hc : SelfContained left ∧ SelfContained right)
    (hg : IsExcerpt f g (.Selection ⟨labelId b⟩ left right hint w) (labelId b) m) :
    ∃ fuel', findControlFlow fuel' g = .ok (.Block [.Selection ⟨labelId b⟩ left right hint w, .Atom ⟨m⟩]) := by
  obtain ⟨s, rfl, hd, hs, hn⟩ := found_spelt h
  have hx := endsOf_iff.mpr ⟨b, blockOf_mem hd hb, he⟩
  obtain ⟨l, r, lp, avoid, rfl, rfl, rfl, rfl, h1, h2, h3, h4, h5, h6, -⟩ := selection_at hx hs hn
    (inside_items (fun _ e => by cases e) hi)
  have n1 := (noExit_iff l).1.mp hc.1
  have n2 := (noExit_iff r).1.mp hc.2
  have hs : Spelt (endsOf f.blocks) none (some ⟨m⟩) (.sel ⟨labelId b⟩ l r hint w .done) :=
    ⟨t, e, m, hx, rfl, h1, h2, h3.loops n1, h4.loops n2, nofun⟩
  refine excerpt_found (s := .sel ⟨labelId b⟩ l r hint w (.ret ⟨m⟩)) hg ?_ rfl
    ⟨nofun, nested_less (fun y hy => ?_) h5, nested_less (fun y hy => ?_) h6, nofun⟩
  rotate_left
  · exact (List.mem_singleton.mp hy) ▸ List.mem_cons_self
  · exact (List.mem_singleton.mp hy) ▸ List.mem_cons_self
  refine close_spelt (s := .sel ⟨labelId b⟩ l r hint w .done) (excerpt_last hg) ⟨n1, n2, trivial⟩
    (excerpt_ends (k := some ⟨m⟩) hg (fun x hx => ?_) hs)
  simp only [Program.ids, List.append_nil, List.mem_cons, List.mem_append] at hx
  simp only [chainIds, List.mem_cons, List.mem_append, (ids_toChain l).1, (ids_toChain r).1]
  exact hx.imp (congrArg BlockId.val) (Or.imp List.mem_map_of_mem List.mem_map_of_mem)

/-- C98, for a loop: it is recovered as it was, and then its merge block. -/
theorem C98_loop {f : FunctionDefinition X} {g : FunctionDefinition Y} {fuel : Nat}
    {chain inner : ControlFlowChain} {hint hint' : LoopControl} {w : Option BranchWeights}
    {b : BasicBlock X} {t m : UInt32} (h : findControlFlow fuel f = .ok chain)
    (hi : PartOf (.Loop ⟨labelId b⟩ inner hint w) chain) (hb : b ∈ f.blocks)
    (he : endOf b = .gotoLoop t m hint') (hg : IsExcerpt f g (.Loop ⟨labelId b⟩ inner hint w) (labelId b) m) :
    ∃ fuel', findControlFlow fuel' g = .ok (.Block [.Loop ⟨labelId b⟩ inner hint w, .Atom ⟨m⟩]) := by
  obtain ⟨s, rfl, hd, hs, hn⟩ := found_spelt h
  have hx := endsOf_iff.mpr ⟨b, blockOf_mem hd hb, he⟩
  obtain ⟨l, t', m', hx', rfl, rfl, h1, h3, h5⟩ := loop_at hs hn (inside_items (fun _ e => by cases e) hi)
  cases hx.symm.trans hx'
  have hs : Spelt (endsOf f.blocks) none (some ⟨m⟩) (.loop ⟨labelId b⟩ l hint .done) :=
    ⟨t, m, hx, rfl, h1, h3, nofun⟩
  refine excerpt_found (s := .loop ⟨labelId b⟩ l hint (.ret ⟨m⟩)) hg ?_ rfl ⟨nofun, h5, nofun⟩
  refine close_spelt (s := .loop ⟨labelId b⟩ l hint .done) (excerpt_last hg) trivial
    (excerpt_ends (k := some ⟨m⟩) hg (fun x hx => ?_) hs)
  simp only [Program.ids, List.append_nil, List.mem_cons] at hx
  simp only [chainIds, List.mem_cons, (ids_toChain l).1]
  exact hx.imp (congrArg BlockId.val) List.mem_map_of_mem

/-! The second arm of the sample: a loop and a block after it -/

def sampleArm : ControlFlowChain :=
  .Block [.Loop ⟨12⟩ (.Selection ⟨13⟩ (.Selection ⟨14⟩ (.Block [.Atom ⟨15⟩]) .Continue ⟨false, false⟩ none)
      .Break ⟨false, false⟩ none) ⟨true, false, false, none⟩ none,
    .Atom ⟨16⟩]

def armBlocks : List (BasicBlock Empty) :=
  [ emptyBlock 12 (some (.OpLoopMerge ⟨⟨16⟩, ⟨15⟩, ⟨true, false, false, none⟩⟩)) (.OpBranch ⟨⟨13⟩⟩),
    emptyBlock 19 none (.OpReturn {}),
    emptyBlock 16 none (.OpBranch ⟨⟨19⟩⟩),
    emptyBlock 13 none (.OpBranchConditional ⟨⟨6⟩, ⟨14⟩, ⟨16⟩, none⟩),
    emptyBlock 14 none (.OpBranchConditional ⟨⟨7⟩, ⟨15⟩, ⟨12⟩, none⟩),
    emptyBlock 15 none (.OpBranch ⟨⟨12⟩⟩) ]

theorem arm_excerpt : IsExcerpt (functionOf sampleBlocks) (functionOf armBlocks) sampleArm 12 19 where
  first := ⟨_, _, rfl, rfl⟩
  labels := by decide
  ends := by
    simp only [functionOf, sampleBlocks, List.forall_mem_cons, List.not_mem_nil, false_imp_iff, implies_true, and_true]
    refine ⟨fun h => absurd h (by decide), fun h => absurd h (by decide), fun _ => ⟨_, List.mem_cons_self, rfl, rfl⟩,
      fun _ => ⟨emptyBlock 13 none (.OpBranchConditional ⟨⟨6⟩, ⟨14⟩, ⟨16⟩, none⟩), by simp [armBlocks], rfl, rfl⟩,
      fun _ => ⟨emptyBlock 14 none (.OpBranchConditional ⟨⟨7⟩, ⟨15⟩, ⟨12⟩, none⟩), by simp [armBlocks], rfl, rfl⟩,
      fun _ => ⟨emptyBlock 15 none (.OpBranch ⟨⟨12⟩⟩), by simp [armBlocks], rfl, rfl⟩,
      fun _ => ⟨emptyBlock 16 none (.OpBranch ⟨⟨19⟩⟩), by simp [armBlocks], rfl, rfl⟩, fun h => absurd h (by decide)⟩
  last := ⟨emptyBlock 19 none (.OpReturn {}), by simp [functionOf, armBlocks], rfl, rfl⟩

example : ∃ fuel, findControlFlow fuel (functionOf armBlocks) = .ok (.Block [.Loop ⟨12⟩ (.Selection ⟨13⟩
    (.Selection ⟨14⟩ (.Block [.Atom ⟨15⟩]) .Continue ⟨false, false⟩ none) .Break ⟨false, false⟩ none)
      ⟨true, false, false, none⟩ none, .Atom ⟨16⟩, .Atom ⟨19⟩]) :=
  C98_right (right := sampleArm) sample_found (.item List.mem_cons_self .whole) List.mem_cons_self rfl
    (by simp [sampleArm, SelfContained, SelfContainedAll]) arm_excerpt

/-- The first arm -/
example : ∃ fuel, findControlFlow fuel (functionOf [emptyBlock 11 none (.OpBranch ⟨⟨19⟩⟩), emptyBlock 19 none (.OpReturn {})]) =
    .ok (.Block [.Atom ⟨11⟩, .Atom ⟨19⟩]) := by
  refine C98_left (left := .Block [.Atom ⟨11⟩]) sample_found (.item List.mem_cons_self .whole) List.mem_cons_self rfl
    (by simp [SelfContained, SelfContainedAll])
    ⟨⟨_, _, rfl, rfl⟩, by decide, ?_, ⟨emptyBlock 19 none (.OpReturn {}), by simp [functionOf], rfl, rfl⟩⟩
  simp only [functionOf, sampleBlocks, List.forall_mem_cons, List.not_mem_nil, false_imp_iff, implies_true, and_true]
  exact ⟨fun h => absurd h (by decide), fun _ => ⟨_, List.mem_cons_self, rfl, rfl⟩, fun h => absurd h (by decide),
    fun h => absurd h (by decide), fun h => absurd h (by decide), fun h => absurd h (by decide),
    fun h => absurd h (by decide), fun h => absurd h (by decide)⟩

/-- The loop of it by itself -/
def loopOnlyBlocks : List (BasicBlock Empty) :=
  [ emptyBlock 12 (some (.OpLoopMerge ⟨⟨16⟩, ⟨15⟩, ⟨true, false, false, none⟩⟩)) (.OpBranch ⟨⟨13⟩⟩),
    emptyBlock 13 none (.OpBranchConditional ⟨⟨6⟩, ⟨14⟩, ⟨16⟩, none⟩),
    emptyBlock 14 none (.OpBranchConditional ⟨⟨7⟩, ⟨15⟩, ⟨12⟩, none⟩),
    emptyBlock 15 none (.OpBranch ⟨⟨12⟩⟩),
    emptyBlock 16 none (.OpReturn {}) ]

example : ∃ fuel, findControlFlow fuel (functionOf loopOnlyBlocks) = .ok (.Block [.Loop ⟨12⟩ (.Selection ⟨13⟩
    (.Selection ⟨14⟩ (.Block [.Atom ⟨15⟩]) .Continue ⟨false, false⟩ none) .Break ⟨false, false⟩ none)
      ⟨true, false, false, none⟩ none, .Atom ⟨16⟩]) := by
  refine C98_loop (b := emptyBlock 12 (some (.OpLoopMerge ⟨⟨16⟩, ⟨15⟩, ⟨true, false, false, none⟩⟩)) (.OpBranch ⟨⟨13⟩⟩))
    sample_found (.item List.mem_cons_self (.right (.item List.mem_cons_self .whole))) (by simp [functionOf, sampleBlocks]) rfl
    ⟨⟨_, _, rfl, rfl⟩, by decide, ?_, ⟨emptyBlock 16 none (.OpReturn {}), by simp [functionOf, loopOnlyBlocks], rfl, rfl⟩⟩
  simp only [functionOf, sampleBlocks, List.forall_mem_cons, List.not_mem_nil, false_imp_iff, implies_true, and_true]
  exact ⟨fun h => absurd h (by decide), fun h => absurd h (by decide), fun _ => ⟨_, List.mem_cons_self, rfl, rfl⟩,
    fun _ => ⟨emptyBlock 13 none (.OpBranchConditional ⟨⟨6⟩, ⟨14⟩, ⟨16⟩, none⟩), by simp [loopOnlyBlocks], rfl, rfl⟩,
    fun _ => ⟨emptyBlock 14 none (.OpBranchConditional ⟨⟨7⟩, ⟨15⟩, ⟨12⟩, none⟩), by simp [loopOnlyBlocks], rfl, rfl⟩,
    fun _ => ⟨emptyBlock 15 none (.OpBranch ⟨⟨12⟩⟩), by simp [loopOnlyBlocks], rfl, rfl⟩,
    fun h => absurd h (by decide), fun h => absurd h (by decide)⟩

/-! A selection at the end of a loop. Its first arm leaves the loop. -/

def leavingBlocks : List (BasicBlock Empty) :=
  [ emptyBlock 10 (some (.OpLoopMerge ⟨⟨19⟩, ⟨13⟩, ⟨false, false, false, none⟩⟩)) (.OpBranch ⟨⟨11⟩⟩),
    emptyBlock 11 (some (.OpSelectionMerge ⟨⟨10⟩, ⟨false, false⟩⟩)) (.OpBranchConditional ⟨⟨5⟩, ⟨12⟩, ⟨14⟩, none⟩),
    emptyBlock 12 none (.OpBranchConditional ⟨⟨6⟩, ⟨13⟩, ⟨19⟩, none⟩),
    emptyBlock 13 none (.OpBranch ⟨⟨10⟩⟩),
    emptyBlock 14 none (.OpBranch ⟨⟨10⟩⟩),
    emptyBlock 19 none (.OpReturn {}) ]

def leavingChain : ControlFlowChain :=
  .Block [.Loop ⟨10⟩ (.Block [.Selection ⟨11⟩ (.Selection ⟨12⟩ (.Block [.Atom ⟨13⟩]) .Break ⟨false, false⟩ none)
    (.Block [.Atom ⟨14⟩]) ⟨false, false⟩ none]) ⟨false, false, false, none⟩ none, .Atom ⟨19⟩]

theorem leaving_found : findControlFlow 9 (functionOf leavingBlocks) = .ok leavingChain := by rfl

example : ∃ fuel, findControlFlow fuel (functionOf [emptyBlock 14 none (.OpBranch ⟨⟨10⟩⟩), emptyBlock 10 none (.OpReturn {})]) =
    .ok (.Block [.Atom ⟨14⟩, .Atom ⟨10⟩]) := by
  refine C98_right (b := emptyBlock 11 (some (.OpSelectionMerge ⟨⟨10⟩, ⟨false, false⟩⟩))
      (.OpBranchConditional ⟨⟨5⟩, ⟨12⟩, ⟨14⟩, none⟩))
    leaving_found (.item List.mem_cons_self (.inner (.item List.mem_cons_self .whole))) (by simp [functionOf, leavingBlocks])
    rfl (by simp [SelfContained, SelfContainedAll])
    ⟨⟨_, _, rfl, rfl⟩, by decide, ?_, ⟨emptyBlock 10 none (.OpReturn {}), by simp [functionOf], rfl, rfl⟩⟩
  simp only [functionOf, leavingBlocks, List.forall_mem_cons, List.not_mem_nil, false_imp_iff, implies_true, and_true]
  exact ⟨fun h => absurd h (by decide), fun h => absurd h (by decide), fun h => absurd h (by decide),
    fun h => absurd h (by decide), fun _ => ⟨_, List.mem_cons_self, rfl, rfl⟩, fun h => absurd h (by decide)⟩

/-- A selection in the arm of a selection, by itself -/
def outerBlocks : List (BasicBlock Empty) :=
  [ emptyBlock 10 (some (.OpSelectionMerge ⟨⟨19⟩, ⟨false, false⟩⟩)) (.OpBranchConditional ⟨⟨5⟩, ⟨11⟩, ⟨19⟩, none⟩),
    emptyBlock 11 (some (.OpSelectionMerge ⟨⟨13⟩, ⟨false, true⟩⟩)) (.OpBranchConditional ⟨⟨6⟩, ⟨12⟩, ⟨13⟩, some ⟨1, 2⟩⟩),
    emptyBlock 12 none (.OpBranch ⟨⟨13⟩⟩),
    emptyBlock 13 none (.OpBranch ⟨⟨19⟩⟩),
    emptyBlock 19 none (.OpReturn {}) ]

example : ∃ fuel, findControlFlow fuel (functionOf [ emptyBlock 11 (some (.OpSelectionMerge ⟨⟨13⟩, ⟨false, true⟩⟩))
      (.OpBranchConditional ⟨⟨6⟩, ⟨12⟩, ⟨13⟩, some ⟨1, 2⟩⟩),
    emptyBlock 12 none (.OpBranch ⟨⟨13⟩⟩), emptyBlock 13 none (.OpReturn {})]) =
    .ok (.Block [.Selection ⟨11⟩ (.Block [.Atom ⟨12⟩]) (.Block []) ⟨false, true⟩ (some ⟨1, 2⟩), .Atom ⟨13⟩]) := by
  have h : findControlFlow 9 (functionOf outerBlocks) = .ok (.Block [.Selection ⟨10⟩ (.Block [.Selection ⟨11⟩
      (.Block [.Atom ⟨12⟩]) (.Block []) ⟨false, true⟩ (some ⟨1, 2⟩), .Atom ⟨13⟩]) (.Block []) ⟨false, false⟩ none,
      .Atom ⟨19⟩]) := by rfl
  refine C98_selection (b := emptyBlock 11 (some (.OpSelectionMerge ⟨⟨13⟩, ⟨false, true⟩⟩))
      (.OpBranchConditional ⟨⟨6⟩, ⟨12⟩, ⟨13⟩, some ⟨1, 2⟩⟩))
    h (.item List.mem_cons_self (.left (.item List.mem_cons_self .whole))) (by simp [functionOf, outerBlocks])
    rfl ⟨by simp [SelfContained, SelfContainedAll], by simp [SelfContained, SelfContainedAll]⟩
    ⟨⟨_, _, rfl, rfl⟩, by decide, ?_, ⟨emptyBlock 13 none (.OpReturn {}), by simp [functionOf], rfl, rfl⟩⟩
  simp only [functionOf, outerBlocks, List.forall_mem_cons, List.not_mem_nil, false_imp_iff, implies_true, and_true]
  exact ⟨fun h => absurd h (by decide), fun _ => ⟨_, List.mem_cons_self, rfl, rfl⟩,
    fun _ => ⟨emptyBlock 12 none (.OpBranch ⟨⟨13⟩⟩), by simp, rfl, rfl⟩,
    fun h => absurd h (by decide), fun h => absurd h (by decide)⟩

/-- C98 needs that the arm does not leave a loop around the selection: here the first arm does, and by itself it is
refused, since it chooses outside of a loop. -/
theorem C98_leaving : findControlFlow 9 (functionOf leavingBlocks) = .ok leavingChain ∧
    ∀ fuel chain, findControlFlow fuel (functionOf [emptyBlock 12 none (.OpBranchConditional ⟨⟨6⟩, ⟨13⟩, ⟨19⟩, none⟩),
      emptyBlock 13 none (.OpBranch ⟨⟨10⟩⟩), emptyBlock 10 none (.OpReturn {})]) ≠ .ok chain := by
  refine ⟨leaving_found, fun fuel chain h => ?_⟩
  obtain ⟨s, first, more, hb, -, hs, he, -, -⟩ := C30_accepted_iff.mp ⟨fuel, h⟩
  cases hb
  have hs := (spelt_iff s _ _).mp hs
  cases s with
  | done => cases he
  | exit => obtain ⟨_, _, _, _, h, -⟩ := hs; cases h
  | ret id => cases he; cases hs.2
  | atom id => cases he; obtain ⟨⟨_, h, -⟩, -⟩ := hs; cases h
  | sel id => cases he; obtain ⟨_, _, _, h, -⟩ := hs; cases h
  | loop id => cases he; obtain ⟨_, _, h, -⟩ := hs; cases h

end Magma.Props
