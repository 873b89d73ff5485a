import Verif.Proofs.Replace
import Verif.Props.Excerpt
/-! C99: a part of a construct can be replaced. -/

namespace Magma.Props
open Spec Magma.Excerpt Magma.Replace
variable {X Y Z : Type}

theorem endsOf_of {blocks : List (BasicBlock X)} (hn : (blocks.map labelId).Nodup) {b : BasicBlock X} (h : b ∈ blocks)
    {x : UInt32} (hl : labelId b = x) : endsOf blocks ⟨x⟩ = some (endOf b) :=
  endsOf_iff.mpr ⟨b, hl ▸ blockOf_mem hn h, rfl⟩

/-- C99: if control flow is recovered from two functions, and the second function takes the place of an arm of a selection or
of the body of a loop in the first function, then control flow is recovered from the function that results: it is that of
the first function, with that of the second function for the part that was replaced. -/
theorem C99_replaced {spot : Spot} {x : UInt32} {f : FunctionDefinition X} {h : FunctionDefinition Y}
    {g : FunctionDefinition Z} {fuel fuel' : Nat} {chain part : ControlFlowChain}
    (hf : findControlFlow fuel f = .ok chain) (hh : findControlFlow fuel' h = .ok part) (hr : Replaced spot x f h g) :
    ∃ fuel'', findControlFlow fuel'' g = .ok (replaceAt spot x (.Block (itemsOf part)) chain) := by
  obtain ⟨s, first, more, hb, hn, hs, he, hnest, rfl⟩ := C30_accepted_iff.mp ⟨fuel, hf⟩
  obtain ⟨p, first', more', hb', hn', hp, he', hnest', rfl⟩ := C30_accepted_iff.mp ⟨fuel', hh⟩
  have hs := (spelt_iff s _ _).mp hs
  have hp := (spelt_iff p _ _).mp hp
  obtain ⟨b, hbm, rfl, n0, k, hn0, hk, ⟨bx, hbx, hbl, hbe⟩, hc⟩ := hr.here
  rw [hb'] at hn0
  cases hn0
  have hx := endsOf_of hn hbm rfl
  have known : ∀ {B : Type} {bl : List (BasicBlock B)} {y : BlockId} {e}, endsOf bl y = some e →
      ∃ c ∈ bl, labelId c = y.val ∧ endOf c = e := by
    intro B bl y e h
    obtain ⟨c, hc, rfl⟩ := endsOf_iff.mp h
    exact ⟨c, (blockOf_some hc).1, (blockOf_some hc).2, rfl⟩
  have hp' : ∀ y ∈ p.ids, ∀ e, endsOf h.blocks y = some e → endsOf g.blocks y = some (goingOn k e) := by
    intro y _ e hy
    obtain ⟨c, hcm, hcl, rfl⟩ := known hy
    obtain ⟨c', hc', hl', he'⟩ := hc c hcm
    rw [← he']
    exact endsOf_of hr.labels hc' (hl'.trans hcl)
  have noExit := Spelt.noExit hp
  have hapart : ∀ y e, endsOf f.blocks y = some e → y ∉ (resume p).ids := by
    intro y e hy hm
    rw [resume_ids] at hm
    obtain ⟨e', hy'⟩ := Spelt.known hp y hm
    obtain ⟨c, hc1, hc2, -⟩ := known hy
    obtain ⟨d, hd1, hd2, -⟩ := known hy'
    exact hr.apart c hc1 d hd1 (hc2.trans hd2.symm)
  have hx' : endsOf g.blocks ⟨labelId b⟩ = some (turned spot (labelId first') (endOf b)) := by
    rw [← hbe]
    exact endsOf_of hr.labels hbx hbl
  have ho : ∀ y : BlockId, y.val ≠ labelId b → ∀ e, endsOf f.blocks y = some e → endsOf g.blocks y = some e := by
    intro y hy e h
    obtain ⟨c, hc1, hc2, rfl⟩ := known h
    obtain ⟨c', h1, h2, h3⟩ := hr.others c hc1 (hc2 ▸ hy)
    rw [← h3]
    exact endsOf_of hr.labels h1 (h2.trans hc2)
  have key := put_toChain (n := resume p) hx hk hs
  rw [resume_toChain noExit] at key
  rw [← key.1]
  have hfirst := hr.first
  rw [hb] at hfirst
  obtain ⟨g0, gs, hg⟩ : ∃ g0 gs, g.blocks = g0 :: gs := by
    cases hg : g.blocks with
    | nil => rw [hg] at hfirst; cases hfirst
    | cons a l => exact ⟨a, l, rfl⟩
  rw [hg] at hfirst
  refine C30_accepted_iff.mpr ⟨_, g0, gs, hg, hr.labels, (spelt_iff _ _ _).mpr ?_, ?_, ?_, rfl⟩
  · exact put_spelt hx hk hx' (fun lp => Spelt.anyLoop (lp := none) (by
      exact Spelt.noExit (resume_spelt hp' noExit hp)) (resume_spelt hp' noExit hp)) (by rw [resume_entry hp]; exact he') ho hs
  · rw [put_entry, he]
    exact congrArg (fun a => some (BlockId.mk a)) (Option.some.inj hfirst).symm
  · exact put_nested hx hk (resume_nested hp hnest') hapart hs nofun nofun hnest

/-- C99, where nothing takes the place of the part -/
theorem C99_emptied {spot : Spot} {x : UInt32} {f : FunctionDefinition X} {g : FunctionDefinition Z} {fuel : Nat}
    {chain : ControlFlowChain} (hf : findControlFlow fuel f = .ok chain) (hr : Emptied spot x f g) :
    ∃ fuel', findControlFlow fuel' g = .ok (replaceAt spot x (.Block []) chain) := by
  obtain ⟨s, first, more, hb, hn, hs, he, hnest, rfl⟩ := C30_accepted_iff.mp ⟨fuel, hf⟩
  have hs := (spelt_iff s _ _).mp hs
  obtain ⟨b, hbm, rfl, k, hk, bx, hbx, hbl, hbe⟩ := hr.here
  have hx := endsOf_of hn hbm rfl
  have hx' : endsOf g.blocks ⟨labelId b⟩ = some (turned spot k (endOf b)) := by
    rw [← hbe]
    exact endsOf_of hr.labels hbx hbl
  have ho : ∀ y : BlockId, y.val ≠ labelId b → ∀ e, endsOf f.blocks y = some e → endsOf g.blocks y = some e := by
    intro y hy e h
    obtain ⟨c, hc, rfl⟩ := endsOf_iff.mp h
    obtain ⟨c', h1, h2, h3⟩ := hr.others c (blockOf_some hc).1 ((blockOf_some hc).2 ▸ hy)
    rw [← h3]
    exact endsOf_of hr.labels h1 (h2.trans (blockOf_some hc).2)
  have key := put_toChain (n := .done) hx hk hs
  rw [show Program.done.toChain = .Block [] from rfl] at key
  rw [← key.1]
  have hfirst := hr.first
  rw [hb] at hfirst
  obtain ⟨g0, gs, hg⟩ : ∃ g0 gs, g.blocks = g0 :: gs := by
    cases hg : g.blocks with
    | nil => rw [hg] at hfirst; cases hfirst
    | cons a l => exact ⟨a, l, rfl⟩
  rw [hg] at hfirst
  refine C30_accepted_iff.mpr ⟨_, g0, gs, hg, hr.labels, (spelt_iff _ _ _).mpr ?_, ?_, ?_, rfl⟩
  · exact put_spelt (n := .done) hx hk hx' (fun _ h => by cases h) rfl ho hs
  · rw [put_entry, he]
    exact congrArg (fun a => some (BlockId.mk a)) (Option.some.inj hfirst).symm
  · exact put_nested (n := .done) hx hk trivial (fun _ _ _ => List.not_mem_nil) hs nofun nofun hnest

/-! The loop of a function in place of the first arm of the sample, and a selection in place of the body of its loop -/

def waitBlocks : List (BasicBlock Empty) :=
  [ emptyBlock 30 (some (.OpLoopMerge ⟨⟨33⟩, ⟨32⟩, ⟨false, true, false, none⟩⟩)) (.OpBranch ⟨⟨31⟩⟩),
    emptyBlock 31 none (.OpBranchConditional ⟨⟨8⟩, ⟨32⟩, ⟨33⟩, none⟩),
    emptyBlock 32 none (.OpBranch ⟨⟨30⟩⟩),
    emptyBlock 33 none (.OpReturn {}) ]

def waitChain : ControlFlowChain :=
  .Block [.Loop ⟨30⟩ (.Selection ⟨31⟩ (.Block [.Atom ⟨32⟩]) .Break ⟨false, false⟩ none) ⟨false, true, false, none⟩ none,
    .Atom ⟨33⟩]

theorem wait_found : findControlFlow 9 (functionOf waitBlocks) = .ok waitChain := by rfl

def armReplaced : List (BasicBlock Empty) :=
  [ emptyBlock 10 (some (.OpSelectionMerge ⟨⟨19⟩, ⟨true, false⟩⟩)) (.OpBranchConditional ⟨⟨5⟩, ⟨30⟩, ⟨12⟩, some ⟨3, 4⟩⟩),
    emptyBlock 11 none (.OpBranch ⟨⟨19⟩⟩),
    emptyBlock 12 (some (.OpLoopMerge ⟨⟨16⟩, ⟨15⟩, ⟨true, false, false, none⟩⟩)) (.OpBranch ⟨⟨13⟩⟩),
    emptyBlock 13 none (.OpBranchConditional ⟨⟨6⟩, ⟨14⟩, ⟨16⟩, none⟩),
    emptyBlock 14 none (.OpBranchConditional ⟨⟨7⟩, ⟨15⟩, ⟨12⟩, none⟩),
    emptyBlock 15 none (.OpBranch ⟨⟨12⟩⟩),
    emptyBlock 16 none (.OpBranch ⟨⟨19⟩⟩),
    emptyBlock 19 none (.OpReturn {}),
    emptyBlock 30 (some (.OpLoopMerge ⟨⟨33⟩, ⟨32⟩, ⟨false, true, false, none⟩⟩)) (.OpBranch ⟨⟨31⟩⟩),
    emptyBlock 31 none (.OpBranchConditional ⟨⟨8⟩, ⟨32⟩, ⟨33⟩, none⟩),
    emptyBlock 32 none (.OpBranch ⟨⟨30⟩⟩),
    emptyBlock 33 none (.OpBranch ⟨⟨19⟩⟩) ]

theorem arm_replaced : Replaced .left 10 (functionOf sampleBlocks) (functionOf waitBlocks) (functionOf armReplaced) where
  first := rfl
  labels := by decide
  apart := by decide
  others := by
    simp only [functionOf, sampleBlocks, armReplaced, List.mem_cons, exists_eq_or_imp]
    simp [labelId, emptyBlock, endOf]
  here := by
    refine ⟨_, List.mem_cons_self, rfl, 30, 19, rfl, rfl, ⟨_, List.mem_cons_self, rfl, rfl⟩, ?_⟩
    simp only [functionOf, waitBlocks, armReplaced, List.mem_cons, exists_eq_or_imp]
    simp [labelId, emptyBlock, endOf, goingOn]

example : ∃ fuel, findControlFlow fuel (functionOf armReplaced) = .ok (.Block [.Selection ⟨10⟩
    (.Block [.Loop ⟨30⟩ (.Selection ⟨31⟩ (.Block [.Atom ⟨32⟩]) .Break ⟨false, false⟩ none) ⟨false, true, false, none⟩ none,
      .Atom ⟨33⟩])
    (.Block [.Loop ⟨12⟩ (.Selection ⟨13⟩ (.Selection ⟨14⟩ (.Block [.Atom ⟨15⟩]) .Continue ⟨false, false⟩ none)
        .Break ⟨false, false⟩ none) ⟨true, false, false, none⟩ none,
      .Atom ⟨16⟩]) ⟨true, false⟩ (some ⟨3, 4⟩),
    .Atom ⟨19⟩]) := C99_replaced sample_found wait_found arm_replaced

def bodyReplaced : List (BasicBlock Empty) :=
  [ emptyBlock 10 (some (.OpSelectionMerge ⟨⟨19⟩, ⟨true, false⟩⟩)) (.OpBranchConditional ⟨⟨5⟩, ⟨11⟩, ⟨12⟩, some ⟨3, 4⟩⟩),
    emptyBlock 33 none (.OpBranch ⟨⟨12⟩⟩),
    emptyBlock 32 none (.OpBranch ⟨⟨30⟩⟩),
    emptyBlock 31 none (.OpBranchConditional ⟨⟨8⟩, ⟨32⟩, ⟨33⟩, none⟩),
    emptyBlock 30 (some (.OpLoopMerge ⟨⟨33⟩, ⟨32⟩, ⟨false, true, false, none⟩⟩)) (.OpBranch ⟨⟨31⟩⟩),
    emptyBlock 11 none (.OpBranch ⟨⟨19⟩⟩),
    emptyBlock 12 (some (.OpLoopMerge ⟨⟨16⟩, ⟨15⟩, ⟨true, false, false, none⟩⟩)) (.OpBranch ⟨⟨30⟩⟩),
    emptyBlock 13 none (.OpBranchConditional ⟨⟨6⟩, ⟨14⟩, ⟨16⟩, none⟩),
    emptyBlock 14 none (.OpBranchConditional ⟨⟨7⟩, ⟨15⟩, ⟨12⟩, none⟩),
    emptyBlock 15 none (.OpBranch ⟨⟨12⟩⟩),
    emptyBlock 16 none (.OpBranch ⟨⟨19⟩⟩),
    emptyBlock 19 none (.OpReturn {}) ]

theorem body_replaced : Replaced .inner 12 (functionOf sampleBlocks) (functionOf waitBlocks) (functionOf bodyReplaced) where
  first := rfl
  labels := by decide
  apart := by decide
  others := by
    simp only [functionOf, sampleBlocks, bodyReplaced, List.mem_cons, exists_eq_or_imp]
    simp [labelId, emptyBlock, endOf]
  here := by
    refine ⟨emptyBlock 12 (some (.OpLoopMerge ⟨⟨16⟩, ⟨15⟩, ⟨true, false, false, none⟩⟩)) (.OpBranch ⟨⟨13⟩⟩),
      by simp [functionOf, sampleBlocks], rfl, 30, 12, rfl, rfl,
      ⟨emptyBlock 12 (some (.OpLoopMerge ⟨⟨16⟩, ⟨15⟩, ⟨true, false, false, none⟩⟩)) (.OpBranch ⟨⟨30⟩⟩),
        by simp [functionOf, bodyReplaced], rfl, rfl⟩, ?_⟩
    simp only [functionOf, waitBlocks, bodyReplaced, List.mem_cons, exists_eq_or_imp]
    simp [labelId, emptyBlock, endOf, goingOn]

example : ∃ fuel, findControlFlow fuel (functionOf bodyReplaced) = .ok (.Block [.Selection ⟨10⟩ (.Block [.Atom ⟨11⟩])
    (.Block [.Loop ⟨12⟩
        (.Block [.Loop ⟨30⟩ (.Selection ⟨31⟩ (.Block [.Atom ⟨32⟩]) .Break ⟨false, false⟩ none) ⟨false, true, false, none⟩ none,
          .Atom ⟨33⟩]) ⟨true, false, false, none⟩ none,
      .Atom ⟨16⟩]) ⟨true, false⟩ (some ⟨3, 4⟩),
    .Atom ⟨19⟩]) := C99_replaced sample_found wait_found body_replaced

/-- The second arm of the sample emptied -/
def armEmptied : List (BasicBlock Empty) :=
  [ emptyBlock 10 (some (.OpSelectionMerge ⟨⟨19⟩, ⟨true, false⟩⟩)) (.OpBranchConditional ⟨⟨5⟩, ⟨11⟩, ⟨19⟩, some ⟨3, 4⟩⟩),
    emptyBlock 11 none (.OpBranch ⟨⟨19⟩⟩),
    emptyBlock 12 (some (.OpLoopMerge ⟨⟨16⟩, ⟨15⟩, ⟨true, false, false, none⟩⟩)) (.OpBranch ⟨⟨13⟩⟩),
    emptyBlock 13 none (.OpBranchConditional ⟨⟨6⟩, ⟨14⟩, ⟨16⟩, none⟩),
    emptyBlock 14 none (.OpBranchConditional ⟨⟨7⟩, ⟨15⟩, ⟨12⟩, none⟩),
    emptyBlock 15 none (.OpBranch ⟨⟨12⟩⟩),
    emptyBlock 16 none (.OpBranch ⟨⟨19⟩⟩),
    emptyBlock 19 none (.OpReturn {}) ]

theorem arm_emptied : Emptied .right 10 (functionOf sampleBlocks) (functionOf armEmptied) where
  first := rfl
  labels := by decide
  others := by
    simp only [functionOf, sampleBlocks, armEmptied, List.mem_cons, exists_eq_or_imp]
    simp [labelId, emptyBlock, endOf]
  here := ⟨_, List.mem_cons_self, rfl, 19, rfl, _, List.mem_cons_self, rfl, rfl⟩

example : ∃ fuel, findControlFlow fuel (functionOf armEmptied) = .ok (.Block [.Selection ⟨10⟩ (.Block [.Atom ⟨11⟩])
    (.Block []) ⟨true, false⟩ (some ⟨3, 4⟩), .Atom ⟨19⟩]) := C99_emptied sample_found arm_emptied

end Magma.Props
