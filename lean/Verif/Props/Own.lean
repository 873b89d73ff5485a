import Verif.Proofs.Own
import Verif.Props.Replace
/-! C125: the header and the merge block of a construct are not inside of it. -/

namespace Magma.Props
open Spec Magma.Excerpt Magma.Own
variable {X : Type}

theorem val_mem {s : Program} {x : BlockId} : x.val ∈ chainIds s.toChain ↔ x ∈ s.ids := by
  rw [(ids_toChain s).1, List.mem_map]
  exact ⟨fun ⟨y, hy, he⟩ => by cases x; cases y; cases he; exact hy, fun h => ⟨x, h, rfl⟩⟩

/-- C125: a loop contains neither its first block nor its merge block, and the two are different. -/
theorem C125_loop {f : FunctionDefinition X} {fuel : Nat} {chain inner : ControlFlowChain} {id : BlockId}
    {hint : LoopControl} {w : Option BranchWeights} (h : findControlFlow fuel f = .ok chain)
    (hp : PartOf (.Loop id inner hint w) chain) :
    ∃ b ∈ f.blocks, ∃ op, labelId b = id.val ∧ b.merge = some (.OpLoopMerge op) ∧ id.val ∉ chainIds inner ∧
      op.merge_block.val ∉ chainIds inner ∧ op.merge_block.val ≠ id.val := by
  obtain ⟨s, first, more, hb, hn, hs, he, hnest, rfl⟩ := C30_accepted_iff.mp ⟨fuel, h⟩
  obtain ⟨b, t, m, h1, rfl, h2, h3, h4, h5, h6⟩ := loop_part ((spelt_iff s _ _).mp hs) hnest nofun
    (inside_items (fun _ e => by cases e) hp)
  obtain ⟨bl, hbl, hbe⟩ := endsOf_iff.mp h1
  obtain ⟨op, lm, e1, e2, rfl, rfl, e5⟩ := gotoLoop_iff.mp hbe
  refine ⟨bl, (blockOf_some hbl).1, lm, (blockOf_some hbl).2, e1, fun hm => h4 (val_mem.mp hm), fun hm => h5 (val_mem.mp hm),
    fun hm => h6 (by cases id; exact congrArg BlockId.mk hm)⟩

/-- C125: no plain branch in a loop goes to the merge block of the loop. -/
theorem C125_plain {f : FunctionDefinition X} {fuel : Nat} {chain inner : ControlFlowChain} {id : BlockId}
    {hint : LoopControl} {w : Option BranchWeights} (h : findControlFlow fuel f = .ok chain)
    (hp : PartOf (.Loop id inner hint w) chain) {b c : BasicBlock X} {lm : OpLoopMerge} {op : OpBranch} (hb : b ∈ f.blocks)
    (hl : labelId b = id.val) (hm : b.merge = some (.OpLoopMerge lm)) (hc : c ∈ f.blocks) (hi : labelId c ∈ chainIds inner)
    (hcm : c.merge = none) (hcb : c.branch = .OpBranch op) : op.target_label.val ≠ lm.merge_block.val := by
  obtain ⟨s, first, more, hbs, hn, hs, he, hnest, rfl⟩ := C30_accepted_iff.mp ⟨fuel, h⟩
  obtain ⟨p, t, m, h1, rfl, h2, h3, h4, h5, h6⟩ := loop_part ((spelt_iff s _ _).mp hs) hnest nofun
    (inside_items (fun _ e => by cases e) hp)
  obtain ⟨bl, hbl, hbe⟩ := endsOf_iff.mp h1
  have : bl = b := by
    have := Magma.blockOf_mem hn hb
    rw [hl] at this
    exact Option.some.inj (hbl.symm.trans this)
  subst this
  obtain ⟨_, lm', e1, e2, e3, e4, e5⟩ := gotoLoop_iff.mp hbe
  rw [hm] at e1
  cases e1
  intro ht
  have hy : endsOf f.blocks ⟨labelId c⟩ = some (.goto op.target_label.val) :=
    endsOf_iff.mpr ⟨c, Magma.blockOf_mem hn hc, goto_iff.mpr ⟨op, hcm, hcb, rfl⟩⟩
  subst e4
  rw [← ht] at h5 h6
  exact (goto_in hy h2 (val_mem.mp hi)).elim h5 h6

theorem describes_part {blocks : List (BasicBlock X)} {c chain : ControlFlowChain} (hp : PartOf c chain)
    (h : Describes blocks chain) : Describes blocks c := by
  induction hp with
  | whole => exact h
  | item hm _ ih =>
    refine ih ?_
    rw [Describes] at h
    rename_i chain chains _
    induction chains with
    | nil => cases hm
    | cons d ds ihc =>
      rw [DescribesAll] at h
      rcases List.mem_cons.mp hm with rfl | hm
      · exact h.1
      · exact ihc hm h.2
  | left _ ih => rw [Describes] at h; exact ih h.2.1
  | right _ ih => rw [Describes] at h; exact ih h.2.2
  | inner _ ih => rw [Describes] at h; exact ih h.2

/-- C125: the arms of a selection contain neither its first block nor its merge block. -/
theorem C125_selection {f : FunctionDefinition X} {fuel : Nat} {chain left right : ControlFlowChain} {id : BlockId}
    {hint : SelectionControl} {w : Option BranchWeights} (h : findControlFlow fuel f = .ok chain)
    (hp : PartOf (.Selection id left right hint w) chain) {b : BasicBlock X} {sm : OpSelectionMerge} (hb : b ∈ f.blocks)
    (hl : labelId b = id.val) (hm : b.merge = some (.OpSelectionMerge sm)) :
    id.val ∉ chainIds left ∧ id.val ∉ chainIds right ∧ sm.merge_block.val ∉ chainIds left ∧
      sm.merge_block.val ∉ chainIds right := by
  have hd := describes_part hp (C35_blocks_and_hints h)
  obtain ⟨s, first, more, hbs, hn, hs, he, hnest, rfl⟩ := C30_accepted_iff.mp ⟨fuel, h⟩
  have hbo : blockOf f.blocks id = some b := by
    have := Magma.blockOf_mem hn hb
    rwa [hl] at this
  have hx : ∃ t e w, endOf b = .chooseSelection t e w sm.merge_block.val sm.selection_control := by
    rw [Describes] at hd
    obtain ⟨⟨b', hb', hl', hd⟩, -⟩ := hd
    have : b' = b := by
      have := Magma.blockOf_mem hn hb'
      rw [hl'] at this
      exact Option.some.inj (this.symm.trans hbo)
    subst this
    rcases hd with ⟨t, e, m, hd⟩ | ⟨t, e, hd, -⟩
    · obtain ⟨op, sm', e1, e2, rfl, rfl, rfl, rfl, rfl⟩ := chooseSelection_iff.mp hd
      rw [hm] at e1
      cases e1
      exact ⟨_, _, _, hd⟩
    · obtain ⟨op, e1, -⟩ := choose_iff.mp hd
      rw [hm] at e1
      cases e1
  obtain ⟨t, e, w', hx⟩ := hx
  have hx' : endsOf f.blocks id = some (.chooseSelection t e w' sm.merge_block.val sm.selection_control) :=
    endsOf_iff.mpr ⟨b, hbo, hx⟩
  obtain ⟨l, r, lp', avoid', rfl, rfl, -, -, g1, g2, g3, g4, g5, g6, -⟩ := selection_at hx' ((spelt_iff s _ _).mp hs) hnest
    (inside_items (fun _ e => by cases e) hp)
  have first : ∀ {m : BlockId} {avoid : List BlockId} (z : BlockId), some m = some z → z ∈ m :: avoid := by
    rintro _ _ _ ⟨⟩
    exact List.mem_cons_self
  refine ⟨fun hi => ?_, fun hi => ?_, fun hi => ?_, fun hi => ?_⟩
  · obtain ⟨l', r', lp1, avoid1, a1, a2, a3, a4, a5, a6, a7, a8⟩ := arms_in hx' g3 g5 (val_mem.mp hi)
    rw [same_ids g3 g5 first a1 a3 first (g1.trans a5.symm)] at a7
    exact Nat.lt_irrefl _ a7
  · obtain ⟨l', r', lp1, avoid1, a1, a2, a3, a4, a5, a6, a7, a8⟩ := arms_in hx' g4 g6 (val_mem.mp hi)
    rw [same_ids g4 g6 first a2 a4 first (g2.trans a6.symm)] at a8
    exact Nat.lt_irrefl _ a8
  · exact nested_off List.mem_cons_self g5 ((val_mem (x := ⟨sm.merge_block.val⟩)).mp hi)
  · exact nested_off List.mem_cons_self g6 ((val_mem (x := ⟨sm.merge_block.val⟩)).mp hi)

/-! ### Examples -/

/-- Block 11 goes on with block 12 or with the next round of the loop. From the loop that block 12 starts, that leaves it. -/
def againBlocks : List (BasicBlock Empty) :=
  [ emptyBlock 10 (some (.OpLoopMerge ⟨⟨19⟩, ⟨12⟩, LoopControl.default⟩)) (.OpBranch ⟨⟨11⟩⟩),
    emptyBlock 11 none (.OpBranchConditional ⟨⟨5⟩, ⟨12⟩, ⟨10⟩, none⟩),
    emptyBlock 12 (some (.OpLoopMerge ⟨⟨10⟩, ⟨11⟩, LoopControl.default⟩)) (.OpBranch ⟨⟨11⟩⟩),
    emptyBlock 19 none (.OpReturn {}) ]

/-- C125 does not hold for conditional branches without merge block: there is a function where the block with such a branch
is found again within what the branch chooses. -/
theorem C125_again : findControlFlow 9 (functionOf againBlocks) = .ok (.Block [.Loop ⟨10⟩
    (.Selection ⟨11⟩ (.Block [.Loop ⟨12⟩ (.Selection ⟨11⟩ (.Block []) .Break SelectionControl.default none)
      LoopControl.default none]) .Continue SelectionControl.default none) LoopControl.default none, .Atom ⟨19⟩]) := by rfl

/-- The loop and the selection of the sample -/
example : ∃ b ∈ sampleBlocks, ∃ op, labelId b = 12 ∧ b.merge = some (.OpLoopMerge op) ∧
    12 ∉ chainIds (.Selection ⟨13⟩ (.Selection ⟨14⟩ (.Block [.Atom ⟨15⟩]) .Continue ⟨false, false⟩ none)
      .Break ⟨false, false⟩ none) ∧ op.merge_block.val ∉ [13, 14, 15] ∧ op.merge_block.val ≠ 12 :=
  C125_loop (id := ⟨12⟩) sample_found (.item List.mem_cons_self (.right (.item List.mem_cons_self .whole)))

example : 10 ∉ chainIds (.Block [.Atom ⟨11⟩]) ∧ 19 ∉ chainIds (.Block [.Atom ⟨11⟩]) :=
  have := C125_selection (id := ⟨10⟩) sample_found (.item List.mem_cons_self .whole) List.mem_cons_self rfl rfl
  ⟨this.1, this.2.2.1⟩

/-- Block 15 of the sample goes on with the next round. -/
example : (12 : UInt32) ≠ 16 :=
  C125_plain (b := emptyBlock 12 (some (.OpLoopMerge ⟨⟨16⟩, ⟨15⟩, ⟨true, false, false, none⟩⟩)) (.OpBranch ⟨⟨13⟩⟩))
    (c := emptyBlock 15 none (.OpBranch ⟨⟨12⟩⟩)) (op := ⟨⟨12⟩⟩) (id := ⟨12⟩) sample_found
    (.item List.mem_cons_self (.right (.item List.mem_cons_self .whole))) (by simp [functionOf, sampleBlocks]) rfl rfl
    (by simp [functionOf, sampleBlocks]) (by simp [chainIds, chainIdsAll, labelId, emptyBlock]) rfl rfl

end Magma.Props
