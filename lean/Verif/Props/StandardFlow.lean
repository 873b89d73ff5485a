import Verif.Proofs.StandardPlain
import Verif.Proofs.StandardDepth
import Verif.Props.Places
/-! Control flow recovery of functions that are structured after the standard. -/

namespace Magma.Props
open Magma Spec Standard
variable {X : Type}

/-- find_control_flow returns for every structured function, and does not go deeper than the function has blocks. -/
theorem C89_returns {f : FunctionDefinition X} {first : BasicBlock X} {more : List (BasicBlock X)}
    (hb : f.blocks = first :: more) (hs : Structured f.blocks (labelId first)) :
    ∃ r, r ≠ .error .diverge ∧ ∀ fuel, f.blocks.length + 1 ≤ fuel → findControlFlow fuel f = r := by
  suffices hd : findControlFlow (f.blocks.length + 1) f ≠ .error .diverge from
    ⟨_, hd, fun fuel hf => findControlFlow_mono hf hd⟩
  intro h
  rcases find_error h with h0 | ⟨-, ⟨-, h0⟩ | ⟨first', more', map, hb', hg, h0⟩⟩
  · obtain ⟨_, _, _, _, he, _⟩ := build_error h0
    cases he
  · cases h0
  · rw [hb] at hb'
    cases hb'
    obtain ⟨q, l, h1, h2⟩ := search_far (first := labelId first) hg _ ⟨labelId first⟩ [] [] .start h0
    have := hs.short h1
    simp only [List.length_nil, Nat.zero_add] at h2
    omega

/-- A structured function is recovered exactly if every block that is read is plain. -/
theorem C89_exact {f : FunctionDefinition X} {first : BasicBlock X} {more : List (BasicBlock X)}
    (hb : f.blocks = first :: more) (hs : Structured f.blocks (labelId first)) :
    (∃ fuel chain, findControlFlow fuel f = .ok chain) ↔
      ∀ b ∈ f.blocks, Reached f.blocks (labelId first) (labelId b) → Tame f.blocks (labelId first) b := by
  rw [C30_places_iff]
  constructor
  · rintro ⟨first', more', hb', -, -, hf⟩
    rw [hb] at hb'
    cases hb'
    exact plain_of_fine hs hf
  · intro hp
    exact ⟨first, more, hb, hs.labels, hs.ends,
      fine_of_plain hs hp ⟨first, by rw [hb]; exact List.mem_cons_self, rfl⟩⟩

/-- Of the errors, a structured function can only run into those about where constructs end. -/
theorem C89_errors {f : FunctionDefinition X} {first : BasicBlock X} {more : List (BasicBlock X)}
    (hb : f.blocks = first :: more) (hs : Structured f.blocks (labelId first)) {fuel : Nat} {e : ControlFlowError}
    (h : findControlFlow fuel f = .error (.err e)) :
    (∃ id, e = .CouldNotPredictConverge id) ∨ ∃ ty id, e = .InvalidConvergePrediction ty id := by
  cases e with
  | NoBlocks =>
    rw [C33_no_blocks, hb] at h
    cases h
  | DuplicateBlockId id =>
    obtain ⟨pre, b, post, h1, -, h3, -⟩ := (C33_duplicate f fuel id).mp h
    have hl := hs.labels
    rw [h1, List.map_append, List.nodup_append] at hl
    exact absurd rfl (hl.2.2 _ h3 (labelId b) (by simp))
  | UnknownBlockId id =>
    obtain ⟨h1, b, hb1, h2⟩ := C33_unknown h
    have : Edge f.blocks (labelId b) id.val ∨ endOf b = .returns := by
      by_cases hr : endOf b = .returns
      · exact .inr hr
      · refine .inl ⟨b, hb1, rfl, ?_⟩
        cases he : endOf b <;> rw [he] at h2 <;>
          simp only [BlockEnd.names, targets, mergeOf, List.mem_cons, List.not_mem_nil, or_false, Option.some.injEq]
            at h2 ⊢ <;> grind
    rcases this with h3 | h3
    · obtain ⟨b', hb', hl⟩ := hs.known _ _ h3
      exact absurd hl (h1 b' hb')
    · rw [h3] at h2
      cases h2
  | CouldNotPredictConverge id => exact .inl ⟨id, rfl⟩
  | InvalidConvergePrediction ty id => exact .inr ⟨ty, id, rfl⟩
  | Failed => exact absurd h (C33_failed f fuel)

/-- The order of the blocks as they are written -/
def orderOf (f : FunctionDefinition Empty) (v : UInt32) : Nat := (f.blocks.map labelId).idxOf v

/-- `while (c) { }` with the condition in the header -/
def conditionInHeader : FunctionDefinition Empty := functionOf
  [ emptyBlock 1 none (.OpBranch ⟨⟨2⟩⟩),
    emptyBlock 2 (some (.OpLoopMerge ⟨⟨5⟩, ⟨4⟩, ⟨false, false, false, none⟩⟩)) (.OpBranchConditional ⟨⟨9⟩, ⟨3⟩, ⟨5⟩, none⟩),
    emptyBlock 3 none (.OpBranch ⟨⟨4⟩⟩),
    emptyBlock 4 none (.OpBranch ⟨⟨2⟩⟩),
    emptyBlock 5 none (.OpReturn ⟨⟩) ]

/-- `if (c) { return; } return;` -/
def earlyReturn : FunctionDefinition Empty := functionOf
  [ emptyBlock 1 (some (.OpSelectionMerge ⟨⟨3⟩, ⟨false, false⟩⟩)) (.OpBranchConditional ⟨⟨9⟩, ⟨2⟩, ⟨3⟩, none⟩),
    emptyBlock 2 none (.OpReturn ⟨⟩),
    emptyBlock 3 none (.OpReturn ⟨⟩) ]

/-- `while (true) { if (c) break; }` with the break as the first target -/
def breakFirst : FunctionDefinition Empty := functionOf
  [ emptyBlock 1 none (.OpBranch ⟨⟨2⟩⟩),
    emptyBlock 2 (some (.OpLoopMerge ⟨⟨5⟩, ⟨4⟩, ⟨false, false, false, none⟩⟩)) (.OpBranch ⟨⟨3⟩⟩),
    emptyBlock 3 none (.OpBranchConditional ⟨⟨9⟩, ⟨5⟩, ⟨4⟩, none⟩),
    emptyBlock 4 none (.OpBranch ⟨⟨2⟩⟩),
    emptyBlock 5 none (.OpReturn ⟨⟩) ]

/-- `while (true) { if (c) { break; } }` with a block for the break -/
def breakBlock : FunctionDefinition Empty := functionOf
  [ emptyBlock 1 none (.OpBranch ⟨⟨2⟩⟩),
    emptyBlock 2 (some (.OpLoopMerge ⟨⟨7⟩, ⟨6⟩, ⟨false, false, false, none⟩⟩)) (.OpBranch ⟨⟨3⟩⟩),
    emptyBlock 3 (some (.OpSelectionMerge ⟨⟨5⟩, ⟨false, false⟩⟩)) (.OpBranchConditional ⟨⟨9⟩, ⟨4⟩, ⟨5⟩, none⟩),
    emptyBlock 4 none (.OpBranch ⟨⟨7⟩⟩),
    emptyBlock 5 none (.OpBranch ⟨⟨6⟩⟩),
    emptyBlock 6 none (.OpBranch ⟨⟨2⟩⟩),
    emptyBlock 7 none (.OpReturn ⟨⟩) ]

/-- `while (true) { break; }` without a condition -/
def breakAlways : FunctionDefinition Empty := functionOf
  [ emptyBlock 1 none (.OpBranch ⟨⟨2⟩⟩),
    emptyBlock 2 (some (.OpLoopMerge ⟨⟨5⟩, ⟨4⟩, ⟨false, false, false, none⟩⟩)) (.OpBranch ⟨⟨3⟩⟩),
    emptyBlock 3 none (.OpBranch ⟨⟨5⟩⟩),
    emptyBlock 4 none (.OpBranch ⟨⟨2⟩⟩),
    emptyBlock 5 none (.OpReturn ⟨⟩) ]

/-- A selection in a loop in a selection, with a conditional break in the loop -/
def nestedThree : FunctionDefinition Empty := functionOf
  [ emptyBlock 1 (some (.OpSelectionMerge ⟨⟨10⟩, ⟨false, false⟩⟩)) (.OpBranchConditional ⟨⟨20⟩, ⟨2⟩, ⟨10⟩, none⟩),
    emptyBlock 2 (some (.OpLoopMerge ⟨⟨9⟩, ⟨8⟩, ⟨false, false, false, none⟩⟩)) (.OpBranch ⟨⟨3⟩⟩),
    emptyBlock 3 none (.OpBranchConditional ⟨⟨21⟩, ⟨4⟩, ⟨9⟩, none⟩),
    emptyBlock 4 (some (.OpSelectionMerge ⟨⟨7⟩, ⟨false, false⟩⟩)) (.OpBranchConditional ⟨⟨22⟩, ⟨5⟩, ⟨6⟩, none⟩),
    emptyBlock 5 none (.OpBranch ⟨⟨7⟩⟩),
    emptyBlock 6 none (.OpBranch ⟨⟨7⟩⟩),
    emptyBlock 7 none (.OpBranch ⟨⟨8⟩⟩),
    emptyBlock 8 none (.OpBranch ⟨⟨2⟩⟩),
    emptyBlock 9 none (.OpBranch ⟨⟨10⟩⟩),
    emptyBlock 10 none (.OpReturn ⟨⟩) ]

/-- A block after a loop that leads back to the continue target of the loop -/
def backFromMerge : FunctionDefinition Empty := functionOf
  [ emptyBlock 1 none (.OpBranch ⟨⟨2⟩⟩),
    emptyBlock 2 (some (.OpLoopMerge ⟨⟨5⟩, ⟨4⟩, ⟨false, false, false, none⟩⟩)) (.OpBranch ⟨⟨3⟩⟩),
    emptyBlock 3 none (.OpBranch ⟨⟨4⟩⟩),
    emptyBlock 4 none (.OpBranch ⟨⟨2⟩⟩),
    emptyBlock 5 none (.OpBranch ⟨⟨4⟩⟩) ]

theorem conditionInHeader_structured : Structured conditionInHeader.blocks 1 :=
  structured_of_checked (rank := orderOf conditionInHeader)
    (dom := fun v => ([(1, [1]), (2, [1, 2]), (3, [1, 2, 3]), (4, [1, 2, 4]), (5, [1, 2, 5])].lookup v).getD []) (by decide +kernel)

theorem earlyReturn_structured : Structured earlyReturn.blocks 1 :=
  structured_of_checked (rank := orderOf earlyReturn)
    (dom := fun v => ([(1, [1]), (2, [1, 2]), (3, [1, 3])].lookup v).getD []) (by decide +kernel)

theorem breakFirst_structured : Structured breakFirst.blocks 1 :=
  structured_of_checked (rank := orderOf breakFirst)
    (dom := fun v => ([(1, [1]), (2, [1, 2]), (3, [1, 2, 3]), (4, [1, 2, 4]), (5, [1, 2, 5])].lookup v).getD []) (by decide +kernel)

theorem breakBlock_structured : Structured breakBlock.blocks 1 :=
  structured_of_checked (rank := orderOf breakBlock)
    (dom := fun v => ([(1, [1]), (2, [1, 2]), (3, [1, 2, 3]), (4, [1, 2, 3, 4]), (5, [1, 2, 3, 5]), (6, [1, 2, 6]),
      (7, [1, 2, 7])].lookup v).getD [])
    (by decide +kernel)

theorem breakAlways_structured : Structured breakAlways.blocks 1 :=
  structured_of_checked (rank := orderOf breakAlways)
    (dom := fun v => ([(1, [1]), (2, [1, 2]), (3, [1, 2, 3]), (4, [1, 2, 4]), (5, [1, 2, 5])].lookup v).getD []) (by decide +kernel)

theorem nestedThree_structured : Structured nestedThree.blocks 1 :=
  structured_of_checked (rank := orderOf nestedThree)
    (dom := fun v => ([(1, [1]), (2, [1, 2]), (3, [1, 2, 3]), (4, [1, 2, 3, 4]), (5, [1, 2, 3, 4, 5]), (6, [1, 2, 3, 4, 6]),
      (7, [1, 2, 3, 4, 7]), (8, [1, 2, 8]), (9, [1, 2, 9]), (10, [1, 10])].lookup v).getD []) (by decide +kernel)

/-- Structured functions that are not recovered: a condition in the header of a loop panics; a return in a selection, a
break as the first target of a conditional branch, a break with a block of its own, and a break without a condition are
errors. -/
theorem C89_refused :
    (Structured conditionInHeader.blocks 1 ∧
      ∀ fuel, findControlFlow (fuel + 2) conditionInHeader = .error (.panic "not yet implemented")) ∧
    (Structured earlyReturn.blocks 1 ∧
      ∀ fuel, findControlFlow (fuel + 2) earlyReturn = .error (.err (.InvalidConvergePrediction .Selection ⟨1⟩))) ∧
    (Structured breakFirst.blocks 1 ∧
      ∀ fuel, findControlFlow (fuel + 3) breakFirst = .error (.err (.CouldNotPredictConverge ⟨3⟩))) ∧
    (Structured breakBlock.blocks 1 ∧
      ∀ fuel, findControlFlow (fuel + 5) breakBlock = .error (.err (.InvalidConvergePrediction .Selection ⟨3⟩))) ∧
    (Structured breakAlways.blocks 1 ∧
      ∀ fuel, findControlFlow (fuel + 4) breakAlways = .error (.err (.InvalidConvergePrediction .Loop ⟨2⟩))) :=
  ⟨⟨conditionInHeader_structured, fun _ => rfl⟩, ⟨earlyReturn_structured, fun _ => rfl⟩,
    ⟨breakFirst_structured, fun _ => rfl⟩, ⟨breakBlock_structured, fun _ => rfl⟩,
    ⟨breakAlways_structured, fun _ => rfl⟩⟩

/-- A structured function that is recovered, so that all its blocks are plain -/
example : Structured nestedThree.blocks 1 ∧ (∃ chain, findControlFlow 11 nestedThree = .ok chain) ∧
    ∀ b ∈ nestedThree.blocks, Reached nestedThree.blocks 1 (labelId b) → Tame nestedThree.blocks 1 b :=
  ⟨nestedThree_structured, ⟨_, rfl⟩, (C89_exact (f := nestedThree) rfl nestedThree_structured).mp ⟨11, _, rfl⟩⟩

/-- `C89_returns` for it -/
example : ∃ r, r ≠ .error .diverge ∧ ∀ fuel, 11 ≤ fuel → findControlFlow fuel nestedThree = r :=
  C89_returns (f := nestedThree) rfl nestedThree_structured

/-- Which rule of `Tame` a block breaks: in `breakBlock` it is leaving the selection for the merge block of the loop. -/
example : ∃ b ∈ breakBlock.blocks, Reached breakBlock.blocks 1 (labelId b) ∧ ¬ Tame breakBlock.blocks 1 b := by
  refine Classical.byContradiction fun h => ?_
  obtain ⟨fuel, chain, hc⟩ := (C89_exact (f := breakBlock) rfl breakBlock_structured).mpr fun b hb hr =>
    Classical.byContradiction fun hn => h ⟨b, hb, hr, hn⟩
  have h1 := C89_refused.2.2.2.1.2 fuel
  rw [findControlFlow_mono (Nat.le_add_right fuel 5) (by rw [hc]; intro h; cases h), hc] at h1
  cases h1

/-- Without the rule about branches into a construct the search may not return. -/
example (fuel : Nat) : findControlFlow fuel backFromMerge = .error .diverge := by
  have key : ∀ (n : Nat) (map : BlockMap Empty), buildBlockMap backFromMerge.blocks [] = .ok map →
      searchBlock map n ⟨2⟩ [] = .error .diverge := by
    intro n
    induction n using Nat.strongRecOn with
    | _ n ih =>
      intro map hm
      have ih' := fun k hk => ih k hk map hm
      cases hm
      match n with
      | 0 => rfl
      | 1 => rfl
      | 2 => rfl
      | 3 => rfl
      | n + 4 =>
        have h2 := ih' (n + 1) (by omega)
        rw [searchBlock_succ, searchStep_eq]
        show (searchBlock _ (n + 3) ⟨5⟩ [] >>= _) = _
        rw [searchBlock_succ, searchStep_eq]
        show ((searchBlock _ (n + 2) ⟨4⟩ [] >>= _) >>= _) = _
        rw [searchBlock_succ, searchStep_eq]
        show (((searchBlock _ (n + 1) ⟨2⟩ [] >>= _) >>= _) >>= _) = _
        rw [h2]
        rfl
  match fuel with
  | 0 => rfl
  | fuel + 1 =>
    have h := key fuel _ rfl
    show (searchBlock _ (fuel + 1) ⟨1⟩ [] >>= _) = _
    rw [searchBlock_succ, searchStep_eq]
    show ((searchBlock _ fuel ⟨2⟩ [] >>= _) >>= _) = _
    rw [h]
    rfl

end Magma.Props
