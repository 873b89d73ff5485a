import Verif.Proofs.Copies
import Verif.Props.ControlFlow
/-! C101: copies of blocks are recovered like the blocks. -/

namespace Magma.Props
open Spec
variable {X Y : Type}

/-! ### C101 -/

/-- C101: if `f` is `g` with copies of blocks, the outcome for `g` is the outcome for `f` with the blocks in place of
their copies, whether a chain, an error or a panic. -/
theorem C101_copies {σ : UInt32 → UInt32} {f : FunctionDefinition X} {g : FunctionDefinition Y} {bf : BasicBlock X}
    {bg : BasicBlock Y} (hf : f.blocks.head? = some bf) (hg : g.blocks.head? = some bg)
    (h1 : labelId bg = σ (labelId bf)) (hnf : (f.blocks.map labelId).Nodup) (hng : (g.blocks.map labelId).Nodup)
    (hc : Copies σ f.blocks (labelId bf) g.blocks) (fuel : Nat) :
    findControlFlow fuel g = renameOutcome σ (findControlFlow fuel f) :=
  Copy.find_copies hf hg h1 hnf hng hc fuel

/-- C101: and `f` is that if all its blocks are copies of blocks of `g`, and there is one copy only of the blocks at
which bodies end and of those to which one breaks out. -/
theorem C101_single {σ : UInt32 → UInt32} {f : FunctionDefinition X} {g : FunctionDefinition Y} {bf : BasicBlock X}
    {bg : BasicBlock Y} (hf : f.blocks.head? = some bf) (hg : g.blocks.head? = some bg)
    (h1 : labelId bg = σ (labelId bf)) (hnf : (f.blocks.map labelId).Nodup) (hng : (g.blocks.map labelId).Nodup)
    (hc : CopiesAll σ f.blocks g.blocks) (fuel : Nat) :
    findControlFlow fuel g = renameOutcome σ (findControlFlow fuel f) :=
  Copy.find_copies hf hg h1 hnf hng (Copy.copies_of_all hc _) fuel

/-- Both branches of a selection are the same block. -/
def shared : FunctionDefinition Empty :=
  functionOf [emptyBlock 1 (some (.OpSelectionMerge ⟨⟨4⟩, ⟨false, false⟩⟩)) (.OpBranchConditional ⟨⟨9⟩, ⟨2⟩, ⟨2⟩, none⟩),
    emptyBlock 2 none (.OpBranch ⟨⟨4⟩⟩), emptyBlock 4 none (.OpReturn {})]

/-- Each branch of the selection has its own copy of the block. -/
def unshared : FunctionDefinition Empty :=
  functionOf [emptyBlock 1 (some (.OpSelectionMerge ⟨⟨4⟩, ⟨false, false⟩⟩)) (.OpBranchConditional ⟨⟨9⟩, ⟨2⟩, ⟨3⟩, none⟩),
    emptyBlock 2 none (.OpBranch ⟨⟨4⟩⟩), emptyBlock 3 none (.OpBranch ⟨⟨4⟩⟩), emptyBlock 4 none (.OpReturn {})]

/-- Block 3 is a copy of block 2. -/
def unshare (x : UInt32) : UInt32 := if x = 3 then 2 else x

theorem unshared_copies : CopiesAll unshare unshared.blocks shared.blocks where
  same b hb := by
    simp only [unshared, functionOf, List.mem_cons, List.not_mem_nil, or_false] at hb
    rcases hb with rfl | rfl | rfl | rfl
    · exact ⟨_, .head _, rfl, rfl⟩
    · exact ⟨_, .tail _ (.head _), rfl, rfl⟩
    · exact ⟨_, .tail _ (.head _), rfl, rfl⟩
    · exact ⟨_, .tail _ (.tail _ (.head _)), rfl, rfl⟩
  missing x hx b hb e := by
    have h1 := hx _ (.head _)
    have h2 := hx _ (.tail _ (.head _))
    have h3 := hx _ (.tail _ (.tail _ (.head _)))
    have h4 := hx _ (.tail _ (.tail _ (.tail _ (.head _))))
    rw [unshare, if_neg fun e => h3 e.symm] at e
    simp only [shared, functionOf, List.mem_cons, List.not_mem_nil, or_false] at hb
    rcases hb with rfl | rfl | rfl
    · exact h1 e
    · exact h2 e
    · exact h4 e
  single a x ha e := by
    have ha : a = 4 := by
      obtain ⟨b, hb, h⟩ := ha
      simp only [unshared, functionOf, List.mem_cons, List.not_mem_nil, or_false] at hb
      rcases hb with rfl | rfl | rfl | rfl <;> rcases h with ⟨_, _, _, h, _⟩ | ⟨_, _, _, _, _, h, h'⟩ <;> cases h
      exact h'
    subst ha
    by_cases hx : x = 3
    · rw [hx] at e; cases e
    · rw [unshare, if_neg hx] at e
      exact e

example : findControlFlow 9 unshared =
      .ok (.Block [.Selection ⟨1⟩ (.Block [.Atom ⟨2⟩]) (.Block [.Atom ⟨3⟩]) ⟨false, false⟩ none, .Atom ⟨4⟩]) ∧
    findControlFlow 9 shared =
      .ok (.Block [.Selection ⟨1⟩ (.Block [.Atom ⟨2⟩]) (.Block [.Atom ⟨2⟩]) ⟨false, false⟩ none, .Atom ⟨4⟩]) :=
  ⟨by rfl, by rfl⟩
example (fuel : Nat) : findControlFlow fuel shared = renameOutcome unshare (findControlFlow fuel unshared) :=
  C101_single rfl rfl rfl (by decide) (by decide) unshared_copies fuel

/-- C101: copies of the block at which a body ends may not take its place inside the body. Here block 5 is a copy of
the merge block 4. The one function is rejected and the other is not. -/
theorem C101_apart : ∃ (σ : UInt32 → UInt32) (f g : FunctionDefinition Empty) (fuel : Nat),
    (f.blocks.head?.map fun b => σ (labelId b)) = g.blocks.head?.map labelId ∧
    (f.blocks.map labelId).Nodup ∧ (g.blocks.map labelId).Nodup ∧
    (∀ b ∈ f.blocks, ∃ b' ∈ g.blocks, labelId b' = σ (labelId b) ∧ endOf b' = (endOf b).rename σ) ∧
    (∃ chain, findControlFlow fuel g = .ok chain) ∧
    findControlFlow fuel f = .error (.err (.InvalidConvergePrediction .Selection ⟨1⟩)) := by
  refine ⟨fun x => if x = 5 then 4 else x, functionOf
    [emptyBlock 1 (some (.OpSelectionMerge ⟨⟨4⟩, ⟨false, false⟩⟩)) (.OpBranchConditional ⟨⟨9⟩, ⟨2⟩, ⟨3⟩, none⟩),
      emptyBlock 2 none (.OpBranch ⟨⟨4⟩⟩), emptyBlock 3 none (.OpBranch ⟨⟨5⟩⟩), emptyBlock 4 none (.OpReturn {}),
      emptyBlock 5 none (.OpReturn {})], functionOf
    [emptyBlock 1 (some (.OpSelectionMerge ⟨⟨4⟩, ⟨false, false⟩⟩)) (.OpBranchConditional ⟨⟨9⟩, ⟨2⟩, ⟨3⟩, none⟩),
      emptyBlock 2 none (.OpBranch ⟨⟨4⟩⟩), emptyBlock 3 none (.OpBranch ⟨⟨4⟩⟩), emptyBlock 4 none (.OpReturn {})], 9,
    by rfl, by decide, by decide, fun b hb => ?_, ⟨_, rfl⟩, by rfl⟩
  simp only [functionOf, List.mem_cons, List.not_mem_nil, or_false] at hb
  rcases hb with rfl | rfl | rfl | rfl | rfl
  · exact ⟨_, .head _, rfl, rfl⟩
  · exact ⟨_, .tail _ (.head _), rfl, rfl⟩
  · exact ⟨_, .tail _ (.tail _ (.head _)), rfl, rfl⟩
  · exact ⟨_, .tail _ (.tail _ (.tail _ (.head _))), rfl, rfl⟩
  · exact ⟨_, .tail _ (.tail _ (.tail _ (.head _))), rfl, rfl⟩

/-- A loop in each of two branches, the second a copy of the first -/
def twoLoops : FunctionDefinition Empty :=
  functionOf [emptyBlock 1 (some (.OpSelectionMerge ⟨⟨4⟩, ⟨false, false⟩⟩)) (.OpBranchConditional ⟨⟨9⟩, ⟨10⟩, ⟨20⟩, none⟩),
    emptyBlock 10 (some (.OpLoopMerge ⟨⟨12⟩, ⟨11⟩, ⟨false, false, false, none⟩⟩)) (.OpBranch ⟨⟨11⟩⟩),
    emptyBlock 11 none (.OpBranchConditional ⟨⟨9⟩, ⟨10⟩, ⟨12⟩, none⟩), emptyBlock 12 none (.OpBranch ⟨⟨4⟩⟩),
    emptyBlock 20 (some (.OpLoopMerge ⟨⟨22⟩, ⟨21⟩, ⟨false, false, false, none⟩⟩)) (.OpBranch ⟨⟨21⟩⟩),
    emptyBlock 21 none (.OpBranchConditional ⟨⟨9⟩, ⟨20⟩, ⟨22⟩, none⟩), emptyBlock 22 none (.OpBranch ⟨⟨4⟩⟩),
    emptyBlock 4 none (.OpReturn {})]

/-- Both branches are the same loop. -/
def oneLoop : FunctionDefinition Empty :=
  functionOf [emptyBlock 1 (some (.OpSelectionMerge ⟨⟨4⟩, ⟨false, false⟩⟩)) (.OpBranchConditional ⟨⟨9⟩, ⟨10⟩, ⟨10⟩, none⟩),
    emptyBlock 10 (some (.OpLoopMerge ⟨⟨12⟩, ⟨11⟩, ⟨false, false, false, none⟩⟩)) (.OpBranch ⟨⟨11⟩⟩),
    emptyBlock 11 none (.OpBranchConditional ⟨⟨9⟩, ⟨10⟩, ⟨12⟩, none⟩), emptyBlock 12 none (.OpBranch ⟨⟨4⟩⟩),
    emptyBlock 4 none (.OpReturn {})]

/-- The blocks of the second loop are copies of the blocks of the first. -/
def oneOfTwo (x : UInt32) : UInt32 := if x = 20 then 10 else if x = 21 then 11 else if x = 22 then 12 else x

/-- The places of `twoLoops` -/
def twoLoopsPlaces : List Place :=
  [(1, []), (4, []), (10, [.selection 4]), (11, [.loop 10 12, .selection 4]), (10, [.loop 10 12, .selection 4]),
    (12, [.selection 4]), (4, [.selection 4]), (20, [.selection 4]), (21, [.loop 20 22, .selection 4]),
    (20, [.loop 20 22, .selection 4]), (22, [.selection 4])]

theorem twoLoops_places {p : Place} (h : Path twoLoops.blocks (1, []) p) : p ∈ twoLoopsPlaces :=
  Copy.path_mem (by decide) (by decide) h

theorem twoLoops_copies : Copies oneOfTwo twoLoops.blocks 1 oneLoop.blocks where
  same p b _ hat := by
    obtain ⟨h1, h2, -⟩ := hat
    rw [← h2]
    simp only [twoLoops, functionOf, List.mem_cons, List.not_mem_nil, or_false] at h1
    rcases h1 with rfl | rfl | rfl | rfl | rfl | rfl | rfl | rfl
    · exact ⟨_, .head _, rfl, rfl⟩
    · exact ⟨_, .tail _ (.head _), rfl, rfl⟩
    · exact ⟨_, .tail _ (.tail _ (.head _)), rfl, rfl⟩
    · exact ⟨_, .tail _ (.tail _ (.tail _ (.head _))), rfl, rfl⟩
    · exact ⟨_, .tail _ (.head _), rfl, rfl⟩
    · exact ⟨_, .tail _ (.tail _ (.head _)), rfl, rfl⟩
    · exact ⟨_, .tail _ (.tail _ (.tail _ (.head _))), rfl, rfl⟩
    · exact ⟨_, .tail _ (.tail _ (.tail _ (.tail _ (.head _)))), rfl, rfl⟩
  missing p hp _ hm := by
    have : ∀ p ∈ twoLoopsPlaces, p.1 ∈ twoLoops.blocks.map labelId := by decide
    obtain ⟨b, hb, e⟩ := List.mem_map.mp (this p (twoLoops_places hp))
    exact absurd e (hm b hb)
  stops p hp := by
    have : ∀ p ∈ twoLoopsPlaces, ∀ s ∈ p.2.map Construct.stop, oneOfTwo p.1 = oneOfTwo s → p.1 = s := by decide
    exact this p (twoLoops_places hp)
  exits p b t e w head merge hp hat he hi := by
    obtain ⟨h1, h2, -⟩ := hat
    simp only [twoLoops, functionOf, List.mem_cons, List.not_mem_nil, or_false] at h1
    have h11 : ∀ p ∈ twoLoopsPlaces, p.1 = 11 → innermost p.2 = some (10, 12) := by decide
    have h21 : ∀ p ∈ twoLoopsPlaces, p.1 = 21 → innermost p.2 = some (20, 22) := by decide
    rcases h1 with rfl | rfl | rfl | rfl | rfl | rfl | rfl | rfl <;> cases he
    · rw [h11 p (twoLoops_places hp) h2.symm] at hi
      cases hi
      exact ⟨fun _ => rfl, fun h => absurd h (by decide)⟩
    · rw [h21 p (twoLoops_places hp) h2.symm] at hi
      cases hi
      exact ⟨fun _ => rfl, fun h => absurd h (by decide)⟩

/-- The two loops do not meet the simpler condition: there are two copies of their headers. -/
example : ¬ CopiesAll oneOfTwo twoLoops.blocks oneLoop.blocks := fun h =>
  absurd (h.single 10 20 ⟨_, .tail _ (.head _), .inl ⟨_, _, _, rfl, .inl rfl⟩⟩ (by decide)) (by decide)
example (fuel : Nat) : findControlFlow fuel oneLoop = renameOutcome oneOfTwo (findControlFlow fuel twoLoops) :=
  C101_copies rfl rfl rfl (by decide) (by decide) twoLoops_copies fuel
example : ∃ chain, findControlFlow 20 twoLoops = .ok chain ∧ findControlFlow 20 oneLoop = .ok (renameChain oneOfTwo chain) :=
  ⟨_, rfl, by rfl⟩

end Magma.Props
