import Verif.Spec.OneTarget
import Verif.Props.Settle
import Verif.Props.Places
/-! C127: conditional branches with just one target. -/

namespace Magma.Props
open Spec Magma.Excerpt Magma.Settle
variable {X S : Type}

theorem oneTarget_some {blocks : List (BasicBlock X)} {x : UInt32} {d : Bool} (h : oneTarget blocks x = some d) :
    d = true ∧ ∃ b op, blockOf blocks ⟨x⟩ = some b ∧ b.branch = .OpBranchConditional op ∧ op.true_label = op.false_label := by
  unfold oneTarget at h
  split at h
  · cases h
  · rename_i b hb
    split at h
    · rename_i op hbr
      split at h
      · rename_i ht
        cases h
        exact ⟨rfl, b, op, hb, hbr, ht⟩
      · cases h
    · cases h

theorem oneTarget_block (blocks : List (BasicBlock X)) (b : BasicBlock X) :
    settleBlock (oneTarget blocks) b = b ∨ ∃ op, oneTarget blocks (labelId b) = some true ∧
      b.branch = .OpBranchConditional op ∧
      settleBlock (oneTarget blocks) b = { b with merge := none, branch := .OpBranch ⟨op.true_label⟩ } := by
  cases hk : oneTarget blocks (labelId b) with
  | none => exact .inl (by rw [settleBlock, hk])
  | some d =>
    obtain rfl := (oneTarget_some hk).1
    cases hbr : b.branch with
    | OpBranchConditional op => exact .inr ⟨op, rfl, rfl, by rw [settleBlock, hk, hbr]; rfl⟩
    | OpBranch op => exact .inl (by rw [settleBlock, hk, hbr])
    | OpReturn op => exact .inl (by rw [settleBlock, hk, hbr])

/-- C127: control flow is recovered from the function with plain branches for the conditional branches with one target. It is
the recovered control flow with one of the arms. -/
theorem C127_flow {f : FunctionDefinition X} {fuel : Nat} {chain : ControlFlowChain}
    (h : findControlFlow fuel f = .ok chain) :
    ∃ fuel', findControlFlow fuel' (settleFunction (oneTarget f.blocks) f) = .ok (settle (oneTarget f.blocks) chain) :=
  C124_flow h fun _ _ _ _ _ hk => absurd (oneTarget_some hk).1 (by decide)

/-- C127: and every execution is the same, whatever the conditions are. -/
theorem C127_computes (M : Machine X S) (f : FunctionDefinition X) (n : Nat) (id : BlockId) (c : Config S) :
    runMachine M (settleFunction (oneTarget f.blocks) f).blocks n id c = runMachine M f.blocks n id c := by
  induction n generalizing id c with
  | zero => rfl
  | succ n ih =>
    have hg : blockOf (settleFunction (oneTarget f.blocks) f).blocks id =
        (blockOf f.blocks id).map (settleBlock (oneTarget f.blocks)) := settle_blockOf _ f.blocks id
    unfold runMachine
    rw [hg]
    cases hb : blockOf f.blocks id with
    | none => rfl
    | some b =>
      have hl : labelId b = id.val := (blockOf_some hb).2
      simp only [Option.map_some]
      rcases oneTarget_block f.blocks b with he | ⟨op, hk, hbr, he⟩
      · rw [he]
        cases hbr : b.branch <;> simp only [ih]
      · obtain ⟨-, b', op', hb', hbr', ht⟩ := oneTarget_some hk
        rw [hl, show (⟨id.val⟩ : BlockId) = id from rfl, hb] at hb'
        cases hb'
        rw [hbr] at hbr'
        cases hbr'
        rw [he, hbr]
        simp only [ih, ← ht, ite_self]
        rfl

theorem part_block {y : BlockId} {l r a c : ControlFlowChain} {hint : SelectionControl} {w : Option BranchWeights}
    (h : PartOf (.Selection y l r hint w) (.block [a, c])) :
    PartOf (.Selection y l r hint w) a ∨ PartOf (.Selection y l r hint w) c := by
  cases h with
  | item hm hp =>
    cases a <;> cases c <;>
      simp only [ControlFlowChain.mergeAll, List.append_nil, List.mem_append, List.mem_cons, List.not_mem_nil, or_false] at hm <;>
      rcases hm with hm | hm <;>
      first
      | exact .inl (hm ▸ hp)
      | exact .inr (hm ▸ hp)
      | exact .inl (.item hm hp)
      | exact .inr (.item hm hp)

theorem found_arms {map : BlockMap X} {y : BlockId} {b : BasicBlock X} {op : OpBranchConditional} (hb : map.get y = some b)
    (hbr : b.branch = .OpBranchConditional op) (ht : op.true_label = op.false_label) (hm : b.merge ≠ none)
    {l r : ControlFlowChain} {hint : SelectionControl} {w : Option BranchWeights} {id : BlockId} {fl : FlowList}
    {chain : ControlFlowChain} {n : Continue} (h : Found map.get id fl chain n)
    (hp : PartOf (.Selection y l r hint w) chain) : l = r := by
  induction h with
  | merged _ =>
    cases hp with
    | item h _ => cases h
  | ret => cases hp
  | branch _ _ _ _ _ ih =>
    rcases part_block hp with hp | hp
    · cases hp
    · exact ih hp
  | loop _ _ _ _ _ _ ih1 ih2 =>
    rcases part_block hp with hp | hp
    · cases hp with
      | inner hp => exact ih1 hp
    · exact ih2 hp
  | sel _ hg hbr' hm' h1 h2 _ ih1 ih2 ih3 =>
    rcases part_block hp with hp | hp
    · cases hp with
      | whole =>
        rw [hb] at hg
        cases hg
        rw [hbr] at hbr'
        cases hbr'
        rw [ht] at h1
        exact (h1.unique h2).1
      | left hp => exact ih1 hp
      | right hp => exact ih2 hp
    · exact ih3 hp
  | exit _ hg _ hm' _ _ _ ih =>
    cases hp with
    | whole =>
      rw [hb] at hg
      cases hg
      exact absurd hm' hm
    | left hp => exact ih hp
    | right hp =>
      split at hp <;> cases hp

/-- C127: the two arms of a selection whose branch has one target are the same. -/
theorem C127_arms {f : FunctionDefinition X} {fuel : Nat} {chain l r : ControlFlowChain} {y : BlockId}
    {hint : SelectionControl} {w : Option BranchWeights} (h : findControlFlow fuel f = .ok chain)
    (hp : PartOf (.Selection y l r hint w) chain) {b : BasicBlock X} {op : OpBranchConditional}
    (hb : blockOf f.blocks y = some b) (hbr : b.branch = .OpBranchConditional op) (hm : b.merge ≠ none)
    (ht : op.true_label = op.false_label) : l = r := by
  obtain ⟨first, more, hbl, hn, hf⟩ := find_ok h
  obtain ⟨map, -, hg⟩ := build_iff f.blocks hn
  rw [← hg] at hf hb
  exact found_arms hb hbr ht hm hf hp

/-! ### Examples -/

/-- Two selections, one in the other, that mention block 13 four times; with plain branches it is mentioned once. -/
def idleBlocks : List (BasicBlock Empty) :=
  [ emptyBlock 10 (some (.OpSelectionMerge ⟨⟨12⟩, ⟨false, false⟩⟩)) (.OpBranchConditional ⟨⟨5⟩, ⟨11⟩, ⟨11⟩, none⟩),
    emptyBlock 11 (some (.OpSelectionMerge ⟨⟨14⟩, ⟨false, false⟩⟩)) (.OpBranchConditional ⟨⟨6⟩, ⟨13⟩, ⟨13⟩, none⟩),
    emptyBlock 13 none (.OpBranch ⟨⟨14⟩⟩), emptyBlock 14 none (.OpBranch ⟨⟨12⟩⟩), emptyBlock 12 none (.OpReturn {}) ]

def idleArm : ControlFlowChain :=
  .Block [.Selection ⟨11⟩ (.Block [.Atom ⟨13⟩]) (.Block [.Atom ⟨13⟩]) ⟨false, false⟩ none, .Atom ⟨14⟩]

theorem idle_found : findControlFlow 9 (functionOf idleBlocks) =
    .ok (.Block [.Selection ⟨10⟩ idleArm idleArm ⟨false, false⟩ none, .Atom ⟨12⟩]) := by rfl

example : ∃ fuel, findControlFlow fuel (settleFunction (oneTarget idleBlocks) (functionOf idleBlocks)) =
    .ok (.Block [.Atom ⟨10⟩, .Atom ⟨11⟩, .Atom ⟨13⟩, .Atom ⟨14⟩, .Atom ⟨12⟩]) := C127_flow idle_found

example : (ControlFlowChain.Block [.Atom ⟨13⟩]) = .Block [.Atom ⟨13⟩] :=
  C127_arms (y := ⟨11⟩) (hint := ⟨false, false⟩) (w := none) idle_found
    (.item List.mem_cons_self (.left (.item List.mem_cons_self .whole))) rfl rfl nofun rfl

example (M : Machine Empty S) (n : Nat) (c : Config S) :
    runMachine M (settleFunction (oneTarget idleBlocks) (functionOf idleBlocks)).blocks n ⟨10⟩ c =
      runMachine M idleBlocks n ⟨10⟩ c := C127_computes M (functionOf idleBlocks) n ⟨10⟩ c

/-- A branch with one target and without merge instruction, in a loop: both ways go on with the next round. The arms are not
the same there: one is empty, the other is `Continue`. -/
def idleLoop : List (BasicBlock Empty) :=
  [ emptyBlock 10 (some (.OpLoopMerge ⟨⟨12⟩, ⟨11⟩, LoopControl.default⟩)) (.OpBranch ⟨⟨11⟩⟩),
    emptyBlock 11 none (.OpBranchConditional ⟨⟨5⟩, ⟨10⟩, ⟨10⟩, none⟩), emptyBlock 12 none (.OpReturn {}) ]

theorem C127_next_round : findControlFlow 9 (functionOf idleLoop) = .ok (.Block
    [.Loop ⟨10⟩ (.Selection ⟨11⟩ (.Block []) .Continue SelectionControl.default none) LoopControl.default none, .Atom ⟨12⟩]) ∧
    ∃ fuel, findControlFlow fuel (settleFunction (oneTarget idleLoop) (functionOf idleLoop)) = .ok (.Block
      [.Loop ⟨10⟩ (.Block [.Atom ⟨11⟩]) LoopControl.default none, .Atom ⟨12⟩]) :=
  ⟨rfl, C127_flow (chain := .Block [.Loop ⟨10⟩ (.Selection ⟨11⟩ (.Block []) .Continue SelectionControl.default none)
    LoopControl.default none, .Atom ⟨12⟩]) (fuel := 9) rfl⟩

end Magma.Props
