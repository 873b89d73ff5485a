import Verif.Proofs.Canonical
import Verif.Props.Expressible
/-! C95: recovered control flow is determined by what the function does. -/

namespace Magma.Props
open Spec
variable {X Y : Type}

/-- C95: what `bare` takes away from recovered control flow, its executions do not show. -/
theorem C95_bare {f : FunctionDefinition X} {fuel : Nat} {chain : ControlFlowChain}
    (h : findControlFlow fuel f = .ok chain) (ds : List Bool) : runProgram (bare chain) ds = runProgram chain ds := by
  obtain ⟨s, hw, rfl⟩ := C57_only h
  exact Canon.runProgram_bare hw ds

/-- C95: if two functions visit the same blocks and end alike, whatever the decisions, and their recovered control
flow mentions no block twice and has no loop without a break, it is the same but for what `bare` takes away. -/
theorem C95_determined {f : FunctionDefinition X} {g : FunctionDefinition Y} {fuel fuel' : Nat}
    {chain chain' : ControlFlowChain} (hf : findControlFlow fuel f = .ok chain)
    (hg : findControlFlow fuel' g = .ok chain') (hd : (chainIds chain).Nodup) (hd' : (chainIds chain').Nodup)
    (hl : LoopsEnd chain) (hl' : LoopsEnd chain') {first : BasicBlock X} {first' : BasicBlock Y}
    {more : List (BasicBlock X)} {more' : List (BasicBlock Y)} (hb : f.blocks = first :: more)
    (hb' : g.blocks = first' :: more')
    (h : ∀ ds, runBlocks f.blocks ds ⟨labelId first⟩ = runBlocks g.blocks ds ⟨labelId first'⟩) :
    bare chain = bare chain' := by
  obtain ⟨s, first₁, more₁, hb₁, -, hs, he, -, rfl⟩ := C30_accepted_iff.mp ⟨fuel, hf⟩
  obtain ⟨t, first₂, more₂, hb₂, -, ht, he', -, rfl⟩ := C30_accepted_iff.mp ⟨fuel', hg⟩
  cases hb.symm.trans hb₁
  cases hb'.symm.trans hb₂
  rw [(Program.chainIds_toChain s).1, ids_nodup_vals] at hd
  rw [(Program.chainIds_toChain t).1, ids_nodup_vals] at hd'
  rw [Canon.bare_toChain, Canon.bare_toChain, Canon.determined hs ht he he' hd hd'
    ((Program.loopsEnd_toChain s).mp hl) ((Program.loopsEnd_toChain t).mp hl') h]

/-- C95: the same of the recovered control flow alone: two such chains can be told apart by an execution exactly if
they are different when bare. -/
theorem C95_same {f : FunctionDefinition X} {g : FunctionDefinition Y} {fuel fuel' : Nat}
    {chain chain' : ControlFlowChain} (hf : findControlFlow fuel f = .ok chain)
    (hg : findControlFlow fuel' g = .ok chain') (hd : (chainIds chain).Nodup) (hd' : (chainIds chain').Nodup)
    (hl : LoopsEnd chain) (hl' : LoopsEnd chain') :
    (∀ ds, runProgram chain ds = runProgram chain' ds) ↔ bare chain = bare chain' := by
  constructor
  · intro h
    obtain ⟨first, more, hb, hr⟩ := C27_executions hf
    obtain ⟨first', more', hb', hr'⟩ := C27_executions hg
    exact C95_determined hf hg hd hd' hl hl' hb hb' fun ds => by rw [← hr, ← hr', h]
  · intro h ds
    rw [← C95_bare hf, ← C95_bare hg, h]

/-! ### Samples -/

/-- The blocks of `sampleBlocks` in another order, with other hints and no weights; block 16 is a selection with
nothing on either side, and block 14 selects where it went on with the loop -/
def shuffledBlocks : List (BasicBlock Empty) :=
  [ emptyBlock 10 (some (.OpSelectionMerge ⟨⟨19⟩, ⟨false, true⟩⟩)) (.OpBranchConditional ⟨⟨5⟩, ⟨11⟩, ⟨12⟩, none⟩),
    emptyBlock 19 none (.OpReturn {}),
    emptyBlock 16 (some (.OpSelectionMerge ⟨⟨19⟩, ⟨false, false⟩⟩)) (.OpBranchConditional ⟨⟨5⟩, ⟨19⟩, ⟨19⟩, none⟩),
    emptyBlock 15 none (.OpBranch ⟨⟨12⟩⟩),
    emptyBlock 14 (some (.OpSelectionMerge ⟨⟨12⟩, ⟨true, false⟩⟩)) (.OpBranchConditional ⟨⟨7⟩, ⟨15⟩, ⟨12⟩, some ⟨1, 1⟩⟩),
    emptyBlock 13 none (.OpBranchConditional ⟨⟨6⟩, ⟨14⟩, ⟨16⟩, none⟩),
    emptyBlock 12 (some (.OpLoopMerge ⟨⟨16⟩, ⟨15⟩, ⟨false, false, false, none⟩⟩)) (.OpBranch ⟨⟨13⟩⟩),
    emptyBlock 11 none (.OpBranch ⟨⟨19⟩⟩) ]

def shuffledChain : ControlFlowChain :=
  .Block [.Selection ⟨10⟩ (.Block [.Atom ⟨11⟩])
    (.Block [.Loop ⟨12⟩ (.Selection ⟨13⟩ (.Block [.Selection ⟨14⟩ (.Block [.Atom ⟨15⟩]) (.Block []) ⟨true, false⟩ (some ⟨1, 1⟩)])
        .Break ⟨false, false⟩ none) ⟨false, false, false, none⟩ none,
      .Selection ⟨16⟩ (.Block []) (.Block []) ⟨false, false⟩ none]) ⟨false, true⟩ none,
    .Atom ⟨19⟩]

theorem shuffled_found : findControlFlow 9 (functionOf shuffledBlocks) = .ok shuffledChain := by rfl

/-- The two recovered chains are different, but the same when bare. -/
example : sampleChain ≠ shuffledChain ∧ bare sampleChain = bare shuffledChain :=
  ⟨by simp [sampleChain, shuffledChain], rfl⟩

example (ds : List Bool) : runProgram sampleChain ds = runProgram shuffledChain ds :=
  (C95_same sample_found shuffled_found (by decide) (by decide) (by simp [sampleChain, LoopsEnd, LoopsEndAll, canBreak])
    (by simp [shuffledChain, LoopsEnd, LoopsEndAll, canBreak])).mpr rfl ds

/-- What is left when bare -/
example : bare sampleChain =
    .Block [.Selection ⟨10⟩ (.Atom ⟨11⟩)
      (.Block [.Loop ⟨12⟩ (.Selection ⟨13⟩ (.Selection ⟨14⟩ (.Atom ⟨15⟩) (.Block []) ⟨false, false⟩ none)
        .Break ⟨false, false⟩ none) ⟨false, false, false, none⟩ none,
      .Atom ⟨16⟩]) ⟨false, false⟩ none,
    .Atom ⟨19⟩] := rfl

/-- Both branches lead to the same block. -/
def forkedBlocks : List (BasicBlock Empty) :=
  [ emptyBlock 10 (some (.OpSelectionMerge ⟨⟨12⟩, ⟨false, false⟩⟩)) (.OpBranchConditional ⟨⟨5⟩, ⟨11⟩, ⟨11⟩, none⟩),
    emptyBlock 11 none (.OpBranch ⟨⟨12⟩⟩), emptyBlock 12 none (.OpReturn {}) ]

/-- The same without the choice -/
def straightBlocks : List (BasicBlock Empty) :=
  [ emptyBlock 10 none (.OpBranch ⟨⟨11⟩⟩), emptyBlock 11 none (.OpBranch ⟨⟨12⟩⟩), emptyBlock 12 none (.OpReturn {}) ]

/-- C95 needs that no block is mentioned twice: these two functions have the same executions, but their recovered
control flow differs even when bare. -/
theorem C95_twice : ∃ chain chain', findControlFlow 9 (functionOf forkedBlocks) = .ok chain ∧
    findControlFlow 9 (functionOf straightBlocks) = .ok chain' ∧ LoopsEnd chain ∧ LoopsEnd chain' ∧
    (chainIds chain').Nodup ∧ (∀ ds, runBlocks forkedBlocks ds ⟨10⟩ = runBlocks straightBlocks ds ⟨10⟩) ∧
    bare chain ≠ bare chain' := by
  refine ⟨.Block [.Selection ⟨10⟩ (.Block [.Atom ⟨11⟩]) (.Block [.Atom ⟨11⟩]) ⟨false, false⟩ none, .Atom ⟨12⟩],
    .Block [.Atom ⟨10⟩, .Atom ⟨11⟩, .Atom ⟨12⟩], rfl, rfl, by simp [LoopsEnd, LoopsEndAll],
    by simp [LoopsEnd, LoopsEndAll], by decide, fun ds => ?_, by simp [bare, bareAll, bundle, choice]⟩
  match ds with
  | [] => rfl
  | [d] => cases d <;> rfl
  | [d, _] => cases d <;> rfl
  | d :: _ :: _ :: _ => cases d <;> rfl

/-- A loop that never ends, and then a block -/
def foreverBlocks (last : UInt32) : List (BasicBlock Empty) :=
  [ emptyBlock 10 (some (.OpLoopMerge ⟨⟨last⟩, ⟨11⟩, ⟨false, false, false, none⟩⟩)) (.OpBranch ⟨⟨11⟩⟩),
    emptyBlock 11 none (.OpBranch ⟨⟨10⟩⟩), emptyBlock last none (.OpReturn {}) ]

/-- C95 needs that every loop has a break: what comes after a loop without one is never seen. -/
theorem C95_endless : ∃ chain chain', findControlFlow 9 (functionOf (foreverBlocks 12)) = .ok chain ∧
    findControlFlow 9 (functionOf (foreverBlocks 13)) = .ok chain' ∧ (chainIds chain).Nodup ∧ (chainIds chain').Nodup ∧
    (∀ ds, runBlocks (foreverBlocks 12) ds ⟨10⟩ = runBlocks (foreverBlocks 13) ds ⟨10⟩) ∧ bare chain ≠ bare chain' := by
  refine ⟨.Block [.Loop ⟨10⟩ (.Block [.Atom ⟨11⟩]) ⟨false, false, false, none⟩ none, .Atom ⟨12⟩],
    .Block [.Loop ⟨10⟩ (.Block [.Atom ⟨11⟩]) ⟨false, false, false, none⟩ none, .Atom ⟨13⟩], rfl, rfl, by decide,
    by decide, fun ds => ?_, by simp [bare, bareAll, bundle]⟩
  have key : ∀ ds, runBlocks (foreverBlocks 12) ds ⟨10⟩ = runBlocks (foreverBlocks 13) ds ⟨10⟩ ∧
      runBlocks (foreverBlocks 12) ds ⟨11⟩ = runBlocks (foreverBlocks 13) ds ⟨11⟩ := by
    intro ds
    induction ds with
    | nil => exact ⟨rfl, rfl⟩
    | cons d ds ih =>
      refine ⟨?_, ?_⟩
      · show (_ :: _, _) = (_ :: _, _)
        rw [ih.2]
      · show (_ :: _, _) = (_ :: _, _)
        rw [ih.1]
  exact (key ds).1

/-- The executions of the sample, and of what is left of it when bare -/
example (ds : List Bool) : runProgram (bare sampleChain) ds = runProgram sampleChain ds := C95_bare sample_found ds
/-- The two functions have the same executions, so what is recovered is the same when bare. -/
example (h : ∀ ds, runBlocks sampleBlocks ds ⟨10⟩ = runBlocks shuffledBlocks ds ⟨10⟩) :
    bare sampleChain = bare shuffledChain :=
  C95_determined sample_found shuffled_found (by decide) (by decide)
    (by simp [sampleChain, LoopsEnd, LoopsEndAll, canBreak]) (by simp [shuffledChain, LoopsEnd, LoopsEndAll, canBreak])
    rfl rfl h
example (ds : List Bool) : runBlocks sampleBlocks ds ⟨10⟩ = runBlocks shuffledBlocks ds ⟨10⟩ := by
  obtain ⟨_, _, hb, h⟩ := C27_executions sample_found
  obtain ⟨_, _, hb', h'⟩ := C27_executions shuffled_found
  cases hb
  cases hb'
  refine (h ds).symm.trans (Eq.trans ?_ (h' ds))
  rw [← C95_bare sample_found, ← C95_bare shuffled_found]
  rfl

end Magma.Props
