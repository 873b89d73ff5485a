import Verif.Proofs.Dominance
import Verif.Props.Expressible
/-! C58: the order of visits that a recovered chain promises. -/

namespace Magma.Props
open Spec
variable {X : Type}

/-- C58: no execution of the function visits a block before the blocks that start the constructs around it,
and the blocks and constructs before it. -/
theorem C58_before {f : FunctionDefinition X} {fuel : Nat} {chain : ControlFlowChain}
    (h : findControlFlow fuel f = .ok chain) (hd : (chainIds chain).Nodup) {first : BasicBlock X}
    {more : List (BasicBlock X)} (hb : f.blocks = first :: more) {a b : BlockId} (hg : Guards a b chain)
    (ds : List Bool) : Preceded a b (runBlocks f.blocks ds ⟨labelId first⟩).1 := by
  obtain ⟨s, hw, rfl⟩ := C57_only h
  obtain ⟨first', more', hb', he⟩ := C27_executions h
  rw [hb] at hb'
  cases hb'
  rw [← he ds]
  exact guards_preceded _ ds ((Program.exitsLast_toChain s).mpr (Program.exitsLast_of_wellFormed s hw)) hd hg

/-- C58: an execution of the function that returns, and visits a block, visits later on what comes after the
block, or after a construct around it. -/
theorem C58_after {f : FunctionDefinition X} {fuel : Nat} {chain : ControlFlowChain}
    (h : findControlFlow fuel f = .ok chain) (hd : (chainIds chain).Nodup) {first : BasicBlock X}
    {more : List (BasicBlock X)} (hb : f.blocks = first :: more) {a b : BlockId} (hg : Awaits b a chain)
    (ds : List Bool) (hr : (runBlocks f.blocks ds ⟨labelId first⟩).2 = .returned) :
    Followed b a (runBlocks f.blocks ds ⟨labelId first⟩).1 := by
  obtain ⟨s, hw, rfl⟩ := C57_only h
  obtain ⟨first', more', hb', he⟩ := C27_executions h
  rw [hb] at hb'
  cases hb'
  rw [← he ds] at hr ⊢
  refine awaits_followed _ ds ((Program.exitsLast_toChain s).mpr (Program.exitsLast_of_wellFormed s hw)) hd hg ?_
  intro hs
  rw [runProgram, hs] at hr
  cases hr

example : (chainIds sampleChain).Nodup := by decide
/-- The loop header comes before the block with the continue, and before the block after the loop. -/
example : Guards ⟨12⟩ ⟨14⟩ sampleChain ∧ Guards ⟨12⟩ ⟨16⟩ sampleChain ∧ Guards ⟨10⟩ ⟨19⟩ sampleChain :=
  ⟨.inr (.inl (.inr (.inr (.inr (.inl (.inl ⟨rfl, by decide⟩)))))),
   .inr (.inl (.inr (.inr (.inl ⟨List.mem_singleton_self _, by decide⟩)))),
   .inl ⟨List.mem_singleton_self _, by decide⟩⟩
/-- What comes after the loop and after the selection -/
example : Awaits ⟨16⟩ ⟨14⟩ sampleChain ∧ Awaits ⟨19⟩ ⟨11⟩ sampleChain :=
  ⟨.inr (.inl (.inr (.inl ⟨by decide, List.mem_singleton_self _⟩))), .inl ⟨by decide, List.mem_singleton_self _⟩⟩
/-- The body of a loop need not be finished. -/
example : ¬ Awaits ⟨15⟩ ⟨14⟩ sampleChain := by
  simp [sampleChain, Awaits, AwaitsAny, spineAll, spine, chainIds, chainIdsAll]
example : (runBlocks sampleBlocks [false, true, true, false, true, false, true, true] ⟨10⟩).2 = .returned := by rfl

/-- If the chain mentions a block twice, it may be reached in other ways. -/
example : ∃ (f : FunctionDefinition Empty) (chain : ControlFlowChain), findControlFlow 9 f = .ok chain ∧
    Guards ⟨11⟩ ⟨12⟩ chain ∧ (runBlocks f.blocks [false, true] ⟨10⟩).1 = [⟨10⟩, ⟨12⟩] :=
  ⟨functionOf [
    emptyBlock 10 (some (.OpSelectionMerge ⟨⟨19⟩, ⟨false, false⟩⟩)) (.OpBranchConditional ⟨⟨5⟩, ⟨11⟩, ⟨12⟩, none⟩),
    emptyBlock 11 (some (.OpSelectionMerge ⟨⟨14⟩, ⟨false, false⟩⟩)) (.OpBranchConditional ⟨⟨5⟩, ⟨12⟩, ⟨14⟩, none⟩),
    emptyBlock 12 none (.OpBranch ⟨⟨14⟩⟩), emptyBlock 14 none (.OpBranch ⟨⟨19⟩⟩), emptyBlock 19 none (.OpReturn {})],
   .Block [.Selection ⟨10⟩ (.Block [.Selection ⟨11⟩ (.Block [.Atom ⟨12⟩]) (.Block []) ⟨false, false⟩ none, .Atom ⟨14⟩])
     (.Block [.Atom ⟨12⟩, .Atom ⟨14⟩]) ⟨false, false⟩ none, .Atom ⟨19⟩],
   by rfl, .inr (.inl (.inr (.inl (.inr (.inl (.inl ⟨rfl, .inl (by decide)⟩)))))), by rfl⟩

/-- C58 for the sample: the header of the loop is visited before block 15. -/
example (ds : List Bool) : Preceded ⟨12⟩ ⟨15⟩ (runBlocks sampleBlocks ds ⟨10⟩).1 :=
  C58_before sample_found (by decide) rfl (by simp [sampleChain, Guards, GuardsAny, spine, chainIds, chainIdsAll]) ds

end Magma.Props
