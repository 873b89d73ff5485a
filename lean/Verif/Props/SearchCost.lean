import Verif.Proofs.SearchCost
import Verif.Props.Places
import Verif.Props.Chains
/-! C69: the stack and the time control flow recovery takes. -/

namespace Magma.Props
open Spec
variable {X : Type}

/-- C69: the search that counts its calls has the outcome of the search, and in all cases makes fewer
calls than three to the power of the frames there is room for. -/
theorem C69_same (f : FunctionDefinition X) (d : Nat) :
    (findControlFlowC d f).1 = findControlFlow d f ∧ (findControlFlowC d f).2 < 3 ^ d := by
  refine ⟨(find_tallies f d).same, ?_⟩
  have := (find_tallies f d).calls
  have : 1 ≤ 3 ^ d := Nat.pos_of_ne_zero (by simp)
  omega

/-- C69: how deep the calls nest is determined by the control flow that is found: with room for that
many frames it is found, with less the stack overflows. -/
theorem C69_depth {f : FunctionDefinition X} {fuel : Nat} {chain : ControlFlowChain}
    (h : findControlFlow fuel f = .ok chain) (d : Nat) :
    findControlFlow d f = if chainDepth chain 0 ≤ d then .ok chain else .error .diverge := by
  rw [← (C69_same f d).1]
  by_cases hd : chainDepth chain 0 ≤ d
  · rw [if_pos hd, (find_spends h).enough d hd]
  · rw [if_neg hd]
    exact (find_spends h).short d (by omega)

/-- C69: the number of calls is determined by the control flow that is found. -/
theorem C69_calls {f : FunctionDefinition X} {fuel : Nat} {chain : ControlFlowChain}
    (h : findControlFlow fuel f = .ok chain) : (findControlFlowC fuel f).2 = chainCalls chain 0 := by
  have hd : chainDepth chain 0 ≤ fuel := by
    apply Classical.byContradiction
    intro hn
    have := C69_depth h fuel
    rw [if_neg hn, h] at this
    cases this
  rw [(find_spends h).enough fuel hd]

/-- C69: so finding takes as long as the result is large, up to a factor of three, and the stack is at
most one frame deeper than that. -/
theorem C69_output {f : FunctionDefinition X} {fuel : Nat} {chain : ControlFlowChain}
    (h : findControlFlow fuel f = .ok chain) :
    (chainIds chain).length ≤ (findControlFlowC fuel f).2 ∧
    (findControlFlowC fuel f).2 ≤ 3 * (chainIds chain).length ∧
    findControlFlow ((chainIds chain).length + 1) f = .ok chain := by
  rw [C69_calls h, C69_depth h, if_pos]
  · have := chainCalls_bounds chain 0
    exact ⟨this.1, this.2, rfl⟩
  · exact chainDepth_le chain 0

/-- C69: for functions in which, apart from the ends of bodies, every block is entered in one way only,
three calls per block are enough. -/
theorem C69_linear {f : FunctionDefinition X} {fuel : Nat} {chain : ControlFlowChain}
    (h : findControlFlow fuel f = .ok chain) {first : BasicBlock X} {more : List (BasicBlock X)}
    (hb : f.blocks = first :: more) (ho : EnteredOnce f.blocks (labelId first)) :
    (findControlFlowC fuel f).2 ≤ 3 * f.blocks.length ∧
    findControlFlow (f.blocks.length + 1) f = .ok chain := by
  have h1 := (C50_once_partial h hb ho).2
  have h2 := (C69_output h).2.1
  refine ⟨by omega, ?_⟩
  rw [C69_depth h, if_pos]
  have := chainDepth_le chain 0
  omega

/-- C69: in general the time is exponential, though the result is found. -/
theorem C69_exponential (n : Nat) (hn : 2 * n + 3 ≤ 2 ^ 32) : ∃ (f : FunctionDefinition Empty) (fuel : Nat)
    (chain : ControlFlowChain), f.blocks.length = 2 * n + 3 ∧ findControlFlow fuel f = .ok chain ∧
      2 ^ (n + 1) ≤ (findControlFlowC fuel f).2 := by
  obtain ⟨f, fuel, chain, h1, h2, h3⟩ := C50_violated n hn
  exact ⟨f, fuel, chain, h1, h2, Nat.le_trans h3 (C69_output h2).1⟩

/-! The sample function: a selection with a loop in it, eight blocks -/

example : chainDepth sampleChain 0 = 6 ∧ chainCalls sampleChain 0 = 11 := by decide
example : findControlFlow 5 (functionOf sampleBlocks) = .error .diverge := by
  rw [C69_depth sample_found, if_neg (by decide)]
example : findControlFlow 6 (functionOf sampleBlocks) = .ok sampleChain := by
  rw [C69_depth sample_found, if_pos (by decide)]
example : (findControlFlowC 9 (functionOf sampleBlocks)).2 = 11 := C69_calls sample_found
example : (findControlFlowC 9 (functionOf sampleBlocks)).2 ≤ 3 * 8 :=
  (C69_linear sample_found rfl ((C50_once_iff sample_found rfl).mp (by decide))).1
example : (findControlFlowC 9 (functionOf sampleBlocks)).1 = .ok sampleChain := by
  rw [(C69_same _ _).1, sample_found]
/-- A function that is not accepted -/
example : findControlFlowC 9 (functionOf (sampleBlocks.take 7)) = (.error (.err (.UnknownBlockId ⟨19⟩)), 11) := by
  rfl
example : ∃ (f : FunctionDefinition Empty) (fuel : Nat) (chain : ControlFlowChain), f.blocks.length = 43 ∧
    findControlFlow fuel f = .ok chain ∧ 2 ^ 21 ≤ (findControlFlowC fuel f).2 :=
  C69_exponential 20 (by decide)

example : (findControlFlowC 9 (functionOf sampleBlocks)).2 ≤ 24 := (C69_output sample_found).2.1

end Magma.Props
