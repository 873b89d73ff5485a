import Verif.Proofs.Indentation
import Verif.Props.PrintCost
/-! C75: the indentation is a number of 32 bits. -/

namespace Magma.Props
open Spec
variable {X : Type}

/-! ### C75 -/

/-- C75: on a stack with room for fewer than 2^32 frames the addition does not overflow: whatever the build and the
chain, the outcome is that of printing with unlimited numbers. -/
theorem C75_chain (build : Build) (chain : ControlFlowChain) {d : Nat} (hd : d < 4294967296) :
    chain.fmtU build d = chain.fmtC d :=
  fmtIndentU_same build chain d 0 (.inl (by show 0 + d < _; omega))

/-- C75: also for a function. -/
theorem C75_function [Display X] (build : Build) (f : FunctionDefinition X) (chain : ControlFlowChain) {d : Nat}
    (hd : d < 4294967296) : fmtFunctionU build f d chain = fmtFunctionC f d chain :=
  fmtFunctionIndentU_same build f chain d 0 (.inl (by show 0 + d < _; omega))

/-- C75: so a control flow that was recovered in fewer than 2^31 frames, and its function, are printed as C67 says. -/
theorem C75_recovered [Display X] (build : Build) {f : FunctionDefinition X} {fuel : Nat} {chain : ControlFlowChain}
    (h : findControlFlow fuel f = .ok chain) (hf : fuel < 2147483648) :
    chain.fmtU build (2 * fuel) = .ok (Display.fmt chain, chainParts chain) ∧
    ∃ text, fmtFunction f chain = .ok text ∧ fmtFunctionU build f (2 * fuel) chain = .ok (text, chainParts chain) := by
  rw [C75_chain build chain (by omega), C75_function build f chain (by omega)]
  exact C70_room h

/-- C75: with room enough, a build that checks panics exactly if 2^32 constructs are one inside the other. -/
theorem C75_exact (chain : ControlFlowChain) {d : Nat} (hd : chainNesting chain ≤ d) :
    chain.fmtU .debug d = if constructsDeep chain < 4294967296 then .ok (Display.fmt chain, chainParts chain)
      else .error (.panic "attempt to add with overflow") := by
  by_cases h : constructsDeep chain < 4294967296
  · rw [if_pos h]
    exact chain_fine hd (by show 0 + _ < _; omega)
  · rw [if_neg h]
    exact fmtIndentU_overflow chain d 0 hd (by show ¬ 0 + _ < _; omega)

/-- C75: also for a function that has the blocks. -/
theorem C75_function_exact [Display X] {f : FunctionDefinition X} {chain : ControlFlowChain} {text : Text}
    (ht : fmtFunction f chain = .ok text) {d : Nat} (hd : chainNesting chain ≤ d) :
    fmtFunctionU .debug f d chain = if constructsDeep chain < 4294967296 then .ok (text, chainParts chain)
      else .error (.panic "attempt to add with overflow") := by
  by_cases h : constructsDeep chain < 4294967296
  · rw [if_pos h]
    have := C70_function ht d
    rw [if_pos hd] at this
    rw [← this]
    exact fmtFunctionIndentU_same .debug f chain d 0 (.inr (by show 0 + _ < _; omega))
  · rw [if_neg h]
    have hp := (C36_panics f chain).mp ⟨text, ht⟩
    exact fmtFunctionIndentU_overflow f chain d 0 (fun id hid indent => (fmtBlock_ok f indent ⟨id⟩).mpr (hp id hid)) hd
      (by show ¬ 0 + _ < _; omega)

/-- Loops one inside the other -/
def nestedLoops : Nat → ControlFlowChain
  | 0 => .Break
  | n + 1 => .Loop ⟨7⟩ (nestedLoops n) LoopControl.default none

theorem nestedLoops_deep (n : Nat) : constructsDeep (nestedLoops n) = n ∧ chainNesting (nestedLoops n) = n + 1 := by
  induction n with
  | zero => exact ⟨rfl, rfl⟩
  | succ n ih => exact ⟨by rw [nestedLoops, constructsDeep, ih.1], by rw [nestedLoops, chainNesting, ih.2]⟩

/-- C75: there are such chains: 2^32 - 1 loops can be printed, and one more can not. -/
theorem C75_sharp {d : Nat} (hd : 4294967297 ≤ d) :
    (nestedLoops 4294967295).fmtU .debug d =
      .ok (Display.fmt (nestedLoops 4294967295), chainParts (nestedLoops 4294967295)) ∧
    (nestedLoops 4294967296).fmtU .debug d = .error (.panic "attempt to add with overflow") := by
  have h1 := nestedLoops_deep 4294967295
  have h2 := nestedLoops_deep 4294967296
  refine ⟨?_, ?_⟩
  · rw [C75_exact _ (by rw [h1.2]; omega), if_pos (by rw [h1.1]; omega)]
  · rw [C75_exact _ (by rw [h2.2]; omega), if_neg (by rw [h2.1]; omega)]

/-- Two loops and a selection without an else branch -/
example : (nestedLoops 2).fmtU .release 3 = .ok ("loop %7 {\n    loop %7 {\n        break;\n    }\n}\n".toList, 3) ∧
    constructsDeep (.Block [.Atom ⟨1⟩, .Selection ⟨2⟩ (nestedLoops 2) (.Block []) ⟨false, false⟩ none]) = 3 := by
  exact ⟨by rfl, by decide⟩

/-- C75 for the sample -/
example : sampleChain.fmtU .release 18 = .ok (Display.fmt sampleChain, chainParts sampleChain) :=
  (C75_recovered .release sample_found (by decide)).1
example : sampleChain.fmtU .debug 20 = .ok (Display.fmt sampleChain, chainParts sampleChain) := by
  rw [C75_exact sampleChain (by decide), if_pos (by decide)]
example : sampleChain.fmtU .debug 20 = sampleChain.fmtC 20 := C75_chain .debug sampleChain (by decide)
example : fmtFunctionU .debug (functionOf sampleBlocks) 20 sampleChain = fmtFunctionC (functionOf sampleBlocks) 20 sampleChain :=
  C75_function .debug _ _ (by decide)

end Magma.Props
