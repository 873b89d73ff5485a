import Verif.Proofs.PrintCost
import Verif.Props.Printing
import Verif.Props.SearchCost
import Verif.Props.Expressible
/-! C70: the stack and the time of printing control flow. -/

namespace Magma.Props
open Spec
variable {X : Type}

/-- C70: printing a chain takes as many frames as the chain has levels, and a call for each part: with
room for them the text is printed, and with less the stack overflows. -/
theorem C70_chain (chain : ControlFlowChain) (d : Nat) :
    chain.fmtC d = if chainNesting chain ≤ d then .ok (Display.fmt chain, chainParts chain)
      else .error .diverge :=
  fmtIndentC_eq chain d 0

/-- C70: with that much room printing a function with a chain has the outcome it has without a limit,
also if it is a panic. -/
theorem C70_enough [Display X] (f : FunctionDefinition X) (chain : ControlFlowChain) {d : Nat}
    (h : chainNesting chain ≤ d) :
    fmtFunctionC f d chain = (fmtFunction f chain).map (fun text => (text, chainParts chain)) :=
  fmtFunctionIndentC_enough f chain d 0 h

/-- C70: and if it is not a panic, then with less room the stack overflows. -/
theorem C70_function [Display X] {f : FunctionDefinition X} {chain : ControlFlowChain} {text : Text}
    (h : fmtFunction f chain = .ok text) (d : Nat) :
    fmtFunctionC f d chain = if chainNesting chain ≤ d then .ok (text, chainParts chain)
      else .error .diverge := by
  have hp := (C36_panics f chain).mp ⟨text, h⟩
  obtain ⟨t, h1, h2⟩ := fmtFunctionIndentC_eq f chain d 0
    (fun id hid indent => (fmtBlock_ok f indent ⟨id⟩).mpr (hp id hid))
  rw [show fmtFunctionIndent f chain 0 = .ok text from h] at h1
  cases h1
  exact h2

/-- C70: recovered control flow has at most twice as many levels as finding it took frames, and at most
three parts for each mention of a block and one more. -/
theorem C70_found {f : FunctionDefinition X} {fuel : Nat} {chain : ControlFlowChain}
    (h : findControlFlow fuel f = .ok chain) :
    chainNesting chain ≤ 2 * chainDepth chain 0 ∧ (chainIds chain).length ≤ chainParts chain ∧
      chainParts chain ≤ 3 * (chainIds chain).length + 1 := by
  have hs := C34_shape h
  refine ⟨nesting_top hs ?_, ids_le_parts chain, (parts_le false chain hs).1⟩
  apply Classical.byContradiction
  intro hn
  have h0 := C69_depth h 0
  rw [if_pos (by omega), findControlFlow] at h0
  cases hm : buildBlockMap f.blocks [] with
  | error e => rw [hm] at h0; cases h0
  | ok m =>
    rw [hm] at h0
    cases hb : f.blocks with
    | nil => simp only [hb] at h0; cases h0
    | cons first more => simp only [hb] at h0; cases h0

/-- C70: so both printers succeed on recovered control flow if there is room for twice the frames with
which it was found. -/
theorem C70_room [Display X] {f : FunctionDefinition X} {fuel : Nat} {chain : ControlFlowChain}
    (h : findControlFlow fuel f = .ok chain) :
    chain.fmtC (2 * fuel) = .ok (Display.fmt chain, chainParts chain) ∧
    ∃ text, fmtFunction f chain = .ok text ∧ fmtFunctionC f (2 * fuel) chain = .ok (text, chainParts chain) := by
  have hf : chainDepth chain 0 ≤ fuel := by
    apply Classical.byContradiction
    intro hn
    have := C69_depth h fuel
    rw [if_neg hn, h] at this
    cases this
  have hn := (C70_found h).1
  obtain ⟨text, ht⟩ := C36_no_panic h
  refine ⟨?_, text, ht, ?_⟩
  · rw [C70_chain, if_pos (by omega)]
  · rw [C70_function ht, if_pos (by omega)]

/-- `n` loops inside each other -/
def loops : Nat → Program
  | 0 => .done
  | n + 1 => .loop ⟨UInt32.ofNat n⟩ (loops n) ⟨false, false, false, none⟩ .done

theorem loops_wellFormed : ∀ n tail, (loops n).WellFormed tail true
  | 0, _ => rfl
  | n + 1, _ => ⟨loops_wellFormed n true, rfl⟩

theorem loops_ids : ∀ n, ∀ id ∈ (loops n).ids, ∃ i, i < n ∧ id = ⟨UInt32.ofNat i⟩
  | n + 1, id, h => by
    simp only [loops, Program.ids, List.append_nil, List.mem_cons] at h
    rcases h with h | h
    · exact ⟨n, by omega, h⟩
    · obtain ⟨i, hi, e⟩ := loops_ids n id h
      exact ⟨i, by omega, e⟩

theorem ofNat_injective {i j : Nat} (hi : i < 2 ^ 32) (hj : j < 2 ^ 32)
    (h : (⟨UInt32.ofNat i⟩ : BlockId) = ⟨UInt32.ofNat j⟩) : i = j := by
  injection h with h
  have := congrArg UInt32.toNat h
  simpa [UInt32.toNat_ofNat, Nat.mod_eq_of_lt hi, Nat.mod_eq_of_lt hj] using this

theorem loops_nodup : ∀ n, n ≤ 2 ^ 32 → (loops n).ids.Nodup
  | 0, _ => List.nodup_nil
  | n + 1, hn => by
    simp only [loops, Program.ids, List.append_nil]
    refine List.nodup_cons.mpr ⟨fun h => ?_, loops_nodup n (by omega)⟩
    obtain ⟨i, hi, e⟩ := loops_ids n _ h
    have := ofNat_injective (by omega) (by omega) e
    omega

theorem loops_cost : ∀ n, chainNesting (loops n).toChain = 2 * n + 1 ∧ chainDepth (loops n).toChain 1 = n + 1
  | 0 => ⟨rfl, rfl⟩
  | n + 1 => by
    have h := loops_cost n
    simp only [loops, Program.toChain, Program.toChains, chainNesting, chainNestingAll, chainDepth, chainDepthAll]
    omega

/-- C70: there is recovered control flow with any number of levels, and almost twice as many as there
were frames. So no fixed number of frames is enough for the printers. -/
theorem C70_deep (n : Nat) (hn : n + 2 ≤ 2 ^ 32) : ∃ (f : FunctionDefinition Empty) (fuel : Nat)
    (chain : ControlFlowChain), findControlFlow fuel f = .ok chain ∧ chainDepth chain 0 = n + 2 ∧
      chainNesting chain = 2 * (n + 2) - 1 ∧ chain.fmtC (2 * (n + 1)) = .error .diverge := by
  have hc := loops_cost n
  have hw : (Program.loop ⟨UInt32.ofNat n⟩ (loops n) ⟨false, false, false, none⟩
      (.ret ⟨UInt32.ofNat (n + 1)⟩)).WellFormed false false := ⟨loops_wellFormed n true, rfl⟩
  have hd : (Program.loop ⟨UInt32.ofNat n⟩ (loops n) ⟨false, false, false, none⟩
      (.ret ⟨UInt32.ofNat (n + 1)⟩)).ids.Nodup := by
    simp only [Program.ids]
    refine List.nodup_cons.mpr ⟨fun h => ?_, List.nodup_append.mpr ⟨loops_nodup n (by omega), by simp, ?_⟩⟩
    · rcases List.mem_append.mp h with h | h
      · obtain ⟨i, hi, e⟩ := loops_ids n _ h
        have := ofNat_injective (by omega) (by omega) e
        omega
      · have := ofNat_injective (by omega) (by omega) (List.mem_singleton.mp h)
        omega
    · intro a ha b hb e
      obtain ⟨i, hi, rfl⟩ := loops_ids n _ ha
      have := ofNat_injective (by omega) (by omega) (e.trans (List.mem_singleton.mp hb))
      omega
  obtain ⟨f, fuel, h⟩ := C57_expressible (X := Empty) hw hd
  have hnest : chainNesting (Program.loop ⟨UInt32.ofNat n⟩ (loops n) ⟨false, false, false, none⟩
      (.ret ⟨UInt32.ofNat (n + 1)⟩)).toChain = 2 * (n + 2) - 1 := by
    simp only [Program.toChain, Program.toChains, chainNesting, chainNestingAll]
    omega
  refine ⟨f, fuel, _, h fuel (Nat.le_refl fuel), ?_, hnest, ?_⟩
  · simp only [Program.toChain, Program.toChains, chainDepth, chainDepthAll]
    omega
  · rw [C70_chain, if_neg (by omega)]

/-! The sample function: a selection with a loop in it, eight blocks -/

example : chainNesting sampleChain = 8 ∧ chainParts sampleChain = 14 ∧ chainDepth sampleChain 0 = 6 := by decide
example : sampleChain.fmtC 7 = .error .diverge := by rw [C70_chain, if_neg (by decide)]
example : sampleChain.fmtC 8 = .ok (Display.fmt sampleChain, 14) := by
  rw [C70_chain, if_pos (by decide)]
  rfl
example : fmtFunctionC (functionOf sampleBlocks) 7 sampleChain = .error .diverge := by
  obtain ⟨text, h⟩ := C36_no_panic sample_found
  rw [C70_function h, if_neg (by decide)]
example : chainNesting sampleChain ≤ 2 * 6 := (C70_found sample_found).1
example : ∃ text, fmtFunctionC (functionOf sampleBlocks) 18 sampleChain = .ok (text, chainParts sampleChain) := by
  obtain ⟨text, -, h⟩ := (C70_room sample_found).2
  exact ⟨text, h⟩
/-- A chain with a block the function does not have -/
example : fmtFunctionC (functionOf sampleBlocks) 1 (.Atom ⟨99⟩) =
    .error (.panic "Basic block with given id does not exist") := by
  rw [C70_enough _ _ (by decide)]
  rfl
example : ∃ (f : FunctionDefinition Empty) (fuel : Nat) (chain : ControlFlowChain),
    findControlFlow fuel f = .ok chain ∧ chainDepth chain 0 = 12 ∧ chainNesting chain = 23 ∧
      chain.fmtC 22 = .error .diverge :=
  C70_deep 10 (by decide)

end Magma.Props
