import Verif.Proofs.Twofold
import Verif.Props.Indentation
import Verif.Props.SearchDepth
/-! C78: the deepest nesting of recovered control flow. -/

namespace Magma.Props
open Spec
variable {X : Type}

/-- C78: the constructs of the control flow recovered from a function are nested no deeper than this, for the number
of its blocks and the number of those that start a construct. -/
theorem C78_bound {f : FunctionDefinition X} {fuel : Nat} {chain : ControlFlowChain}
    (h : findControlFlow fuel f = .ok chain) :
    constructsDeep chain ≤ nestedMost f.blocks.length (headers f.blocks) := by
  obtain ⟨s, -, -, -, -, hs, -, -, rfl⟩ := C30_accepted_iff.mp ⟨fuel, h⟩
  rw [Nesting.deep_toChain]
  exact Nesting.bound hs

/-- C78: so at most twice as deep as there are blocks. -/
theorem C78_blocks {f : FunctionDefinition X} {fuel : Nat} {chain : ControlFlowChain}
    (h : findControlFlow fuel f = .ok chain) :
    constructsDeep chain ≤ max (f.blocks.length - 1) (2 * f.blocks.length - 4) := by
  have h1 := C78_bound h
  rw [nestedMost] at h1
  by_cases h2 : headers f.blocks = 0
  · rw [if_pos h2] at h1
    omega
  · rw [if_neg h2] at h1
    by_cases h3 : headers f.blocks = 1
    · rw [if_pos h3] at h1
      omega
    · rw [if_neg h3] at h1
      omega

theorem found_of_program {bs : List (BasicBlock Empty)} {s : Program} {first : BasicBlock Empty}
    {more : List (BasicBlock Empty)} (hb : bs = first :: more) (hn : (bs.map labelId).Nodup)
    (hs : s.SpelledBy bs none none) (he : s.entry none = some ⟨labelId first⟩) (hne : s.Nested [] none) :
    ∃ fuel, findControlFlow fuel (functionOf bs) = .ok s.toChain :=
  C30_accepted_iff.mpr ⟨_, _, _, hb, hn, hs, he, hne, rfl⟩

/-- C78: the bound is reached, for any numbers of blocks and of blocks that start a construct. -/
theorem C78_sharp {n blocks : Nat} (hn : n < blocks) (hb : blocks ≤ 2 ^ 32) :
    ∃ (f : FunctionDefinition Empty) (fuel : Nat) (chain : ControlFlowChain), f.blocks.length = blocks ∧
      headers f.blocks = n ∧ findControlFlow fuel f = .ok chain ∧ constructsDeep chain = nestedMost blocks n := by
  obtain ⟨x, rfl⟩ : ∃ x, blocks = n + x + 1 := ⟨blocks - n - 1, by omega⟩
  have hl (n : Nat) : (functionOf (Twofold.blocks x n)).blocks.length = n + x + 1 := by
    show (Twofold.blocks x n).length = _
    rw [Twofold.blocks, List.length_map, List.length_range]
  have hbl (n : Nat) : Twofold.blocks x n = Twofold.block x n 0 ::
      ((List.range (n + x)).map (Twofold.block x n ∘ Nat.succ)) := by
    rw [Twofold.blocks, List.range_succ_eq_map, List.map_cons, List.map_map]
  match n, hn, hb with
  | 0, hn, hb =>
    obtain ⟨f, chain, h1, h2, h3, -⟩ := C76_sharp (n := 0) (blocks := 0 + x + 1) (by omega) hb
    have := C78_bound h3
    rw [h2] at this
    exact ⟨f, _, chain, h1, h2, h3, Nat.le_zero.mp this⟩
  | 1, hn, hb =>
    obtain ⟨fuel, h⟩ := found_of_program (hbl 1) (Twofold.nodup hb) (Twofold.spelled_one hb)
      (by rw [Twofold.label]; rfl) (Twofold.nested_one hb)
    refine ⟨_, fuel, _, hl 1, Twofold.headers_blocks x 1, h, ?_⟩
    rw [Nesting.deep_toChain, Twofold.deep_inner x 1 _ rfl, nestedMost, if_neg (by omega), if_pos rfl]
    omega
  | p + 2, hn, hb =>
    obtain ⟨fuel, h⟩ := found_of_program (hbl (p + 2)) (Twofold.nodup hb) (Twofold.spelled_program hb)
      (by rw [Twofold.label]; rfl) (Twofold.nested_program hb)
    refine ⟨_, fuel, _, hl (p + 2), Twofold.headers_blocks x (p + 2), h, ?_⟩
    rw [Nesting.deep_toChain, Twofold.deep_program, nestedMost, if_neg (by omega), if_neg (by omega)]
    omega

/-- C78: the control flow of a function with at most 2^31 + 1 blocks is printed without an overflow of the
indentation, also by a build that checks for it and however much room the stack has. -/
theorem C78_printed [Display X] {f : FunctionDefinition X} {fuel : Nat} {chain : ControlFlowChain}
    (h : findControlFlow fuel f = .ok chain) (hf : f.blocks.length ≤ 2147483649) {d : Nat}
    (hd : chainNesting chain ≤ d) :
    chain.fmtU .debug d = .ok (Display.fmt chain, chainParts chain) ∧
    ∃ text, fmtFunction f chain = .ok text ∧ fmtFunctionU .debug f d chain = .ok (text, chainParts chain) := by
  have hc : constructsDeep chain < 4294967296 := by
    have := C78_blocks h
    omega
  obtain ⟨text, ht⟩ := C36_no_panic h
  exact ⟨by rw [C75_exact chain hd, if_pos hc], text, ht, by rw [C75_function_exact ht hd, if_pos hc]⟩

/-- C78: there is a function with one block more for which the indentation overflows. -/
theorem C78_overflows : ∃ (f : FunctionDefinition Empty) (fuel : Nat) (chain : ControlFlowChain) (text : Text),
    f.blocks.length = 2147483650 ∧ findControlFlow fuel f = .ok chain ∧ fmtFunction f chain = .ok text ∧
    ∀ d, chainNesting chain ≤ d →
      chain.fmtU .debug d = .error (.panic "attempt to add with overflow") ∧
      fmtFunctionU .debug f d chain = .error (.panic "attempt to add with overflow") := by
  obtain ⟨f, fuel, chain, h1, -, h3, h4⟩ := C78_sharp (n := 2) (blocks := 2147483650) (by decide) (by decide)
  obtain ⟨text, ht⟩ := C36_no_panic h3
  have hc : ¬ constructsDeep chain < 4294967296 := by
    rw [h4]
    decide
  exact ⟨f, fuel, chain, text, h1, h3, ht, fun d hd =>
    ⟨by rw [C75_exact chain hd, if_neg hc], by rw [C75_function_exact ht hd, if_neg hc]⟩⟩

/-! The sample function: eight blocks, two of which start a construct -/

example : nestedMost 8 2 = 12 ∧ constructsDeep sampleChain = 4 ∧ nestedMost 4 2 = 4 ∧ nestedMost 3 1 = 2 := by decide
example : constructsDeep sampleChain ≤ 12 := C78_bound sample_found
/-- Two loops and an exit, which is in both: four constructs one inside the other -/
example : (findControlFlow 9 (functionOf (Twofold.blocks 1 2))).map constructsDeep = .ok 4 := by decide +kernel
example : ∃ (f : FunctionDefinition Empty) (fuel : Nat) (chain : ControlFlowChain), f.blocks.length = 1000000 ∧
    headers f.blocks = 2 ∧ findControlFlow fuel f = .ok chain ∧ constructsDeep chain = 1999996 := by
  obtain ⟨f, fuel, c, h1, h2, h3, h4⟩ := C78_sharp (n := 2) (blocks := 1000000) (by decide) (by decide)
  exact ⟨f, fuel, c, h1, h2, h3, h4⟩

example : constructsDeep sampleChain ≤ 12 := C78_blocks sample_found
example : sampleChain.fmtU .debug 20 = .ok (Display.fmt sampleChain, chainParts sampleChain) :=
  (C78_printed sample_found (by decide) (by decide)).1

end Magma.Props
