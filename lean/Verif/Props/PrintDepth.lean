import Verif.Proofs.Levels
import Verif.Props.Nesting
import Verif.Props.PrintCost
/-! C79: the deepest recursion of the printers. -/

namespace Magma.Props
open Spec
variable {X : Type}

/-- C79: the control flow recovered from a function has at most this many levels, for the number of its blocks and the
number of those that start a construct. -/
theorem C79_bound {f : FunctionDefinition X} {fuel : Nat} {chain : ControlFlowChain}
    (h : findControlFlow fuel f = .ok chain) :
    chainNesting chain ≤ levelsMost f.blocks.length (headers f.blocks) := by
  obtain ⟨s, -, -, -, -, hs, -, -, rfl⟩ := C30_accepted_iff.mp ⟨fuel, h⟩
  rw [Levels.nesting_toChain]
  exact Levels.bound hs

/-- C79: so less than twice as many levels as blocks. -/
theorem C79_blocks {f : FunctionDefinition X} {fuel : Nat} {chain : ControlFlowChain}
    (h : findControlFlow fuel f = .ok chain) : chainNesting chain ≤ 2 * f.blocks.length - 1 := by
  obtain ⟨s, -, -, -, -, hs, -, -, rfl⟩ := C30_accepted_iff.mp ⟨fuel, h⟩
  rw [Levels.nesting_toChain]
  exact Levels.many hs

/-- C79: the bound is reached, for any numbers of blocks and of blocks that start a construct. -/
theorem C79_sharp {n blocks : Nat} (hn : n < blocks) (hb : blocks ≤ 2 ^ 32) :
    ∃ (f : FunctionDefinition Empty) (fuel : Nat) (chain : ControlFlowChain), f.blocks.length = blocks ∧
      headers f.blocks = n ∧ findControlFlow fuel f = .ok chain ∧ chainNesting chain = levelsMost blocks n := by
  obtain ⟨x, rfl⟩ : ∃ x, blocks = n + x + 1 := ⟨blocks - n - 1, by omega⟩
  have hl (n : Nat) : (functionOf (Twofold.blocks x n)).blocks.length = n + x + 1 := by
    show (Twofold.blocks x n).length = _
    rw [Twofold.blocks, List.length_map, List.length_range]
  have hbl (n : Nat) : Twofold.blocks x n = Twofold.block x n 0 ::
      ((List.range (n + x)).map (Twofold.block x n ∘ Nat.succ)) := by
    rw [Twofold.blocks, List.range_succ_eq_map, List.map_cons, List.map_map]
  match n, hn, hb with
  | 0, hn, hb =>
    obtain ⟨f, chain, h1, h2, h3, h4⟩ := C76_sharp (n := 0) (blocks := 0 + x + 1) (by omega) hb
    refine ⟨f, _, chain, h1, h2, h3, ?_⟩
    have hle := C79_bound h3
    rw [h1, h2] at hle
    have hpos := Levels.nesting_pos chain
    rw [levelsMost, if_pos rfl] at hle ⊢
    by_cases hx : x = 0
    · omega
    · have hd := C69_depth h3 (deepest (0 + x + 1) 0 - 1)
      rw [h4] at hd
      have e : deepest (0 + x + 1) 0 = x + 1 := by rw [deepest]; omega
      rw [e] at hd
      have hd : ¬ chainDepth chain 0 ≤ x := fun h => by
        rw [if_pos (by omega)] at hd
        cases hd
      match chain, hpos, hle, hd with
      | .Atom _, _, _, hd =>
        exact absurd (show 0 + 1 ≤ x by omega) hd
      | .Break, _, _, hd =>
        exact absurd (show 0 ≤ x by omega) hd
      | .Continue, _, _, hd =>
        exact absurd (show 0 ≤ x by omega) hd
      | .Block [], _, _, hd =>
        exact absurd (show 0 ≤ x by omega) hd
      | .Block (c :: cs), _, hle, _ =>
        have := Levels.nesting_pos c
        rw [chainNesting, chainNestingAll] at hle ⊢
        omega
      | .Loop _ inner _ _, _, hle, _ =>
        have := Levels.nesting_pos inner
        rw [chainNesting] at hle ⊢
        omega
      | .Selection _ left right _ _, _, hle, _ =>
        have := Levels.nesting_pos left
        rw [Levels.nesting_selection] at hle ⊢
        omega
  | 1, hn, hb =>
    obtain ⟨fuel, h⟩ := found_of_program (hbl 1) (Twofold.nodup hb) (Twofold.spelled_one hb)
      (by rw [Twofold.label]; rfl) (Twofold.nested_one hb)
    refine ⟨_, fuel, _, hl 1, Twofold.headers_blocks x 1, h, ?_⟩
    rw [Levels.nesting_toChain, Levels.levels_inner x 1 _ rfl, levelsMost, if_neg (by omega), if_pos rfl]
    omega
  | p + 2, hn, hb =>
    obtain ⟨fuel, h⟩ := found_of_program (hbl (p + 2)) (Twofold.nodup hb) (Twofold.spelled_program hb)
      (by rw [Twofold.label]; rfl) (Twofold.nested_program hb)
    refine ⟨_, fuel, _, hl (p + 2), Twofold.headers_blocks x (p + 2), h, ?_⟩
    rw [Levels.nesting_toChain, Levels.levels_program, levelsMost, if_neg (by omega), if_neg (by omega)]
    omega

/-- C79: the control flow of a function, and the function with it, is printed on a stack with room for one call less
than twice the blocks. -/
theorem C79_printed [Display X] {f : FunctionDefinition X} {fuel : Nat} {chain : ControlFlowChain}
    (h : findControlFlow fuel f = .ok chain) {d : Nat} (hd : 2 * f.blocks.length - 1 ≤ d) :
    chain.fmtC d = .ok (Display.fmt chain, chainParts chain) ∧
    ∃ text, fmtFunction f chain = .ok text ∧ fmtFunctionC f d chain = .ok (text, chainParts chain) := by
  have hc := Nat.le_trans (C79_blocks h) hd
  obtain ⟨text, ht⟩ := C36_no_panic h
  exact ⟨by rw [C70_chain, if_pos hc], text, ht, by rw [C70_function ht, if_pos hc]⟩

/-- C79: less room is not enough: for every number of blocks from three there is a function whose control flow cannot be
printed with room for one call less than that. -/
theorem C79_overflows {blocks : Nat} (h3 : 3 ≤ blocks) (hb : blocks ≤ 2 ^ 32) :
    ∃ (f : FunctionDefinition Empty) (fuel : Nat) (chain : ControlFlowChain), f.blocks.length = blocks ∧
      findControlFlow fuel f = .ok chain ∧
      ∀ d, d < 2 * blocks - 1 → chain.fmtC d = .error .diverge ∧ fmtFunctionC f d chain = .error .diverge := by
  obtain ⟨f, fuel, chain, h1, -, h4, h5⟩ := C79_sharp (n := 2) (blocks := blocks) (by omega) hb
  obtain ⟨text, ht⟩ := C36_no_panic h4
  rw [levelsMost, if_neg (by omega), if_neg (by omega)] at h5
  exact ⟨f, fuel, chain, h1, h4, fun d hd => ⟨by rw [C70_chain, if_neg (by omega)],
    by rw [C70_function ht, if_neg (by omega)]⟩⟩

/-! The sample function: eight blocks, two of which start a construct -/

example : levelsMost 8 2 = 15 ∧ chainNesting sampleChain = 8 ∧ levelsMost 4 2 = 7 ∧ levelsMost 3 1 = 4 ∧
    levelsMost 5 0 = 2 ∧ levelsMost 1 0 = 1 := by decide
example : chainNesting sampleChain ≤ 15 := C79_bound sample_found
example : sampleChain.fmtC 15 = .ok (Display.fmt sampleChain, chainParts sampleChain) :=
  (C79_printed sample_found (Nat.le_refl 15)).1
/-- Two loops and an exit, which is in both, and with the block before it: seven levels for four blocks -/
example : (findControlFlow 9 (functionOf (Twofold.blocks 1 2))).map chainNesting = .ok 7 := by decide +kernel
example : ∃ (f : FunctionDefinition Empty) (fuel : Nat) (chain : ControlFlowChain), f.blocks.length = 1000000 ∧
    findControlFlow fuel f = .ok chain ∧ fmtFunctionC f 1999998 chain = .error .diverge := by
  obtain ⟨f, fuel, chain, h1, h2, h3⟩ := C79_overflows (blocks := 1000000) (by decide) (by decide)
  exact ⟨f, fuel, chain, h1, h2, (h3 1999998 (by decide)).2⟩

example : chainNesting sampleChain ≤ 15 := C79_blocks sample_found
example : ∃ (f : FunctionDefinition Empty) (fuel : Nat) (chain : ControlFlowChain), f.blocks.length = 8 ∧
    headers f.blocks = 2 ∧ findControlFlow fuel f = .ok chain ∧ chainNesting chain = levelsMost 8 2 :=
  C79_sharp (by decide) (by decide)

end Magma.Props
