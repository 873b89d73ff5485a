import Verif.Proofs.Deepest
import Verif.Proofs.Climbing
import Verif.Props.SearchCost
/-! C76: the deepest stack that control flow recovery needs. -/

namespace Magma.Props
open Spec
variable {X : Type}

/-- A program that does not go on has a block that returns. -/
theorem returns_of_spelled {blocks : List (BasicBlock X)} : ∀ (s : Program) (lp : Option (BlockId × BlockId)),
    s.SpelledBy blocks lp none → ∃ b ∈ blocks, endOf b = .returns
  | .done, _, h => absurd rfl h
  | .ret _, _, ⟨_, b, _, h1, h2⟩ => ⟨b, (blockOf_some h1).1, by rw [endOf, h2]⟩
  | .atom _ rest, lp, h => returns_of_spelled rest lp h.2
  | .sel _ _ _ _ _ rest, lp, ⟨_, _, _, _, _, _, _, _, _, _, _, _, _, h⟩ => returns_of_spelled rest lp h
  | .loop _ _ _ rest, lp, ⟨_, _, _, _, _, _, _, _, _, _, h⟩ => returns_of_spelled rest lp h
  | .exit _ _ _ _, _, ⟨_, _, _, _, _, h, _⟩ => by cases h

/-- C76: a function that is accepted takes no more frames than this, for the number of its blocks and the number of
those that start a construct. -/
theorem C76_bound {f : FunctionDefinition X} {fuel : Nat} {chain : ControlFlowChain}
    (h : findControlFlow fuel f = .ok chain) :
    chainDepth chain 0 ≤ deepest f.blocks.length (headers f.blocks) ∧
    findControlFlow (deepest f.blocks.length (headers f.blocks)) f = .ok chain := by
  have key : chainDepth chain 0 ≤ deepest f.blocks.length (headers f.blocks) := by
    obtain ⟨s, -, -, -, -, hs, -, -, -⟩ := C30_accepted_iff.mp ⟨fuel, h⟩
    obtain ⟨b, hb, hr⟩ := returns_of_spelled s none hs
    have h0 := h
    rw [findControlFlow, cbind_ok] at h
    obtain ⟨map, hmap, h⟩ := h
    obtain ⟨hn, hg⟩ := build_map hmap
    cases hbl : f.blocks with
    | nil => simp only [hbl] at h; cases h
    | cons first more =>
      simp only [hbl, cbind_ok, Prod.exists] at h
      obtain ⟨c, next, hs, h⟩ := h
      obtain ⟨n, -, ht⟩ := needs_of_ok hs
      have hd : chainDepth chain 0 ≤ n := by
        apply Classical.byContradiction
        intro hlt
        have := C69_depth h0 n
        rw [if_neg hlt, findControlFlow, hmap, cok_bind] at this
        simp only [hbl] at this
        rw [ht.1, cok_bind] at this
        cases next <;> cases this
      rw [← hbl]
      have hb1 := needs_bound hg hn n _ _ [] [] none ht trivial trivial .none List.nodup_nil (by simp) (by simp)
      have hb2 := deepest_bound (free_le hb hr) (headers_le f.blocks)
      have hb3 := tri_mono (a := f.blocks.countP (free [] none)) (a' := f.blocks.countP (free [] none))
        (q := (f.blocks.filterMap mark).length - level (f.blocks.filterMap mark) []) (q' := headers f.blocks)
        (by rw [marks_length]; omega) (Nat.le_refl _)
      rw [List.length_nil] at hb1
      omega
  exact ⟨key, by rw [C69_depth h, if_pos key]⟩

theorem even_mul_succ (n : Nat) : n * (n + 1) % 2 = 0 := by
  rcases Nat.mod_two_eq_zero_or_one n with h | h
  · rw [Nat.mul_mod, h]; simp
  · rw [Nat.mul_mod, Nat.add_mod, h]

/-- C76: so the frames are at most quadratic in the number of blocks. -/
theorem C76_blocks {f : FunctionDefinition X} {fuel : Nat} {chain : ControlFlowChain}
    (h : findControlFlow fuel f = .ok chain) :
    2 * chainDepth chain 0 ≤ f.blocks.length * (f.blocks.length - 1) + 2 := by
  have h1 := (C76_bound h).1
  obtain ⟨s, -, -, -, -, hs, -, -, -⟩ := C30_accepted_iff.mp ⟨fuel, h⟩
  obtain ⟨b, hb, hr⟩ := returns_of_spelled s none hs
  have h2 := free_le hb hr
  have h3 := headers_le f.blocks
  rw [deepest] at h1
  generalize headers f.blocks = n at h1 h3
  obtain ⟨d, hd⟩ : ∃ d, f.blocks.length = n + d + 1 := ⟨f.blocks.length - n - 1, by omega⟩
  have h4 := even_mul_succ n
  have h5 : d ≤ d * d := Nat.le_mul_self d
  rw [hd, Nat.add_sub_cancel] at h1 ⊢
  have h6 := Nat.mul_comm n d
  simp only [Nat.add_mul, Nat.mul_add, Nat.mul_one, Nat.one_mul] at h1 h4 ⊢
  omega

/-- C76: and there are functions of every size that are accepted and take as many frames, but no fewer. -/
theorem C76_sharp {n blocks : Nat} (hn : n < blocks) (hb : blocks ≤ 2 ^ 32) :
    ∃ (f : FunctionDefinition Empty) (chain : ControlFlowChain), f.blocks.length = blocks ∧ headers f.blocks = n ∧
      findControlFlow (deepest blocks n) f = .ok chain ∧
      findControlFlow (deepest blocks n - 1) f = .error .diverge := by
  obtain ⟨r, rfl⟩ : ∃ r, blocks = r + n + 1 := ⟨blocks - n - 1, by omega⟩
  have hs : (Climbing.program r n (.ret ⟨UInt32.ofNat (r + n)⟩)).SpelledBy (Climbing.blocks r n) none none := by
    refine Climbing.spelled_program hb n none none _ (Nat.le_refl n)
      ⟨rfl, Climbing.block r n (r + n), {}, Climbing.lookup hb (Nat.le_refl _), ?_⟩ rfl
    rw [Climbing.block, if_neg (by omega), if_neg (by omega)]
  have hne := Climbing.nested_program (r := r) hb n [] none (.ret ⟨UInt32.ofNat (r + n)⟩) (Nat.le_refl n)
    (fun a h => by cases h) (fun h => by cases h)
  have hbl : (functionOf (Climbing.blocks r n)).blocks = Climbing.block r n 0 ::
      ((List.range (r + n)).map (Climbing.block r n ∘ Nat.succ)) := by
    show (List.range (r + n + 1)).map _ = _
    rw [List.range_succ_eq_map, List.map_cons, List.map_map]
  obtain ⟨fuel, h⟩ := C30_accepted_iff.mpr ⟨_, _, _, hbl, Climbing.nodup hb, hs,
    by rw [Climbing.entry_program r none n _ rfl, Climbing.label], hne, rfl⟩
  have hdep : chainDepth (Climbing.program r n (.ret ⟨UInt32.ofNat (r + n)⟩)).toChain 0 = deepest (r + n + 1) n := by
    rw [Climbing.depth_toChain, Climbing.depth_function, deepest]
    have h1 := Climbing.bodyDepth_eq r n
    have h2 := even_mul_succ n
    rw [show r + n + 1 - 1 = r + n by omega, Nat.mul_add, Nat.mul_comm (n + 1) n]
    omega
  have hpos : deepest (r + n + 1) n ≠ 0 := by rw [deepest]; omega
  refine ⟨functionOf (Climbing.blocks r n), (Climbing.program r n (.ret ⟨UInt32.ofNat (r + n)⟩)).toChain, ?_, ?_, ?_, ?_⟩
  · show (Climbing.blocks r n).length = _
    rw [Climbing.blocks, List.length_map, List.length_range]
  · exact Climbing.headers_blocks r n
  · exact (C69_depth h _).trans (if_pos (by omega))
  · exact (C69_depth h _).trans (if_neg (by omega))

/-- C76: in particular functions that take quadratically many frames. -/
theorem C76_quadratic {blocks : Nat} (h0 : 0 < blocks) (hb : blocks ≤ 2 ^ 32) :
    ∃ (f : FunctionDefinition Empty) (chain : ControlFlowChain), f.blocks.length = blocks ∧
      ∀ d, findControlFlow d f = if blocks * (blocks - 1) + 2 ≤ 2 * d then .ok chain else .error .diverge := by
  obtain ⟨f, chain, h1, -, h2, h3⟩ := C76_sharp (n := blocks - 1) (blocks := blocks) (by omega) hb
  refine ⟨f, chain, h1, fun d => ?_⟩
  have e : 2 * deepest blocks (blocks - 1) = blocks * (blocks - 1) + 2 := by
    obtain ⟨b, rfl⟩ : ∃ b, blocks = b + 1 := ⟨blocks - 1, by omega⟩
    rw [deepest, Nat.add_sub_cancel, Nat.mul_comm b (b + 1)]
    have := even_mul_succ b
    rw [Nat.mul_comm] at this
    omega
  have h4 := C69_depth h2 (deepest blocks (blocks - 1))
  have h5 := C69_depth h2 (deepest blocks (blocks - 1) - 1)
  rw [h2] at h4
  rw [h3] at h5
  have h6 : chainDepth chain 0 ≤ deepest blocks (blocks - 1) := by
    apply Classical.byContradiction
    intro hn
    rw [if_neg hn] at h4
    cases h4
  have h7 : ¬ chainDepth chain 0 ≤ deepest blocks (blocks - 1) - 1 := by
    intro hn
    rw [if_pos hn] at h5
    cases h5
  rw [C69_depth h2 d]
  by_cases hd : blocks * (blocks - 1) + 2 ≤ 2 * d
  · rw [if_pos hd, if_pos (by omega)]
  · rw [if_neg hd, if_neg (by omega)]

/-! The sample function: eight blocks, two of which start a construct -/

example : headers (functionOf sampleBlocks).blocks = 2 ∧ deepest 8 2 = 19 := by decide
example : findControlFlow 19 (functionOf sampleBlocks) = .ok sampleChain := (C76_bound sample_found).2
example : 2 * chainDepth sampleChain 0 ≤ 8 * 7 + 2 := C76_blocks sample_found
/-- A row of two blocks and two loops: ten frames, though there are five blocks -/
example : (findControlFlow 10 (functionOf (Climbing.blocks 2 2))).isOk = true ∧
    findControlFlow 9 (functionOf (Climbing.blocks 2 2)) = .error .diverge := by
  refine ⟨by decide +kernel, rfl⟩
example : deepest 5 2 = 10 := rfl
example : ∃ (f : FunctionDefinition Empty) (chain : ControlFlowChain), f.blocks.length = 1000 ∧
    ∀ d, findControlFlow d f = if 999002 ≤ 2 * d then .ok chain else .error .diverge :=
  C76_quadratic (blocks := 1000) (by decide) (by decide)

example : ∃ (f : FunctionDefinition Empty) (chain : ControlFlowChain), f.blocks.length = 8 ∧ headers f.blocks = 2 ∧
    findControlFlow (deepest 8 2) f = .ok chain ∧ findControlFlow (deepest 8 2 - 1) f = .error .diverge :=
  C76_sharp (by decide) (by decide)

end Magma.Props
