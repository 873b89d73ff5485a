import Verif.Proofs.Branching
import Verif.Props.SearchCost
import Verif.Spec.SearchSize
/-! C77: the largest control flow and the longest recovery. -/

namespace Magma.Props
open Spec
variable {X : Type}

/-- C77: the control flow recovered from a function mentions blocks no more often than this, for the number of its
blocks and the number of those that start a construct, and it takes no more calls than this to recover it. -/
theorem C77_bound {f : FunctionDefinition X} {fuel : Nat} {chain : ControlFlowChain}
    (h : findControlFlow fuel f = .ok chain) :
    (chainIds chain).length ≤ largest f.blocks.length (headers f.blocks) ∧
    (findControlFlowC fuel f).2 ≤ longest f.blocks.length (headers f.blocks) := by
  rw [C69_calls h]
  obtain ⟨s, -, -, -, -, hs, -, -, rfl⟩ := C30_accepted_iff.mp ⟨fuel, h⟩
  have hsh := Largest.shape_of_spelled s hs
  have b0 := Largest.bound_ret 0 hsh
  have b1 := Largest.bound_ret 1 hsh
  rw [Largest.weight_ids] at b0
  rw [(Program.chainIds_toChain s).1, List.length_map, Largest.calls_toChain, Largest.weight_calls, largest, longest]
  rw [show 2 * 1 = 2 from rfl] at b1
  exact ⟨b0, by omega⟩

theorem two_pow_ge (n : Nat) : n + 1 ≤ 2 ^ n := by
  induction n with
  | zero => decide
  | succ n ih => rw [Nat.pow_succ]; omega

/-- C77: so at most twice as often with every further block. -/
theorem C77_blocks {f : FunctionDefinition X} {fuel : Nat} {chain : ControlFlowChain}
    (h : findControlFlow fuel f = .ok chain) :
    (chainIds chain).length ≤ 2 ^ (f.blocks.length - 1) ∧ (findControlFlowC fuel f).2 ≤ 3 * 2 ^ (f.blocks.length - 1) - 2 := by
  obtain ⟨h1, h2⟩ := C77_bound h
  have h3 : headers f.blocks + 1 ≤ f.blocks.length := by
    obtain ⟨s, -, -, -, -, hs, -, -, -⟩ := C30_accepted_iff.mp ⟨fuel, h⟩
    obtain ⟨_, y, b, -, -, hb, hr, -⟩ := Largest.last_ret 0 s (Largest.shape_of_spelled s hs)
    have c := Largest.countP_not f.blocks
    have : 0 < f.blocks.countP (fun b => !starts b) :=
      List.countP_pos_iff.mpr ⟨b, (blockOf_some hb).1, by rw [starts, hr]; rfl⟩
    omega
  obtain ⟨r, hr⟩ : ∃ r, f.blocks.length = headers f.blocks + 1 + r := ⟨f.blocks.length - (headers f.blocks + 1), by omega⟩
  generalize headers f.blocks = n at *
  rw [hr] at h1 h2 ⊢
  have e : n + 1 + r - 1 = r + n := by omega
  have e' : n + 1 + r - n = r + 1 := by omega
  rw [largest, e'] at h1
  rw [longest, e'] at h2
  rw [e, Nat.pow_add]
  have h4 := Nat.mul_le_mul_right (2 ^ n) (two_pow_ge r)
  have h5 : (r + 1 + 2) * 2 ^ n ≤ 3 * (2 ^ r * 2 ^ n) := by
    rw [← Nat.mul_assoc]
    refine Nat.mul_le_mul_right _ ?_
    have := two_pow_ge r
    omega
  exact ⟨Nat.le_trans h1 h4, by omega⟩

/-- C77: both bounds are reached by one function, for any numbers of blocks and of blocks that start a
construct. -/
theorem C77_sharp {n blocks : Nat} (hn : n < blocks) (hb : blocks ≤ 2 ^ 32) :
    ∃ (f : FunctionDefinition Empty) (fuel : Nat) (chain : ControlFlowChain), f.blocks.length = blocks ∧
      headers f.blocks = n ∧ findControlFlow fuel f = .ok chain ∧
      (chainIds chain).length = largest blocks n ∧ (findControlFlowC fuel f).2 = longest blocks n := by
  obtain ⟨r, rfl⟩ : ∃ r, blocks = n + r + 1 := ⟨blocks - n - 1, by omega⟩
  have hs : (Branching.program r n n (.ret ⟨UInt32.ofNat (n + r)⟩)).SpelledBy (Branching.blocks r n) none none := by
    refine Branching.spelled_program hb n (Nat.le_refl n)
      ⟨rfl, Branching.block r n (n + r), {}, Branching.lookup hb (Nat.le_refl _), ?_⟩ rfl
    rw [Branching.block, if_neg (by omega), if_neg (by omega)]
  have hne : (Branching.program r n n (.ret ⟨UInt32.ofNat (n + r)⟩)).Nested [] none :=
    Branching.nested_program hb n (Nat.le_refl n) (fun a h => by cases h) rfl (fun h => by cases h)
  have hbl : (functionOf (Branching.blocks r n)).blocks = Branching.block r n 0 ::
      ((List.range (n + r)).map (Branching.block r n ∘ Nat.succ)) := by
    show (List.range (n + r + 1)).map _ = _
    rw [List.range_succ_eq_map, List.map_cons, List.map_map]
  obtain ⟨fuel, h⟩ := C30_accepted_iff.mpr ⟨_, _, _, hbl, Branching.nodup hb, hs,
    by rw [Branching.entry_program r n rfl n, Branching.label, Nat.sub_self], hne, rfl⟩
  have w0 := Branching.weight_program 0 r n n (.ret ⟨UInt32.ofNat (n + r)⟩)
  have w1 := Branching.weight_program 1 r n n (.ret ⟨UInt32.ofNat (n + r)⟩)
  have hw (d : Nat) : Largest.weight d (.ret ⟨UInt32.ofNat (n + r)⟩) = 1 := rfl
  rw [hw, Largest.weight_ids] at w0
  rw [hw] at w1
  rw [show r + (1 + 2 * 0) = r + 1 from rfl] at w0
  rw [show r + (1 + 2 * 1) = r + 1 + 2 from rfl] at w1
  have e : n + r + 1 - n = r + 1 := by omega
  refine ⟨functionOf (Branching.blocks r n), fuel, _, ?_, Branching.headers_blocks r n, h, ?_, ?_⟩
  · show (Branching.blocks r n).length = _
    rw [Branching.blocks, List.length_map, List.length_range]
  · rw [(Program.chainIds_toChain _).1, List.length_map, largest, e]
    omega
  · rw [C69_calls h, Largest.calls_toChain, Largest.weight_calls, longest, e]
    omega

/-! The sample function: eight blocks, two of which start a construct -/

example : headers (functionOf sampleBlocks).blocks = 2 ∧ (functionOf sampleBlocks).blocks.length = 8 ∧
    largest 8 2 = 24 ∧ longest 8 2 = 30 := by decide
example : (chainIds sampleChain).length ≤ 24 ∧ (findControlFlowC 9 (functionOf sampleBlocks)).2 ≤ 30 :=
  C77_bound sample_found
/-- Two selections with one block inside: eight mentions of four blocks, fourteen calls -/
example : (findControlFlow 9 (functionOf (Branching.blocks 1 2))).map (fun c => (chainIds c).length) = .ok 8 ∧
    (findControlFlowC 9 (functionOf (Branching.blocks 1 2))).2 = 14 := by
  refine ⟨by decide +kernel, by decide +kernel⟩
example : largest 4 2 = 8 ∧ longest 4 2 = 14 := by decide
example : ∃ (f : FunctionDefinition Empty) (fuel : Nat) (chain : ControlFlowChain), f.blocks.length = 100 ∧
    headers f.blocks = 99 ∧ findControlFlow fuel f = .ok chain ∧ (chainIds chain).length = 2 ^ 99 ∧
    (findControlFlowC fuel f).2 = 3 * 2 ^ 99 - 2 := by
  obtain ⟨f, fuel, c, h1, h2, h3, h4, h5⟩ := C77_sharp (n := 99) (blocks := 100) (by decide) (by decide)
  exact ⟨f, fuel, c, h1, h2, h3, h4, h5⟩

example : (chainIds sampleChain).length ≤ 2 ^ 7 := (C77_blocks sample_found).1

end Magma.Props
