import Verif.Proofs.Flow
import Verif.Proofs.Live
import Verif.Spec.SearchCost
import Verif.Spec.SearchDepth
/-! A family of functions that need a deep stack: blocks in a row, then loops one after the other, where
the body of every loop starts with the row and goes through all the loops before it. -/

namespace Magma.Climbing
open Spec

/-- Block `k` of the function with a row of `r` blocks and `n` loops: the blocks of the row go to the next
block, the loops start their bodies at the first block and are followed by the next block, and the last
block returns. -/
def block (r n k : Nat) : BasicBlock Empty :=
  if k < r then ⟨⟨⟨UInt32.ofNat k⟩⟩, [], none, .OpBranch ⟨⟨UInt32.ofNat (k + 1)⟩⟩⟩
  else if k < r + n then
    ⟨⟨⟨UInt32.ofNat k⟩⟩, [], some (.OpLoopMerge ⟨⟨UInt32.ofNat (k + 1)⟩, ⟨0⟩, LoopControl.default⟩),
      .OpBranch ⟨⟨UInt32.ofNat 0⟩⟩⟩
  else ⟨⟨⟨UInt32.ofNat k⟩⟩, [], none, .OpReturn {}⟩

/-- The blocks of the function -/
def blocks (r n : Nat) : List (BasicBlock Empty) := (List.range (r + n + 1)).map (block r n)

/-- The first `j` blocks of the row, then the rest -/
def row : Nat → Program → Program
  | 0, rest => rest
  | j + 1, rest => row j (.atom ⟨UInt32.ofNat j⟩ rest)

/-- The row, the first `j` loops, then the rest -/
def program (r : Nat) : Nat → Program → Program
  | 0, rest => row r rest
  | j + 1, rest =>
    program r j (.loop ⟨UInt32.ofNat (r + j)⟩ (program r j .done) LoopControl.default rest)

theorem label (r n k : Nat) : labelId (block r n k) = UInt32.ofNat k := by
  rw [block]
  split
  · rfl
  · split <;> rfl

theorem ofNat_ne {a b : Nat} (ha : a < 2 ^ 32) (hb : b < 2 ^ 32) (hab : a ≠ b) : UInt32.ofNat a ≠ UInt32.ofNat b := by
  intro h
  have h := congrArg UInt32.toNat h
  rw [UInt32.toNat_ofNat', UInt32.toNat_ofNat', Nat.mod_eq_of_lt ha, Nat.mod_eq_of_lt hb] at h
  exact hab h

theorem nodup {r n : Nat} (hn : r + n + 1 ≤ 2 ^ 32) : ((blocks r n).map labelId).Nodup := by
  rw [blocks, List.map_map, List.nodup_iff_pairwise_ne, List.pairwise_map]
  refine List.Pairwise.imp_of_mem ?_ List.nodup_range
  intro a b ha hb hab h
  have ha := List.mem_range.mp ha
  have hb := List.mem_range.mp hb
  have h : labelId (block r n a) = labelId (block r n b) := h
  rw [label, label] at h
  exact ofNat_ne (by omega) (by omega) hab h

theorem lookup {r n k : Nat} (hn : r + n + 1 ≤ 2 ^ 32) (hk : k ≤ r + n) :
    blockOf (blocks r n) ⟨UInt32.ofNat k⟩ = some (block r n k) := by
  have := blockOf_mem (nodup hn) (b := block r n k) (List.mem_map_of_mem (List.mem_range.mpr (by omega)))
  rw [label] at this
  exact this

theorem entry_row (k : Option BlockId) : ∀ (j : Nat) (rest : Program),
    rest.entry k = some ⟨UInt32.ofNat j⟩ → (row j rest).entry k = some ⟨UInt32.ofNat 0⟩
  | 0, _, h => h
  | j + 1, rest, _ => entry_row k j (.atom ⟨UInt32.ofNat j⟩ rest) rfl

theorem entry_program (r : Nat) (k : Option BlockId) : ∀ (j : Nat) (rest : Program),
    rest.entry k = some ⟨UInt32.ofNat (r + j)⟩ → (program r j rest).entry k = some ⟨UInt32.ofNat 0⟩
  | 0, rest, h => entry_row k r rest h
  | j + 1, _, _ => entry_program r k j _ rfl

theorem spelled_row {r n : Nat} (hn : r + n + 1 ≤ 2 ^ 32) (lp : Option (BlockId × BlockId)) (k : Option BlockId) :
    ∀ (j : Nat) (rest : Program), j ≤ r → rest.SpelledBy (blocks r n) lp k →
      rest.entry k = some ⟨UInt32.ofNat j⟩ → (row j rest).SpelledBy (blocks r n) lp k
  | 0, _, _, hs, _ => hs
  | j + 1, rest, hj, hs, he => by
    have hb : block r n j = ⟨⟨⟨UInt32.ofNat j⟩⟩, [], none, .OpBranch ⟨⟨UInt32.ofNat (j + 1)⟩⟩⟩ := by
      rw [block, if_pos (by omega)]
    exact spelled_row hn lp k j _ (by omega)
      ⟨⟨block r n j, ⟨⟨UInt32.ofNat (j + 1)⟩⟩, lookup hn (by omega), by rw [hb], by rw [hb], he⟩, hs⟩ rfl

theorem spelled_program {r n : Nat} (hn : r + n + 1 ≤ 2 ^ 32) :
    ∀ (j : Nat) (lp : Option (BlockId × BlockId)) (k : Option BlockId) (rest : Program), j ≤ n →
      rest.SpelledBy (blocks r n) lp k → rest.entry k = some ⟨UInt32.ofNat (r + j)⟩ →
      (program r j rest).SpelledBy (blocks r n) lp k
  | 0, lp, k, rest, _, hs, he => spelled_row hn lp k r rest (Nat.le_refl r) hs he
  | j + 1, lp, k, rest, hj, hs, he => by
    have hb : block r n (r + j) = ⟨⟨⟨UInt32.ofNat (r + j)⟩⟩, [],
        some (.OpLoopMerge ⟨⟨UInt32.ofNat (r + j + 1)⟩, ⟨0⟩, LoopControl.default⟩), .OpBranch ⟨⟨UInt32.ofNat 0⟩⟩⟩ := by
      rw [block, if_neg (by omega), if_pos (by omega)]
    refine spelled_program hn j lp k _ (by omega) ?_ rfl
    refine ⟨block r n (r + j), ⟨⟨UInt32.ofNat 0⟩⟩, ⟨⟨UInt32.ofNat (r + j + 1)⟩, ⟨0⟩, LoopControl.default⟩,
      lookup hn (by omega), by rw [hb], by rw [hb], rfl, he, ?_, ?_, hs⟩
    · exact entry_program r _ j .done rfl
    · exact spelled_program hn j _ _ .done (by omega) (fun h => by cases h) rfl

/-- The ids in a list are those of loops after the `j`th -/
def Later (r n j : Nat) (avoid : List BlockId) : Prop :=
  ∀ a ∈ avoid, ∃ i, j ≤ i ∧ i < n ∧ a = ⟨UInt32.ofNat (r + i)⟩

theorem Later.not_mem {r n j k : Nat} {avoid : List BlockId} (h : Later r n j avoid) (hn : r + n + 1 ≤ 2 ^ 32)
    (hk : k < r + j ∨ r + n ≤ k) (hk' : k ≤ r + n) : (⟨UInt32.ofNat k⟩ : BlockId) ∉ avoid := by
  intro hm
  obtain ⟨i, h1, h2, h3⟩ := h _ hm
  exact ofNat_ne (by omega) (by omega) (by omega) (BlockId.mk.inj h3)

theorem nested_row {r n : Nat} (hn : r + n + 1 ≤ 2 ^ 32) {avoid : List BlockId} (ha : Later r n 0 avoid)
    (k : Option BlockId) : ∀ (j : Nat) (rest : Program), j ≤ r → rest.Nested avoid k → (row j rest).Nested avoid k
  | 0, _, _, h => h
  | j + 1, _, hj, h => nested_row hn ha k j _ (by omega) ⟨ha.not_mem hn (by omega) (by omega), h⟩

theorem Later.mono {r n j i : Nat} {avoid : List BlockId} (h : Later r n j avoid) (hi : i ≤ j) : Later r n i avoid :=
  fun a ha => by
    obtain ⟨l, h1, h2⟩ := h a ha
    exact ⟨l, by omega, h2⟩

theorem nested_program {r n : Nat} (hn : r + n + 1 ≤ 2 ^ 32) :
    ∀ (j : Nat) (avoid : List BlockId) (k : Option BlockId) (rest : Program), j ≤ n → Later r n j avoid →
      rest.Nested avoid k → (program r j rest).Nested avoid k
  | 0, _, k, rest, _, ha, h => nested_row hn ha k r rest (Nat.le_refl r) h
  | j + 1, avoid, k, rest, hj, ha, h => by
    refine nested_program hn j avoid k _ (by omega) (ha.mono (by omega)) ⟨ha.not_mem hn (by omega) (by omega), ?_, h⟩
    refine nested_program hn j _ _ .done (by omega) ?_ trivial
    intro a hm
    rcases List.mem_cons.mp hm with rfl | hm
    · exact ⟨j, Nat.le_refl j, by omega, rfl⟩
    · exact ha.mono (Nat.le_succ j) a hm

theorem depth_toChain (p : Program) (m : Nat) : chainDepth p.toChain m = chainDepthAll p.toChains m := by
  cases p <;> rfl

theorem depth_row (m : Nat) : ∀ (j : Nat) (rest : Program),
    chainDepthAll (row j rest).toChains m = j + chainDepthAll rest.toChains m
  | 0, rest => by rw [Nat.zero_add]; rfl
  | j + 1, rest => by
    rw [row, depth_row m j]
    show j + (chainDepthAll rest.toChains m + 1) = _
    omega

/-- The depth of the body of the `j`th loop -/
def bodyDepth (r : Nat) : Nat → Nat
  | 0 => r + 1
  | j + 1 => r + (j + 1) + bodyDepth r j

theorem bodyDepth_mono (r : Nat) {i j : Nat} (h : i ≤ j) : bodyDepth r i ≤ bodyDepth r j := by
  induction h with
  | refl => exact Nat.le_refl _
  | step _ h => rw [bodyDepth]; omega

/-- After what is deep, the loops are not counted. -/
theorem depth_program (r m : Nat) : ∀ (j : Nat),
    chainDepthAll (program r j .done).toChains 1 = bodyDepth r j ∧
    ∀ rest : Program, (∀ i, i < j → bodyDepth r i ≤ chainDepthAll rest.toChains m) →
      chainDepthAll (program r j rest).toChains m = r + j + chainDepthAll rest.toChains m := by
  intro j
  induction j generalizing m with
  | zero =>
    refine ⟨?_, fun rest _ => ?_⟩
    · rw [program, depth_row]; rfl
    · rw [program, depth_row]; rfl
  | succ j ih =>
    have loop (m : Nat) (rest : Program) : chainDepthAll (Program.loop ⟨UInt32.ofNat (r + j)⟩ (program r j .done)
        LoopControl.default rest).toChains m = max (bodyDepth r j) (chainDepthAll rest.toChains m) + 1 := by
      show max (chainDepth (program r j .done).toChain 1) (chainDepthAll rest.toChains m) + 1 = _
      rw [depth_toChain, (ih 1).1]
    have below : ∀ i, i ≤ j → bodyDepth r i ≤ bodyDepth r j := fun i hi => bodyDepth_mono r hi
    refine ⟨?_, fun rest hr => ?_⟩
    · rw [program, (ih 1).2 _ fun i hi => ?_, loop]
      · have h1 : chainDepthAll Program.done.toChains 1 = 1 := rfl
        have : 1 ≤ bodyDepth r j := by cases j <;> rw [bodyDepth] <;> omega
        rw [h1, Nat.max_eq_left this, bodyDepth]
        omega
      · rw [loop]
        have := below i (by omega)
        have := Nat.le_max_left (bodyDepth r j) (chainDepthAll Program.done.toChains 1)
        omega
    · rw [program, (ih m).2 _ fun i hi => ?_, loop]
      · have := hr j (by omega)
        rw [Nat.max_eq_right this]
        omega
      · rw [loop]
        have := hr i (by omega)
        have := Nat.le_max_right (bodyDepth r j) (chainDepthAll rest.toChains m)
        omega

/-- The depth of the function is that of the body of a further loop. -/
theorem depth_function (r n : Nat) (id : BlockId) :
    chainDepthAll (program r n (.ret id)).toChains 0 = bodyDepth r n := by
  cases n with
  | zero => rw [program, depth_row]; rfl
  | succ n =>
    have h1 : chainDepthAll (Program.ret id).toChains 0 = 1 := rfl
    have h2 : 1 ≤ bodyDepth r n := by cases n <;> rw [bodyDepth] <;> omega
    have loop : chainDepthAll (Program.loop ⟨UInt32.ofNat (r + n)⟩ (program r n .done)
        LoopControl.default (.ret id)).toChains 0 = bodyDepth r n + 1 := by
      show max (chainDepth (program r n .done).toChain 1) (chainDepthAll (Program.ret id).toChains 0) + 1 = _
      rw [depth_toChain, (depth_program r 1 n).1, h1, Nat.max_eq_left h2]
    have below : ∀ i, i ≤ n → bodyDepth r i ≤ bodyDepth r n := fun i hi => bodyDepth_mono r hi
    rw [program, (depth_program r 0 n).2 _ fun i hi => ?_, loop, bodyDepth]
    · omega
    · rw [loop]
      have := below i (by omega)
      omega

theorem bodyDepth_eq (r n : Nat) : 2 * bodyDepth r n = 2 * ((n + 1) * r) + n * (n + 1) + 2 := by
  induction n with
  | zero => rw [bodyDepth]; omega
  | succ n ih =>
    rw [bodyDepth, Nat.mul_add, ih]
    simp only [Nat.add_mul, Nat.mul_add, Nat.mul_one, Nat.one_mul]
    omega

theorem starts_block (r n k : Nat) : starts (block r n k) = (decide (r ≤ k) && decide (k < r + n)) := by
  rw [block]
  by_cases h1 : k < r
  · rw [if_pos h1, show decide (r ≤ k) = false by simp; omega]
    rfl
  · rw [if_neg h1, show decide (r ≤ k) = true by simp; omega]
    by_cases h2 : k < r + n
    · rw [if_pos h2, show decide (k < r + n) = true by simp; omega]
      rfl
    · rw [if_neg h2, show decide (k < r + n) = false by simp; omega]
      rfl

theorem count_range (p : Nat → Bool) (r n : Nat) (h1 : ∀ k, k < r → p k = false)
    (h2 : ∀ k, r ≤ k → k < r + n → p k = true) : (List.range (r + n)).countP p = n := by
  induction n with
  | zero =>
    rw [List.countP_eq_zero]
    intro k hk
    rw [h1 k (List.mem_range.mp hk)]
    exact fun h => by cases h
  | succ n ih =>
    rw [← Nat.add_assoc, List.range_succ, List.countP_append, ih (fun k ha hb => h2 k ha (by omega)),
      List.countP_singleton, h2 (r + n) (by omega) (by omega)]
    rfl

theorem headers_blocks (r n : Nat) : headers (blocks r n) = n := by
  rw [headers, blocks, List.countP_map, List.range_succ, List.countP_append, count_range _ r n]
  · rw [List.countP_singleton, Function.comp, starts_block, show decide (r + n < r + n) = false by simp, Bool.and_false]
    rfl
  · intro k h
    rw [Function.comp, starts_block, show decide (r ≤ k) = false by simp; omega]
    rfl
  · intro k ha hb
    rw [Function.comp, starts_block, show decide (r ≤ k) = true by simp; omega, show decide (k < r + n) = true by simp; omega]
    rfl

end Magma.Climbing
