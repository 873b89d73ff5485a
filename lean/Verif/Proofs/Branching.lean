import Verif.Proofs.Largest
/-! A family of functions with the largest control flow: selections inside one another, where both sides of a
selection start with the next, then blocks in a row. All selections merge in the last block. -/

namespace Magma.Branching
open Spec

/-- Block `k` of the function with `n` selections and a row of `r` blocks: the selections have the next block on
both sides, the blocks of the row go to the next block, and the last block returns. -/
def block (r n k : Nat) : BasicBlock Empty :=
  if k < n then
    ⟨⟨⟨UInt32.ofNat k⟩⟩, [], some (.OpSelectionMerge ⟨⟨UInt32.ofNat (n + r)⟩, ⟨false, false⟩⟩),
      .OpBranchConditional ⟨⟨0⟩, ⟨UInt32.ofNat (k + 1)⟩, ⟨UInt32.ofNat (k + 1)⟩, none⟩⟩
  else if k < n + r then ⟨⟨⟨UInt32.ofNat k⟩⟩, [], none, .OpBranch ⟨⟨UInt32.ofNat (k + 1)⟩⟩⟩
  else ⟨⟨⟨UInt32.ofNat k⟩⟩, [], none, .OpReturn {}⟩

/-- The blocks of the function -/
def blocks (r n : Nat) : List (BasicBlock Empty) := (List.range (n + r + 1)).map (block r n)

/-- The last `i` blocks of the row, then the rest -/
def row (r n : Nat) : Nat → Program → Program
  | 0, rest => rest
  | i + 1, rest => .atom ⟨UInt32.ofNat (n + r - (i + 1))⟩ (row r n i rest)

/-- The last `j` selections with the row inside, then the rest -/
def program (r n : Nat) : Nat → Program → Program
  | 0, rest => row r n r rest
  | j + 1, rest => .sel ⟨UInt32.ofNat (n - (j + 1))⟩ (program r n j .done) (program r n j .done) ⟨false, false⟩ none rest

theorem label (r n k : Nat) : labelId (block r n k) = UInt32.ofNat k := by
  rw [block]
  split
  · rfl
  · split <;> rfl

theorem ofNat_ne {a b : Nat} (ha : a < 2 ^ 32) (hb : b < 2 ^ 32) (hab : a ≠ b) : UInt32.ofNat a ≠ UInt32.ofNat b := by
  intro h
  have h := congrArg UInt32.toNat h
  rw [UInt32.toNat_ofNat', UInt32.toNat_ofNat', Nat.mod_eq_of_lt ha, Nat.mod_eq_of_lt hb] at h
  exact hab h

theorem nodup {r n : Nat} (hn : n + r + 1 ≤ 2 ^ 32) : ((blocks r n).map labelId).Nodup := by
  rw [blocks, List.map_map, List.nodup_iff_pairwise_ne, List.pairwise_map]
  refine List.Pairwise.imp_of_mem ?_ List.nodup_range
  intro a b ha hb hab h
  have ha := List.mem_range.mp ha
  have hb := List.mem_range.mp hb
  have h : labelId (block r n a) = labelId (block r n b) := h
  rw [label, label] at h
  exact ofNat_ne (by omega) (by omega) hab h

theorem lookup {r n k : Nat} (hn : n + r + 1 ≤ 2 ^ 32) (hk : k ≤ n + r) :
    blockOf (blocks r n) ⟨UInt32.ofNat k⟩ = some (block r n k) := by
  have := blockOf_mem (nodup hn) (b := block r n k) (List.mem_map_of_mem (List.mem_range.mpr (by omega)))
  rw [label] at this
  exact this

theorem entry_row (r n : Nat) {k : Option BlockId} {rest : Program} (h : rest.entry k = some ⟨UInt32.ofNat (n + r)⟩) :
    ∀ i, (row r n i rest).entry k = some ⟨UInt32.ofNat (n + r - i)⟩
  | 0 => h
  | _ + 1 => rfl

theorem entry_program (r n : Nat) {k : Option BlockId} {rest : Program} (h : rest.entry k = some ⟨UInt32.ofNat (n + r)⟩) :
    ∀ j, (program r n j rest).entry k = some ⟨UInt32.ofNat (n - j)⟩
  | 0 => by
    rw [program, entry_row r n h r, Nat.add_sub_cancel]
    rfl
  | _ + 1 => rfl

theorem spelled_row {r n : Nat} (hn : n + r + 1 ≤ 2 ^ 32) {lp : Option (BlockId × BlockId)} {k : Option BlockId}
    {rest : Program} (hs : rest.SpelledBy (blocks r n) lp k) (he : rest.entry k = some ⟨UInt32.ofNat (n + r)⟩) :
    ∀ i, i ≤ r → (row r n i rest).SpelledBy (blocks r n) lp k
  | 0, _ => hs
  | i + 1, hi => by
    have hb : block r n (n + r - (i + 1)) = ⟨⟨⟨UInt32.ofNat (n + r - (i + 1))⟩⟩, [], none,
        .OpBranch ⟨⟨UInt32.ofNat (n + r - (i + 1) + 1)⟩⟩⟩ := by
      rw [block, if_neg (by omega), if_pos (by omega)]
    refine ⟨⟨block r n (n + r - (i + 1)), ⟨⟨UInt32.ofNat (n + r - (i + 1) + 1)⟩⟩, lookup hn (by omega), by rw [hb],
      by rw [hb], ?_⟩, spelled_row hn hs he i (by omega)⟩
    rw [entry_row r n he i, show n + r - (i + 1) + 1 = n + r - i by omega]

theorem spelled_program {r n : Nat} (hn : n + r + 1 ≤ 2 ^ 32) : ∀ (j : Nat) {lp : Option (BlockId × BlockId)}
    {k : Option BlockId} {rest : Program}, j ≤ n → rest.SpelledBy (blocks r n) lp k →
      rest.entry k = some ⟨UInt32.ofNat (n + r)⟩ → (program r n j rest).SpelledBy (blocks r n) lp k
  | 0, _, _, _, _, hs, he => spelled_row hn hs he r (Nat.le_refl r)
  | j + 1, lp, k, rest, hj, hs, he => by
    have hb : block r n (n - (j + 1)) = ⟨⟨⟨UInt32.ofNat (n - (j + 1))⟩⟩, [],
        some (.OpSelectionMerge ⟨⟨UInt32.ofNat (n + r)⟩, ⟨false, false⟩⟩),
        .OpBranchConditional ⟨⟨0⟩, ⟨UInt32.ofNat (n - (j + 1) + 1)⟩, ⟨UInt32.ofNat (n - (j + 1) + 1)⟩, none⟩⟩ := by
      rw [block, if_pos (by omega)]
    have ih := spelled_program hn j (lp := lp) (k := some ⟨UInt32.ofNat (n + r)⟩) (rest := .done) (by omega)
      (fun h => by cases h) rfl
    have hen : (program r n j .done).entry (some ⟨UInt32.ofNat (n + r)⟩) =
        some ⟨UInt32.ofNat (n - (j + 1) + 1)⟩ := by
      rw [entry_program r n rfl j, show n - (j + 1) + 1 = n - j by omega]
    exact ⟨block r n (n - (j + 1)), _, _, lookup hn (by omega), by rw [hb], by rw [hb], rfl, rfl, he, hen, hen, ih, ih, hs⟩

theorem not_avoided {r n k : Nat} {avoid : List BlockId} (hn : n + r + 1 ≤ 2 ^ 32)
    (ha : ∀ a ∈ avoid, a = ⟨UInt32.ofNat (n + r)⟩) (hk : k < n + r) : (⟨UInt32.ofNat k⟩ : BlockId) ∉ avoid :=
  fun h => ofNat_ne (by omega) (by omega) (by omega) (BlockId.mk.inj (ha _ h))

theorem nested_row {r n : Nat} (hn : n + r + 1 ≤ 2 ^ 32) {avoid : List BlockId}
    (ha : ∀ a ∈ avoid, a = ⟨UInt32.ofNat (n + r)⟩) {k : Option BlockId} {rest : Program} (h : rest.Nested avoid k) :
    ∀ i, i ≤ r → (row r n i rest).Nested avoid k
  | 0, _ => h
  | i + 1, hi => ⟨not_avoided hn ha (by omega), nested_row hn ha h i (by omega)⟩

theorem nested_program {r n : Nat} (hn : n + r + 1 ≤ 2 ^ 32) : ∀ (j : Nat) {avoid : List BlockId}
    {k : Option BlockId} {rest : Program}, j ≤ n → (∀ a ∈ avoid, a = ⟨UInt32.ofNat (n + r)⟩) →
      rest.entry k = some ⟨UInt32.ofNat (n + r)⟩ → rest.Nested avoid k → (program r n j rest).Nested avoid k
  | 0, _, _, _, _, ha, _, h => nested_row hn ha h r (Nat.le_refl r)
  | j + 1, avoid, k, rest, hj, ha, he, h => by
    have ha' : ∀ a ∈ (rest.entry k).toList ++ avoid, a = ⟨UInt32.ofNat (n + r)⟩ := by
      rw [he]
      intro a hm
      rcases List.mem_cons.mp hm with rfl | hm
      · rfl
      · exact ha a hm
    have ih := nested_program hn j (k := rest.entry k) (rest := .done) (by omega) ha' he trivial
    exact ⟨not_avoided hn ha (by omega), ih, ih, h⟩

theorem weight_row (d r n : Nat) (rest : Program) : ∀ i, Largest.weight d (row r n i rest) = i + Largest.weight d rest
  | 0 => (Nat.zero_add _).symm
  | i + 1 => by
    show Largest.weight d (row r n i rest) + 1 = _
    rw [weight_row d r n rest i]
    omega

theorem weight_program (d r n : Nat) : ∀ (j : Nat) (rest : Program),
    Largest.weight d (program r n j rest) + (1 + 2 * d) = (r + (1 + 2 * d)) * 2 ^ j + Largest.weight d rest
  | 0, rest => by
    rw [program, weight_row]
    omega
  | j + 1, rest => by
    have ih := weight_program d r n j .done
    show (Largest.weight d (program r n j .done) + d) + (Largest.weight d (program r n j .done) + d) +
      Largest.weight d rest + 1 + (1 + 2 * d) = _
    have h0 : Largest.weight d .done = 0 := rfl
    rw [h0] at ih
    rw [Nat.pow_succ, ← Nat.mul_assoc]
    omega

theorem starts_block (r n k : Nat) : starts (block r n k) = decide (k < n) := by
  rw [block]
  by_cases h1 : k < n
  · rw [if_pos h1, decide_eq_true h1]
    rfl
  · rw [if_neg h1, decide_eq_false h1]
    by_cases h2 : k < n + r
    · rw [if_pos h2]; rfl
    · rw [if_neg h2]; rfl

theorem countP_range (n : Nat) : ∀ m, (List.range (n + m)).countP (fun k => decide (k < n)) = n
  | 0 => by
    rw [Nat.add_zero, List.countP_eq_length.mpr fun k hk => decide_eq_true (List.mem_range.mp hk), List.length_range]
  | m + 1 => by
    rw [← Nat.add_assoc, List.range_succ, List.countP_append, countP_range n m, List.countP_singleton,
      decide_eq_false (by omega)]
    rfl

theorem headers_blocks (r n : Nat) : headers (blocks r n) = n := by
  rw [headers, blocks, List.countP_map, Nat.add_assoc]
  refine Eq.trans ?_ (countP_range n (r + 1))
  congr 1
  funext k
  exact starts_block r n k

end Magma.Branching
