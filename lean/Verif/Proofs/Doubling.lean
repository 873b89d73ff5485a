import Verif.Proofs.Flow
import Verif.Proofs.Live
/-! A family of functions whose control flow is exponentially larger than the function: selections inside
each other, where both targets of a selection are the same block. -/

namespace Magma.Doubling
open Spec

/-- Block `k` of the function with `n` selections: block `2 i` starts selection `i`, block `2 i + 1` is
where it merges, block `2 n` is innermost. -/
def block (n k : Nat) : BasicBlock Empty :=
  if k = 2 * n then ⟨⟨⟨UInt32.ofNat k⟩⟩, [], none, .OpBranch ⟨⟨UInt32.ofNat (2 * n - 1)⟩⟩⟩
  else if k % 2 = 0 then
    ⟨⟨⟨UInt32.ofNat k⟩⟩, [], some (.OpSelectionMerge ⟨⟨UInt32.ofNat (k + 1)⟩, ⟨false, false⟩⟩),
      .OpBranchConditional ⟨⟨0⟩, ⟨UInt32.ofNat (k + 2)⟩, ⟨UInt32.ofNat (k + 2)⟩, none⟩⟩
  else if k = 1 then ⟨⟨⟨UInt32.ofNat k⟩⟩, [], none, .OpReturn {}⟩
  else ⟨⟨⟨UInt32.ofNat k⟩⟩, [], none, .OpBranch ⟨⟨UInt32.ofNat (k - 2)⟩⟩⟩

/-- The blocks of the function -/
def blocks (n : Nat) : List (BasicBlock Empty) := (List.range (2 * n + 1)).map (block n)

/-- What follows selection `i` -/
def tail : Nat → Program
  | 0 => .ret ⟨1⟩
  | i + 1 => .atom ⟨UInt32.ofNat (2 * (i + 1) + 1)⟩ .done

/-- The program from selection `i`, with `j` selections inside each other -/
def program : Nat → Nat → Program
  | i, 0 => .atom ⟨UInt32.ofNat (2 * i)⟩ .done
  | i, j + 1 => .sel ⟨UInt32.ofNat (2 * i)⟩ (program (i + 1) j) (program (i + 1) j) ⟨false, false⟩ none (tail i)

/-- Where control goes after selection `i` is over -/
def next : Nat → Option BlockId
  | 0 => none
  | i + 1 => some ⟨UInt32.ofNat (2 * i + 1)⟩

theorem label (n k : Nat) : labelId (block n k) = UInt32.ofNat k := by
  rw [block]
  split
  · rfl
  · split
    · rfl
    · split <;> rfl

theorem nodup {n : Nat} (hn : 2 * n + 1 ≤ 2 ^ 32) : ((blocks n).map labelId).Nodup := by
  rw [blocks, List.map_map, List.nodup_iff_pairwise_ne, List.pairwise_map]
  refine List.Pairwise.imp_of_mem ?_ List.nodup_range
  intro a b ha hb hab h
  have ha := List.mem_range.mp ha
  have hb := List.mem_range.mp hb
  have h : labelId (block n a) = labelId (block n b) := h
  rw [label, label] at h
  have h := congrArg UInt32.toNat h
  rw [UInt32.toNat_ofNat', UInt32.toNat_ofNat', Nat.mod_eq_of_lt (by omega), Nat.mod_eq_of_lt (by omega)] at h
  exact hab h

theorem lookup {n k : Nat} (hn : 2 * n + 1 ≤ 2 ^ 32) (hk : k ≤ 2 * n) :
    blockOf (blocks n) ⟨UInt32.ofNat k⟩ = some (block n k) := by
  have := blockOf_mem (nodup hn) (b := block n k) (List.mem_map_of_mem (List.mem_range.mpr (by omega)))
  rw [label] at this
  exact this

theorem entry_program (i j : Nat) (k : Option BlockId) : (program i j).entry k = some ⟨UInt32.ofNat (2 * i)⟩ := by
  cases j <;> rfl

theorem spelled_tail {n i : Nat} (hn : 2 * n + 1 ≤ 2 ^ 32) (hi : i < n) :
    (tail i).SpelledBy (blocks n) none (next i) ∧ (tail i).entry (next i) = some ⟨UInt32.ofNat (2 * i + 1)⟩ := by
  cases i with
  | zero =>
    refine ⟨⟨rfl, block n 1, {}, lookup (k := 1) hn (by omega), ?_⟩, rfl⟩
    rw [block, if_neg (by omega), if_neg (by omega), if_pos rfl]
  | succ i =>
    refine ⟨⟨⟨block n (2 * (i + 1) + 1), ⟨⟨UInt32.ofNat (2 * i + 1)⟩⟩, lookup hn (by omega), ?_, ?_, rfl⟩, fun h => by cases h⟩, rfl⟩
    · rw [block, if_neg (by omega), if_neg (by omega), if_neg (by omega)]
    · rw [block, if_neg (by omega), if_neg (by omega), if_neg (by omega)]
      rw [show 2 * (i + 1) + 1 - 2 = 2 * i + 1 by omega]

theorem spelled_program {n : Nat} (hn : 2 * n + 1 ≤ 2 ^ 32) (j : Nat) : ∀ i, i + j = n → 0 < n →
    (program i j).SpelledBy (blocks n) none (next i) := by
  induction j with
  | zero =>
    intro i hi h0
    cases i with
    | zero => omega
    | succ i =>
      refine ⟨⟨block n (2 * (i + 1)), ⟨⟨UInt32.ofNat (2 * i + 1)⟩⟩, lookup hn (by omega), ?_, ?_, rfl⟩, fun h => by cases h⟩
      · rw [block, if_pos (by omega)]
      · rw [block, if_pos (by omega)]
        rw [show 2 * n - 1 = 2 * i + 1 by omega]
  | succ j ih =>
    intro i hi h0
    obtain ⟨ht, he⟩ := spelled_tail (i := i) hn (by omega)
    have hb : block n (2 * i) = ⟨⟨⟨UInt32.ofNat (2 * i)⟩⟩, [],
        some (.OpSelectionMerge ⟨⟨UInt32.ofNat (2 * i + 1)⟩, ⟨false, false⟩⟩),
        .OpBranchConditional ⟨⟨0⟩, ⟨UInt32.ofNat (2 * i + 2)⟩, ⟨UInt32.ofNat (2 * i + 2)⟩, none⟩⟩ := by
      rw [block, if_neg (by omega), if_pos (by omega)]
    refine ⟨block n (2 * i), ⟨⟨0⟩, ⟨UInt32.ofNat (2 * i + 2)⟩, ⟨UInt32.ofNat (2 * i + 2)⟩, none⟩,
      ⟨⟨UInt32.ofNat (2 * i + 1)⟩, ⟨false, false⟩⟩, lookup hn (by omega), by rw [hb], by rw [hb], rfl, rfl, he, ?_, ?_,
      ih (i + 1) (by omega) h0, ih (i + 1) (by omega) h0, ht⟩
    · rw [entry_program, show 2 * (i + 1) = 2 * i + 2 by omega]
    · rw [entry_program, show 2 * (i + 1) = 2 * i + 2 by omega]

theorem not_mem {avoid : List BlockId} {m k : Nat} (h : ∀ a ∈ avoid, a.val.toNat < m) (hm : m ≤ k) (hk : k < 2 ^ 32) :
    (⟨UInt32.ofNat k⟩ : BlockId) ∉ avoid := by
  intro hmem
  have := h _ hmem
  simp only at this
  rw [UInt32.toNat_ofNat', Nat.mod_eq_of_lt (by omega)] at this
  omega

theorem nested_program {n : Nat} (hn : 2 * n + 1 ≤ 2 ^ 32) (j : Nat) : ∀ i, i + j = n → 0 < n →
    ∀ (avoid : List BlockId), (∀ a ∈ avoid, a.val.toNat < 2 * i) → (program i j).Nested avoid (next i) := by
  induction j with
  | zero => exact fun i hi h0 avoid ha => ⟨not_mem ha (Nat.le_refl _) (by omega), trivial⟩
  | succ j ih =>
    intro i hi h0 avoid ha
    obtain ⟨-, he⟩ := spelled_tail (i := i) hn (by omega)
    have ht : (tail i).Nested avoid (next i) := by
      cases i with
      | zero => exact not_mem (k := 1) ha (by omega) (by omega)
      | succ i => exact ⟨not_mem ha (by omega) (by omega), trivial⟩
    have inner : (program (i + 1) j).Nested (((tail i).entry (next i)).toList ++ avoid) ((tail i).entry (next i)) := by
      rw [he]
      refine ih (i + 1) (by omega) h0 _ ?_
      intro a h
      rcases List.mem_append.mp h with h | h
      · rw [List.mem_singleton.mp h]
        simp only
        rw [UInt32.toNat_ofNat', Nat.mod_eq_of_lt (by omega)]
        omega
      · have := ha a h
        omega
    exact ⟨not_mem ha (Nat.le_refl _) (by omega), inner, inner, ht⟩

theorem size_program (j : Nat) : ∀ i, 2 ^ j ≤ (program i j).ids.length := by
  induction j with
  | zero => intro i; exact Nat.le_refl 1
  | succ j ih =>
    intro i
    have := ih (i + 1)
    simp only [program, Program.ids, List.length_cons, List.length_append]
    rw [Nat.pow_succ]
    omega

end Magma.Doubling
