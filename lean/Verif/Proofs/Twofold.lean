import Verif.Proofs.Nesting
import Verif.Proofs.Branching
/-! A family of functions with the deepest control flow: loops one inside the other, and a row of conditional exits
that is in the innermost loop and, before that loop, in the one around it. -/

namespace Magma.Twofold
open Spec
open Branching (ofNat_ne countP_range)

/-- Where loop `j` of `n` is left: at the loop around it, or at the last block -/
def outside (x n j : Nat) : Nat := if j = 0 then n + x else j - 1

/-- Block `k` of the function with `n` loops and `x` exits: the innermost two loops start with the exits, which go
down to the innermost loop; the others start with the next loop. -/
def block (x n k : Nat) : BasicBlock Empty :=
  if k < n then
    ⟨⟨⟨UInt32.ofNat k⟩⟩, [], some (.OpLoopMerge ⟨⟨UInt32.ofNat (outside x n k)⟩, ⟨0⟩, LoopControl.default⟩),
      .OpBranch ⟨⟨UInt32.ofNat (if k + 2 < n then k + 1 else n + x - 1)⟩⟩⟩
  else if k < n + x then
    ⟨⟨⟨UInt32.ofNat k⟩⟩, [], none,
      .OpBranchConditional ⟨⟨0⟩, ⟨UInt32.ofNat (k - 1)⟩, ⟨UInt32.ofNat (outside x n (n - 1))⟩, none⟩⟩
  else ⟨⟨⟨UInt32.ofNat k⟩⟩, [], none, .OpReturn {}⟩

/-- The blocks of the function -/
def blocks (x n : Nat) : List (BasicBlock Empty) := (List.range (n + x + 1)).map (block x n)

/-- The last `i` exits, then the rest -/
def row (n : Nat) (brk : Bool) : Nat → Program → Program
  | 0, rest => rest
  | i + 1, rest => .exit ⟨UInt32.ofNat (n + i)⟩ brk none (row n brk i rest)

/-- The innermost loop -/
def inner (x n : Nat) (rest : Program) : Program :=
  .loop ⟨UInt32.ofNat (n - 1)⟩ (row n true x .done) LoopControl.default rest

/-- The body of loop `p - i` of `p + 2` -/
def inside (x p : Nat) : Nat → Program
  | 0 => row (p + 2) false x (inner x (p + 2) .done)
  | i + 1 => .loop ⟨UInt32.ofNat (p - i)⟩ (inside x p i) LoopControl.default .done

/-- The program of `p + 2` loops -/
def program (x p : Nat) : Program :=
  .loop ⟨UInt32.ofNat 0⟩ (inside x p p) LoopControl.default (.ret ⟨UInt32.ofNat (p + 2 + x)⟩)

theorem label (x n k : Nat) : labelId (block x n k) = UInt32.ofNat k := by
  rw [block]
  split
  · rfl
  · split <;> rfl

theorem nodup {x n : Nat} (hn : n + x + 1 ≤ 2 ^ 32) : ((blocks x n).map labelId).Nodup := by
  rw [blocks, List.map_map, List.nodup_iff_pairwise_ne, List.pairwise_map]
  refine List.Pairwise.imp_of_mem ?_ List.nodup_range
  intro a b ha hb hab h
  have ha := List.mem_range.mp ha
  have hb := List.mem_range.mp hb
  have h : labelId (block x n a) = labelId (block x n b) := h
  rw [label, label] at h
  exact ofNat_ne (by omega) (by omega) hab h

theorem lookup {x n k : Nat} (hn : n + x + 1 ≤ 2 ^ 32) (hk : k ≤ n + x) :
    blockOf (blocks x n) ⟨UInt32.ofNat k⟩ = some (block x n k) := by
  have := blockOf_mem (nodup hn) (b := block x n k) (List.mem_map_of_mem (List.mem_range.mpr (by omega)))
  rw [label] at this
  exact this

theorem entry_row (n : Nat) (brk : Bool) {k : Option BlockId} {rest : Program}
    (h : rest.entry k = some ⟨UInt32.ofNat (n - 1)⟩) :
    ∀ i, (row n brk i rest).entry k = some ⟨UInt32.ofNat (n + i - 1)⟩
  | 0 => h
  | _ + 1 => rfl

theorem spelled_row {x n : Nat} (hn : n + x + 1 ≤ 2 ^ 32) {brk : Bool} {head merge : BlockId}
    (hf : (⟨UInt32.ofNat (outside x n (n - 1))⟩ : BlockId) = if brk then merge else head)
    {rest : Program} (hs : rest.SpelledBy (blocks x n) (some (head, merge)) (some head))
    (he : rest.entry (some head) = some ⟨UInt32.ofNat (n - 1)⟩) :
    ∀ i, i ≤ x → (row n brk i rest).SpelledBy (blocks x n) (some (head, merge)) (some head)
  | 0, _ => hs
  | i + 1, hi => by
    have hb : block x n (n + i) = ⟨⟨⟨UInt32.ofNat (n + i)⟩⟩, [], none,
        .OpBranchConditional ⟨⟨0⟩, ⟨UInt32.ofNat (n + i - 1)⟩, ⟨UInt32.ofNat (outside x n (n - 1))⟩, none⟩⟩ := by
      rw [block, if_neg (by omega), if_pos (by omega)]
    exact ⟨head, merge, _, _, rfl, rfl, lookup hn (by omega), by rw [hb], by rw [hb], rfl, hf,
      entry_row n brk he i, spelled_row hn hf hs he i (by omega)⟩

/-- A loop of the function -/
theorem spelled_loop {x n j t : Nat} (hn : n + x + 1 ≤ 2 ^ 32) (hj : j < n) {lp : Option (BlockId × BlockId)}
    {k : Option BlockId} {body rest : Program} (ht : t = if j + 2 < n then j + 1 else n + x - 1)
    (hb : body.SpelledBy (blocks x n) (some (⟨UInt32.ofNat j⟩, ⟨UInt32.ofNat (outside x n j)⟩)) (some ⟨UInt32.ofNat j⟩))
    (he : body.entry (some ⟨UInt32.ofNat j⟩) = some ⟨UInt32.ofNat t⟩)
    (hs : rest.SpelledBy (blocks x n) lp k) (hr : rest.entry k = some ⟨UInt32.ofNat (outside x n j)⟩) :
    (Program.loop ⟨UInt32.ofNat j⟩ body LoopControl.default rest).SpelledBy (blocks x n) lp k := by
  subst ht
  have h : block x n j = ⟨⟨⟨UInt32.ofNat j⟩⟩, [],
      some (.OpLoopMerge ⟨⟨UInt32.ofNat (outside x n j)⟩, ⟨0⟩, LoopControl.default⟩),
      .OpBranch ⟨⟨UInt32.ofNat (if j + 2 < n then j + 1 else n + x - 1)⟩⟩⟩ := by
    rw [block, if_pos hj]
  exact ⟨_, _, _, lookup hn (by omega), by rw [h], by rw [h], rfl, hr, he, hb, hs⟩

theorem spelled_inner {x n : Nat} (hn : n + x + 1 ≤ 2 ^ 32) (h0 : 0 < n) {lp : Option (BlockId × BlockId)}
    {k : Option BlockId} {rest : Program} (hs : rest.SpelledBy (blocks x n) lp k)
    (hr : rest.entry k = some ⟨UInt32.ofNat (outside x n (n - 1))⟩) :
    (inner x n rest).SpelledBy (blocks x n) lp k :=
  spelled_loop hn (by omega) (t := n + x - 1) (by rw [if_neg (by omega)])
    (spelled_row hn rfl (rest := .done) nofun rfl x (Nat.le_refl x)) (entry_row n true rfl x) hs hr

theorem entry_inside (x p : Nat) : ∀ i, i ≤ p → (k : Option BlockId) → (inside x p i).entry k =
    some ⟨UInt32.ofNat (if i = 0 then p + 2 + x - 1 else p - i + 1)⟩
  | 0, _, k => by
    rw [inside, entry_row (p + 2) false (rest := inner x (p + 2) .done) rfl x, if_pos rfl]
  | i + 1, hi, k => by
    rw [if_neg (by omega), show p - (i + 1) + 1 = p - i by omega]
    rfl

theorem spelled_inside {x p : Nat} (hn : p + 2 + x + 1 ≤ 2 ^ 32) : ∀ i, i ≤ p →
    (inside x p i).SpelledBy (blocks x (p + 2))
      (some (⟨UInt32.ofNat (p - i)⟩, ⟨UInt32.ofNat (outside x (p + 2) (p - i))⟩)) (some ⟨UInt32.ofNat (p - i)⟩)
  | 0, _ => by
    have ho : outside x (p + 2) (p + 2 - 1) = p := by rw [outside, if_neg (by omega)]; omega
    refine spelled_row hn (by rw [ho]; rfl) ?_ rfl x (Nat.le_refl x)
    exact spelled_inner hn (by omega) nofun (by rw [ho]; rfl)
  | i + 1, hi => by
    have ih := spelled_inside hn i (by omega)
    have ho : outside x (p + 2) (p - i) = p - (i + 1) := by rw [outside, if_neg (by omega)]; omega
    refine spelled_loop hn (by omega) rfl ih ?_ nofun (by rw [ho]; rfl)
    rw [entry_inside x p i (by omega)]
    by_cases h : i = 0
    · rw [if_pos h, if_neg (by omega)]
    · rw [if_neg h, if_pos (by omega)]

theorem spelled_program {x p : Nat} (hn : p + 2 + x + 1 ≤ 2 ^ 32) :
    (program x p).SpelledBy (blocks x (p + 2)) none none := by
  have h := spelled_inside hn p (Nat.le_refl p)
  rw [Nat.sub_self] at h
  refine spelled_loop hn (by omega) rfl h ?_
    ⟨rfl, block x (p + 2) (p + 2 + x), {}, lookup hn (Nat.le_refl _), ?_⟩ rfl
  · rw [entry_inside x p p (Nat.le_refl p)]
    by_cases h : p = 0
    · rw [if_pos h, if_neg (by omega)]
    · rw [if_neg h, if_pos (by omega), Nat.sub_self]
  · rw [block, if_neg (by omega), if_neg (by omega)]

/-- The program with one loop -/
theorem spelled_one {x : Nat} (hn : 1 + x + 1 ≤ 2 ^ 32) :
    (inner x 1 (.ret ⟨UInt32.ofNat (1 + x)⟩)).SpelledBy (blocks x 1) none none := by
  refine spelled_inner hn (by omega) ⟨rfl, block x 1 (1 + x), {}, lookup hn (Nat.le_refl _), ?_⟩ rfl
  rw [block, if_neg (by omega), if_neg (by omega)]

/-! ### No block is a loop around it. -/

theorem not_avoided {j i : Nat} {avoid : List BlockId} (ha : ∀ a ∈ avoid, ∃ i, i < j ∧ a = ⟨UInt32.ofNat i⟩)
    (hj : j ≤ i) (hi : i < 2 ^ 32) : (⟨UInt32.ofNat i⟩ : BlockId) ∉ avoid := by
  intro h
  obtain ⟨i', h1, h2⟩ := ha _ h
  exact ofNat_ne hi (by omega) (by omega) (BlockId.mk.inj h2)

theorem avoid_cons {j : Nat} {avoid : List BlockId} (ha : ∀ a ∈ avoid, ∃ i, i < j ∧ a = ⟨UInt32.ofNat i⟩) :
    ∀ a ∈ (⟨UInt32.ofNat j⟩ : BlockId) :: avoid, ∃ i, i < j + 1 ∧ a = ⟨UInt32.ofNat i⟩ := by
  intro a h
  rcases List.mem_cons.mp h with rfl | h
  · exact ⟨j, by omega, rfl⟩
  · obtain ⟨i, h1, h2⟩ := ha _ h
    exact ⟨i, by omega, h2⟩

theorem nested_row {x n j : Nat} (hn : n + x + 1 ≤ 2 ^ 32) (hj : j ≤ n) {brk : Bool} {avoid : List BlockId}
    (ha : ∀ a ∈ avoid, ∃ i, i < j ∧ a = ⟨UInt32.ofNat i⟩) {k : Option BlockId} {rest : Program}
    (h : rest.Nested avoid k) : ∀ i, i ≤ x → (row n brk i rest).Nested avoid k
  | 0, _ => h
  | i + 1, hi => ⟨not_avoided ha (by omega) (by omega), nested_row hn hj ha h i (by omega)⟩

theorem nested_inner {x n j : Nat} (hn : n + x + 1 ≤ 2 ^ 32) (hj : j + 1 = n) {avoid : List BlockId}
    (ha : ∀ a ∈ avoid, ∃ i, i < j ∧ a = ⟨UInt32.ofNat i⟩) {k : Option BlockId} {rest : Program}
    (h : rest.Nested avoid k) : (inner x n rest).Nested avoid k := by
  have e : n - 1 = j := by omega
  rw [inner, e]
  exact ⟨not_avoided ha (Nat.le_refl j) (by omega),
    nested_row hn (Nat.le_of_eq hj) (avoid_cons ha) (rest := .done) trivial x (Nat.le_refl x), h⟩

theorem nested_inside {x p : Nat} (hn : p + 2 + x + 1 ≤ 2 ^ 32) : ∀ (i : Nat) {avoid : List BlockId}
    {k : Option BlockId}, i ≤ p → (∀ a ∈ avoid, ∃ j, j < p - i + 1 ∧ a = ⟨UInt32.ofNat j⟩) → (inside x p i).Nested avoid k
  | 0, avoid, k, _, ha => nested_row hn (by omega) ha (nested_inner hn rfl ha (rest := .done) trivial) x (Nat.le_refl x)
  | i + 1, avoid, k, hi, ha => by
    have ha' : ∀ a ∈ avoid, ∃ j, j < p - i ∧ a = ⟨UInt32.ofNat j⟩ := by
      intro a h
      obtain ⟨j, h1, h2⟩ := ha a h
      exact ⟨j, by omega, h2⟩
    exact ⟨not_avoided ha' (Nat.le_refl _) (by omega), nested_inside hn i (by omega) (avoid_cons ha'), trivial⟩

theorem nested_program {x p : Nat} (hn : p + 2 + x + 1 ≤ 2 ^ 32) : (program x p).Nested [] none :=
  ⟨nofun, nested_inside hn p (Nat.le_refl p) (by rw [Nat.sub_self]; exact avoid_cons nofun), nofun⟩

theorem nested_one {x : Nat} (hn : 1 + x + 1 ≤ 2 ^ 32) : (inner x 1 (.ret ⟨UInt32.ofNat (1 + x)⟩)).Nested [] none :=
  nested_inner hn (j := 0) (avoid := []) rfl nofun (rest := .ret _) nofun

/-! ### The nesting -/

theorem deep_row (n : Nat) (brk : Bool) (rest : Program) : ∀ i, Nesting.deep (row n brk i rest) = i + Nesting.deep rest
  | 0 => (Nat.zero_add _).symm
  | i + 1 => by
    show Nesting.deep (row n brk i rest) + 1 = _
    rw [deep_row n brk rest i]
    omega

theorem deep_inner (x n : Nat) (rest : Program) (h : Nesting.deep rest = 0) : Nesting.deep (inner x n rest) = x + 1 := by
  show max (Nesting.deep (row n true x .done) + 1) (Nesting.deep rest) = _
  rw [deep_row, h]
  exact Nat.max_zero _

theorem deep_inside (x p : Nat) : ∀ i, Nesting.deep (inside x p i) = i + 2 * x + 1
  | 0 => by
    rw [inside, deep_row, deep_inner x (p + 2) .done rfl]
    omega
  | i + 1 => by
    show max (Nesting.deep (inside x p i) + 1) 0 = _
    rw [deep_inside x p i]
    omega

theorem deep_program (x p : Nat) : Nesting.deep (program x p) = p + 2 + 2 * x := by
  show max (Nesting.deep (inside x p p) + 1) 0 = _
  rw [deep_inside]
  omega

theorem starts_block (x n k : Nat) : starts (block x n k) = decide (k < n) := by
  rw [block]
  by_cases h1 : k < n
  · rw [if_pos h1, decide_eq_true h1]
    rfl
  · rw [if_neg h1, decide_eq_false h1]
    by_cases h2 : k < n + x
    · rw [if_pos h2]; rfl
    · rw [if_neg h2]; rfl

theorem headers_blocks (x n : Nat) : headers (blocks x n) = n := by
  rw [headers, blocks, List.countP_map, Nat.add_assoc]
  refine Eq.trans ?_ (countP_range n (x + 1))
  congr 1
  funext k
  exact starts_block x n k

end Magma.Twofold
