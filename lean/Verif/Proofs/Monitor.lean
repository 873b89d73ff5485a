import Verif.Spec.Monitor
import Verif.Proofs.Regular
/-! The states an automaton that watches executions can get to. -/

namespace Magma.Monitor
open Spec RegularExpression
variable {σ : Type} [Fintype σ] [DecidableEq σ]

/-- Steps that only add states come to an end. -/
theorem iterate_stops {F : Finset σ → Finset σ} (hF : ∀ S, S ⊆ F S) (S : Finset σ) (n : Nat) :
    F^[n] S ⊆ F^[Fintype.card σ] S := by
  have mono : ∀ m n, m ≤ n → F^[m] S ⊆ F^[n] S := by
    intro m n h
    induction n with
    | zero => rw [Nat.le_zero.mp h]
    | succ n ih =>
      by_cases e : m = n + 1
      · rw [e]
      · rw [Function.iterate_succ_apply']
        exact (ih (by omega)).trans (hF _)
  have stop : ∃ k ≤ Fintype.card σ, F^[k + 1] S = F^[k] S := by
    by_contra h
    have grow : ∀ k, k ≤ Fintype.card σ + 1 → k ≤ (F^[k] S).card := by
      intro k
      induction k with
      | zero => exact fun _ => Nat.zero_le _
      | succ k ih =>
        intro hk
        have h1 := ih (by omega)
        have hne : F^[k] S ≠ F^[k + 1] S := fun e => h ⟨k, by omega, e.symm⟩
        have h2 := Finset.card_lt_card (Finset.ssubset_iff_subset_ne.mpr ⟨mono k (k + 1) (by omega), hne⟩)
        omega
    have h1 := grow _ (Nat.le_refl _)
    have h2 := Finset.card_le_univ (F^[Fintype.card σ + 1] S)
    omega
  obtain ⟨k, hk, e⟩ := stop
  have fixed : ∀ n, F^[k + n] S = F^[k] S := by
    intro n
    induction n with
    | zero => rfl
    | succ n ih =>
      rw [← Nat.add_assoc, Function.iterate_succ_apply', ih, ← Function.iterate_succ_apply' F, e]
  by_cases hn : n ≤ Fintype.card σ
  · exact mono _ _ hn
  · obtain ⟨d, rfl⟩ : ∃ d, n = k + d := ⟨n - k, by omega⟩
    rw [fixed]
    exact mono _ _ hk

theorem mem_after (step : σ → BlockId → σ) : ∀ (e : RegularExpression BlockId) (S : Finset σ) (q : σ),
    q ∈ after step e S ↔ ∃ p ∈ S, ∃ x ∈ e.matches', x.foldl step p = q
  | .zero, S, q => by
    rw [after]
    exact ⟨fun h => absurd h (Finset.notMem_empty _), fun ⟨_, _, x, hx, _⟩ => absurd hx (Language.notMem_zero x)⟩
  | .epsilon, S, q => by
    rw [after]
    constructor
    · exact fun h => ⟨q, h, [], rfl, rfl⟩
    · rintro ⟨p, hp, x, hx, rfl⟩
      have hx : x = [] := hx
      rw [hx]
      exact hp
  | .char id, S, q => by
    rw [after, Finset.mem_image]
    constructor
    · rintro ⟨p, hp, rfl⟩
      exact ⟨p, hp, [id], rfl, rfl⟩
    · rintro ⟨p, hp, x, hx, rfl⟩
      have hx : x = [id] := hx
      exact ⟨p, hp, by rw [hx]; rfl⟩
  | .plus a b, S, q => by
    rw [after, Finset.mem_union, mem_after step a, mem_after step b]
    constructor
    · rintro (⟨p, hp, x, hx, e⟩ | ⟨p, hp, x, hx, e⟩)
      · exact ⟨p, hp, x, .inl hx, e⟩
      · exact ⟨p, hp, x, .inr hx, e⟩
    · rintro ⟨p, hp, x, hx | hx, e⟩
      · exact .inl ⟨p, hp, x, hx, e⟩
      · exact .inr ⟨p, hp, x, hx, e⟩
  | .comp a b, S, q => by
    rw [after, mem_after step b]
    constructor
    · rintro ⟨r, hr, y, hy, e⟩
      obtain ⟨p, hp, x, hx, e'⟩ := (mem_after step a S r).mp hr
      exact ⟨p, hp, x ++ y, Language.append_mem_mul hx hy, by rw [List.foldl_append, e', e]⟩
    · rintro ⟨p, hp, z, hz, rfl⟩
      obtain ⟨x, hx, y, hy, rfl⟩ := Language.mem_mul.mp hz
      exact ⟨_, (mem_after step a S _).mpr ⟨p, hp, x, hx, rfl⟩, y, hy, (List.foldl_append ..).symm⟩
  | .star a, S, q => by
    rw [after]
    have ih := mem_after step a
    constructor
    · generalize Fintype.card σ = n
      intro h
      induction n generalizing q with
      | zero => exact ⟨q, h, [], Language.nil_mem_kstar _, rfl⟩
      | succ n hn =>
        rw [Function.iterate_succ_apply', Finset.mem_union] at h
        rcases h with h | h
        · exact hn q h
        · obtain ⟨r, hr, y, hy, e⟩ := (ih _ _).mp h
          obtain ⟨p, hp, x, hx, e'⟩ := hn r hr
          obtain ⟨L, rfl, hL⟩ := Language.mem_kstar.mp hx
          refine ⟨p, hp, (L ++ [y]).flatten, Language.join_mem_kstar fun z hz => ?_, ?_⟩
          · rcases List.mem_append.mp hz with hz | hz
            · exact hL z hz
            · rw [List.mem_singleton.mp hz]; exact hy
          · rw [List.flatten_append, List.foldl_append, e', List.flatten_singleton, e]
    · rintro ⟨p, hp, x, hx, rfl⟩
      obtain ⟨L, rfl, hL⟩ := Language.mem_kstar.mp hx
      refine iterate_stops (F := fun states => states ∪ after step a states) (fun S => Finset.subset_union_left) S L.length ?_
      clear hx
      induction L generalizing p S with
      | nil => exact hp
      | cons y L hl =>
        rw [List.length_cons, Function.iterate_succ_apply, List.flatten_cons, List.foldl_append]
        exact hl _ _ (Finset.mem_union_right _ ((ih _ _).mpr ⟨p, hp, y, hL y (List.mem_cons_self ..), rfl⟩))
          fun z hz => hL z (List.mem_cons_of_mem _ hz)

end Magma.Monitor
