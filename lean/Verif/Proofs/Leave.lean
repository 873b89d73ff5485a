import Verif.Proofs.Own
import Verif.Proofs.Settle
/-! Lemmas: a branch that always leaves a loop. -/

namespace Magma.Settle
open Spec Spec.Program Excerpt Own
variable {ends ends' : BlockId → Option BlockEnd}

/-- Where a block leaves a loop in a program, there is no program of the blocks among which it always does so. -/
theorem leave_refused {y : BlockId} {t f : UInt32} {w : Option BranchWeights} (hy : ends y = some (.choose t f w))
    (hy' : ends' y = some (.goto f)) (ho : ∀ x e, x ≠ y → ends x = some e → ends' x = some e) {p : Program} :
    ∀ {lp lp' : Option (BlockId × BlockId)} {k : Option BlockId} {avoid avoid' : List BlockId} {p' : Program},
    Spelt ends lp k p → p.Nested avoid k → (∀ z, k = some z → z ∈ avoid) → Spelt ends' lp' k p' → p'.Nested avoid' k →
    (∀ z, k = some z → z ∈ avoid') → p.entry k = p'.entry k → Exits (fun x brk => x = y → brk = true) p →
    (∀ h m, lp = some (h, m) → ∀ lp' q, Spelt ends' lp' (some h) q → q.Nested avoid' (some h) → q.entry (some h) ≠ some m) →
    y ∉ p.ids := by
  induction p with
  | done => exact fun _ _ _ _ _ _ _ _ _ h => nomatch h
  | ret id =>
    intro lp lp' k avoid avoid' p' hs _ _ _ _ _ _ _ _ hm
    cases List.mem_singleton.mp hm
    have e := hs.2
    rw [hy] at e
    cases e
  | atom id rest ih =>
    rintro lp lp' k avoid avoid' p' ⟨⟨t1, h1, h2⟩, h3⟩ hn hk hs' hn' hk' he hc hl hm
    have hne : id ≠ y := by rintro rfl; rw [hy] at h1; cases h1
    have hm := (List.mem_cons.mp hm).resolve_left hne.symm
    replace h1 := ho _ _ hne h1
    cases p' with
    | done => exact absurd (hk _ he.symm) hn.1
    | atom id' rest' =>
      cases he
      obtain ⟨⟨_, e1, e2⟩, e3⟩ := hs'
      rw [h1] at e1
      cases e1
      exact ih h3 hn.2 hk e3 hn'.2 hk' (h2.trans e2.symm) hc hl hm
    | ret id' => cases he; have e := hs'.2; rw [h1] at e; cases e
    | sel id' => cases he; obtain ⟨_, _, _, e, -⟩ := hs'; rw [h1] at e; cases e
    | loop id' => cases he; obtain ⟨_, _, e, -⟩ := hs'; rw [h1] at e; cases e
    | exit id' => cases he; obtain ⟨_, _, _, _, _, _, e, -⟩ := hs'; rw [h1] at e; cases e
  | exit id brk w1 rest ih =>
    rintro lp lp' k avoid avoid' p' ⟨h, m, t1, f1, g1, g2, h1, g3, h2, h3⟩ hn hk hs' hn' hk' he hc hl hm
    by_cases hid : id = y
    · subst hid
      cases hc.1 rfl
      rw [hy] at h1
      cases h1
      cases p' with
      | done => exact absurd (hk _ he.symm) hn.1
      | atom id' rest' =>
        cases he
        obtain ⟨⟨_, e1, e2⟩, e3⟩ := hs'
        rw [hy'] at e1
        cases e1
        subst g2
        exact hl h m g1 _ _ e3 hn'.2 (e2.trans (congrArg some g3))
      | ret id' => cases he; have e := hs'.2; rw [hy'] at e; cases e
      | sel id' => cases he; obtain ⟨_, _, _, e, -⟩ := hs'; rw [hy'] at e; cases e
      | loop id' => cases he; obtain ⟨_, _, e, -⟩ := hs'; rw [hy'] at e; cases e
      | exit id' => cases he; obtain ⟨_, _, _, _, _, _, e, -⟩ := hs'; rw [hy'] at e; cases e
    · have hm := (List.mem_cons.mp hm).resolve_left (Ne.symm hid)
      replace h1 := ho _ _ hid h1
      cases p' with
      | done => exact absurd (hk _ he.symm) hn.1
      | exit id' brk' w' rest' =>
        cases he
        obtain ⟨_, _, _, _, _, _, e1, _, e2, e3⟩ := hs'
        rw [h1] at e1
        cases e1
        exact ih h3 hn.2 hk e3 hn'.2 hk' (h2.trans e2.symm) hc.2 hl hm
      | ret id' => cases he; have e := hs'.2; rw [h1] at e; cases e
      | sel id' => cases he; obtain ⟨_, _, _, e, -⟩ := hs'; rw [h1] at e; cases e
      | loop id' => cases he; obtain ⟨_, _, e, -⟩ := hs'; rw [h1] at e; cases e
      | atom id' => cases he; obtain ⟨⟨_, e, -⟩, -⟩ := hs'; rw [h1] at e; cases e
  | loop id body hint rest ihb ih =>
    rintro lp lp' k avoid avoid' p' ⟨t1, m, h1, h2, h4, h5, h3⟩ hn hk hs' hn' hk' he hc hl hm
    have hne : id ≠ y := by rintro rfl; rw [hy] at h1; cases h1
    simp only [ids, List.mem_cons, List.mem_append] at hm
    have hm := hm.resolve_left hne.symm
    replace h1 := ho _ _ hne h1
    cases p' with
    | done => exact absurd (hk _ he.symm) hn.1
    | loop id' body' hint' rest' =>
      cases he
      obtain ⟨_, _, e1, e2, e4, e5, e3⟩ := hs'
      rw [h1] at e1
      cases e1
      rcases hm with hm | hm
      · have first : ∀ (avoid : List BlockId) z, some id = some z → z ∈ id :: avoid := by
          rintro _ _ ⟨⟩
          exact List.mem_cons_self
        refine ihb h5 hn.2.1 (first _) e5 hn'.2.1 (first _) (h4.trans e4.symm) hc.1 ?_ hm
        rintro _ _ ⟨⟩ lq q hq hnq hqe
        exact no_return h1 (fun e => hn'.1 (hk' _ e)) (fun p hp hpe => reach_entry hq hnq hp
          (fun z hz => List.mem_cons_of_mem _ (hk' z hz)) (hqe.trans hpe.symm)) _ rest' (Nat.le_refl _) e3 e2
      · exact ih h3 hn.2.2 hk e3 hn'.2.2 hk' (h2.trans e2.symm) hc.2 hl hm
    | ret id' => cases he; have e := hs'.2; rw [h1] at e; cases e
    | sel id' => cases he; obtain ⟨_, _, _, e, -⟩ := hs'; rw [h1] at e; cases e
    | exit id' => cases he; obtain ⟨_, _, _, _, _, _, e, -⟩ := hs'; rw [h1] at e; cases e
    | atom id' => cases he; obtain ⟨⟨_, e, -⟩, -⟩ := hs'; rw [h1] at e; cases e
  | sel id left right hint w1 rest ihl ihr ih =>
    rintro lp lp' k avoid avoid' p' ⟨t1, f1, m, h1, h2, h4, h5, h6, h7, h3⟩ hn hk hs' hn' hk' he hc hl hm
    have hne : id ≠ y := by rintro rfl; rw [hy] at h1; cases h1
    simp only [ids, List.mem_cons, List.mem_append] at hm
    have hm := hm.resolve_left hne.symm
    replace h1 := ho _ _ hne h1
    cases p' with
    | done => exact absurd (hk _ he.symm) hn.1
    | sel id' left' right' hint' w' rest' =>
      cases he
      obtain ⟨_, _, _, e1, e2, e4, e5, e6, e7, e3⟩ := hs'
      rw [h1] at e1
      cases e1
      obtain ⟨n1, n2, n3, n4⟩ := hn
      obtain ⟨o1, o2, o3, o4⟩ := hn'
      rw [h2] at n2 n3
      rw [e2] at o2 o3
      have first : ∀ (avoid : List BlockId) z, some (⟨m⟩ : BlockId) = some z → z ∈ (some (⟨m⟩ : BlockId)).toList ++ avoid := by
        rintro _ _ ⟨⟩
        exact List.mem_cons_self
      have hl' : ∀ h m', lp = some (h, m') → ∀ lp' q, Spelt ends' lp' (some h) q →
          q.Nested ((some (⟨m⟩ : BlockId)).toList ++ avoid') (some h) → q.entry (some h) ≠ some m' :=
        fun h m' e lq q hq hnq => hl h m' e lq q hq (nested_less (fun z hz => List.mem_append_right _ hz) hnq)
      rcases hm with (hm | hm) | hm
      · exact ihl h6 n2 (first _) e6 o2 (first _) (h4.trans e4.symm) hc.1 hl' hm
      · exact ihr h7 n3 (first _) e7 o3 (first _) (h5.trans e5.symm) hc.2.1 hl' hm
      · exact ih h3 n4 hk e3 o4 hk' (h2.trans e2.symm) hc.2.2 hl hm
    | ret id' => cases he; have e := hs'.2; rw [h1] at e; cases e
    | loop id' => cases he; obtain ⟨_, _, e, -⟩ := hs'; rw [h1] at e; cases e
    | exit id' => cases he; obtain ⟨_, _, _, _, _, _, e, -⟩ := hs'; rw [h1] at e; cases e
    | atom id' => cases he; obtain ⟨⟨_, e, -⟩, -⟩ := hs'; rw [h1] at e; cases e

end Magma.Settle
