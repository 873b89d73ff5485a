import Verif.Spec.Shared
import Verif.Proofs.Uniform
import Verif.Proofs.Course
import Mathlib.Data.List.Basic
/-! Fewer variables that agree, more blocks that are visited apart. -/

set_option linter.unusedSectionVars false

namespace Magma.Lockstep
open Spec
variable {V X : Type}

section
variable {varies varies' : BlockId → Bool} (hv : ∀ id, varies id = true → varies' id = true)
include hv

mutual
theorem part_can : ∀ chain : ControlFlowChain, mayPart varies chain = true → canContinue chain = true
  | .Atom _, h => by simp [mayPart] at h
  | .Block chains, h => by
    rw [mayPart] at h
    rw [canContinue]
    exact part_can_any chains h
  | .Selection id left right _ _, h => by
    rw [mayPart] at h
    rw [canContinue]
    split at h
    · exact h
    · simp only [Bool.or_eq_true] at h ⊢
      exact h.imp (part_can left) (part_can right)
  | .Loop _ _ _ _, h => by simp [mayPart] at h
  | .Break, h => by simp [mayPart] at h
  | .Continue, h => by simp [mayPart] at h
theorem part_can_any : ∀ chains : List ControlFlowChain, mayPartAny varies chains = true → canContinueAny chains = true
  | [], h => by simp [mayPartAny] at h
  | chain :: chains, h => by
    simp only [mayPartAny, canContinueAny, Bool.or_eq_true] at h ⊢
    exact h.imp (part_can chain) (part_can_any chains)
end

mutual
theorem part_mono : ∀ chain : ControlFlowChain, mayPart varies chain = true → mayPart varies' chain = true
  | .Atom _, h => by simp [mayPart] at h
  | .Block chains, h => by
    rw [mayPart] at h ⊢
    exact part_mono_any chains h
  | .Selection id left right _ _, h => by
    rw [mayPart] at h ⊢
    split at h
    · next hx => rw [if_pos (hv id hx)]; exact h
    · split
      · simp only [Bool.or_eq_true] at h ⊢
        exact h.imp (part_can hv left) (part_can hv right)
      · simp only [Bool.or_eq_true] at h ⊢
        exact h.imp (part_mono left) (part_mono right)
  | .Loop _ _ _ _, h => by simp [mayPart] at h
  | .Break, h => by simp [mayPart] at h
  | .Continue, h => by simp [mayPart] at h
theorem part_mono_any : ∀ chains : List ControlFlowChain, mayPartAny varies chains = true → mayPartAny varies' chains = true
  | [], h => by simp [mayPartAny] at h
  | chain :: chains, h => by
    simp only [mayPartAny, Bool.or_eq_true] at h ⊢
    exact h.imp (part_mono chain) (part_mono_any chains)
end

mutual
theorem leave_mono : ∀ chain : ControlFlowChain, mayLeave varies chain = true → mayLeave varies' chain = true
  | .Atom _, h => by simp [mayLeave] at h
  | .Block chains, h => by
    rw [mayLeave] at h ⊢
    exact leave_mono_any chains h
  | .Selection id left right _ _, h => by
    simp only [mayLeave, Bool.or_eq_true, Bool.and_eq_true] at h ⊢
    exact h.imp (fun h => h.imp (fun h => ⟨hv id h.1, h.2⟩) (leave_mono left)) (leave_mono right)
  | .Loop _ _ _ _, h => by simp [mayLeave] at h
  | .Break, h => by simp [mayLeave] at h
  | .Continue, h => by simp [mayLeave] at h
theorem leave_mono_any : ∀ chains : List ControlFlowChain, mayLeaveAny varies chains = true → mayLeaveAny varies' chains = true
  | [], h => by simp [mayLeaveAny] at h
  | chain :: chains, h => by
    simp only [mayLeaveAny, Bool.or_eq_true, Bool.and_eq_true] at h ⊢
    exact h.imp (fun h => h.imp (leave_mono chain) (fun h => ⟨part_mono hv chain h.1, h.2⟩)) (leave_mono_any chains)
end

mutual
theorem apart_ids : ∀ chain : ControlFlowChain, ∀ x ∈ visitedApart varies chain, x ∈ chainIds chain
  | .Atom _, x, h => by simp [visitedApart] at h
  | .Block chains, x, h => by
    rw [visitedApart] at h
    rw [chainIds]
    exact apart_ids_all chains x h
  | .Selection id left right _ _, x, h => by
    rw [visitedApart] at h
    rw [chainIds]
    split at h
    · exact List.mem_cons_of_mem _ h
    · simp only [List.mem_append, List.mem_cons] at h ⊢
      exact .inr (h.imp (apart_ids left x) (apart_ids right x))
  | .Loop id inner _ _, x, h => by
    rw [visitedApart] at h
    rw [chainIds]
    split at h
    · exact h
    · exact List.mem_cons_of_mem _ (apart_ids inner x h)
  | .Break, x, h => by simp [visitedApart] at h
  | .Continue, x, h => by simp [visitedApart] at h
theorem apart_ids_all : ∀ chains : List ControlFlowChain, ∀ x ∈ visitedApartAll varies chains, x ∈ chainIdsAll chains
  | [], x, h => by simp [visitedApartAll] at h
  | chain :: chains, x, h => by
    simp only [visitedApartAll, chainIdsAll, List.mem_append] at h ⊢
    exact h.imp (apart_ids chain x) (apart_ids_all chains x)
end

mutual
theorem apart_mono : ∀ chain : ControlFlowChain, ∀ x ∈ visitedApart varies chain, x ∈ visitedApart varies' chain
  | .Atom _, x, h => by simp [visitedApart] at h
  | .Block chains, x, h => by
    rw [visitedApart] at h ⊢
    exact apart_mono_all chains x h
  | .Selection id left right _ _, x, h => by
    rw [visitedApart] at h ⊢
    split at h
    · next hx => rw [if_pos (hv id hx)]; exact h
    · split
      · simp only [List.mem_append] at h ⊢
        exact h.imp (apart_ids hv left x) (apart_ids hv right x)
      · simp only [List.mem_append] at h ⊢
        exact h.imp (apart_mono left x) (apart_mono right x)
  | .Loop id inner _ _, x, h => by
    rw [visitedApart] at h ⊢
    split at h
    · next hx => rw [if_pos (leave_mono hv inner hx)]; exact h
    · split
      · exact List.mem_cons_of_mem _ (apart_ids hv inner x h)
      · exact apart_mono inner x h
  | .Break, x, h => by simp [visitedApart] at h
  | .Continue, x, h => by simp [visitedApart] at h
theorem apart_mono_all : ∀ chains : List ControlFlowChain, ∀ x ∈ visitedApartAll varies chains, x ∈ visitedApartAll varies' chains
  | [], x, h => by simp [visitedApartAll] at h
  | chain :: chains, x, h => by
    simp only [visitedApartAll, List.mem_append] at h ⊢
    exact h.imp (apart_mono chain x) (apart_mono_all chains x)
end

mutual
theorem stray_mono : ∀ (chain : ControlFlowChain) (b b' : Bool), (b = true → b' = true) →
    mayStray varies b chain = true → mayStray varies' b' chain = true
  | .Atom _, _, _, _, h => by simp [mayStray] at h
  | .Block chains, b, b', hb, h => by
    rw [mayStray] at h ⊢
    exact stray_mono_all chains b b' hb h
  | .Selection id left right _ _, _, _, _, h => by
    simp only [mayStray, Bool.or_eq_true] at h ⊢
    exact h.imp (fun h => h.imp (hv id) (stray_mono left false false fun x => x)) (stray_mono right false false fun x => x)
  | .Loop _ inner _ _, _, _, _, h => by
    simp only [mayStray, Bool.or_eq_true] at h ⊢
    exact h.imp (leave_mono hv inner) (stray_mono inner false false fun x => x)
  | .Break, _, _, hb, h => by
    rw [mayStray] at h ⊢
    exact hb h
  | .Continue, _, _, hb, h => by
    rw [mayStray] at h ⊢
    exact hb h
theorem stray_mono_all : ∀ (chains : List ControlFlowChain) (b b' : Bool), (b = true → b' = true) →
    mayStrayAll varies b chains = true → mayStrayAll varies' b' chains = true
  | [], _, _, hb, h => by
    rw [mayStrayAll] at h ⊢
    exact hb h
  | chain :: chains, b, b', hb, h => by
    simp only [mayStrayAll, Bool.or_eq_true, Bool.and_eq_true] at h ⊢
    exact h.imp (stray_mono_all chains _ _ (stray_mono chain b b' hb)) fun h => ⟨h.1, stray_mono chain b b' hb h.2⟩
end

mutual
theorem together_ids : ∀ (chain : ControlFlowChain) (b : Bool), ∀ p ∈ visitedTogether varies b chain, p.1.val ∈ chainIds chain
  | .Atom id, b, p, h => by
    rw [visitedTogether, List.mem_singleton] at h
    simp [h, chainIds]
  | .Block chains, b, p, h => by
    rw [visitedTogether] at h
    rw [chainIds]
    exact together_ids_all chains b p h
  | .Selection id left right _ _, b, p, h => by
    rw [visitedTogether] at h
    rw [chainIds]
    rcases List.mem_cons.mp h with rfl | h
    · exact List.mem_cons_self ..
    · split at h
      · cases h
      · simp only [List.mem_append, List.mem_cons] at h ⊢
        exact .inr (h.imp (together_ids left false p) (together_ids right false p))
  | .Loop id inner _ _, b, p, h => by
    rw [visitedTogether] at h
    rw [chainIds]
    split at h
    · cases h
    · rcases List.mem_cons.mp h with rfl | h
      · exact List.mem_cons_self ..
      · exact List.mem_cons_of_mem _ (together_ids inner false p h)
  | .Break, b, p, h => by simp [visitedTogether] at h
  | .Continue, b, p, h => by simp [visitedTogether] at h
theorem together_ids_all : ∀ (chains : List ControlFlowChain) (b : Bool), ∀ p ∈ visitedTogetherAll varies b chains,
    p.1.val ∈ chainIdsAll chains
  | [], b, p, h => by simp [visitedTogetherAll] at h
  | chain :: chains, b, p, h => by
    simp only [visitedTogetherAll, chainIdsAll, List.mem_append] at h ⊢
    exact h.imp (together_ids chain b p) (together_ids_all chains _ p)
end

mutual
/-- What is visited together, if less is the same, is visited together or apart, if more is. -/
theorem together_mono : ∀ (chain : ControlFlowChain) (b b' : Bool), (b = true → b' = true) →
    ∀ p ∈ visitedTogether varies b chain, p.1.val ∈ visitedApart varies' chain ∨
      ∃ s, (p.1, s) ∈ visitedTogether varies' b' chain ∧ (p.2 = true → s = true)
  | .Atom id, b, b', hb, p, h => by
    rw [visitedTogether, List.mem_singleton] at h
    subst h
    exact .inr ⟨b', by simp [visitedTogether], hb⟩
  | .Block chains, b, b', hb, p, h => by
    rw [visitedTogether] at h ⊢
    rw [visitedApart]
    exact together_mono_all chains b b' hb p h
  | .Selection id left right _ _, b, b', hb, p, h => by
    rw [visitedTogether] at h ⊢
    rw [visitedApart]
    rcases List.mem_cons.mp h with rfl | h
    · exact .inr ⟨b', List.mem_cons_self .., hb⟩
    · split at h
      · cases h
      · cases hx : varies' id with
        | true =>
          simp only [if_true]
          refine .inl ?_
          simp only [List.mem_append] at h ⊢
          exact h.imp (together_ids hv left false p) (together_ids hv right false p)
        | false =>
          simp only [Bool.false_eq_true, if_false]
          rcases List.mem_append.mp h with h | h
          · rcases together_mono left false false (fun x => x) p h with h | ⟨s, h, hs⟩
            · exact .inl (List.mem_append_left _ h)
            · exact .inr ⟨s, List.mem_cons_of_mem _ (List.mem_append_left _ h), hs⟩
          · rcases together_mono right false false (fun x => x) p h with h | ⟨s, h, hs⟩
            · exact .inl (List.mem_append_right _ h)
            · exact .inr ⟨s, List.mem_cons_of_mem _ (List.mem_append_right _ h), hs⟩
  | .Loop id inner _ _, b, b', hb, p, h => by
    rw [visitedTogether] at h ⊢
    rw [visitedApart]
    split at h
    · cases h
    · cases hx : mayLeave varies' inner with
      | true =>
        simp only [if_true]
        refine .inl ?_
        rcases List.mem_cons.mp h with rfl | h
        · exact List.mem_cons_self ..
        · exact List.mem_cons_of_mem _ (together_ids hv inner false p h)
      | false =>
        simp only [Bool.false_eq_true, if_false]
        rcases List.mem_cons.mp h with rfl | h
        · refine .inr ⟨_, List.mem_cons_self .., fun hs => ?_⟩
          simp only [Bool.or_eq_true] at hs ⊢
          exact hs.imp hb (stray_mono hv inner false false fun x => x)
        · rcases together_mono inner false false (fun x => x) p h with h | ⟨s, h, hs⟩
          · exact .inl h
          · exact .inr ⟨s, List.mem_cons_of_mem _ h, hs⟩
  | .Break, b, b', hb, p, h => by simp [visitedTogether] at h
  | .Continue, b, b', hb, p, h => by simp [visitedTogether] at h
theorem together_mono_all : ∀ (chains : List ControlFlowChain) (b b' : Bool), (b = true → b' = true) →
    ∀ p ∈ visitedTogetherAll varies b chains, p.1.val ∈ visitedApartAll varies' chains ∨
      ∃ s, (p.1, s) ∈ visitedTogetherAll varies' b' chains ∧ (p.2 = true → s = true)
  | [], b, b', hb, p, h => by simp [visitedTogetherAll] at h
  | chain :: chains, b, b', hb, p, h => by
    rw [visitedTogetherAll] at h ⊢
    rw [visitedApartAll]
    rcases List.mem_append.mp h with h | h
    · rcases together_mono chain b b' hb p h with h | ⟨s, h, hs⟩
      · exact .inl (List.mem_append_left _ h)
      · exact .inr ⟨s, List.mem_append_left _ h, hs⟩
    · rcases together_mono_all chains _ _ (stray_mono hv chain b b' hb) p h with h | ⟨s, h, hs⟩
      · exact .inl (List.mem_append_right _ h)
      · exact .inr ⟨s, List.mem_append_right _ h, hs⟩
end
end

section
variable {A : Access X V} {asks : GroupCode X → Bool} {chain : ControlFlowChain} {blocks : List (BasicBlock X)}

theorem varies_mono {same same' : V → Bool} (h : ∀ v, same' v = true → same v = true) (id : BlockId)
    (hx : A.varies same blocks id = true) : A.varies same' blocks id = true := by
  unfold Access.varies at hx ⊢
  split at hx
  · cases hx
  · split at hx
    · rw [List.any_eq_true] at hx ⊢
      obtain ⟨v, hv, hs⟩ := hx
      refine ⟨v, hv, ?_⟩
      simp only [Bool.not_eq_true'] at hs ⊢
      cases hs' : same' v with
      | false => rfl
      | true => rw [h v hs'] at hs; cases hs
    · cases hx

/-- The check passes exactly if nothing that is the same is spoilt. -/
theorem uniform_iff {same : V → Bool} :
    A.uniform asks same chain blocks = true ↔ ∀ v ∈ A.spoilt asks same chain blocks, same v = false := by
  simp only [Access.uniform, Access.spoilt, Bool.and_eq_true, List.all_eq_true, List.mem_append, List.mem_flatMap]
  have hq : ∀ id, A.quiet same blocks id = true ↔ ∀ v ∈ A.written blocks id, same v = false := by
    intro id
    unfold Access.quiet Access.written
    cases blockOf blocks id with
    | none => simp
    | some b =>
      simp only [List.all_eq_true, List.mem_flatMap, Bool.not_eq_true']
      exact ⟨fun h v ⟨i, hi, hv⟩ => h i hi v hv, fun h i hi v hv => h v ⟨i, hi, hv⟩⟩
  have hm : ∀ id stray, A.steady asks same blocks id stray = true ↔ ∀ v ∈ A.mixed asks same blocks id stray, same v = false := by
    intro id stray
    unfold Access.steady Access.mixed
    cases blockOf blocks id with
    | none => simp
    | some b =>
      simp only [List.all_eq_true (l := b.code), List.mem_flatMap]
      constructor
      · rintro h v ⟨i, hi, hv⟩
        split at hv
        · cases hv
        · next hc =>
          have := h i hi
          rw [Bool.or_eq_true] at this
          have := this.resolve_right hc
          simpa using List.all_eq_true.mp this v hv
      · intro h i hi
        by_cases hc : ((A.reads i).all same && !(stray && asks i)) = true
        · rw [hc, Bool.or_true]
        · rw [Bool.or_eq_true]
          refine .inl (List.all_eq_true.mpr fun v hv => ?_)
          rw [h v ⟨i, hi, by rw [if_neg hc]; exact hv⟩]
          rfl
  simp only [hq, hm]
  constructor
  · rintro ⟨h1, h2⟩ v (⟨id, hid, hv⟩ | ⟨p, hp, hv⟩)
    · exact h1 id hid v hv
    · exact h2 p hp v hv
  · intro h
    exact ⟨fun id hid v hv => h v (.inl ⟨id, hid, hv⟩), fun p hp v hv => h v (.inr ⟨p, hp, hv⟩)⟩

/-- Fewer variables that agree, more that need not -/
theorem spoilt_mono {same same' : V → Bool} (h : ∀ v, same' v = true → same v = true) :
    ∀ v ∈ A.spoilt asks same chain blocks, v ∈ A.spoilt asks same' chain blocks := by
  have hv := varies_mono (A := A) (blocks := blocks) h
  intro v hm
  simp only [Access.spoilt, List.mem_append, List.mem_flatMap] at hm ⊢
  have hmw : ∀ id s (same : V → Bool), v ∈ A.mixed asks same blocks id s → v ∈ A.written blocks id := by
    intro id s same hx
    unfold Access.mixed at hx
    unfold Access.written
    cases hbo : blockOf blocks id with
    | none => simp [hbo] at hx
    | some b =>
      simp only [hbo, List.mem_flatMap] at hx ⊢
      obtain ⟨i, hi, hx⟩ := hx
      refine ⟨i, hi, ?_⟩
      split at hx
      · cases hx
      · exact hx
  rcases hm with ⟨id, hid, hw⟩ | ⟨p, hp, hw⟩
  · exact .inl ⟨id, apart_mono hv chain id hid, hw⟩
  · rcases together_mono hv chain false false (fun x => x) p hp with ha | ⟨s, hs, hps⟩
    · exact .inl ⟨p.1.val, ha, hmw _ _ _ hw⟩
    · refine .inr ⟨(p.1, s), hs, ?_⟩
      unfold Access.mixed at hw ⊢
      cases hbo : blockOf blocks p.1 with
      | none => simp [hbo] at hw
      | some b =>
        simp only [hbo, List.mem_flatMap] at hw ⊢
        obtain ⟨i, hi, hw⟩ := hw
        refine ⟨i, hi, ?_⟩
        split at hw
        · cases hw
        · next hc =>
          rw [if_neg]
          · exact hw
          · intro hc'
            apply hc
            simp only [Bool.and_eq_true, List.all_eq_true, Bool.not_eq_true', Bool.and_eq_false_iff] at hc' ⊢
            refine ⟨fun u hu => h u (hc'.1 u hu), hc'.2.imp (fun hs => ?_) id⟩
            cases hp2 : p.2 with
            | false => rfl
            | true => rw [hps hp2] at hs; cases hs

theorem spoilt_written {same : V → Bool} {v : V} (h : v ∈ A.spoilt asks same chain blocks) :
    v ∈ blocks.flatMap fun b => b.code.flatMap A.writes := by
  simp only [Access.spoilt, List.mem_append, List.mem_flatMap] at h ⊢
  rcases h with ⟨id, -, hw⟩ | ⟨p, -, hw⟩
  · unfold Access.written at hw
    split at hw
    · cases hw
    · next b hb => exact ⟨b, (Standard.blockOf_mem hb).1, List.mem_flatMap.mp hw⟩
  · unfold Access.mixed at hw
    split at hw
    · cases hw
    · next b hb =>
      obtain ⟨i, hi, hw⟩ := List.mem_flatMap.mp hw
      split at hw
      · cases hw
      · exact ⟨b, (Standard.blockOf_mem hb).1, i, hi, hw⟩

variable [DecidableEq V]

theorem settle_least : ∀ (n : Nat) (same : V → Bool) (v : V), A.settle asks chain blocks n same v = true → same v = true
  | 0, _, _, h => h
  | n + 1, same, v, h => by
    have := settle_least n _ v h
    rw [Bool.and_eq_true] at this
    exact this.1

theorem settle_largest {same' : V → Bool} (hu : A.uniform asks same' chain blocks = true) : ∀ (n : Nat) (same : V → Bool),
    (∀ v, same' v = true → same v = true) → ∀ v, same' v = true → A.settle asks chain blocks n same v = true
  | 0, _, h, v, hv => h v hv
  | n + 1, same, h, v, hv => by
    refine settle_largest hu n _ (fun u hu' => ?_) v hv
    rw [Bool.and_eq_true]
    refine ⟨h u hu', ?_⟩
    simp only [List.contains_eq_mem, Bool.not_eq_true', decide_eq_false_iff_not]
    intro hm
    have := uniform_iff.mp hu u (spoilt_mono h u hm)
    rw [hu'] at this
    cases this

theorem settle_stable {same : V → Bool} (hu : A.uniform asks same chain blocks = true) : ∀ n,
    A.settle asks chain blocks n same = same
  | 0 => rfl
  | n + 1 => by
    have : (fun v => same v && !(A.spoilt asks same chain blocks).contains v) = same := by
      funext v
      cases hv : same v with
      | false => rfl
      | true =>
        have : v ∉ A.spoilt asks same chain blocks := fun hm => by
          have := uniform_iff.mp hu v hm
          rw [hv] at this
          cases this
        simp [this]
    rw [Access.settle, this, settle_stable hu n]

theorem settle_settles (all : List V) (hall : ∀ same, ∀ v ∈ A.spoilt asks same chain blocks, v ∈ all) : ∀ (n : Nat) (same : V → Bool),
    all.countP same ≤ n → A.uniform asks (A.settle asks chain blocks n same) chain blocks = true
  | 0, same, h => by
    refine uniform_iff.mpr fun v hv => ?_
    simpa [Access.settle] using List.countP_eq_zero.mp (Nat.le_zero.mp h) v (hall _ v hv)
  | n + 1, same, h => by
    by_cases hu : A.uniform asks same chain blocks = true
    · rw [settle_stable hu]
      exact hu
    · rw [uniform_iff] at hu
      push Not at hu
      obtain ⟨v, hv, hs⟩ := hu
      have hs : same v = true := by simpa using hs
      rw [Access.settle]
      refine settle_settles all hall n _ (Nat.le_of_lt_succ (Nat.lt_of_lt_of_le ?_ h))
      have key : ∀ l : List V, v ∈ l →
          l.countP (fun v => same v && !(A.spoilt asks same chain blocks).contains v) < l.countP same := by
        intro l hl
        induction l with
        | nil => cases hl
        | cons x l ih =>
          have hle : l.countP (fun v => same v && !(A.spoilt asks same chain blocks).contains v) ≤ l.countP same :=
            List.countP_mono_left fun u _ hu => by
              rw [Bool.and_eq_true] at hu
              exact hu.1
          rw [List.countP_cons, List.countP_cons]
          rcases List.mem_cons.mp hl with rfl | hl
          · have : (same v && !(A.spoilt asks same chain blocks).contains v) = false := by simp [hv]
            rw [this, hs, if_neg Bool.false_ne_true, if_pos rfl]
            omega
          · have := ih hl
            cases hsx : same x with
            | false => simpa using this
            | true =>
              rw [if_pos rfl]
              split <;> omega
      exact key all (hall same v hv)
end

end Magma.Lockstep
