import Verif.Proofs.Exchange
import Verif.Spec.Course
/-! Executions are ways along branches, and the other way round. -/

namespace Magma.Standard
open Magma Spec
variable {X : Type} {blocks : List (BasicBlock X)}

theorem blockOf_mem {id : BlockId} {b : BasicBlock X} (h : blockOf blocks id = some b) : b ∈ blocks ∧ labelId b = id.val :=
  ⟨List.mem_of_find?_eq_some h, eq_of_beq (a := b.label.result_id.val)
    (List.find?_some (p := fun b : BasicBlock X => b.label.result_id.val == id.val) h)⟩

theorem blockOf_label (hn : (blocks.map labelId).Nodup) {b : BasicBlock X} (h : b ∈ blocks) :
    blockOf blocks ⟨labelId b⟩ = some b := by
  induction blocks with
  | nil => cases h
  | cons c cs ih =>
    rw [List.map_cons, List.nodup_cons] at hn
    rw [blockOf, List.find?_cons]
    by_cases hc : labelId c = labelId b
    · rcases List.mem_cons.mp h with rfl | h
      · rw [show (b.label.result_id.val == (⟨labelId b⟩ : BlockId).val) = true from beq_iff_eq.mpr rfl]
      · exact absurd (List.mem_map.mpr ⟨b, h, hc.symm⟩) hn.1
    · rcases List.mem_cons.mp h with rfl | h
      · exact absurd rfl hc
      · rw [show (c.label.result_id.val == (⟨labelId b⟩ : BlockId).val) = false from beq_eq_false_iff_ne.mpr hc]
        exact ih hn.2 h

theorem leadsTo_targets {e : BlockEnd} {d : Bool} {t : UInt32} (h : leadsTo d e = some t) : t ∈ targets e := by
  cases e <;> cases d <;> cases h <;> simp [targets]

theorem targets_leadsTo {e : BlockEnd} {t : UInt32} (h : t ∈ targets e) : ∃ d, leadsTo d e = some t := by
  cases e <;> simp only [targets, List.mem_cons, List.not_mem_nil, or_false] at h
  case goto => exact ⟨true, by rw [h]; rfl⟩
  case gotoLoop => exact ⟨true, by rw [h]; rfl⟩
  case gotoSelection => exact ⟨true, by rw [h]; rfl⟩
  all_goals
    rcases h with h | h
    · exact ⟨true, by rw [h]; rfl⟩
    · exact ⟨false, by rw [h]; rfl⟩

theorem leadsTo_returns {e : BlockEnd} {d : Bool} : leadsTo d e = none ↔ e = .returns := by
  cases e <;> simp [leadsTo]

theorem course_run (hn : (blocks.map labelId).Nodup) {u : UInt32} {l : List UInt32} (h : Course blocks u l) :
    ∃ ds, (runBlocks blocks ds ⟨u⟩).1.map (·.val) = l := by
  induction h with
  | @stop b hb =>
    refine ⟨[true], ?_⟩
    rw [runBlocks_leadsTo, blockOf_label hn hb]
    simp only [Option.map_some]
    cases leadsTo true (endOf b) <;> rfl
  | @step u v l he _ ih =>
    obtain ⟨b, hb, rfl, ht⟩ := he
    obtain ⟨ds, ih⟩ := ih
    obtain ⟨d, hd⟩ := targets_leadsTo ht
    refine ⟨d :: ds, ?_⟩
    rw [runBlocks_leadsTo, blockOf_label hn hb]
    simp only [Option.map_some, hd, List.map_cons, ih]

theorem run_course : ∀ (ds : List Bool) (u : BlockId) (pre : List BlockId) (v : BlockId) (post : List BlockId),
    (runBlocks blocks ds u).1 = pre ++ v :: post → Course blocks u.val ((pre ++ [v]).map (·.val))
  | [], _, pre, _, _, h => by cases pre <;> cases h
  | d :: ds, u, pre, v, post, h => by
    rw [runBlocks_leadsTo] at h
    cases hb : blockOf blocks u with
    | none => rw [hb] at h; cases pre <;> cases h
    | some b =>
      obtain ⟨hm, hl⟩ := blockOf_mem hb
      rw [hb] at h
      simp only [Option.map_some] at h
      cases ht : leadsTo d (endOf b) with
      | none =>
        rw [ht] at h
        cases pre with
        | nil =>
          cases h
          show Course blocks u.val [u.val]
          exact hl ▸ .stop hm
        | cons p pre => cases pre <;> cases h
      | some t =>
        rw [ht] at h
        cases pre with
        | nil =>
          cases h
          show Course blocks u.val [u.val]
          exact hl ▸ .stop hm
        | cons p pre =>
          simp only [List.cons_append, List.cons.injEq] at h
          obtain ⟨rfl, h⟩ := h
          exact .step ⟨b, hm, hl, leadsTo_targets ht⟩ (run_course ds ⟨t⟩ pre v post h)

theorem journey_run (hn : (blocks.map labelId).Nodup) {u : UInt32} {l : List UInt32} (h : Journey blocks u l) :
    ∃ ds, (runBlocks blocks ds ⟨u⟩).1.map (·.val) = l ∧ (runBlocks blocks ds ⟨u⟩).2 = .returned := by
  induction h with
  | @stop b hb hr =>
    refine ⟨[true], ?_⟩
    rw [runBlocks_leadsTo, blockOf_label hn hb]
    simp only [Option.map_some, hr]
    exact ⟨rfl, rfl⟩
  | @step u v l he _ ih =>
    obtain ⟨b, hb, rfl, ht⟩ := he
    obtain ⟨ds, ih, ho⟩ := ih
    obtain ⟨d, hd⟩ := targets_leadsTo ht
    refine ⟨d :: ds, ?_⟩
    rw [runBlocks_leadsTo, blockOf_label hn hb]
    simp only [Option.map_some, hd, List.map_cons, ih]
    exact ⟨trivial, ho⟩

theorem run_journey : ∀ (ds : List Bool) (u : BlockId), (runBlocks blocks ds u).2 = .returned →
    Journey blocks u.val ((runBlocks blocks ds u).1.map (·.val))
  | [], _, h => by cases h
  | d :: ds, u, h => by
    rw [runBlocks_leadsTo] at h ⊢
    cases hb : blockOf blocks u with
    | none => rw [hb] at h; cases h
    | some b =>
      obtain ⟨hm, hl⟩ := blockOf_mem hb
      rw [hb] at h
      simp only [Option.map_some] at h ⊢
      cases ht : leadsTo d (endOf b) with
      | none =>
        simp only [List.map_cons, List.map_nil]
        rw [← hl]
        exact .stop hm (leadsTo_returns.mp ht)
      | some t =>
        rw [ht] at h
        simp only [List.map_cons]
        exact .step ⟨b, hm, hl, leadsTo_targets ht⟩ (run_journey ds ⟨t⟩ h)

end Magma.Standard
