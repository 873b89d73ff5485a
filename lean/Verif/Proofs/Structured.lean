import Verif.Proofs.Search
import Verif.Spec.Structured
/-! Accepted functions are exactly the ones that spell a structured program. -/

namespace Magma
open Spec Spec.Program
variable {X : Type}

theorem mergeAll_toChain (a : ControlFlowChain) (h : ∀ cs, a ≠ .Block cs) (s : Program) :
    ControlFlowChain.block [a, s.toChain] = .Block (a :: s.toChains) := by
  have : ControlFlowChain.mergeAll [s.toChain] = s.toChains := by
    cases s <;> simp [toChain, toChains, ControlFlowChain.mergeAll]
  cases a with
  | Block cs => exact absurd rfl (h cs)
  | _ => simp only [ControlFlowChain.block, ControlFlowChain.mergeAll] at this ⊢; rw [this]

/-- The blocks an enclosing construct continues at -/
def stops : FlowList → List BlockId
  | [] => []
  | .If merge _ :: fl => merge :: stops fl
  | .Loop head _ _ :: fl => head :: stops fl

theorem merges_iff (fl : FlowList) (id : BlockId) : fl.merges id = true ↔ id ∈ stops fl := by
  induction fl with
  | nil => simp [FlowList.merges, stops]
  | cons c fl ih =>
    cases c with
    | If m h =>
      simp only [FlowList.merges, stops, List.mem_cons]
      by_cases hm : m = id
      · simp [hm]
      · simp [hm, ih, Ne.symm hm]
    | Loop m a h =>
      simp only [FlowList.merges, stops, List.mem_cons]
      by_cases hm : m = id
      · simp [hm]
      · simp [hm, ih, Ne.symm hm]

theorem merges_false (fl : FlowList) (id : BlockId) : fl.merges id = false ↔ id ∉ stops fl := by
  rw [← merges_iff]; simp

/-- How the search ends -/
def target : Continue → Option BlockId
  | .Next t => some t
  | .Return => none

/-- The search never returns to a loop header by way of its merge block. -/
theorem merge_ne_head {blocks : List (BasicBlock X)} {lp : Option (BlockId × BlockId)} {k : Option BlockId}
    {id : BlockId} (hk : k ≠ some id)
    {b : BasicBlock X} {op : OpBranch} {lm : OpLoopMerge} (hg : blockOf blocks id = some b)
    (hb : b.branch = .OpBranch op) (hm : b.merge = some (.OpLoopMerge lm)) :
    ∀ rest : Program, SpelledBy blocks lp k rest → rest.entry k = some ⟨lm.merge_block.val⟩ →
      (⟨lm.merge_block.val⟩ : BlockId) ≠ id := by
  intro rest
  induction rest with
  | done => intro _ h he; simp only [entry] at h; rw [he] at h; exact hk h
  | ret i =>
    rintro ⟨-, b', r, hg', hb'⟩ h he
    simp only [entry, Option.some.injEq] at h
    rw [h, he, hg] at hg'
    cases hg'
    rw [hb] at hb'
    cases hb'
  | atom i rest _ =>
    rintro ⟨⟨b', op', hg', hm', -⟩, -⟩ h he
    simp only [entry, Option.some.injEq] at h
    rw [h, he, hg] at hg'
    cases hg'
    rw [hm] at hm'
    cases hm'
  | sel i l r hint w rest _ _ _ =>
    rintro ⟨b', op', sm, hg', hm', -⟩ h he
    simp only [entry, Option.some.injEq] at h
    rw [h, he, hg] at hg'
    cases hg'
    rw [hm] at hm'
    cases hm'
  | exit i brk w rest _ =>
    rintro ⟨_, _, b', op', -, -, hg', hm', -⟩ h he
    simp only [entry, Option.some.injEq] at h
    rw [h, he, hg] at hg'
    cases hg'
    rw [hm] at hm'
    cases hm'
  | loop i body hint rest _ ih =>
    rintro ⟨b', op', lm', hg', hm', -, -, he', -, -, hr⟩ h he
    simp only [entry, Option.some.injEq] at h
    rw [h, he, hg] at hg'
    cases hg'
    rw [hm] at hm'
    cases hm'
    exact ih hr he' he

theorem found_of_spelled {blocks : List (BasicBlock X)} : ∀ (s : Program) (fl : FlowList) (n : Continue)
    (id : BlockId), SpelledBy blocks fl.innermostLoop (target n) s → Nested (stops fl) (target n) s →
    (∀ t, target n = some t → t ∈ stops fl) →
    (∀ head merge, fl.innermostLoop = some (head, merge) → head ≠ merge) →
    s.entry (target n) = some id → Found (blockOf blocks) id fl s.toChain n := by
  intro s
  induction s with
  | done =>
    intro fl n id h1 h2 h3 h4 h5
    cases n with
    | Return => simp [entry, target] at h5
    | Next t =>
      simp only [entry, target, Option.some.injEq] at h5
      subst h5
      exact .merged ((merges_iff _ _).mpr (h3 t rfl))
  | ret i =>
    intro fl n id h1 h2 h3 h4 h5
    simp only [entry, Option.some.injEq] at h5
    subst h5
    obtain ⟨hn, b, r, hg, hb⟩ := h1
    cases n with
    | Next t => simp [target] at hn
    | Return => exact .ret ((merges_false _ _).mpr h2) hg hb
  | atom i rest ih =>
    intro fl n id h1 h2 h3 h4 h5
    simp only [entry, Option.some.injEq] at h5
    subst h5
    obtain ⟨⟨b, op, hg, hm, hb, he⟩, hr⟩ := h1
    have := Found.branch ((merges_false _ _).mpr h2.1) hg hb hm (ih fl n _ hr h2.2 h3 h4 he)
    rw [mergeAll_toChain _ (by intro cs h; cases h)] at this
    simpa only [toChain] using this
  | sel i l r hint w rest ihl ihr ih =>
    intro fl n id h1 h2 h3 h4 h5
    simp only [entry, Option.some.injEq] at h5
    subst h5
    obtain ⟨b, op, sm, hg, hm, hb, rfl, rfl, he, hel, her, hl, hr, hrest⟩ := h1
    obtain ⟨hn, hnl, hnr, hnrest⟩ := h2
    rw [he] at hnl hnr
    have hstop : ∀ t, target (.Next ⟨sm.merge_block.val⟩) = some t →
        t ∈ stops (.If ⟨sm.merge_block.val⟩ sm.selection_control :: fl) := by
      intro t ht
      simp only [target, Option.some.injEq] at ht
      subst ht
      simp [stops]
    have := Found.sel ((merges_false _ _).mpr hn) hg hb hm
      (ihl (.If ⟨sm.merge_block.val⟩ sm.selection_control :: fl) (.Next ⟨sm.merge_block.val⟩) _ hl hnl hstop h4 hel)
      (ihr (.If ⟨sm.merge_block.val⟩ sm.selection_control :: fl) (.Next ⟨sm.merge_block.val⟩) _ hr hnr hstop h4 her)
      (ih fl n _ hrest hnrest h3 h4 he)
    rw [mergeAll_toChain _ (by intro cs h; cases h)] at this
    simpa only [toChain] using this
  | loop i body hint rest ihb ih =>
    intro fl n id h1 h2 h3 h4 h5
    simp only [entry, Option.some.injEq] at h5
    subst h5
    obtain ⟨b, op, lm, hg, hm, hb, rfl, he, heb, hbody, hrest⟩ := h1
    obtain ⟨hn, hnb, hnrest⟩ := h2
    have hne := merge_ne_head (lp := fl.innermostLoop) (fun h => hn (h3 _ h)) hg hb hm rest hrest he
    have := Found.loop ((merges_false _ _).mpr hn) hg hb hm
      (ihb (.Loop i ⟨lm.merge_block.val⟩ lm.loop_control :: fl) (.Next i) _ hbody hnb
        (by intro t ht; simp only [target, Option.some.injEq] at ht; subst ht; simp [stops])
        (by
          intro head merge h
          simp only [FlowList.innermostLoop, Option.some.injEq, Prod.mk.injEq] at h
          obtain ⟨rfl, rfl⟩ := h
          exact hne.symm) heb)
      (ih fl n _ hrest hnrest h3 h4 he)
    rw [mergeAll_toChain _ (by intro cs h; cases h)] at this
    simpa only [toChain] using this
  | exit i brk w rest ih =>
    intro fl n id h1 h2 h3 h4 h5
    simp only [entry, Option.some.injEq] at h5
    subst h5
    obtain ⟨head, merge, b, op, hl, hk, hg, hm, hb, rfl, hf, he, hr⟩ := h1
    cases n with
    | Return => simp [target] at hk
    | Next t =>
      simp only [target, Option.some.injEq] at hk
      subst hk
      have hne := h4 _ _ hl
      have := Found.exit ((merges_false _ _).mpr h2.1) hg hb hm hl
        (by rw [hf]; cases brk <;> simp) (ih fl (.Next t) _ hr h2.2 h3 h4 he)
      have hbr : (if (⟨op.false_label.val⟩ : BlockId) = merge then ControlFlowChain.Break else .Continue) =
          if brk then .Break else .Continue := by
        rw [hf]
        cases brk with
        | true => simp
        | false => simp [hne]
      rw [hbr] at this
      simpa only [toChain, SelectionControl.default] using this

theorem spelled_of_found {blocks : List (BasicBlock X)} {id : BlockId} {fl : FlowList} {c : ControlFlowChain}
    {n : Continue} (h : Found (blockOf blocks) id fl c n) :
    ∃ s : Program, SpelledBy blocks fl.innermostLoop (target n) s ∧ Nested (stops fl) (target n) s ∧
      s.entry (target n) = some id ∧ c = s.toChain := by
  induction h with
  | merged hm => exact ⟨.done, by simp [SpelledBy, target], trivial, rfl, rfl⟩
  | @ret id fl b r hm hg hb =>
    exact ⟨.ret id, ⟨rfl, b, r, hg, hb⟩, (merges_false _ _).mp hm, rfl, rfl⟩
  | @branch id fl b op c n hm hg hb hmg _ ih =>
    obtain ⟨s, h1, h2, h3, rfl⟩ := ih
    refine ⟨.atom id s, ⟨⟨b, op, hg, hmg, hb, h3⟩, h1⟩, ⟨(merges_false _ _).mp hm, h2⟩, rfl, ?_⟩
    rw [mergeAll_toChain _ (by intro cs h; cases h)]
    simp only [toChain]
  | @loop id fl b op lm c c2 n hm hg hb hmg _ _ ih1 ih2 =>
    obtain ⟨s1, h11, h12, h13, rfl⟩ := ih1
    obtain ⟨s2, h21, h22, h23, rfl⟩ := ih2
    refine ⟨.loop id s1 lm.loop_control s2, ⟨b, op, lm, hg, hmg, hb, rfl, h23, h13, h11, h21⟩,
      ⟨(merges_false _ _).mp hm, h12, h22⟩, rfl, ?_⟩
    rw [mergeAll_toChain _ (by intro cs h; cases h)]
    simp only [toChain]
  | @sel id fl b op sm c1 c2 c3 n hm hg hb hmg _ _ _ ih1 ih2 ih3 =>
    obtain ⟨s1, h11, h12, h13, rfl⟩ := ih1
    obtain ⟨s2, h21, h22, h23, rfl⟩ := ih2
    obtain ⟨s3, h31, h32, h33, rfl⟩ := ih3
    refine ⟨.sel id s1 s2 sm.selection_control op.weights s3,
      ⟨b, op, sm, hg, hmg, hb, rfl, rfl, h33, h13, h23, h11, h21, h31⟩,
      ⟨(merges_false _ _).mp hm, ?_, ?_, h32⟩, rfl, ?_⟩
    · rw [h33]; exact h12
    · rw [h33]; exact h22
    · rw [mergeAll_toChain _ (by intro cs h; cases h)]
      simp only [toChain]
  | @exit id fl b op head merge c hm hg hb hmg hi hbr _ ih =>
    obtain ⟨s, h1, h2, h3, rfl⟩ := ih
    refine ⟨.exit id (decide ((⟨op.false_label.val⟩ : BlockId) = merge)) op.weights s,
      ⟨head, merge, b, op, hi, rfl, hg, hmg, hb, rfl, ?_, h3, h1⟩, ⟨(merges_false _ _).mp hm, h2⟩, rfl, ?_⟩
    · by_cases h : (⟨op.false_label.val⟩ : BlockId) = merge
      · simp [h]
      · simp [hbr.resolve_left h]
    · simp only [toChain, SelectionControl.default]
      by_cases h : (⟨op.false_label.val⟩ : BlockId) = merge <;> simp [h]

/-- Programs with distinct blocks are nested. -/
theorem nested_of_nodup : ∀ (s : Program) (avoid : List BlockId) (k : Option BlockId),
    s.ids.Nodup → (∀ id ∈ s.ids, id ∉ avoid) → (∀ id ∈ s.ids, k ≠ some id) → Nested avoid k s := by
  intro s
  induction s with
  | done => intros; trivial
  | ret i => intro avoid k _ h _; exact h i (by simp [ids])
  | atom i rest ih =>
    intro avoid k hn h hk
    simp only [ids, List.nodup_cons, List.mem_cons, forall_eq_or_imp] at hn h hk
    exact ⟨h.1, ih _ _ hn.2 h.2 hk.2⟩
  | exit i brk w rest ih =>
    intro avoid k hn h hk
    simp only [ids, List.nodup_cons, List.mem_cons, forall_eq_or_imp] at hn h hk
    exact ⟨h.1, ih _ _ hn.2 h.2 hk.2⟩
  | loop i body hint rest ihb ih =>
    intro avoid k hn h hk
    simp only [ids, List.nodup_cons, List.mem_cons, List.mem_append, List.nodup_append, not_or,
      forall_eq_or_imp] at hn h hk
    obtain ⟨⟨hi1, hi2⟩, hb, hr, hbr⟩ := hn
    refine ⟨h.1, ihb _ _ hb ?_ ?_, ih _ _ hr (fun x hx => h.2 x (.inr hx)) (fun x hx => hk.2 x (.inr hx))⟩
    · intro x hx
      simp only [List.mem_cons, not_or]
      exact ⟨fun he => hi1 (he ▸ hx), h.2 x (.inl hx)⟩
    · intro x hx he
      cases he
      exact hi1 hx
  | sel i l r hint w rest ihl ihr ih =>
    intro avoid k hn h hk
    simp only [ids, List.nodup_cons, List.mem_cons, List.mem_append, List.nodup_append, not_or,
      forall_eq_or_imp] at hn h hk
    obtain ⟨⟨⟨hi1, hi2⟩, hi3⟩, ⟨hl, hr, hlr⟩, hrest, hd⟩ := hn
    have key : ∀ x, (x ∈ l.ids ∨ x ∈ r.ids) → rest.entry k ≠ some x := by
      intro x hx he
      cases rest with
      | done => exact hk.2 x (.inl hx) he
      | _ => simp only [entry, Option.some.injEq] at he; exact hd x hx _ (by simp [ids]) he.symm
    have av : ∀ x, (x ∈ l.ids ∨ x ∈ r.ids) → x ∉ (rest.entry k).toList ++ avoid := by
      intro x hx hmem
      rcases List.mem_append.mp hmem with hmem | hmem
      · exact key x hx (by simpa using hmem)
      · exact h.2 x (.inl hx) hmem
    exact ⟨h.1, ihl _ _ hl (fun x hx => av x (.inl hx)) (fun x hx => key x (.inl hx)),
      ihr _ _ hr (fun x hx => av x (.inr hx)) (fun x hx => key x (.inr hx)),
      ih _ _ hrest (fun x hx => h.2 x (.inr hx)) (fun x hx => hk.2 x (.inr hx))⟩

end Magma
