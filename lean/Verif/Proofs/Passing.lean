import Verif.Proofs.LiveExact
import Verif.Spec.Dominance
import Verif.Spec.Passing
/-! What can be passed by in a chain, over all decisions. -/

namespace Magma.Spec

/-- Some visit of `b` comes before all of `a`. -/
def Bare (a b : BlockId) (trace : List BlockId) : Prop := ∃ pre post, trace = pre ++ b :: post ∧ a ∉ pre

/-- Some visit of `b` comes after all of `a`. -/
def Late (a b : BlockId) (trace : List BlockId) : Prop := ∃ pre post, trace = pre ++ b :: post ∧ a ∉ post

theorem not_preceded {a b : BlockId} {t : List BlockId} : ¬ Preceded a b t ↔ Bare a b t := by
  constructor
  · intro h
    apply Classical.byContradiction
    intro hn
    refine h fun pre post he => ?_
    apply Classical.byContradiction
    exact fun ha => hn ⟨pre, post, he, ha⟩
  · rintro ⟨pre, post, he, ha⟩ h
    exact ha (h pre post he)

theorem not_followed {a b : BlockId} {t : List BlockId} : ¬ Followed a b t ↔ Late a b t := by
  constructor
  · intro h
    apply Classical.byContradiction
    intro hn
    refine h fun pre post he => ?_
    apply Classical.byContradiction
    exact fun ha => hn ⟨pre, post, he, ha⟩
  · rintro ⟨pre, post, he, ha⟩ h
    exact ha (h pre post he)

theorem bare_append {a b : BlockId} {x y : List BlockId} : Bare a b (x ++ y) ↔ Bare a b x ∨ (a ∉ x ∧ Bare a b y) := by
  constructor
  · rintro ⟨pre, post, he, ha⟩
    rcases List.append_eq_append_iff.mp he with ⟨z, rfl, h2⟩ | ⟨z, h1, h2⟩
    · exact .inr ⟨fun h => ha (List.mem_append_left _ h), z, post, h2, fun h => ha (List.mem_append_right _ h)⟩
    · cases z with
      | nil =>
        rw [List.append_nil] at h1
        exact .inr ⟨h1 ▸ ha, [], post, h2.symm, fun h => by cases h⟩
      | cons w z =>
        cases h2
        exact .inl ⟨pre, z, h1, ha⟩
  · rintro (⟨pre, post, rfl, ha⟩ | ⟨hx, pre, post, rfl, ha⟩)
    · exact ⟨pre, post ++ y, by rw [List.append_assoc]; rfl, ha⟩
    · exact ⟨x ++ pre, post, by rw [List.append_assoc], fun h => (List.mem_append.mp h).elim hx ha⟩

theorem late_append {a b : BlockId} {x y : List BlockId} : Late a b (x ++ y) ↔ (Late a b x ∧ a ∉ y) ∨ Late a b y := by
  constructor
  · rintro ⟨pre, post, he, ha⟩
    rcases List.append_eq_append_iff.mp he with ⟨z, rfl, h2⟩ | ⟨z, h1, h2⟩
    · exact .inr ⟨z, post, h2, ha⟩
    · cases z with
      | nil => exact .inr ⟨[], post, h2.symm, ha⟩
      | cons w z =>
        cases h2
        exact .inl ⟨⟨pre, z, h1, fun h => ha (List.mem_append_left _ h)⟩, fun h => ha (List.mem_append_right _ h)⟩
  · rintro (⟨⟨pre, post, rfl, ha⟩, hy⟩ | ⟨pre, post, rfl, ha⟩)
    · exact ⟨pre, post ++ y, by rw [List.append_assoc]; rfl, fun h => (List.mem_append.mp h).elim ha hy⟩
    · exact ⟨x ++ pre, post, by rw [List.append_assoc], ha⟩

theorem bare_nil {a b : BlockId} : ¬ Bare a b [] := by
  rintro ⟨pre, post, he, -⟩
  cases pre <;> cases he

theorem late_nil {a b : BlockId} : ¬ Late a b [] := by
  rintro ⟨pre, post, he, -⟩
  cases pre <;> cases he

theorem bare_one {a b i : BlockId} : Bare a b [i] ↔ i = b := by
  constructor
  · rintro ⟨pre, post, he, -⟩
    cases pre with
    | nil => cases he; rfl
    | cons p pre => cases pre <;> cases he
  · rintro rfl
    exact ⟨[], [], rfl, fun h => by cases h⟩

theorem late_one {a b i : BlockId} : Late a b [i] ↔ i = b := by
  constructor
  · rintro ⟨pre, post, he, -⟩
    cases pre with
    | nil => cases he; rfl
    | cons p pre => cases pre <;> cases he
  · rintro rfl
    exact ⟨[], [], rfl, fun h => by cases h⟩

/-- Either the first part ends normally and the second follows, or the first part is all. -/
theorem then_cases (e : Effect) (g : List Bool → Effect) :
    (e.signal = .next ∧ andThen e g = ⟨e.trace ++ (g e.rest).trace, (g e.rest).signal, (g e.rest).rest⟩) ∨
    (e.signal ≠ .next ∧ andThen e g = e) := by
  obtain ⟨tr, sig, rest⟩ := e
  cases sig
  · exact .inl ⟨rfl, rfl⟩
  all_goals exact .inr ⟨(fun h => by cases h), rfl⟩

/-- Visits of one block and then of what follows -/
theorem visit_then {id : BlockId} {ds : List Bool} {g : List Bool → Effect} :
    (andThen (visit id ds) g = ⟨[], .running, []⟩) ∨
    ∃ d more, ds = d :: more ∧ andThen (visit id ds) g = ⟨id :: (g more).trace, (g more).signal, (g more).rest⟩ := by
  cases ds with
  | nil => exact .inl rfl
  | cons d more => exact .inr ⟨d, more, rfl, rfl⟩

/-- Rounds that end do so with one that breaks. -/
theorem rounds_last {body : List Bool → Effect} {s : Signal} (hs : s ≠ .running) : ∀ (n : Nat) (ds : List Bool),
    (repeatUntilBreak body n ds).signal = s → s = .next ∧ ∃ ds' pre, (body ds').signal = .breaks ∧
      (repeatUntilBreak body n ds).trace = pre ++ (body ds').trace
  | 0, _, h => absurd h.symm hs
  | n + 1, ds, h => by
    rw [repeatUntilBreak] at h ⊢
    generalize he : body ds = e at h ⊢
    obtain ⟨tr, sig, rest⟩ := e
    cases sig with
    | next =>
      obtain ⟨h1, ds', pre, h2, h3⟩ := rounds_last hs n rest h
      exact ⟨h1, ds', tr ++ pre, h2, by dsimp only; rw [h3, List.append_assoc]⟩
    | continues =>
      obtain ⟨h1, ds', pre, h2, h3⟩ := rounds_last hs n rest h
      exact ⟨h1, ds', tr ++ pre, h2, by dsimp only; rw [h3, List.append_assoc]⟩
    | breaks => exact ⟨h.symm, ds, [], by rw [he], by rw [he]; rfl⟩
    | running => exact absurd h.symm hs

theorem rounds_bare {body : List Bool → Effect} {a b : BlockId} : ∀ (n : Nat) (ds : List Bool),
    Bare a b (repeatUntilBreak body n ds).trace → ∃ ds', Bare a b (body ds').trace
  | 0, _, h => absurd h bare_nil
  | n + 1, ds, h => by
    rw [repeatUntilBreak] at h
    generalize he : body ds = e at h
    obtain ⟨tr, sig, rest⟩ := e
    cases sig with
    | next =>
      rcases bare_append.mp h with h | ⟨-, h⟩
      · exact ⟨ds, by rw [he]; exact h⟩
      · exact rounds_bare n _ h
    | continues =>
      rcases bare_append.mp h with h | ⟨-, h⟩
      · exact ⟨ds, by rw [he]; exact h⟩
      · exact rounds_bare n _ h
    | breaks => exact ⟨ds, by rw [he]; exact h⟩
    | running => exact ⟨ds, by rw [he]; exact h⟩

theorem rounds_late {body : List Bool → Effect} {a b : BlockId} {s : Signal} (hs : s ≠ .running) :
    ∀ (n : Nat) (ds : List Bool), (repeatUntilBreak body n ds).signal = s → Late a b (repeatUntilBreak body n ds).trace →
      s = .next ∧ ∃ ds', (body ds').signal = .breaks ∧ (Late a b (body ds').trace ∨ (a ∉ (body ds').trace ∧
        ∃ ds'', ((body ds'').signal = .next ∨ (body ds'').signal = .continues) ∧ Late a b (body ds'').trace))
  | 0, _, h, _ => absurd h.symm hs
  | n + 1, ds, h, hl => by
    have again : ∀ {tr rest sig}, body ds = ⟨tr, sig, rest⟩ → (sig = .next ∨ sig = .continues) →
        (repeatUntilBreak body n rest).signal = s → Late a b (tr ++ (repeatUntilBreak body n rest).trace) →
        s = .next ∧ ∃ ds', (body ds').signal = .breaks ∧ (Late a b (body ds').trace ∨ (a ∉ (body ds').trace ∧
        ∃ ds'', ((body ds'').signal = .next ∨ (body ds'').signal = .continues) ∧ Late a b (body ds'').trace)) := by
      intro tr rest sig he hsig h hl
      rcases late_append.mp hl with ⟨hl, ha⟩ | hl
      · obtain ⟨h1, ds', pre, h2, h3⟩ := rounds_last hs n rest h
        refine ⟨h1, ds', h2, .inr ⟨fun hm => ha (by rw [h3]; exact List.mem_append_right _ hm), ds, ?_, ?_⟩⟩
        · rw [he]; exact hsig
        · rw [he]; exact hl
      · exact rounds_late hs n rest h hl
    rw [repeatUntilBreak] at h hl
    generalize he : body ds = e at h hl
    obtain ⟨tr, sig, rest⟩ := e
    cases sig with
    | next => exact again he (.inl rfl) h hl
    | continues => exact again he (.inr rfl) h hl
    | breaks => exact ⟨h.symm, ds, by rw [he], .inl (by rw [he]; exact hl)⟩
    | running => exact absurd h.symm hs

/-! ### What happens is allowed -/

mutual
theorem exec_passes {a : BlockId} : ∀ (c : ControlFlowChain) {s : Signal}, s ≠ .running → ∀ ds : List Bool,
    (exec c ds).signal = s → a ∉ (exec c ds).trace → passes a s c = true
  | .Atom id, s, hs, ds, h, ha => by
    rw [exec] at h ha
    cases ds with
    | nil => exact absurd h.symm hs
    | cons d ds =>
      cases h
      rw [passes, Bool.and_eq_true]
      exact ⟨rfl, bne_iff_ne.mpr fun e => ha (by rw [e]; exact List.mem_cons_self)⟩
  | .Block cs, s, hs, ds, h, ha => by
    rw [exec] at h ha
    rw [passes]
    exact execAll_passes cs hs ds h ha
  | .Selection id l r hint w, s, hs, ds, h, ha => by
    have il := @exec_passes a l s hs
    have ir := @exec_passes a r s hs
    rw [passes, Bool.and_eq_true, Bool.or_eq_true]
    cases ds with
    | nil => exact absurd h.symm hs
    | cons d ds =>
      rw [exec, then_next rfl] at h ha
      refine ⟨bne_iff_ne.mpr fun e => ha (by rw [e]; exact List.mem_cons_self), ?_⟩
      have ha : a ∉ (if d then exec l ds else exec r ds).trace := fun hm => ha (List.mem_append_right _ hm)
      cases d with
      | true => exact .inl (il ds h ha)
      | false => exact .inr (ir ds h ha)
  | .Loop id inner hint w, s, hs, ds, h, ha => by
    have ii := @exec_passes a inner .breaks (fun h => by cases h)
    rw [exec] at h ha
    obtain ⟨rfl, ds', pre, hb, ht⟩ := rounds_last hs _ _ h
    rw [ht] at ha
    have ha := fun hm => ha (List.mem_append_right pre hm)
    rw [passes, Bool.and_eq_true, Bool.and_eq_true]
    rcases @visit_then id ds' (fun ds => exec inner ds) with hv | ⟨d, more, rfl, hv⟩
    · rw [hv] at hb
      cases hb
    · rw [hv] at hb ha
      exact ⟨⟨rfl, bne_iff_ne.mpr fun e => ha (by rw [e]; exact List.mem_cons_self)⟩,
        ii more hb fun hm => ha (List.mem_cons_of_mem _ hm)⟩
  | .Break, s, hs, ds, h, ha => by rw [← h]; rfl
  | .Continue, s, hs, ds, h, ha => by rw [← h]; rfl
theorem execAll_passes {a : BlockId} : ∀ (cs : List ControlFlowChain) {s : Signal}, s ≠ .running → ∀ ds : List Bool,
    (execAll cs ds).signal = s → a ∉ (execAll cs ds).trace → passesAll a s cs = true
  | [], s, hs, ds, h, ha => by rw [← h]; rfl
  | c :: cs, s, hs, ds, h, ha => by
    have ic := fun s hs => @exec_passes a c s hs
    have ics := @execAll_passes a cs s hs
    rw [execAll] at h ha
    rw [passesAll, Bool.or_eq_true, Bool.and_eq_true, Bool.and_eq_true]
    rcases then_cases (exec c ds) (fun ds => execAll cs ds) with ⟨h1, h2⟩ | ⟨h1, h2⟩
    · rw [h2] at h ha
      exact .inl ⟨ic _ (fun h => by cases h) _ h1 fun hm => ha (List.mem_append_left _ hm),
        ics _ h fun hm => ha (List.mem_append_right _ hm)⟩
    · rw [h2] at h ha
      exact .inr ⟨bne_iff_ne.mpr (h ▸ h1), ic _ hs _ h ha⟩
end

mutual
theorem exec_comes {a b : BlockId} : ∀ (c : ControlFlowChain) (ds : List Bool),
    Bare a b (exec c ds).trace → comes a b c = true
  | .Atom id, ds, h => by
    rw [exec] at h
    cases ds with
    | nil => exact absurd h bare_nil
    | cons d ds => rw [comes]; exact beq_iff_eq.mpr (bare_one.mp h)
  | .Block cs, ds, h => by
    rw [exec] at h
    rw [comes]
    exact execAll_comes cs ds h
  | .Selection id l r hint w, ds, h => by
    have il := @exec_comes a b l
    have ir := @exec_comes a b r
    rw [comes, Bool.or_eq_true, Bool.and_eq_true, Bool.or_eq_true]
    cases ds with
    | nil => exact absurd h bare_nil
    | cons d ds =>
      rw [exec, then_next rfl] at h
      rcases bare_append.mp h with h | ⟨ha, h⟩
      · exact .inl (beq_iff_eq.mpr (bare_one.mp h))
      · refine .inr ⟨bne_iff_ne.mpr fun e => ha (by rw [e]; exact List.mem_cons_self), ?_⟩
        cases d with
        | true => exact .inl (il ds h)
        | false => exact .inr (ir ds h)
  | .Loop id inner hint w, ds, h => by
    have ii := @exec_comes a b inner
    rw [exec] at h
    obtain ⟨ds', h⟩ := rounds_bare _ _ h
    rw [comes, Bool.or_eq_true, Bool.and_eq_true]
    rcases @visit_then id ds' (fun ds => exec inner ds) with hv | ⟨d, more, rfl, hv⟩
    · rw [hv] at h
      exact absurd h bare_nil
    · rw [hv] at h
      rcases bare_append (x := [id]).mp h with h | ⟨ha, h⟩
      · exact .inl (beq_iff_eq.mpr (bare_one.mp h))
      · exact .inr ⟨bne_iff_ne.mpr fun e => ha (by rw [e]; exact List.mem_cons_self), ii _ h⟩
  | .Break, ds, h => absurd h bare_nil
  | .Continue, ds, h => absurd h bare_nil
theorem execAll_comes {a b : BlockId} : ∀ (cs : List ControlFlowChain) (ds : List Bool),
    Bare a b (execAll cs ds).trace → comesAny a b cs = true
  | [], ds, h => absurd h bare_nil
  | c :: cs, ds, h => by
    have ic := @exec_comes a b c
    have ics := @execAll_comes a b cs
    rw [execAll] at h
    rw [comesAny, Bool.or_eq_true, Bool.and_eq_true]
    rcases then_cases (exec c ds) (fun ds => execAll cs ds) with ⟨h1, h2⟩ | ⟨h1, h2⟩
    · rw [h2] at h
      rcases bare_append.mp h with h | ⟨ha, h⟩
      · exact .inl (ic _ h)
      · exact .inr ⟨exec_passes c (fun h => by cases h) ds h1 ha, ics _ h⟩
    · rw [h2] at h
      exact .inl (ic _ h)
end

mutual
theorem exec_leaves {a b : BlockId} : ∀ (c : ControlFlowChain) {s : Signal}, s ≠ .running → ∀ ds : List Bool,
    (exec c ds).signal = s → Late a b (exec c ds).trace → leaves a b s c = true
  | .Atom id, s, hs, ds, h, hl => by
    rw [exec] at h hl
    cases ds with
    | nil => exact absurd h.symm hs
    | cons d ds =>
      cases h
      rw [leaves, Bool.and_eq_true]
      exact ⟨rfl, beq_iff_eq.mpr (late_one.mp hl)⟩
  | .Block cs, s, hs, ds, h, hl => by
    rw [exec] at h hl
    rw [leaves]
    exact execAll_leaves cs hs ds h hl
  | .Selection id l r hint w, s, hs, ds, h, hl => by
    have il := @exec_leaves a b l s hs
    have ir := @exec_leaves a b r s hs
    rw [leaves, Bool.or_eq_true, Bool.or_eq_true, Bool.and_eq_true, Bool.or_eq_true]
    cases ds with
    | nil => exact absurd h.symm hs
    | cons d ds =>
      rw [exec, then_next rfl] at h hl
      rcases late_append.mp hl with ⟨hl, ha⟩ | hl
      · refine .inl (.inl ⟨beq_iff_eq.mpr (late_one.mp hl), ?_⟩)
        cases d with
        | true => exact .inl (exec_passes l hs ds h ha)
        | false => exact .inr (exec_passes r hs ds h ha)
      · cases d with
        | true => exact .inl (.inr (il ds h hl))
        | false => exact .inr (ir ds h hl)
  | .Loop id inner hint w, s, hs, ds, h, hl => by
    have ii := fun s hs => @exec_leaves a b inner s hs
    rw [exec] at h hl
    obtain ⟨rfl, ds', hb, hl⟩ := rounds_late hs _ _ h hl
    rw [leaves, Bool.and_eq_true, Bool.or_eq_true, Bool.or_eq_true, Bool.and_eq_true, Bool.and_eq_true, Bool.or_eq_true,
      Bool.and_eq_true]
    refine ⟨rfl, ?_⟩
    rcases @visit_then id ds' (fun ds => exec inner ds) with hv | ⟨d, more, rfl, hv⟩
    · rw [hv] at hb
      cases hb
    · rw [hv] at hb hl
      rcases hl with hl | ⟨ha, ds'', hn, hl⟩
      · rcases late_append (x := [id]).mp hl with ⟨hl, ha⟩ | hl
        · exact .inl (.inl ⟨beq_iff_eq.mpr (late_one.mp hl), exec_passes inner (fun h => by cases h) more hb ha⟩)
        · exact .inl (.inr (ii _ (fun h => by cases h) more hb hl))
      · have hi : id ≠ a := fun e => ha (by rw [e]; exact List.mem_cons_self)
        have hp := exec_passes inner (fun h => by cases h) more hb fun hm => ha (List.mem_cons_of_mem _ hm)
        rcases @visit_then id ds'' (fun ds => exec inner ds) with hv | ⟨d', more', rfl, hv⟩
        · rw [hv] at hl
          exact absurd hl late_nil
        · rw [hv] at hl hn
          rcases late_append (x := [id]).mp hl with ⟨hl, -⟩ | hl
          · exact .inl (.inl ⟨beq_iff_eq.mpr (late_one.mp hl), hp⟩)
          · refine .inr ⟨?_, bne_iff_ne.mpr hi, hp⟩
            rcases hn with hn | hn
            · exact .inl (ii _ (fun h => by cases h) more' hn hl)
            · exact .inr (ii _ (fun h => by cases h) more' hn hl)
  | .Break, s, hs, ds, h, hl => absurd hl late_nil
  | .Continue, s, hs, ds, h, hl => absurd hl late_nil
theorem execAll_leaves {a b : BlockId} : ∀ (cs : List ControlFlowChain) {s : Signal}, s ≠ .running → ∀ ds : List Bool,
    (execAll cs ds).signal = s → Late a b (execAll cs ds).trace → leavesAny a b s cs = true
  | [], s, hs, ds, h, hl => absurd hl late_nil
  | c :: cs, s, hs, ds, h, hl => by
    have ic := fun s hs => @exec_leaves a b c s hs
    have ics := @execAll_leaves a b cs s hs
    rw [execAll] at h hl
    rw [leavesAny, Bool.or_eq_true, Bool.or_eq_true, Bool.and_eq_true, Bool.and_eq_true, Bool.and_eq_true]
    rcases then_cases (exec c ds) (fun ds => execAll cs ds) with ⟨h1, h2⟩ | ⟨h1, h2⟩
    · rw [h2] at h hl
      rcases late_append.mp hl with ⟨hl, ha⟩ | hl
      · exact .inl (.inl ⟨ic _ (fun h => by cases h) _ h1 hl, execAll_passes cs hs _ h ha⟩)
      · exact .inl (.inr ⟨exec_mayEnd c (fun h => by cases h) ds h1, ics _ h hl⟩)
    · rw [h2] at h hl
      exact .inr ⟨bne_iff_ne.mpr (h ▸ h1), ic _ hs _ h hl⟩
end

/-! ### What is allowed happens -/

mutual
theorem passes_exec {a : BlockId} : ∀ (c : ControlFlowChain) {s : Signal}, s ≠ .running → passes a s c = true →
    ∃ ds tr, a ∉ tr ∧ ∀ more, exec c (ds ++ more) = ⟨tr, s, more⟩
  | .Atom id, s, hs, h => by
    rw [passes, Bool.and_eq_true] at h
    cases eq_of_beq h.1
    exact ⟨[true], [id], fun hm => bne_iff_ne.mp h.2 (List.mem_singleton.mp hm).symm, fun _ => by rw [exec]; rfl⟩
  | .Block cs, s, hs, h => by
    rw [passes] at h
    obtain ⟨ds, tr, ha, he⟩ := passesAll_exec cs hs h
    exact ⟨ds, tr, ha, fun more => by rw [exec, he]⟩
  | .Selection id l r hint w, s, hs, h => by
    have il := @passes_exec a l s hs
    have ir := @passes_exec a r s hs
    rw [passes, Bool.and_eq_true, Bool.or_eq_true] at h
    have hi := bne_iff_ne.mp h.1
    rcases h.2 with h | h
    · obtain ⟨ds, tr, ha, he⟩ := il h
      refine ⟨true :: ds, [id] ++ tr, fun hm => (List.mem_cons.mp hm).elim (fun e => hi e.symm) ha, fun more => ?_⟩
      rw [List.cons_append, exec, then_next rfl, if_pos rfl, he]
    · obtain ⟨ds, tr, ha, he⟩ := ir h
      refine ⟨false :: ds, [id] ++ tr, fun hm => (List.mem_cons.mp hm).elim (fun e => hi e.symm) ha, fun more => ?_⟩
      rw [List.cons_append, exec, then_next rfl, if_neg (fun h => by cases h), he]
  | .Loop id inner hint w, s, hs, h => by
    have ii := @passes_exec a inner .breaks (fun h => by cases h)
    rw [passes, Bool.and_eq_true, Bool.and_eq_true] at h
    cases eq_of_beq h.1.1
    have hi := bne_iff_ne.mp h.1.2
    obtain ⟨ds, tr, ha, he⟩ := ii h.2
    refine ⟨true :: ds, [id] ++ tr, fun hm => (List.mem_cons.mp hm).elim (fun e => hi e.symm) ha, fun more => ?_⟩
    have hb : andThen (visit id (true :: ds ++ more)) (fun ds => exec inner ds) = ⟨[id] ++ tr, .breaks, more⟩ := by
      rw [List.cons_append, visit, then_next rfl, he]
    rw [exec, repeatUntilBreak, hb]
  | .Break, s, hs, h => by
    rw [passes] at h
    cases eq_of_beq h
    exact ⟨[], [], (fun h => by cases h), fun _ => by rw [exec]; rfl⟩
  | .Continue, s, hs, h => by
    rw [passes] at h
    cases eq_of_beq h
    exact ⟨[], [], (fun h => by cases h), fun _ => by rw [exec]; rfl⟩
theorem passesAll_exec {a : BlockId} : ∀ (cs : List ControlFlowChain) {s : Signal}, s ≠ .running →
    passesAll a s cs = true → ∃ ds tr, a ∉ tr ∧ ∀ more, execAll cs (ds ++ more) = ⟨tr, s, more⟩
  | [], s, hs, h => by
    rw [passesAll] at h
    cases eq_of_beq h
    exact ⟨[], [], (fun h => by cases h), fun _ => by rw [execAll]; rfl⟩
  | c :: cs, s, hs, h => by
    have ic := fun s hs => @passes_exec a c s hs
    have ics := @passesAll_exec a cs s hs
    rw [passesAll, Bool.or_eq_true, Bool.and_eq_true, Bool.and_eq_true] at h
    rcases h with ⟨h1, h2⟩ | ⟨h1, h2⟩
    · obtain ⟨x, tx, hx, hx'⟩ := ic _ (fun h => by cases h) h1
      obtain ⟨y, ty, hy, hy'⟩ := ics h2
      refine ⟨x ++ y, tx ++ ty, fun hm => (List.mem_append.mp hm).elim hx hy, fun more => ?_⟩
      rw [execAll, List.append_assoc, then_next (hx' _), hy']
    · obtain ⟨x, tx, hx, hx'⟩ := ic _ hs h2
      refine ⟨x, tx, hx, fun more => ?_⟩
      rw [execAll, then_stop, hx']
      rw [hx']
      exact bne_iff_ne.mp h1
end

theorem then_bare {e : Effect} {g : List Bool → Effect} {a b : BlockId} (h : Bare a b e.trace) :
    Bare a b (andThen e g).trace := by
  rcases then_cases e g with ⟨-, h2⟩ | ⟨-, h2⟩
  · rw [h2]; exact bare_append.mpr (.inl h)
  · rw [h2]; exact h

theorem bare_round {body : List Bool → Effect} {n : Nat} {ds : List Bool} {a b : BlockId} (h : Bare a b (body ds).trace) :
    Bare a b (repeatUntilBreak body (n + 1) ds).trace := by
  rw [repeatUntilBreak]
  generalize body ds = e at h
  obtain ⟨tr, sig, rest⟩ := e
  cases sig with
  | next => exact bare_append.mpr (.inl h)
  | continues => exact bare_append.mpr (.inl h)
  | breaks => exact h
  | running => exact h

mutual
theorem comes_exec {a b : BlockId} : ∀ (c : ControlFlowChain), comes a b c = true → ∃ ds, Bare a b (exec c ds).trace
  | .Atom id, h => by
    rw [comes] at h
    exact ⟨[true], by rw [exec]; exact bare_one.mpr (eq_of_beq h)⟩
  | .Block cs, h => by
    rw [comes] at h
    obtain ⟨ds, h⟩ := comesAny_exec cs h
    exact ⟨ds, by rw [exec]; exact h⟩
  | .Selection id l r hint w, h => by
    have il := @comes_exec a b l
    have ir := @comes_exec a b r
    rw [comes, Bool.or_eq_true, Bool.and_eq_true, Bool.or_eq_true] at h
    rcases h with h | ⟨hi, h | h⟩
    · exact ⟨[true], by rw [exec]; exact then_bare (bare_one.mpr (eq_of_beq h))⟩
    · obtain ⟨ds, h⟩ := il h
      refine ⟨true :: ds, ?_⟩
      rw [exec, then_next rfl, if_pos rfl]
      exact bare_append.mpr (.inr ⟨fun hm => bne_iff_ne.mp hi (List.mem_singleton.mp hm).symm, h⟩)
    · obtain ⟨ds, h⟩ := ir h
      refine ⟨false :: ds, ?_⟩
      rw [exec, then_next rfl, if_neg (fun h => by cases h)]
      exact bare_append.mpr (.inr ⟨fun hm => bne_iff_ne.mp hi (List.mem_singleton.mp hm).symm, h⟩)
  | .Loop id inner hint w, h => by
    have ii := @comes_exec a b inner
    rw [comes, Bool.or_eq_true, Bool.and_eq_true] at h
    rcases h with h | ⟨hi, h⟩
    · exact ⟨[true], by rw [exec]; exact bare_round (then_bare (bare_one.mpr (eq_of_beq h)))⟩
    · obtain ⟨ds, h⟩ := ii h
      refine ⟨true :: ds, ?_⟩
      rw [exec]
      refine bare_round ?_
      rw [visit, then_next rfl]
      exact bare_append.mpr (.inr ⟨fun hm => bne_iff_ne.mp hi (List.mem_singleton.mp hm).symm, h⟩)
  | .Break, h => by cases h
  | .Continue, h => by cases h
theorem comesAny_exec {a b : BlockId} : ∀ (cs : List ControlFlowChain), comesAny a b cs = true →
    ∃ ds, Bare a b (execAll cs ds).trace
  | [], h => by cases h
  | c :: cs, h => by
    have ic := @comes_exec a b c
    have ics := @comesAny_exec a b cs
    rw [comesAny, Bool.or_eq_true, Bool.and_eq_true] at h
    rcases h with h | ⟨hp, h⟩
    · obtain ⟨ds, h⟩ := ic h
      exact ⟨ds, by rw [execAll]; exact then_bare h⟩
    · obtain ⟨x, tx, hx, hx'⟩ := passes_exec c (fun h => by cases h) hp
      obtain ⟨ds, h⟩ := ics h
      refine ⟨x ++ ds, ?_⟩
      rw [execAll, then_next (hx' _)]
      exact bare_append.mpr (.inr ⟨hx, h⟩)
end

mutual
theorem leaves_exec {a b : BlockId} : ∀ (c : ControlFlowChain) {s : Signal}, s ≠ .running → leaves a b s c = true →
    ∃ ds tr, Late a b tr ∧ ∀ more, exec c (ds ++ more) = ⟨tr, s, more⟩
  | .Atom id, s, hs, h => by
    rw [leaves, Bool.and_eq_true] at h
    cases eq_of_beq h.1
    exact ⟨[true], [id], late_one.mpr (eq_of_beq h.2), fun _ => by rw [exec]; rfl⟩
  | .Block cs, s, hs, h => by
    rw [leaves] at h
    obtain ⟨ds, tr, ha, he⟩ := leavesAny_exec cs hs h
    exact ⟨ds, tr, ha, fun more => by rw [exec, he]⟩
  | .Selection id l r hint w, s, hs, h => by
    have il := @leaves_exec a b l s hs
    have ir := @leaves_exec a b r s hs
    have left : ∀ {ds tr}, (∀ more, exec l (ds ++ more) = ⟨tr, s, more⟩) → ∀ more,
        exec (.Selection id l r hint w) ((true :: ds) ++ more) = ⟨[id] ++ tr, s, more⟩ := by
      intro ds tr he more
      rw [List.cons_append, exec, then_next rfl, if_pos rfl, he]
    have right : ∀ {ds tr}, (∀ more, exec r (ds ++ more) = ⟨tr, s, more⟩) → ∀ more,
        exec (.Selection id l r hint w) ((false :: ds) ++ more) = ⟨[id] ++ tr, s, more⟩ := by
      intro ds tr he more
      rw [List.cons_append, exec, then_next rfl, if_neg (fun h => by cases h), he]
    rw [leaves, Bool.or_eq_true, Bool.or_eq_true, Bool.and_eq_true, Bool.or_eq_true] at h
    rcases h with (⟨hi, h | h⟩ | h) | h
    · obtain ⟨ds, tr, ha, he⟩ := passes_exec l hs h
      exact ⟨_, _, late_append.mpr (.inl ⟨late_one.mpr (eq_of_beq hi), ha⟩), left he⟩
    · obtain ⟨ds, tr, ha, he⟩ := passes_exec r hs h
      exact ⟨_, _, late_append.mpr (.inl ⟨late_one.mpr (eq_of_beq hi), ha⟩), right he⟩
    · obtain ⟨ds, tr, ha, he⟩ := il h
      exact ⟨_, _, late_append.mpr (.inr ha), left he⟩
    · obtain ⟨ds, tr, ha, he⟩ := ir h
      exact ⟨_, _, late_append.mpr (.inr ha), right he⟩
  | .Loop id inner hint w, s, hs, h => by
    have ii := fun s hs => @leaves_exec a b inner s hs
    rw [leaves, Bool.and_eq_true, Bool.or_eq_true, Bool.or_eq_true, Bool.and_eq_true, Bool.and_eq_true, Bool.or_eq_true,
      Bool.and_eq_true] at h
    cases eq_of_beq h.1
    have round : ∀ {ds tr s}, (∀ more, exec inner (ds ++ more) = ⟨tr, s, more⟩) → ∀ more,
        andThen (visit id (true :: ds ++ more)) (fun ds => exec inner ds) = ⟨[id] ++ tr, s, more⟩ := by
      intro ds tr s he more
      rw [List.cons_append, visit, then_next rfl, he]
    have once : ∀ {ds tr}, (∀ more, exec inner (ds ++ more) = ⟨tr, .breaks, more⟩) → ∀ more,
        exec (.Loop id inner hint w) ((true :: ds) ++ more) = ⟨[id] ++ tr, .next, more⟩ := by
      intro ds tr he more
      rw [exec, repeatUntilBreak, round he]
    have twice : ∀ {ds tr ds' tr' s}, (s = .next ∨ s = .continues) →
        (∀ more, exec inner (ds ++ more) = ⟨tr, s, more⟩) →
        (∀ more, exec inner (ds' ++ more) = ⟨tr', .breaks, more⟩) → ∀ more,
        exec (.Loop id inner hint w) ((true :: ds ++ true :: ds') ++ more) =
          ⟨([id] ++ tr) ++ ([id] ++ tr'), .next, more⟩ := by
      intro ds tr ds' tr' s hn he he' more
      have hlen : (true :: ds ++ true :: ds' ++ more).length + 1 = (ds.length + ds'.length + more.length + 1) + 1 + 1 := by
        simp only [List.length_append, List.length_cons]
        omega
      rw [exec, hlen, repeatUntilBreak, List.append_assoc, round he]
      rcases hn with rfl | rfl
      · dsimp only
        rw [repeatUntilBreak, round he']
      · dsimp only
        rw [repeatUntilBreak, round he']
    rcases h.2 with (⟨hi, h⟩ | h) | ⟨h, hi, hp⟩
    · obtain ⟨ds, tr, ha, he⟩ := passes_exec inner (fun h => by cases h) h
      exact ⟨_, _, late_append.mpr (.inl ⟨late_one.mpr (eq_of_beq hi), ha⟩), once he⟩
    · obtain ⟨ds, tr, ha, he⟩ := ii _ (fun h => by cases h) h
      exact ⟨_, _, late_append.mpr (.inr ha), once he⟩
    · obtain ⟨ds', tr', ha', he'⟩ := passes_exec inner (fun h => by cases h) hp
      have hn : a ∉ [id] ++ tr' := fun hm => (List.mem_cons.mp hm).elim (fun e => bne_iff_ne.mp hi e.symm) ha'
      rcases h with h | h
      · obtain ⟨ds, tr, ha, he⟩ := ii _ (fun h => by cases h) h
        exact ⟨_, _, late_append.mpr (.inl ⟨late_append.mpr (.inr ha), hn⟩), twice (.inl rfl) he he'⟩
      · obtain ⟨ds, tr, ha, he⟩ := ii _ (fun h => by cases h) h
        exact ⟨_, _, late_append.mpr (.inl ⟨late_append.mpr (.inr ha), hn⟩), twice (.inr rfl) he he'⟩
  | .Break, s, hs, h => by cases h
  | .Continue, s, hs, h => by cases h
theorem leavesAny_exec {a b : BlockId} : ∀ (cs : List ControlFlowChain) {s : Signal}, s ≠ .running →
    leavesAny a b s cs = true → ∃ ds tr, Late a b tr ∧ ∀ more, execAll cs (ds ++ more) = ⟨tr, s, more⟩
  | [], s, hs, h => by cases h
  | c :: cs, s, hs, h => by
    have ic := fun s hs => @leaves_exec a b c s hs
    have ics := @leavesAny_exec a b cs s hs
    rw [leavesAny, Bool.or_eq_true, Bool.or_eq_true, Bool.and_eq_true, Bool.and_eq_true, Bool.and_eq_true] at h
    have both : ∀ {x tx y ty}, (∀ more, exec c (x ++ more) = ⟨tx, .next, more⟩) →
        (∀ more, execAll cs (y ++ more) = ⟨ty, s, more⟩) → ∀ more,
        execAll (c :: cs) ((x ++ y) ++ more) = ⟨tx ++ ty, s, more⟩ := by
      intro x tx y ty hx hy more
      rw [execAll, List.append_assoc, then_next (hx _), hy]
    rcases h with (⟨h1, h2⟩ | ⟨h1, h2⟩) | ⟨h1, h2⟩
    · obtain ⟨x, tx, hx, hx'⟩ := ic _ (fun h => by cases h) h1
      obtain ⟨y, ty, hy, hy'⟩ := passesAll_exec cs hs h2
      exact ⟨_, _, late_append.mpr (.inl ⟨hx, hy⟩), both hx' hy'⟩
    · obtain ⟨x, tx, hx'⟩ := mayEnd_exec c (fun h => by cases h) h1
      obtain ⟨y, ty, hy, hy'⟩ := ics h2
      exact ⟨_, _, late_append.mpr (.inr hy), both hx' hy'⟩
    · obtain ⟨x, tx, hx, hx'⟩ := ic _ hs h2
      refine ⟨x, tx, hx, fun more => ?_⟩
      rw [execAll, then_stop, hx']
      rw [hx']
      exact bne_iff_ne.mp h1
end

end Magma.Spec
