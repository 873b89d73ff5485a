import Verif.Spec.Live
/-! How a chain can end and which of its blocks can be visited, over all decisions. -/

namespace Magma.Spec

theorem then_signal {e : Effect} {g : List Bool → Effect} {s : Signal} (h : (andThen e g).signal = s) :
    (e.signal = .next ∧ (g e.rest).signal = s) ∨ (s ≠ .next ∧ e.signal = s) := by
  obtain ⟨tr, sig, rest⟩ := e
  cases sig
  · exact .inl ⟨rfl, h⟩
  all_goals (refine .inr ⟨?_, h⟩; rw [← h]; exact fun h => by cases h)

theorem then_trace {e : Effect} {g : List Bool → Effect} {id : BlockId} (h : id ∈ (andThen e g).trace) :
    id ∈ e.trace ∨ (e.signal = .next ∧ id ∈ (g e.rest).trace) := by
  obtain ⟨tr, sig, rest⟩ := e
  cases sig
  · rcases List.mem_append.mp h with h | h
    · exact .inl h
    · exact .inr ⟨rfl, h⟩
  all_goals exact .inl h

theorem visiting_signal {id : BlockId} {ds : List Bool} {s : Signal} (hs : s ≠ .running) (h : (visit id ds).signal = s) :
    s = .next := by
  cases ds with
  | nil => exact absurd h.symm hs
  | cons d ds => exact h.symm

theorem visiting_trace {id i : BlockId} {ds : List Bool} (h : i ∈ (visit id ds).trace) : i = id := by
  cases ds with
  | nil => cases h
  | cons d ds => exact List.mem_singleton.mp h

theorem rounds_signal {body : List Bool → Effect} {s : Signal} (hs : s ≠ .running) : ∀ (n : Nat) (ds : List Bool),
    (repeatUntilBreak body n ds).signal = s → s = .next ∧ ∃ ds', (body ds').signal = .breaks
  | 0, _, h => absurd h.symm hs
  | n + 1, ds, h => by
    rw [repeatUntilBreak] at h
    generalize he : body ds = e at h
    obtain ⟨tr, sig, rest⟩ := e
    cases sig with
    | next => exact rounds_signal hs n _ h
    | continues => exact rounds_signal hs n _ h
    | breaks => exact ⟨h.symm, ds, by rw [he]⟩
    | running => exact absurd h.symm hs

theorem rounds_trace {body : List Bool → Effect} {id : BlockId} : ∀ (n : Nat) (ds : List Bool),
    id ∈ (repeatUntilBreak body n ds).trace → ∃ ds', id ∈ (body ds').trace
  | 0, _, h => by cases h
  | n + 1, ds, h => by
    rw [repeatUntilBreak] at h
    generalize he : body ds = e at h
    obtain ⟨tr, sig, rest⟩ := e
    cases sig with
    | next =>
      rcases List.mem_append.mp h with h | h
      · exact ⟨ds, by rw [he]; exact h⟩
      · exact rounds_trace n _ h
    | continues =>
      rcases List.mem_append.mp h with h | h
      · exact ⟨ds, by rw [he]; exact h⟩
      · exact rounds_trace n _ h
    | breaks => exact ⟨ds, by rw [he]; exact h⟩
    | running => exact ⟨ds, by rw [he]; exact h⟩

/-! ### What happens is allowed -/

mutual
theorem exec_mayEnd : ∀ (c : ControlFlowChain) {s : Signal}, s ≠ .running → ∀ ds : List Bool,
    (exec c ds).signal = s → mayEnd s c = true
  | .Atom id, s, hs, ds, h => by
    rw [exec] at h
    rw [visiting_signal hs h]
    rfl
  | .Block cs, s, hs, ds, h => by
    rw [exec] at h
    rw [mayEnd]
    exact execAll_mayEnd cs hs ds h
  | .Selection id l r hint w, s, hs, ds, h => by
    have il := exec_mayEnd l hs
    have ir := exec_mayEnd r hs
    rw [mayEnd, Bool.or_eq_true]
    cases ds with
    | nil => exact absurd h.symm hs
    | cons d ds =>
      cases d with
      | true => exact .inl (il ds h)
      | false => exact .inr (ir ds h)
  | .Loop id inner hint w, s, hs, ds, h => by
    have ii := @exec_mayEnd inner .breaks (fun h => by cases h)
    rw [exec] at h
    obtain ⟨rfl, ds', h⟩ := rounds_signal hs _ _ h
    rw [mayEnd, Bool.and_eq_true]
    refine ⟨rfl, ?_⟩
    rcases then_signal h with ⟨-, h⟩ | ⟨-, h⟩
    · exact ii _ h
    · cases visiting_signal (fun h => by cases h) h
  | .Break, s, hs, ds, h => by rw [← h]; rfl
  | .Continue, s, hs, ds, h => by rw [← h]; rfl
theorem execAll_mayEnd : ∀ (cs : List ControlFlowChain) {s : Signal}, s ≠ .running → ∀ ds : List Bool,
    (execAll cs ds).signal = s → mayEndAll s cs = true
  | [], s, hs, ds, h => by rw [← h]; rfl
  | c :: cs, s, hs, ds, h => by
    have ic := fun s hs => @exec_mayEnd c s hs
    have ics := execAll_mayEnd cs hs
    rw [execAll] at h
    rw [mayEndAll, Bool.or_eq_true, Bool.and_eq_true, Bool.and_eq_true]
    rcases then_signal h with ⟨h1, h2⟩ | ⟨h1, h2⟩
    · exact .inl ⟨ic _ (fun h => by cases h) _ h1, ics _ h2⟩
    · exact .inr ⟨bne_iff_ne.mpr h1, ic _ hs _ h2⟩
end

mutual
theorem exec_reached : ∀ (c : ControlFlowChain) (ds : List Bool) {id : BlockId},
    id ∈ (exec c ds).trace → id ∈ reached c
  | .Atom id, ds, i, h => by
    rw [exec] at h
    rw [visiting_trace h, reached]
    exact List.mem_singleton.mpr rfl
  | .Block cs, ds, i, h => by
    rw [exec] at h
    rw [reached]
    exact execAll_reached cs ds h
  | .Selection id l r hint w, ds, i, h => by
    have il := exec_reached l
    have ir := exec_reached r
    rw [reached]
    cases ds with
    | nil => cases h
    | cons d ds =>
      rw [exec] at h
      rcases then_trace h with h | ⟨-, h⟩
      · rw [List.mem_singleton.mp h]
        exact List.mem_cons_self
      · cases d with
        | true => exact List.mem_cons_of_mem _ (List.mem_append_left _ (il ds h))
        | false => exact List.mem_cons_of_mem _ (List.mem_append_right _ (ir ds h))
  | .Loop id inner hint w, ds, i, h => by
    have ii := exec_reached inner
    rw [exec] at h
    rw [reached]
    obtain ⟨ds', h⟩ := rounds_trace _ _ h
    rcases then_trace h with h | ⟨-, h⟩
    · rw [visiting_trace h]
      exact List.mem_cons_self
    · exact List.mem_cons_of_mem _ (ii _ h)
  | .Break, ds, i, h => by cases h
  | .Continue, ds, i, h => by cases h
theorem execAll_reached : ∀ (cs : List ControlFlowChain) (ds : List Bool) {id : BlockId},
    id ∈ (execAll cs ds).trace → id ∈ reachedAll cs
  | [], ds, i, h => by cases h
  | c :: cs, ds, i, h => by
    have ic := exec_reached c
    have ics := execAll_reached cs
    rw [execAll] at h
    rw [reachedAll]
    rcases then_trace h with h | ⟨h1, h⟩
    · exact List.mem_append_left _ (ic ds h)
    · rw [if_pos (exec_mayEnd c (fun h => by cases h) ds h1)]
      exact List.mem_append_right _ (ics _ h)
end

/-! ### What is allowed happens -/

theorem then_next {e : Effect} {g : List Bool → Effect} {tr : List BlockId} {ds : List Bool}
    (h : e = ⟨tr, .next, ds⟩) : andThen e g = ⟨tr ++ (g ds).trace, (g ds).signal, (g ds).rest⟩ := by
  rw [h]; rfl

theorem then_stop {e : Effect} {g : List Bool → Effect} (h : e.signal ≠ .next) : andThen e g = e := by
  obtain ⟨tr, sig, rest⟩ := e
  cases sig
  · exact absurd rfl h
  all_goals rfl

theorem then_before {e : Effect} {g : List Bool → Effect} {id : BlockId} (h : id ∈ e.trace) :
    id ∈ (andThen e g).trace := by
  obtain ⟨tr, sig, rest⟩ := e
  cases sig
  · exact List.mem_append_left _ h
  all_goals exact h

theorem rounds_before {body : List Bool → Effect} {n : Nat} {ds : List Bool} {id : BlockId} (h : id ∈ (body ds).trace) :
    id ∈ (repeatUntilBreak body (n + 1) ds).trace := by
  rw [repeatUntilBreak]
  generalize body ds = e at h
  obtain ⟨tr, sig, rest⟩ := e
  cases sig with
  | next => exact List.mem_append_left _ h
  | continues => exact List.mem_append_left _ h
  | breaks => exact h
  | running => exact h

mutual
theorem mayEnd_exec : ∀ (c : ControlFlowChain) {s : Signal}, s ≠ .running → mayEnd s c = true →
    ∃ ds tr, ∀ more, exec c (ds ++ more) = ⟨tr, s, more⟩
  | .Atom id, s, hs, h => by
    rw [mayEnd] at h
    cases eq_of_beq h
    exact ⟨[true], [id], fun _ => by rw [exec]; rfl⟩
  | .Block cs, s, hs, h => by
    rw [mayEnd] at h
    obtain ⟨ds, tr, he⟩ := mayEndAll_exec cs hs h
    exact ⟨ds, tr, fun more => by rw [exec, he]⟩
  | .Selection id l r hint w, s, hs, h => by
    have il := mayEnd_exec l hs
    have ir := mayEnd_exec r hs
    rw [mayEnd, Bool.or_eq_true] at h
    rcases h with h | h
    · obtain ⟨ds, tr, he⟩ := il h
      refine ⟨true :: ds, [id] ++ tr, fun more => ?_⟩
      rw [List.cons_append, exec, then_next rfl, if_pos rfl, he]
    · obtain ⟨ds, tr, he⟩ := ir h
      refine ⟨false :: ds, [id] ++ tr, fun more => ?_⟩
      rw [List.cons_append, exec, then_next rfl, if_neg (fun h => by cases h), he]
  | .Loop id inner hint w, s, hs, h => by
    have ii := @mayEnd_exec inner .breaks (fun h => by cases h)
    rw [mayEnd, Bool.and_eq_true] at h
    cases eq_of_beq h.1
    obtain ⟨ds, tr, he⟩ := ii h.2
    refine ⟨true :: ds, [id] ++ tr, fun more => ?_⟩
    have hb : andThen (visit id (true :: ds ++ more)) (fun ds => exec inner ds) = ⟨[id] ++ tr, .breaks, more⟩ := by
      rw [List.cons_append, visit, then_next rfl, he]
    rw [exec, repeatUntilBreak, hb]
  | .Break, s, hs, h => by
    rw [mayEnd] at h
    cases eq_of_beq h
    exact ⟨[], [], fun _ => by rw [exec]; rfl⟩
  | .Continue, s, hs, h => by
    rw [mayEnd] at h
    cases eq_of_beq h
    exact ⟨[], [], fun _ => by rw [exec]; rfl⟩
theorem mayEndAll_exec : ∀ (cs : List ControlFlowChain) {s : Signal}, s ≠ .running → mayEndAll s cs = true →
    ∃ ds tr, ∀ more, execAll cs (ds ++ more) = ⟨tr, s, more⟩
  | [], s, hs, h => by
    rw [mayEndAll] at h
    cases eq_of_beq h
    exact ⟨[], [], fun _ => by rw [execAll]; rfl⟩
  | c :: cs, s, hs, h => by
    have ic := fun s hs => @mayEnd_exec c s hs
    have ics := mayEndAll_exec cs hs
    rw [mayEndAll, Bool.or_eq_true, Bool.and_eq_true, Bool.and_eq_true] at h
    rcases h with ⟨h1, h2⟩ | ⟨h1, h2⟩
    · obtain ⟨a, ta, ha⟩ := ic _ (fun h => by cases h) h1
      obtain ⟨b, tb, hb⟩ := ics h2
      refine ⟨a ++ b, ta ++ tb, fun more => ?_⟩
      rw [execAll, List.append_assoc, then_next (ha _), hb]
    · obtain ⟨a, ta, ha⟩ := ic _ hs h2
      refine ⟨a, ta, fun more => ?_⟩
      rw [execAll, then_stop, ha]
      rw [ha]
      exact bne_iff_ne.mp h1
end

mutual
theorem reached_exec : ∀ (c : ControlFlowChain) {id : BlockId}, id ∈ reached c → ∃ ds, id ∈ (exec c ds).trace
  | .Atom id, i, h => by
    rw [reached] at h
    exact ⟨[true], by rw [exec]; exact h⟩
  | .Block cs, i, h => by
    rw [reached] at h
    obtain ⟨ds, h⟩ := reachedAll_exec cs h
    exact ⟨ds, by rw [exec]; exact h⟩
  | .Selection id l r hint w, i, h => by
    have il := @reached_exec l i
    have ir := @reached_exec r i
    rw [reached] at h
    rcases List.mem_cons.mp h with rfl | h
    · exact ⟨[true], by rw [exec]; exact then_before (List.mem_singleton.mpr rfl)⟩
    · rcases List.mem_append.mp h with h | h
      · obtain ⟨ds, h⟩ := il h
        exact ⟨true :: ds, by rw [exec]; exact List.mem_append_right _ h⟩
      · obtain ⟨ds, h⟩ := ir h
        exact ⟨false :: ds, by rw [exec]; exact List.mem_append_right _ h⟩
  | .Loop id inner hint w, i, h => by
    have ii := @reached_exec inner i
    rw [reached] at h
    rcases List.mem_cons.mp h with rfl | h
    · exact ⟨[true], by rw [exec]; exact rounds_before (then_before (List.mem_singleton.mpr rfl))⟩
    · obtain ⟨ds, h⟩ := ii h
      exact ⟨true :: ds, by rw [exec]; exact rounds_before (List.mem_append_right _ h)⟩
  | .Break, i, h => by cases h
  | .Continue, i, h => by cases h
theorem reachedAll_exec : ∀ (cs : List ControlFlowChain) {id : BlockId}, id ∈ reachedAll cs →
    ∃ ds, id ∈ (execAll cs ds).trace
  | [], i, h => by cases h
  | c :: cs, i, h => by
    have ic := @reached_exec c i
    have ics := @reachedAll_exec cs i
    rw [reachedAll] at h
    rcases List.mem_append.mp h with h | h
    · obtain ⟨ds, h⟩ := ic h
      exact ⟨ds, by rw [execAll]; exact then_before h⟩
    · by_cases hn : mayEnd .next c = true
      · rw [if_pos hn] at h
        obtain ⟨a, ta, ha⟩ := mayEnd_exec c (fun h => by cases h) hn
        obtain ⟨ds, h⟩ := ics h
        refine ⟨a ++ ds, ?_⟩
        rw [execAll, then_next (ha _)]
        exact List.mem_append_right _ h
      · rw [if_neg hn] at h
        cases h
end

end Magma.Spec
