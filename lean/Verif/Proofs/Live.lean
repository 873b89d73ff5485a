import Verif.Spec.Live
import Verif.Spec.Printing
import Verif.Spec.Structured
/-! Every block of a program whose loops have breaks can be visited. -/

namespace Magma.Spec.Program

theorem andThen_nothing (e : Effect) : andThen e (fun ds => ⟨[], .next, ds⟩) = e := by
  obtain ⟨tr, sig, rest⟩ := e
  cases sig <;> simp [andThen]

theorem exec_toChain (s : Program) (ds : List Bool) : exec s.toChain ds = execAll s.toChains ds := by
  cases s with
  | done => rfl
  | ret id => exact (andThen_nothing _).symm
  | atom id rest => rfl
  | sel id left right hint weights rest => rfl
  | loop id body hint rest => rfl
  | exit id brk weights rest => exact (andThen_nothing _).symm

theorem canBreak_toChain (s : Program) : canBreak s.toChain = canBreakAny s.toChains := by
  cases s with
  | done => rfl
  | ret id => rfl
  | atom id rest => rfl
  | sel id left right hint weights rest => rfl
  | loop id body hint rest => rfl
  | exit id brk weights rest => exact (Bool.or_false _).symm

theorem loopsEnd_toChain (s : Program) : LoopsEnd s.toChain ↔ LoopsEndAll s.toChains := by
  cases s with
  | done => exact Iff.rfl
  | ret id => exact ⟨fun _ => ⟨trivial, trivial⟩, fun _ => trivial⟩
  | atom id rest => exact Iff.rfl
  | sel id left right hint weights rest => exact Iff.rfl
  | loop id body hint rest => exact Iff.rfl
  | exit id brk weights rest => exact ⟨fun h => ⟨h, trivial⟩, fun h => h.1⟩

theorem chainIds_toChain (s : Program) :
    chainIds s.toChain = s.ids.map BlockId.val ∧ chainIdsAll s.toChains = s.ids.map BlockId.val := by
  induction s with
  | done => exact ⟨rfl, rfl⟩
  | ret id => exact ⟨rfl, rfl⟩
  | atom id rest ih =>
    have e : chainIdsAll (atom id rest).toChains = (atom id rest).ids.map BlockId.val := by
      rw [toChains, chainIdsAll, ih.2]; rfl
    exact ⟨e, e⟩
  | sel id left right hint weights rest ihl ihr ih =>
    have e : chainIdsAll (sel id left right hint weights rest).toChains =
        (sel id left right hint weights rest).ids.map BlockId.val := by
      rw [toChains, chainIdsAll, chainIds, ih.2, ihl.1, ihr.1]
      simp [ids]
    exact ⟨e, e⟩
  | loop id body hint rest ihb ih =>
    have e : chainIdsAll (loop id body hint rest).toChains = (loop id body hint rest).ids.map BlockId.val := by
      rw [toChains, chainIdsAll, chainIds, ih.2, ihb.1]
      simp [ids]
    exact ⟨e, e⟩
  | exit id brk weights rest ih =>
    have e : chainIds (exit id brk weights rest).toChain = (exit id brk weights rest).ids.map BlockId.val := by
      rw [toChain, chainIds, ih.1]
      cases brk <;> simp [ids, chainIds]
    refine ⟨e, ?_⟩
    have e2 : (exit id brk weights rest).toChains = [(exit id brk weights rest).toChain] := rfl
    rw [e2, chainIdsAll, e]
    exact List.append_nil _

/-- Decisions that run a program to its end (`sig = .next`) or to a break -/
def Runs (s : Program) (sig : Signal) : Prop :=
  ∃ ds tr, ∀ more, execAll s.toChains (ds ++ more) = ⟨tr, sig, more⟩

theorem seq {first : List Bool → Effect} {second : List Bool → Effect} {sig : Signal} {a b : List Bool}
    {ta tb : List BlockId} (h1 : ∀ more, first (a ++ more) = ⟨ta, .next, more⟩)
    (h2 : ∀ more, second (b ++ more) = ⟨tb, sig, more⟩) (more : List Bool) :
    andThen (first ((a ++ b) ++ more)) second = ⟨ta ++ tb, sig, more⟩ := by
  rw [List.append_assoc, h1]
  show (⟨ta ++ (second (b ++ more)).trace, (second (b ++ more)).signal, (second (b ++ more)).rest⟩ : Effect) = _
  rw [h2]

theorem stop {first : List Bool → Effect} {second : List Bool → Effect} {a : List Bool}
    {ta : List BlockId} (h1 : ∀ more, first (a ++ more) = ⟨ta, .breaks, more⟩) (more : List Bool) :
    andThen (first (a ++ more)) second = ⟨ta, .breaks, more⟩ := by
  rw [h1]; rfl

/-- A selection, given a run of the branch that `d` chooses -/
theorem choose {id : BlockId} {left right : ControlFlowChain} {h : SelectionControl} {w : Option BranchWeights}
    {d : Bool} {ds : List Bool} {tr : List BlockId} {sig : Signal}
    (hr : ∀ more, exec (if d then left else right) (ds ++ more) = ⟨tr, sig, more⟩) (more : List Bool) :
    exec (.Selection id left right h w) ((d :: ds) ++ more) = ⟨id :: tr, sig, more⟩ := by
  show andThen ⟨[id], .next, ds ++ more⟩ (fun ds => if d then exec left ds else exec right ds) = _
  cases d
  · have := hr more
    simp only [Bool.false_eq_true, if_false] at this
    simp [andThen, this]
  · have := hr more
    simp only [if_true] at this
    simp [andThen, this]

/-- A loop, given a run of the body to a break -/
theorem once {id : BlockId} {body : ControlFlowChain} {h : LoopControl} {ds : List Bool} {tr : List BlockId}
    (hr : ∀ more, exec body (ds ++ more) = ⟨tr, .breaks, more⟩) (more : List Bool) :
    exec (.Loop id body h none) ((true :: ds) ++ more) = ⟨id :: tr, .next, more⟩ := by
  rw [exec, repeatUntilBreak]
  have : andThen (visit id ((true :: ds) ++ more)) (fun ds => exec body ds) = ⟨id :: tr, .breaks, more⟩ := by
    show andThen ⟨[id], .next, ds ++ more⟩ _ = _
    simp [andThen, hr more]
  simp only [this]

theorem runs (s : Program) : LoopsEndAll s.toChains → Runs s .next ∧ (canBreakAny s.toChains = true → Runs s .breaks) := by
  induction s with
  | done => exact fun _ => ⟨⟨[], [], fun _ => rfl⟩, fun h => by cases h⟩
  | ret id => exact fun _ => ⟨⟨[true], [id], fun _ => rfl⟩, fun h => by cases h⟩
  | atom id rest ih =>
    intro hl
    have step (sig : Signal) (h : Runs rest sig) : Runs (atom id rest) sig := by
      obtain ⟨ds, tr, h⟩ := h
      exact ⟨[true] ++ ds, [id] ++ tr, fun more =>
        seq (first := exec (.Atom id)) (fun more => rfl) h more⟩
    exact ⟨step _ (ih hl.2).1, fun hb => step _ ((ih hl.2).2 hb)⟩
  | sel id left right hint weights rest ihl ihr ih =>
    intro hl
    obtain ⟨⟨hl1, hl2⟩, hl3⟩ := hl
    obtain ⟨⟨dl, tl, hln⟩, hlb⟩ := ihl ((loopsEnd_toChain _).mp hl1)
    obtain ⟨⟨dr, tr, hrn⟩, hrb⟩ := ihr ((loopsEnd_toChain _).mp hl2)
    have first : ∀ more, exec (.Selection id left.toChain right.toChain hint weights) ((true :: dl) ++ more) =
        ⟨id :: tl, .next, more⟩ :=
      choose (d := true) (fun more => by simp only [if_true]; rw [exec_toChain]; exact hln more)
    have step (sig : Signal) (h : Runs rest sig) : Runs (sel id left right hint weights rest) sig := by
      obtain ⟨ds, t, h⟩ := h
      exact ⟨_, _, seq first h⟩
    refine ⟨step _ (ih hl3).1, fun hb => ?_⟩
    have hb : (canBreak left.toChain || canBreak right.toChain || canBreakAny rest.toChains) = true := hb
    rw [Bool.or_eq_true, Bool.or_eq_true, canBreak_toChain, canBreak_toChain] at hb
    rcases hb with (hb | hb) | hb
    · obtain ⟨ds, t, h⟩ := hlb hb
      exact ⟨true :: ds, id :: t, stop (choose (d := true) (fun more => by
        simp only [if_true]; rw [exec_toChain]; exact h more))⟩
    · obtain ⟨ds, t, h⟩ := hrb hb
      exact ⟨false :: ds, id :: t, stop (choose (d := false) (fun more => by
        simp only [Bool.false_eq_true, if_false]; rw [exec_toChain]; exact h more))⟩
    · exact step _ ((ih hl3).2 hb)
  | loop id body hint rest ihb ih =>
    intro hl
    obtain ⟨⟨hl1, hl2⟩, hl3⟩ := hl
    rw [canBreak_toChain] at hl1
    obtain ⟨ds, t, h⟩ := (ihb ((loopsEnd_toChain _).mp hl2)).2 hl1
    have first := once (id := id) (h := hint) (body := body.toChain) (ds := ds) (tr := t)
      (fun more => by rw [exec_toChain]; exact h more)
    have step (sig : Signal) (h : Runs rest sig) : Runs (loop id body hint rest) sig := by
      obtain ⟨ds, t, h⟩ := h
      exact ⟨_, _, seq first h⟩
    exact ⟨step _ (ih hl3).1, fun hb => step _ ((ih hl3).2 hb)⟩
  | exit id brk weights rest ih =>
    intro hl
    obtain ⟨⟨hl1, -⟩, -⟩ := hl
    have ih := ih ((loopsEnd_toChain _).mp hl1)
    have step (sig : Signal) (h : Runs rest sig) : Runs (exit id brk weights rest) sig := by
      obtain ⟨ds, t, h⟩ := h
      refine ⟨true :: ds, id :: t, fun more => ?_⟩
      show andThen _ (fun ds => ⟨[], .next, ds⟩) = _
      rw [andThen_nothing]
      exact choose (d := true) (fun more => by simp only [if_true]; rw [exec_toChain]; exact h more) more
    refine ⟨step _ ih.1, fun hb => ?_⟩
    cases brk with
    | true => exact ⟨[false], [id], fun _ => rfl⟩
    | false =>
      refine step _ (ih.2 ?_)
      rw [← canBreak_toChain]
      have hb : (canBreak rest.toChain || false || false) = true := hb
      simpa using hb

theorem after {first second : List Bool → Effect} {a : List Bool} {ta : List BlockId} {id : BlockId}
    (h1 : ∀ more, first (a ++ more) = ⟨ta, .next, more⟩) (h2 : ∃ ds, id ∈ (second ds).trace) :
    ∃ ds, id ∈ (andThen (first ds) second).trace := by
  obtain ⟨ds, h⟩ := h2
  refine ⟨a ++ ds, ?_⟩
  rw [h1]
  exact List.mem_append_right _ h

theorem before {first second : List Bool → Effect} {id : BlockId} (h : ∃ ds, id ∈ (first ds).trace) :
    ∃ ds, id ∈ (andThen (first ds) second).trace := by
  obtain ⟨ds, h⟩ := h
  refine ⟨ds, ?_⟩
  rw [andThen]
  split
  · exact List.mem_append_left _ h
  · exact h

theorem within {id' id : BlockId} {left right : ControlFlowChain} {h : SelectionControl} {w : Option BranchWeights}
    (d : Bool) (hv : ∃ ds, id ∈ (exec (if d then left else right) ds).trace) :
    ∃ ds, id ∈ (exec (.Selection id' left right h w) ds).trace := by
  obtain ⟨ds, hv⟩ := hv
  refine ⟨d :: ds, ?_⟩
  show id ∈ (andThen ⟨[id'], .next, ds⟩ (fun ds => if d then exec left ds else exec right ds)).trace
  cases d <;> exact List.mem_append_right _ hv

theorem round {id' id : BlockId} {body : ControlFlowChain} {h : LoopControl}
    (hv : ∃ ds, id ∈ (exec body ds).trace) : ∃ ds, id ∈ (exec (.Loop id' body h none) ds).trace := by
  obtain ⟨ds, hv⟩ := hv
  refine ⟨true :: ds, ?_⟩
  rw [exec, repeatUntilBreak]
  have : id ∈ (andThen (visit id' (true :: ds)) (fun ds => exec body ds)).trace := List.mem_append_right _ hv
  generalize andThen (visit id' (true :: ds)) (fun ds => exec body ds) = e at this
  obtain ⟨tr, sig, rest⟩ := e
  cases sig
  · exact List.mem_append_left _ this
  · exact this
  · exact List.mem_append_left _ this
  · exact this

theorem visits (s : Program) {id : BlockId} : LoopsEndAll s.toChains → id ∈ s.ids →
    ∃ ds, id ∈ (execAll s.toChains ds).trace := by
  induction s with
  | done => intro _ h; cases h
  | ret id' =>
    intro _ h
    exact ⟨[true], by rw [List.mem_singleton.mp h]; exact List.mem_singleton_self _⟩
  | atom id' rest ih =>
    intro hl h
    rcases List.mem_cons.mp h with rfl | h
    · exact before (first := exec (.Atom id)) ⟨[true], List.mem_singleton_self _⟩
    · exact after (first := exec (.Atom id')) (a := [true]) (fun more => rfl) (ih hl.2 h)
  | sel id' left right hint weights rest ihl ihr ih =>
    rintro ⟨⟨hl1, hl2⟩, hl3⟩ h
    have hl1' := (loopsEnd_toChain _).mp hl1
    have hl2' := (loopsEnd_toChain _).mp hl2
    rcases List.mem_cons.mp h with rfl | h
    · exact before (first := exec (.Selection id left.toChain right.toChain hint weights))
        ⟨[true], List.mem_append_left _ (List.mem_singleton_self _)⟩
    · rcases List.mem_append.mp h with h | h
      · refine before (first := exec (.Selection id' left.toChain right.toChain hint weights)) ?_
        rcases List.mem_append.mp h with h | h
        · obtain ⟨ds, h⟩ := ihl hl1' h
          exact within true ⟨ds, by simp only [if_true]; rw [exec_toChain]; exact h⟩
        · obtain ⟨ds, h⟩ := ihr hl2' h
          exact within false ⟨ds, by simp only [Bool.false_eq_true, if_false]; rw [exec_toChain]; exact h⟩
      · obtain ⟨ds, tr, hr⟩ := (runs left hl1').1
        exact after (first := exec (.Selection id' left.toChain right.toChain hint weights))
          (choose (d := true) (fun more => by simp only [if_true]; rw [exec_toChain]; exact hr more)) (ih hl3 h)
  | loop id' body hint rest ihb ih =>
    rintro ⟨⟨hl1, hl2⟩, hl3⟩ h
    have hl2' := (loopsEnd_toChain _).mp hl2
    rw [canBreak_toChain] at hl1
    rcases List.mem_cons.mp h with rfl | h
    · refine before (first := exec (.Loop id body.toChain hint none)) ?_
      obtain ⟨ds, t, hr⟩ := (runs body hl2').2 hl1
      refine ⟨(true :: ds) ++ [], ?_⟩
      rw [once (fun more => by rw [exec_toChain]; exact hr more)]
      exact List.mem_cons_self
    · rcases List.mem_append.mp h with h | h
      · refine before (first := exec (.Loop id' body.toChain hint none)) (round ?_)
        obtain ⟨ds, h⟩ := ihb hl2' h
        exact ⟨ds, by rw [exec_toChain]; exact h⟩
      · obtain ⟨ds, t, hr⟩ := (runs body hl2').2 hl1
        exact after (first := exec (.Loop id' body.toChain hint none))
          (once (fun more => by rw [exec_toChain]; exact hr more)) (ih hl3 h)
  | exit id' brk weights rest ih =>
    rintro ⟨⟨hl1, -⟩, -⟩ h
    refine before (first := exec (.Selection id' rest.toChain (if brk then .Break else .Continue) _ weights)) ?_
    rcases List.mem_cons.mp h with rfl | h
    · exact ⟨[true], List.mem_append_left _ (List.mem_singleton_self _)⟩
    · obtain ⟨ds, h⟩ := ih ((loopsEnd_toChain _).mp hl1) h
      exact within true ⟨ds, by simp only [if_true]; rw [exec_toChain]; exact h⟩

mutual
/-- Only blocks of the chain are visited. -/
theorem visited_mem : ∀ (c : ControlFlowChain) (ds : List Bool), ∀ id ∈ (exec c ds).trace, id.val ∈ chainIds c
  | .Atom id, ds => by
    intro i h
    cases ds with
    | nil => cases h
    | cons d ds => rw [List.mem_singleton.mp h]; exact List.mem_singleton_self _
  | .Block chains, ds => visitedAll_mem chains ds
  | .Selection id left right _ _, ds => by
    intro i h
    cases ds with
    | nil => cases h
    | cons d ds =>
      have h : i ∈ (andThen ⟨[id], .next, ds⟩ (fun ds => if d then exec left ds else exec right ds)).trace := h
      rcases List.mem_append.mp h with h | h
      · rw [List.mem_singleton.mp h]; exact List.mem_cons_self
      · refine List.mem_cons_of_mem _ (List.mem_append.mpr ?_)
        cases d
        · exact .inr (visited_mem right ds i h)
        · exact .inl (visited_mem left ds i h)
  | .Loop id inner _ _, ds => by
    have hb : ∀ ds, ∀ i ∈ (andThen (visit id ds) (fun ds => exec inner ds)).trace, i.val ∈ id.val :: chainIds inner := by
      intro ds i h
      cases ds with
      | nil => cases h
      | cons d ds =>
        rcases List.mem_append.mp h with h | h
        · rw [List.mem_singleton.mp h]; exact List.mem_cons_self
        · exact List.mem_cons_of_mem _ (visited_mem inner ds i h)
    have hr : ∀ n ds, ∀ i ∈ (repeatUntilBreak (fun ds => andThen (visit id ds) (fun ds => exec inner ds)) n ds).trace,
        i.val ∈ id.val :: chainIds inner := by
      intro n
      induction n with
      | zero => intro ds i h; cases h
      | succ n ih =>
        intro ds i h
        rw [repeatUntilBreak] at h
        have hb := hb ds
        generalize andThen (visit id ds) (fun ds => exec inner ds) = e at h hb
        obtain ⟨tr, sig, rest⟩ := e
        cases sig
        · rcases List.mem_append.mp h with h | h
          · exact hb i h
          · exact ih _ i h
        · exact hb i h
        · rcases List.mem_append.mp h with h | h
          · exact hb i h
          · exact ih _ i h
        · exact hb i h
    exact hr _ _
  | .Break, ds => by intro i h; cases h
  | .Continue, ds => by intro i h; cases h
/-- Only blocks of the chains are visited. -/
theorem visitedAll_mem : ∀ (cs : List ControlFlowChain) (ds : List Bool), ∀ id ∈ (execAll cs ds).trace,
    id.val ∈ chainIdsAll cs
  | [], ds => by intro i h; cases h
  | c :: cs, ds => by
    intro i h
    have hc := visited_mem c ds
    rw [execAll, andThen] at h
    rw [chainIdsAll, List.mem_append]
    split at h
    · rcases List.mem_append.mp h with h | h
      · exact .inl (hc i h)
      · exact .inr (visitedAll_mem cs _ i h)
    · exact .inl (hc i h)
end

end Magma.Spec.Program
