import Verif.Spec.Meaning
/-! Executions with a meaning of the instructions are executions with the decisions that the conditions take. -/

namespace Magma.Spec
variable {X S : Type}

theorem then_rest {e : Effect} {g : List Bool → Effect} {ds : List Bool} (h : e.rest = ds.drop e.trace.length)
    (hg : ∀ ds, (g ds).rest = ds.drop (g ds).trace.length) :
    (andThen e g).rest = ds.drop (andThen e g).trace.length := by
  obtain ⟨tr, sig, rest⟩ := e
  cases sig
  · have h : rest = ds.drop tr.length := h
    show (g rest).rest = ds.drop (tr ++ (g rest).trace).length
    rw [hg, h, List.drop_drop, List.length_append]
  all_goals exact h

theorem visit_rest (id : BlockId) (ds : List Bool) : (visit id ds).rest = ds.drop (visit id ds).trace.length := by
  cases ds <;> rfl

theorem rounds_rest {body : List Bool → Effect} (hb : ∀ ds, (body ds).rest = ds.drop (body ds).trace.length) :
    ∀ (k : Nat) (ds : List Bool),
      (repeatUntilBreak body k ds).rest = ds.drop (repeatUntilBreak body k ds).trace.length
  | 0, _ => rfl
  | k + 1, ds => by
    have h := hb ds
    rw [repeatUntilBreak]
    generalize body ds = e at h
    obtain ⟨tr, sig, rest⟩ := e
    have h' : rest = ds.drop tr.length := h
    cases sig with
    | next =>
      dsimp only
      rw [rounds_rest hb k, List.length_append, ← List.drop_drop, ← h']
    | continues =>
      dsimp only
      rw [rounds_rest hb k, List.length_append, ← List.drop_drop, ← h']
    | breaks => exact h
    | running => exact h

mutual
/-- The decisions left are those after one for each visit. -/
theorem exec_rest : ∀ (c : ControlFlowChain) (ds : List Bool), (exec c ds).rest = ds.drop (exec c ds).trace.length
  | .Atom id, ds => by rw [exec]; exact visit_rest id ds
  | .Block cs, ds => by rw [exec]; exact execAll_rest cs ds
  | .Selection id l r hint w, ds => by
    have il := exec_rest l
    have ir := exec_rest r
    cases ds with
    | nil => rfl
    | cons d ds =>
      rw [exec]
      refine then_rest rfl fun ds => ?_
      cases d with
      | true => exact il ds
      | false => exact ir ds
  | .Loop id inner hint w, ds => by
    have ii := exec_rest inner
    rw [exec]
    exact rounds_rest (fun ds => then_rest (visit_rest id ds) ii) _ _
  | .Break, ds => rfl
  | .Continue, ds => rfl
theorem execAll_rest : ∀ (cs : List ControlFlowChain) (ds : List Bool),
    (execAll cs ds).rest = ds.drop (execAll cs ds).trace.length
  | [], ds => rfl
  | c :: cs, ds => by
    have ic := exec_rest c
    have ics := execAll_rest cs
    rw [execAll]
    exact then_rest (ic ds) ics
end

section
variable (M : Machine X S) (blocks : List (BasicBlock X))

/-- Where the code of the blocks visited gets -/
def comesTo (c : Config S) (trace : List BlockId) : Config S := trace.foldl (fun c id => M.arrive blocks id c) c

/-- The decisions are those that the conditions take along the visits. -/
def TakesAlong (c : Config S) : List BlockId → List Bool → Prop
  | [], _ => True
  | _ :: _, [] => False
  | id :: trace, d :: ds => d = M.decides blocks id (M.arrive blocks id c) ∧ TakesAlong (M.arrive blocks id c) trace ds

theorem takesAlong_append {c : Config S} : ∀ {x y : List BlockId} {ds : List Bool}, TakesAlong M blocks c (x ++ y) ds →
    TakesAlong M blocks c x ds ∧ TakesAlong M blocks (comesTo M blocks c x) y (ds.drop x.length)
  | [], _, _, h => ⟨trivial, h⟩
  | _ :: _, _, [], h => h.elim
  | id :: x, y, d :: ds, ⟨h1, h2⟩ => by
    have ⟨h3, h4⟩ := takesAlong_append (x := x) h2
    exact ⟨⟨h1, h3⟩, h4⟩

/-- An effect with the decisions turned into an effect on a configuration -/
def Effect.on (c : Config S) (e : Effect) : Effect.On S := ⟨e.trace, e.signal, e.rest.length, comesTo M blocks c e.trace⟩

theorem then_on {c : Config S} {ds : List Bool} {e : Effect} {eM : Effect.On S} {g : List Bool → Effect}
    {gM : Nat → Config S → Effect.On S} (hr : e.rest = ds.drop e.trace.length)
    (he : TakesAlong M blocks c e.trace ds → eM = e.on M blocks c)
    (hg : e.signal = .next → TakesAlong M blocks c e.trace ds →
      TakesAlong M blocks (comesTo M blocks c e.trace) (g e.rest).trace e.rest →
      gM e.rest.length (comesTo M blocks c e.trace) = (g e.rest).on M blocks (comesTo M blocks c e.trace))
    (ht : TakesAlong M blocks c (andThen e g).trace ds) : eM.andThen gM = (andThen e g).on M blocks c := by
  obtain ⟨tr, sig, rest⟩ := e
  cases sig
  · have hr : rest = ds.drop tr.length := hr
    obtain ⟨h1, h2⟩ := takesAlong_append M blocks (x := tr) (y := (g rest).trace) ht
    rw [← hr] at h2
    rw [he h1]
    have hg := hg rfl h1 h2
    dsimp only at hg
    simp only [Effect.On.andThen, Effect.on, andThen]
    rw [hg]
    simp only [Effect.on, comesTo, List.foldl_append]
  all_goals
    rw [he ht]
    rfl

theorem visit_on {c : Config S} (id : BlockId) (ds : List Bool) :
    M.visit blocks id ds.length c = (visit id ds).on M blocks c := by
  cases ds <;> rfl

theorem rounds_on {body : List Bool → Effect} {bodyM : Nat → Config S → Effect.On S}
    (hr : ∀ ds, (body ds).rest = ds.drop (body ds).trace.length)
    (hb : ∀ ds c, TakesAlong M blocks c (body ds).trace ds → bodyM ds.length c = (body ds).on M blocks c) :
    ∀ (k : Nat) (ds : List Bool) (c : Config S), TakesAlong M blocks c (repeatUntilBreak body k ds).trace ds →
      repeatOn bodyM k ds.length c = (repeatUntilBreak body k ds).on M blocks c
  | 0, _, _, _ => rfl
  | k + 1, ds, c, ht => by
    have ih := rounds_on hr hb k
    have h := hr ds
    have hb := hb ds c
    rw [repeatUntilBreak] at ht ⊢
    rw [repeatOn]
    generalize body ds = e at h hb ht
    obtain ⟨tr, sig, rest⟩ := e
    have h : rest = ds.drop tr.length := h
    cases sig with
    | next =>
      obtain ⟨h1, h2⟩ := takesAlong_append M blocks (x := tr) ht
      rw [← h] at h2
      rw [hb h1]
      simp only [Effect.on]
      rw [ih _ _ h2]
      simp only [Effect.on, comesTo, List.foldl_append]
    | continues =>
      obtain ⟨h1, h2⟩ := takesAlong_append M blocks (x := tr) ht
      rw [← h] at h2
      rw [hb h1]
      simp only [Effect.on]
      rw [ih _ _ h2]
      simp only [Effect.on, comesTo, List.foldl_append]
    | breaks => rw [hb ht]; rfl
    | running => rw [hb ht]; rfl

mutual
theorem exec_on : ∀ (chain : ControlFlowChain) (ds : List Bool) (c : Config S), TakesAlong M blocks c (exec chain ds).trace ds →
    execOn M blocks chain ds.length c = (exec chain ds).on M blocks c
  | .Atom id, ds, c, _ => by rw [exec, execOn]; exact visit_on M blocks id ds
  | .Block cs, ds, c, h => by
    rw [exec] at h ⊢
    rw [execOn]
    exact execAll_on cs ds c h
  | .Selection id l r hint w, ds, c, h => by
    have il := exec_on l
    have ir := exec_on r
    rw [execOn]
    cases ds with
    | nil => rfl
    | cons d ds =>
      rw [exec] at h ⊢
      refine then_on M blocks (ds := d :: ds) rfl (fun _ => rfl) ?_ h
      intro _ h1 h2
      have hd : d = M.decides blocks id (M.arrive blocks id c) := h1.1
      dsimp only at h2 ⊢
      show (if M.decides blocks id (M.arrive blocks id c) then _ else _) = _
      rw [← hd]
      cases d with
      | true => exact il ds _ h2
      | false => exact ir ds _ h2
  | .Loop id inner hint w, ds, c, h => by
    have ii := exec_on inner
    rw [exec] at h ⊢
    rw [execOn]
    refine rounds_on M blocks (fun ds => then_rest (visit_rest id ds) (exec_rest inner)) ?_ _ ds c h
    intro ds c h
    exact then_on M blocks (visit_rest id ds) (fun _ => visit_on M blocks id ds) (fun _ _ h2 => ii _ _ h2) h
  | .Break, _, _, _ => rfl
  | .Continue, _, _, _ => rfl
theorem execAll_on : ∀ (cs : List ControlFlowChain) (ds : List Bool) (c : Config S),
    TakesAlong M blocks c (execAll cs ds).trace ds → execAllOn M blocks cs ds.length c = (execAll cs ds).on M blocks c
  | [], _, _, _ => rfl
  | chain :: cs, ds, c, h => by
    have ic := exec_on chain
    have ics := execAll_on cs
    rw [execAll] at h ⊢
    rw [execAllOn]
    exact then_on M blocks (exec_rest chain ds) (fun h => ic ds c h) (fun _ _ h2 => ics _ _ h2) h
end

/-- An execution with a meaning is the execution with the decisions it takes. -/
theorem machine_run : ∀ (n : Nat) (id : BlockId) (c : Config S), ∃ ds : List Bool, ds.length = n ∧
    TakesAlong M blocks c (runBlocks blocks ds id).1 ds ∧ runMachine M blocks n id c =
      ((runBlocks blocks ds id).1, comesTo M blocks c (runBlocks blocks ds id).1, (runBlocks blocks ds id).2)
  | 0, _, _ => ⟨[], rfl, trivial, rfl⟩
  | n + 1, id, c => by
    cases hb : blockOf blocks id with
    | none =>
      refine ⟨List.replicate (n + 1) false, List.length_replicate, ?_⟩
      rw [runMachine, List.replicate_succ, runBlocks, hb]
      exact ⟨trivial, rfl⟩
    | some b =>
      have ha : M.arrive blocks id c = M.enter b c := by rw [Machine.arrive, hb]
      cases hr : b.branch with
      | OpReturn r =>
        refine ⟨M.decides blocks id (M.arrive blocks id c) :: List.replicate n false, by simp, ?_⟩
        simp only [runMachine, runBlocks, hb, hr]
        exact ⟨⟨rfl, trivial⟩, by rw [← ha]; rfl⟩
      | OpBranch op =>
        obtain ⟨ds, hl, ht, he⟩ := machine_run n ⟨op.target_label.val⟩ (M.enter b c)
        refine ⟨M.decides blocks id (M.arrive blocks id c) :: ds, by simp [hl], ?_⟩
        simp only [runMachine, runBlocks, hb, hr]
        rw [he]
        refine ⟨⟨rfl, by rw [ha]; exact ht⟩, ?_⟩
        simp only [comesTo, List.foldl_cons, ha]
      | OpBranchConditional op =>
        have hd : M.decides blocks id (M.arrive blocks id c) = M.holds op.condition (M.enter b c).state := by
          rw [Machine.decides, hb, ha]
          simp only [hr]
        obtain ⟨ds, hl, ht, he⟩ := machine_run n
          ⟨if M.holds op.condition (M.enter b c).state then op.true_label.val else op.false_label.val⟩ (M.enter b c)
        refine ⟨M.decides blocks id (M.arrive blocks id c) :: ds, by simp [hl], ?_⟩
        simp only [runMachine, runBlocks, hb, hr, hd]
        rw [he]
        refine ⟨⟨hd.symm, by rw [ha]; exact ht⟩, ?_⟩
        simp only [comesTo, List.foldl_cons, ha]
end

end Magma.Spec
