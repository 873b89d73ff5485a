import Verif.Proofs.ControlFlow
import Verif.Spec.Execution
/-! Executions of recovered chains are executions of the blocks. -/

namespace Magma
open Spec
variable {X : Type}

theorem andThen_assoc (e : Effect) (f g : List Bool → Effect) :
    andThen (andThen e f) g = andThen e (fun ds => andThen (f ds) g) := by
  obtain ⟨t, s, r⟩ := e
  cases s <;> simp only [andThen]
  cases h : (f r).signal <;> simp [h]

theorem andThen_id (e : Effect) : andThen e (fun ds => ⟨[], .next, ds⟩) = e := by
  obtain ⟨t, s, r⟩ := e
  cases s <;> simp [andThen]

theorem execAll_append (as bs : List ControlFlowChain) (ds : List Bool) :
    execAll (as ++ bs) ds = andThen (execAll as ds) (execAll bs) := by
  induction as generalizing ds with
  | nil => simp [execAll, andThen]
  | cons a as ih =>
    simp only [List.cons_append, execAll, andThen_assoc]
    congr 1
    funext ds'
    exact ih ds'

theorem execAll_mergeAll (cs : List ControlFlowChain) (ds : List Bool) :
    execAll (ControlFlowChain.mergeAll cs) ds = execAll cs ds := by
  induction cs generalizing ds with
  | nil => rfl
  | cons c cs ih =>
    have ih' : execAll (ControlFlowChain.mergeAll cs) = execAll cs := funext ih
    cases c <;> simp only [ControlFlowChain.mergeAll, execAll, execAll_append, exec, ih'] <;> rfl

theorem exec_block2 (a b : ControlFlowChain) (ds : List Bool) :
    exec (.block [a, b]) ds = andThen (exec a ds) (exec b) := by
  simp only [ControlFlowChain.block, exec, execAll_mergeAll, execAll]
  congr 1
  funext ds'
  exact andThen_id _

/-- What is left to do after a chain -/
def Sim (blocks : List (BasicBlock X)) (fl : FlowList) (n : Continue) (ds : List Bool) (id : BlockId)
    (e : Effect) : Prop :=
  e.rest.length ≤ ds.length ∧
  match e.signal with
  | .running => runBlocks blocks ds id = (e.trace, .running)
  | .next =>
    match n with
    | .Return => runBlocks blocks ds id = (e.trace, .returned)
    | .Next t => runBlocks blocks ds id =
        (e.trace ++ (runBlocks blocks e.rest t).1, (runBlocks blocks e.rest t).2)
  | .breaks => ∃ h m, fl.innermostLoop = some (h, m) ∧ runBlocks blocks ds id =
        (e.trace ++ (runBlocks blocks e.rest m).1, (runBlocks blocks e.rest m).2)
  | .continues => ∃ h m, fl.innermostLoop = some (h, m) ∧ runBlocks blocks ds id =
        (e.trace ++ (runBlocks blocks e.rest h).1, (runBlocks blocks e.rest h).2)

theorem Sim.andThen {blocks : List (BasicBlock X)} {fl fl' : FlowList} {n : Continue} {ds : List Bool}
    {id t : BlockId} {e : Effect} {f : List Bool → Effect}
    (hfl : fl'.innermostLoop = fl.innermostLoop)
    (h1 : Sim blocks fl' (.Next t) ds id e) (h2 : ∀ ds, Sim blocks fl n ds t (f ds)) :
    Sim blocks fl n ds id (Spec.andThen e f) := by
  obtain ⟨tr, s, r⟩ := e
  obtain ⟨hl, h1⟩ := h1
  cases s with
  | running => exact ⟨hl, h1⟩
  | breaks => refine ⟨hl, ?_⟩; rw [← hfl]; exact h1
  | continues => refine ⟨hl, ?_⟩; rw [← hfl]; exact h1
  | next =>
    simp only at h1 hl
    obtain ⟨hl2, h2⟩ := h2 r
    simp only [Spec.andThen]
    refine ⟨Nat.le_trans hl2 hl, ?_⟩
    cases hs : (f r).signal with
    | running => simp only [hs] at h2 ⊢; rw [h1, h2]
    | next =>
      cases n with
      | Return => simp only [hs] at h2 ⊢; rw [h1, h2]
      | Next t' => simp only [hs] at h2 ⊢; rw [h1, h2]; simp
    | breaks =>
      simp only [hs] at h2 ⊢
      obtain ⟨h, m, he, h2⟩ := h2
      exact ⟨h, m, he, by rw [h1, h2]; simp⟩
    | continues =>
      simp only [hs] at h2 ⊢
      obtain ⟨h, m, he, h2⟩ := h2
      exact ⟨h, m, he, by rw [h1, h2]; simp⟩

/-- Visiting a block before going on at `t` -/
theorem Sim.cons {blocks : List (BasicBlock X)} {fl : FlowList} {n : Continue} {ds : List Bool}
    {id t : BlockId} {e : Effect} {d : Bool} (h : Sim blocks fl n ds t e)
    (hr : runBlocks blocks (d :: ds) id = (id :: (runBlocks blocks ds t).1, (runBlocks blocks ds t).2)) :
    Sim blocks fl n (d :: ds) id (Spec.andThen ⟨[id], .next, ds⟩ (fun _ => e)) := by
  obtain ⟨tr, s, r⟩ := e
  obtain ⟨hl, h⟩ := h
  simp only at hl h
  simp only [Spec.andThen]
  refine ⟨by simp; omega, ?_⟩
  cases s with
  | running => simp only at h ⊢; rw [hr, h]; rfl
  | next =>
    cases n with
    | Return => simp only at h ⊢; rw [hr, h]; rfl
    | Next t' => simp only at h ⊢; rw [hr, h]; rfl
  | breaks =>
    obtain ⟨h', m, he, h⟩ := h
    exact ⟨h', m, he, by rw [hr, h]; rfl⟩
  | continues =>
    obtain ⟨h', m, he, h⟩ := h
    exact ⟨h', m, he, by rw [hr, h]; rfl⟩

theorem sim_loop {blocks : List (BasicBlock X)} {fl : FlowList} {id t after : BlockId}
    {hint : LoopControl} {body round : List Bool → Effect}
    (hnil : round [] = ⟨[], .running, []⟩)
    (hcons : ∀ d ds, round (d :: ds) = ⟨id :: (body ds).trace, (body ds).signal, (body ds).rest⟩)
    (hr : ∀ d ds, runBlocks blocks (d :: ds) id =
      (id :: (runBlocks blocks ds t).1, (runBlocks blocks ds t).2))
    (hb : ∀ ds, Sim blocks (.Loop id after hint :: fl) (.Next id) ds t (body ds)) :
    ∀ k ds, ds.length < k →
      Sim blocks fl (.Next after) ds id
        (repeatUntilBreak round k ds) := by
  intro k
  induction k with
  | zero => intro ds h; omega
  | succ k ih =>
    intro ds hk
    cases ds with
    | nil =>
      simp only [repeatUntilBreak, hnil]
      exact ⟨by simp, rfl⟩
    | cons d ds =>
      have hbody := hb ds
      simp only [repeatUntilBreak, hcons]
      generalize body ds = e at hbody
      obtain ⟨tr, s, r⟩ := e
      obtain ⟨hl, hbody⟩ := hbody
      simp only [List.length_cons] at hk
      have hd := hr d ds
      cases s with
      | running =>
        simp only at hl hbody ⊢
        refine ⟨by simp; omega, ?_⟩
        simp only
        rw [hd, hbody]
      | breaks =>
        simp only at hl hbody ⊢
        obtain ⟨h', m, he, hbody⟩ := hbody
        simp only [FlowList.innermostLoop, Option.some.injEq, Prod.mk.injEq] at he
        obtain ⟨rfl, rfl⟩ := he
        refine ⟨by simp; omega, ?_⟩
        simp only
        rw [hd, hbody]; rfl
      | next =>
        simp only at hl hbody ⊢
        obtain ⟨hl2, ih⟩ := ih r (by omega)
        refine ⟨by simp only [List.length_cons]; omega, ?_⟩
        generalize repeatUntilBreak _ k r = e' at ih hl2
        obtain ⟨tr', s', r'⟩ := e'
        cases s' with
        | running => simp only at ih ⊢; rw [hd, hbody, ih]; simp
        | next => simp only at ih ⊢; rw [hd, hbody, ih]; simp
        | breaks => obtain ⟨h', m, he, ih⟩ := ih; exact ⟨h', m, he, by rw [hd, hbody, ih]; simp⟩
        | continues => obtain ⟨h', m, he, ih⟩ := ih; exact ⟨h', m, he, by rw [hd, hbody, ih]; simp⟩
      | continues =>
        simp only at hl hbody ⊢
        obtain ⟨h', m, he, hbody⟩ := hbody
        simp only [FlowList.innermostLoop, Option.some.injEq, Prod.mk.injEq] at he
        obtain ⟨rfl, rfl⟩ := he
        obtain ⟨hl2, ih⟩ := ih r (by omega)
        refine ⟨by simp only [List.length_cons]; omega, ?_⟩
        generalize repeatUntilBreak _ k r = e' at ih hl2
        obtain ⟨tr', s', r'⟩ := e'
        cases s' with
        | running => simp only at ih ⊢; rw [hd, hbody, ih]; simp
        | next => simp only at ih ⊢; rw [hd, hbody, ih]; simp
        | breaks => obtain ⟨h', m, he, ih⟩ := ih; exact ⟨h', m, he, by rw [hd, hbody, ih]; simp⟩
        | continues => obtain ⟨h', m, he, ih⟩ := ih; exact ⟨h', m, he, by rw [hd, hbody, ih]; simp⟩

theorem sim_empty {blocks : List (BasicBlock X)} {fl : FlowList} {n : Continue} {id : BlockId} :
    Sim blocks fl n [] id ⟨[], .running, []⟩ := ⟨by simp, rfl⟩

theorem sim {blocks : List (BasicBlock X)} {get : BlockId → Option (BasicBlock X)}
    (hget : ∀ id, get id = blockOf blocks id) {id : BlockId} {fl : FlowList} {c : ControlFlowChain}
    {n : Continue} (h : Found get id fl c n) : ∀ ds, Sim blocks fl n ds id (exec c ds) := by
  induction h with
  | merged hm => intro ds; exact ⟨by simp [exec, execAll], by simp [exec, execAll]⟩
  | @ret id fl b r hm hg hb =>
    intro ds
    rw [hget] at hg
    cases ds with
    | nil => exact sim_empty
    | cons d ds =>
      refine ⟨by simp [exec, visit], ?_⟩
      simp only [exec, visit, runBlocks, hg, hb]
  | @branch id fl b op c n hm hg hb hmg _ ih =>
    intro ds
    rw [hget] at hg
    rw [exec_block2]
    cases ds with
    | nil => exact sim_empty
    | cons d ds =>
      have := (ih ds).cons (d := d) (id := id) (by simp only [runBlocks, hg, hb])
      exact this
  | @loop id fl b op lm c c2 n hm hg hb hmg _ _ ih1 ih2 =>
    intro ds
    rw [hget] at hg
    rw [exec_block2]
    refine Sim.andThen rfl (t := ⟨lm.merge_block.val⟩) (fl' := fl) ?_ ih2
    rw [exec]
    exact sim_loop (body := exec c)
      (round := fun ds => Spec.andThen (visit id ds) (fun ds => exec c ds)) (t := ⟨op.target_label.val⟩) (hint := lm.loop_control) rfl
      (fun _ _ => rfl) (by intro d ds; simp only [runBlocks, hg, hb]) ih1 (ds.length + 1) ds (by omega)
  | @sel id fl b op sm c1 c2 c3 n hm hg hb hmg _ _ _ ih1 ih2 ih3 =>
    intro ds
    rw [hget] at hg
    rw [exec_block2]
    refine Sim.andThen (fl' := .If ⟨sm.merge_block.val⟩ sm.selection_control :: fl) rfl
      (t := ⟨sm.merge_block.val⟩) ?_ ih3
    cases ds with
    | nil => exact sim_empty
    | cons d ds =>
      cases d with
      | true => exact (ih1 ds).cons (by simp only [runBlocks, hg, hb, if_true])
      | false => exact (ih2 ds).cons (by simp only [runBlocks, hg, hb]; rfl)
  | @exit id fl b op head merge c hm hg hb hmg hi hbr _ ih =>
    intro ds
    rw [hget] at hg
    cases ds with
    | nil => exact sim_empty
    | cons d ds =>
      cases d with
      | true => exact (ih ds).cons (by simp only [runBlocks, hg, hb, if_true])
      | false =>
        refine Sim.cons (t := ⟨op.false_label.val⟩) (e := exec (if (⟨op.false_label.val⟩ : BlockId) = merge
          then .Break else .Continue) ds) ?_ (by simp only [runBlocks, hg, hb]; rfl)
        by_cases h : (⟨op.false_label.val⟩ : BlockId) = merge
        · rw [if_pos h]
          exact ⟨by simp [exec], head, merge, hi, by simp [exec, h]⟩
        · rw [if_neg h]
          have h := hbr.resolve_left h
          exact ⟨by simp [exec], head, merge, hi, by simp [exec, h]⟩

end Magma
