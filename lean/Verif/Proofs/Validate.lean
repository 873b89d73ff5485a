import Verif.Model.Parser
import Verif.Spec.Layout
/-! The phases of the validator on a list that is split at the cursor. -/

namespace Magma
variable {X : Type}

/-- The cursor between `pre` and `r` -/
def cur (pre r : List (OpByBlock X)) : OpSlice X := ⟨pre ++ r, pre.length⟩

@[simp] theorem cur_first_nil (pre : List (OpByBlock X)) : (cur pre []).first = none := by
  simp [cur, OpSlice.first]

@[simp] theorem cur_first_cons (pre r : List (OpByBlock X)) (x : OpByBlock X) :
    (cur pre (x :: r)).first = some x := by
  simp [cur, OpSlice.first]

theorem cur_first (pre r : List (OpByBlock X)) : (cur pre r).first = r.head? := by
  cases r <;> simp

@[simp] theorem cur_advance (pre r : List (OpByBlock X)) (x : OpByBlock X) :
    (cur pre (x :: r)).advance = .ok (cur (pre ++ [x]) r) := by
  simp [cur, OpSlice.advance]

@[simp] theorem cur_slot (pre r : List (OpByBlock X)) : (cur pre r).getSlot = pre.length := rfl

@[simp] theorem cur_remaining (pre r : List (OpByBlock X)) :
    (cur pre r).getRemaining = .ok r.length := by
  simp [cur, OpSlice.getRemaining]

@[simp] theorem cur_len (pre r : List (OpByBlock X)) : (cur pre r).insts.length = pre.length + r.length := by
  simp [cur]

theorem vok_bind {α β : Type} (a : α) (f : α → V β) : (Except.ok a >>= f) = f a := rfl

/-! ### Repetition -/

/-- `f` consumes the instructions `emb t` to return `t`. -/
structure Hits {T : Type} (f : OpSlice X → V (PhaseResult X T)) (emb : T → List (OpByBlock X)) : Prop where
  hit : ∀ t pre r, f (cur pre (emb t ++ r)) = .ok (.ok t (cur (pre ++ emb t) r))
  nonempty : ∀ t, emb t ≠ []

theorem Hits.readRest {T : Type} {f : OpSlice X → V (PhaseResult X T)} {emb : T → List (OpByBlock X)}
    (h : Hits f emb) : ∀ (ts : List T) (fuel : Nat) (pre r : List (OpByBlock X)) (out : List T),
    ts.length < fuel →
    readRest f fuel (cur pre (ts.flatMap emb ++ r)) out =
      readRest f (fuel - ts.length) (cur (pre ++ ts.flatMap emb) r) (ts.reverse ++ out)
  | [], fuel, pre, r, out, _ => by simp
  | t :: ts, fuel + 1, pre, r, out, hf => by
    simp only [List.length_cons] at hf
    rw [List.flatMap_cons, List.append_assoc]
    conv => lhs; rw [Magma.readRest]
    rw [h.hit]
    simp only [vok_bind]
    rw [h.readRest ts fuel _ r (t :: out) (by omega)]
    simp [List.append_assoc]

theorem length_le_flatMap {α β : Type} {f : α → List β} (h : ∀ a, f a ≠ []) (l : List α) :
    l.length ≤ (l.flatMap f).length := by
  induction l with
  | nil => simp
  | cons a l ih =>
    have := List.length_pos_iff.mpr (h a)
    simp only [List.flatMap_cons, List.length_append, List.length_cons]
    omega

theorem Hits.readMany_next {T : Type} {f : OpSlice X → V (PhaseResult X T)}
    {emb : T → List (OpByBlock X)} (h : Hits f emb) (ts : List T) (pre r : List (OpByBlock X))
    {s : OpSlice X} (hn : f (cur (pre ++ ts.flatMap emb) r) = .ok (.next s)) :
    readMany (cur pre (ts.flatMap emb ++ r)) f = .ok (ts, s) := by
  have hl := length_le_flatMap h.nonempty ts
  have hlen := cur_len pre (ts.flatMap emb ++ r)
  rw [List.length_append] at hlen
  unfold readMany
  rw [h.readRest ts _ pre r [] (by omega)]
  obtain ⟨k, hk⟩ : ∃ k, (cur pre (ts.flatMap emb ++ r)).insts.length + 1 - ts.length = k + 1 :=
    ⟨(cur pre (ts.flatMap emb ++ r)).insts.length - ts.length, by omega⟩
  rw [hk, Magma.readRest, hn]
  simp only [vok_bind]
  simp

theorem Hits.readMany_err {T : Type} {f : OpSlice X → V (PhaseResult X T)}
    {emb : T → List (OpByBlock X)} (h : Hits f emb) (ts : List T) (pre r : List (OpByBlock X))
    {e : ValidationError} (hn : f (cur (pre ++ ts.flatMap emb) r) = .ok (.err e)) :
    readMany (cur pre (ts.flatMap emb ++ r)) f = .error (.err e) := by
  have hl := length_le_flatMap h.nonempty ts
  have hlen := cur_len pre (ts.flatMap emb ++ r)
  rw [List.length_append] at hlen
  unfold readMany
  rw [h.readRest ts _ pre r [] (by omega)]
  obtain ⟨k, hk⟩ : ∃ k, (cur pre (ts.flatMap emb ++ r)).insts.length + 1 - ts.length = k + 1 :=
    ⟨(cur pre (ts.flatMap emb ++ r)).insts.length - ts.length, by omega⟩
  rw [hk, Magma.readRest, hn]
  simp only [vok_bind]

theorem Hits.readMany_error {T : Type} {f : OpSlice X → V (PhaseResult X T)}
    {emb : T → List (OpByBlock X)} (h : Hits f emb) (ts : List T) (pre r : List (OpByBlock X))
    {e : Fault ValidationError} (hn : f (cur (pre ++ ts.flatMap emb) r) = .error e) :
    readMany (cur pre (ts.flatMap emb ++ r)) f = .error e := by
  have hl := length_le_flatMap h.nonempty ts
  have hlen := cur_len pre (ts.flatMap emb ++ r)
  rw [List.length_append] at hlen
  unfold readMany
  rw [h.readRest ts _ pre r [] (by omega)]
  obtain ⟨k, hk⟩ : ∃ k, (cur pre (ts.flatMap emb ++ r)).insts.length + 1 - ts.length = k + 1 :=
    ⟨(cur pre (ts.flatMap emb ++ r)).insts.length - ts.length, by omega⟩
  rw [hk, Magma.readRest, hn]
  rfl

/-- No item starts at the head of `r`. -/
def NoItem {T : Type} (emb : T → List (OpByBlock X)) (r : List (OpByBlock X)) : Prop :=
  ∀ t r', r ≠ emb t ++ r'

theorem split_items {T : Type} (emb : T → List (OpByBlock X)) (hne : ∀ t, emb t ≠ []) :
    ∀ (n : Nat) (r : List (OpByBlock X)), r.length ≤ n →
      ∃ (ts : List T) (r' : List (OpByBlock X)), r = ts.flatMap emb ++ r' ∧ NoItem emb r'
  | n, r, hn => by
    by_cases h : NoItem emb r
    · exact ⟨[], r, rfl, h⟩
    · simp only [NoItem, ne_eq, Classical.not_forall, Classical.not_not] at h
      obtain ⟨t, r1, rfl⟩ := h
      have := List.length_pos_iff.mpr (hne t)
      rw [List.length_append] at hn
      match n, hn with
      | 0, hn => omega
      | n + 1, hn =>
        obtain ⟨ts, r', rfl, h⟩ := split_items emb hne n r1 (by omega)
        exact ⟨t :: ts, r', by simp, h⟩

/-! ### Phases that read one instruction at a time -/

/-- `r` does not start with an instruction of the kind. -/
def NotHead {T : Type} (emb : T → OpByBlock X) (r : List (OpByBlock X)) : Prop :=
  ∀ t, r.head? ≠ some (emb t)

structure Simple {T : Type} (f : OpSlice X → V (PhaseResult X T)) (emb : T → OpByBlock X) : Prop where
  hit : ∀ t pre r, f (cur pre (emb t :: r)) = .ok (.ok t (cur (pre ++ [emb t]) r))
  miss : ∀ pre r, NotHead emb r → f (cur pre r) = .ok (.next (cur pre r))

theorem Simple.hits {T : Type} {f : OpSlice X → V (PhaseResult X T)} {emb : T → OpByBlock X}
    (h : Simple f emb) : Hits f (fun t => [emb t]) :=
  ⟨h.hit, by simp⟩

theorem flatMap_single {α β : Type} (f : α → β) (l : List α) : l.flatMap (fun a => [f a]) = l.map f := by
  induction l with
  | nil => rfl
  | cons a l ih => simp [ih]

theorem Simple.readMany {T : Type} {f : OpSlice X → V (PhaseResult X T)} {emb : T → OpByBlock X}
    (h : Simple f emb) (ts : List T) (pre r : List (OpByBlock X)) (hn : NotHead emb r) :
    readMany (cur pre (ts.map emb ++ r)) f = .ok (ts, cur (pre ++ ts.map emb) r) := by
  have := h.hits.readMany_next ts pre r (h.miss _ _ hn)
  rwa [flatMap_single] at this

theorem split_kind {T : Type} (emb : T → OpByBlock X) (r : List (OpByBlock X)) :
    ∃ (ts : List T) (r' : List (OpByBlock X)), r = ts.map emb ++ r' ∧ NotHead emb r' := by
  obtain ⟨ts, r', h1, h2⟩ := split_items (fun t => [emb t]) (by simp) r.length r (Nat.le_refl _)
  refine ⟨ts, r', by rw [h1, flatMap_single], ?_⟩
  intro t ht
  cases r' with
  | nil => simp at ht
  | cons x r' =>
    simp only [List.head?_cons, Option.some.injEq] at ht
    exact h2 t r' (by simp [ht])

theorem notHead_nil {T : Type} (emb : T → OpByBlock X) : NotHead emb [] := by
  intro t; simp

theorem notHead_cons {T : Type} {emb : T → OpByBlock X} {x : OpByBlock X} {r : List (OpByBlock X)} :
    NotHead emb (x :: r) ↔ ∀ t, x ≠ emb t := by
  simp [NotHead]

/-- Close `Simple` for a phase given by a `match` on the first instruction. -/
macro "simple_phase" f:ident : tactic => `(tactic| (
  constructor
  · intro t pre r
    simp [$f:ident, vok_bind]
    try rfl
  · intro pre r hn
    cases r with
    | nil => simp [$f:ident]; try rfl
    | cons x r =>
      rw [notHead_cons] at hn
      cases x <;> first
        | exact absurd rfl (hn _)
        | (simp only [$f:ident, cur_first_cons]; rfl)))

theorem simple_capability : Simple (X := X) readCapability (fun c => .OpCapability { capability := c }) := by
  simple_phase readCapability
theorem simple_extension : Simple (X := X) readExtension (fun n => .OpExtension { name := n }) := by
  simple_phase readExtension
theorem simple_extInstImport : Simple (X := X) readExtInstImport .OpExtInstImport := by
  simple_phase readExtInstImport
theorem simple_entryPoint : Simple (X := X) readEntryPoint .OpEntryPoint := by
  simple_phase readEntryPoint
theorem simple_executionMode : Simple (X := X) readExecutionMode .OpExecutionMode := by
  simple_phase readExecutionMode
theorem simple_debug : Simple (X := X) readDebug .GroupDebug := by
  simple_phase readDebug
theorem simple_annotation : Simple (X := X) readAnnotation .GroupAnnotation := by
  simple_phase readAnnotation
theorem simple_global : Simple (X := X) readGlobal .GroupGlobal := by
  simple_phase readGlobal
theorem simple_parameter : Simple (X := X) readFunctionParameter .OpFunctionParameter := by
  simple_phase readFunctionParameter
theorem simple_code : Simple (X := X) readCode .GroupCode := by
  simple_phase readCode

end Magma
