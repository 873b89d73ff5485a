import Verif.Proofs.Automaton
import Verif.Props.Samples
/-! C59: the outcome of validation for every module. -/

namespace Magma.Props
open Spec
variable {X : Type}

/-- C59: a module is accepted iff a finite automaton reads it, and the error is given by where and in which state
the automaton stops. Validation never panics. -/
theorem C59_automaton (raw : RawModule X) :
    (validate raw).map (fun _ => ()) = match verdict (raw.instructions.map role) with
      | none => .ok ()
      | some e => .error (.err e) :=
  validate_verdict raw

/-- C59: the index an error carries is the length of the longest prefix of the module that can be completed to
one that is accepted. The exception is a module that ends with `OpFunction`: it can be completed. -/
theorem C59_longest {raw : RawModule X} {e : ValidationError} {i : Nat} (h : validate raw = .error (.err e))
    (hi : errorIndex e = some i) :
    i ≤ raw.instructions.length ∧ Viable raw i ∧
      ((∀ j, i < j → j ≤ raw.instructions.length → ¬ Viable raw j) ∨
        (e = .UnexpectedInstruction i ∧ raw.instructions.length = i + 1 ∧
          (raw.instructions.map role)[i]? = some .function ∧ Viable raw (i + 1))) := by
  rw [rejected_iff] at h
  obtain ⟨n, s, h1, h2, h3, h4⟩ := scan_spec (.before 0) 0 (raw.instructions.map role)
  rw [List.length_map] at h1
  rw [verdict, h3, Nat.zero_add] at h
  have plain (e' : i = n) : i ≤ raw.instructions.length ∧ Viable raw i ∧
      ((∀ j, i < j → j ≤ raw.instructions.length → ¬ Viable raw j) ∨
        (e = .UnexpectedInstruction i ∧ raw.instructions.length = i + 1 ∧
          (raw.instructions.map role)[i]? = some .function ∧ Viable raw (i + 1))) := by
    subst e'
    exact ⟨h1, (viable_iff raw i).mpr ⟨s, h2⟩, .inl (fun j hj hl => not_viable hj hl h2 h4)⟩
  cases s with
  | before k => cases h; cases hi
  | after k =>
    cases hd : (raw.instructions.map role).drop n with
    | nil => rw [hd] at h; cases h
    | cons a l =>
      rw [hd] at h
      cases l <;> (cases h; cases hi; exact plain rfl)
  | opened =>
    cases hd : (raw.instructions.map role).drop n with
    | cons a l => rw [hd] at h; cases h; cases hi; exact plain rfl
    | nil =>
      rw [hd] at h
      cases h
      cases hi
      have hl := List.drop_eq_nil_iff.mp hd
      rw [List.length_map] at hl
      have hl : n = raw.instructions.length := by omega
      rw [List.take_of_length_le (by rw [List.length_map]; omega)] at h2
      obtain ⟨r, t, e1, e2⟩ := steps_opened h2
      have hlen : raw.instructions.length = r.length + 1 := by
        rw [← List.length_map (f := role), e1, List.length_append]; rfl
      rw [hl, hlen, Nat.add_sub_cancel]
      refine ⟨by omega, (viable_iff raw _).mpr ⟨t, ?_⟩, .inr ⟨rfl, rfl, ?_, (viable_iff raw _).mpr ⟨.opened, ?_⟩⟩⟩
      · rw [e1, List.take_left']
        · exact e2
        · rfl
      · rw [e1, List.getElem?_append_right (Nat.le_refl _), Nat.sub_self]; rfl
      · rw [List.take_of_length_le (by rw [List.length_map]; omega)]; exact h2
  | parameters => cases h; cases hi; exact plain rfl
  | block => cases h; cases hi; exact plain rfl
  | merged => cases h; cases hi; exact plain rfl
  | between => cases h; cases hi; exact plain rfl

/-- C59: an error found before the end of a module is found whatever follows, apart from one: with a single
instruction left over it is called unexpected, with more `OpFunction` is expected in its place. -/
theorem C59_local {raw : RawModule X} {e : ValidationError} {i : Nat} (h : validate raw = .error (.err e))
    (hi : errorIndex e = some i) (hv : ¬ Viable raw raw.instructions.length) (more : List (Core X)) (hm : more ≠ []) :
    validate { raw with instructions := raw.instructions ++ more } =
      .error (.err (if e = .UnexpectedInstruction i then .ExpectedOpFunction i else e)) := by
  rw [rejected_iff] at h ⊢
  obtain ⟨n, s, h1, h2, h3, h4⟩ := scan_spec (.before 0) 0 (raw.instructions.map role)
  have hn : n < (raw.instructions.map role).length := by
    by_contra hn
    refine hv ((viable_iff raw _).mpr ⟨s, ?_⟩)
    rw [← List.length_map (f := role), List.take_length]
    rwa [List.take_of_length_le (by omega)] at h2
  have e' : raw.instructions.map role = (raw.instructions.map role).take n ++ (raw.instructions.map role).drop n :=
    (List.take_append_drop _ _).symm
  have hl : 0 + ((raw.instructions.map role).take n).length = 0 + n := by rw [List.length_take]; omega
  cases hd : (raw.instructions.map role).drop n with
  | nil => exact absurd (List.drop_eq_nil_iff.mp hd) (by omega)
  | cons a l =>
    rw [hd] at h3 h4 e'
    have h5 : Reading.scan (.before 0) 0 ((raw.instructions ++ more).map role) = (s, 0 + n, a :: (l ++ more.map role)) := by
      rw [List.map_append]
      conv => lhs; rw [e']
      rw [List.append_assoc, Reading.scan_append _ _ h2, hl, List.cons_append]
      exact Reading.scan_stuck (fun r hr => by cases hr; exact h4 a rfl)
    rw [verdict, h3] at h
    rw [verdict, h5]
    obtain ⟨x, xs, rfl⟩ := List.exists_cons_of_ne_nil hm
    cases s with
    | before k => cases h; cases hi
    | after k =>
      cases l with
      | nil => cases h; cases hi; rw [if_pos rfl]; rfl
      | cons b l => cases h; cases hi; rw [if_neg (fun h => by cases h)]; rfl
    | opened => cases h; cases hi; rw [if_neg (fun h => by cases h)]
    | parameters => cases h; cases hi; rw [if_neg (fun h => by cases h)]
    | block => cases h; cases hi; rw [if_neg (fun h => by cases h)]
    | merged => cases h; cases hi; rw [if_neg (fun h => by cases h)]
    | between => cases h; cases hi; rw [if_neg (fun h => by cases h)]

/-- The start of a module with something in every section -/
def startOf (n : Nat) : RawModule Empty := { Samples.logicalRaw with instructions := Samples.logicalRaw.instructions.take n }

/-- Each outcome, predicted -/
example : verdict (Samples.logicalRaw.instructions.map role) = none := by rfl
example : verdict ((startOf 11).instructions.map role) = none := by rfl
example : verdict ((startOf 4).instructions.map role) = some .MemoryModelMissing := by rfl
example : verdict ((startOf 12).instructions.map role) = some (.UnexpectedInstruction 11) := by rfl
example : verdict ((startOf 13).instructions.map role) = some (.ExpectedOpFunctionEnd 13) := by rfl
example : verdict ((startOf 18).instructions.map role) = some (.ExpectedBranch 18) := by rfl
example : verdict (((startOf 11).instructions ++ [Core.OpCapability ⟨.Shader⟩, Core.OpNop {}]).map role) =
    some (.ExpectedOpFunction 11) := by rfl
/-- and found -/
example : validate (startOf 4) = .error (.err .MemoryModelMissing) := by rfl
example : validate (startOf 12) = .error (.err (.UnexpectedInstruction 11)) := by rfl
example : validate (startOf 13) = .error (.err (.ExpectedOpFunctionEnd 13)) := by rfl
example : validate (startOf 18) = .error (.err (.ExpectedBranch 18)) := by rfl

/-- The exception of `C59_longest`, and a case of the rule -/
example : errorIndex (.UnexpectedInstruction 11) = some 11 ∧ Viable (startOf 12) 12 :=
  ⟨rfl, [.OpFunctionEnd {}], _, rfl⟩
example : validate { startOf 11 with instructions := (startOf 11).instructions ++ [.OpCapability ⟨.Shader⟩] } =
    .error (.err (.UnexpectedInstruction 11)) := by rfl
/-- The hypotheses of `C59_local` -/
example : ¬ Viable { startOf 11 with instructions := (startOf 11).instructions ++ [.OpCapability ⟨.Shader⟩] } 12 := by
  rw [viable_iff]
  rintro ⟨s, h⟩
  cases h
example : validate { startOf 11 with instructions := (startOf 11).instructions ++ [.OpCapability ⟨.Shader⟩] ++ [.OpNop {}] } =
    .error (.err (.ExpectedOpFunction 11)) := by rfl

end Magma.Props
