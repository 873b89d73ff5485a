import Verif.Model.ExtInst
/-! C42: equality and cloning of boxed extended instructions. -/

namespace Magma.Props

/-- What is expected of the types outside of this crate, `same` being their own equality: `as_any` is the
value itself, `eq` is false for values of other types, and clones are equal. -/
structure Faithful (o : Others) (same : ∀ i, o.Carrier i → o.Carrier i → Prop) : Prop where
  equivalence : ∀ i, Equivalence (same i)
  asAny : ∀ i a, o.asAny i a = (.other i a)
  eq : ∀ i a b, o.eq i a b = true ↔ ∃ a', b = (.other i a') ∧ same i a a'
  clone : ∀ i a, same i a (o.clone i a)

theorem derivedEq_iff (a b : Glsl.Inst) : a.derivedEq b = true ↔ a = b := by
  rcases a with ⟨⟨⟨x⟩⟩⟩ | ⟨⟨⟨x⟩⟩⟩ <;> rcases b with ⟨⟨⟨y⟩⟩⟩ | ⟨⟨⟨y⟩⟩⟩ <;> simp [Glsl.Inst.derivedEq]

/-- C42: boxed instructions of the GLSL set are equal exactly if they are the same instruction, whatever
other sets there are. -/
theorem C42_glsl (o : Others) (a b : Glsl.Inst) : o.boxEq (.glsl a) (.glsl b) = true ↔ a = b :=
  derivedEq_iff a b

/-- C42: a clone of an instruction of the GLSL set is the same instruction. -/
theorem C42_glsl_clone (o : Others) (a : Glsl.Inst) : o.boxClone (.glsl a) = .glsl a := by
  rcases a with ⟨⟨⟨x⟩⟩⟩ | ⟨⟨⟨x⟩⟩⟩ <;> rfl

/-- Equality of boxed instructions, characterised -/
theorem boxEq_iff {o : Others} {same : ∀ i, o.Carrier i → o.Carrier i → Prop} (h : Faithful o same) (a b : o.Box) :
    o.boxEq a b = true ↔ (∃ x, a = (.glsl x) ∧ b = (.glsl x)) ∨
      ∃ i x y, a = (.other i x) ∧ b = (.other i y) ∧ same i x y := by
  cases a with
  | glsl a =>
    cases b with
    | glsl b =>
      rw [C42_glsl]
      constructor
      · rintro rfl
        exact .inl ⟨a, rfl, rfl⟩
      · rintro (⟨x, hx, hy⟩ | ⟨i, x, y, hx, -⟩)
        · cases hx; cases hy; rfl
        · cases hx
    | other j b =>
      constructor
      · intro hh
        rw [Others.boxEq, Others.glslEq, Others.asAnyOf, h.asAny, Others.downcastInst] at hh
        cases hh
      · rintro (⟨x, hx, hy⟩ | ⟨i, x, y, hx, -⟩)
        · cases hy
        · cases hx
  | other i a =>
    rw [Others.boxEq, h.eq]
    constructor
    · rintro ⟨a', rfl, hs⟩
      exact .inr ⟨i, a, a', rfl, rfl, hs⟩
    · rintro (⟨x, hx, hy⟩ | ⟨i, x, y, hx, hy, hs⟩)
      · cases hx
      · cases hx; exact ⟨y, hy, hs⟩

/-- C42: equality of boxed instructions is an equivalence relation. -/
theorem C42_equivalence {o : Others} {same : ∀ i, o.Carrier i → o.Carrier i → Prop} (h : Faithful o same) :
    Equivalence (fun a b : o.Box => o.boxEq a b = true) where
  refl a := by
    rw [boxEq_iff h]
    cases a with
    | glsl a => exact .inl ⟨a, rfl, rfl⟩
    | other i a => exact .inr ⟨i, a, a, rfl, rfl, (h.equivalence i).refl a⟩
  symm {a b} hab := by
    rw [boxEq_iff h] at hab ⊢
    rcases hab with ⟨x, rfl, rfl⟩ | ⟨i, x, y, rfl, rfl, hs⟩
    · exact .inl ⟨x, rfl, rfl⟩
    · exact .inr ⟨i, y, x, rfl, rfl, (h.equivalence i).symm hs⟩
  trans {a b c} hab hbc := by
    rw [boxEq_iff h] at hab hbc ⊢
    rcases hab with ⟨x, rfl, rfl⟩ | ⟨i, x, y, rfl, rfl, hs⟩
    · rcases hbc with ⟨x', hx, rfl⟩ | ⟨i, x', y, hx, -⟩
      · cases hx; exact .inl ⟨x, rfl, rfl⟩
      · cases hx
    · rcases hbc with ⟨x', hx, -⟩ | ⟨i, x', y', hx, rfl, hs'⟩
      · cases hx
      · cases hx; exact .inr ⟨i, x, y', rfl, rfl, (h.equivalence i).trans hs hs'⟩

/-- The type of a boxed instruction: `none` for the GLSL set -/
def typeOf {o : Others} : o.Box → Option o.Id
  | .glsl _ => none
  | .other i _ => some i

/-- C42: instructions of different types are never equal. -/
theorem C42_different_sets {o : Others} {same : ∀ i, o.Carrier i → o.Carrier i → Prop} (h : Faithful o same)
    (a b : o.Box) (hab : typeOf a ≠ typeOf b) : o.boxEq a b = false := by
  cases hb : o.boxEq a b with
  | false => rfl
  | true =>
    rw [boxEq_iff h] at hb
    rcases hb with ⟨x, rfl, rfl⟩ | ⟨i, x, y, rfl, rfl, -⟩ <;> exact absurd rfl hab

/-- C42: a clone equals its original. -/
theorem C42_clone {o : Others} {same : ∀ i, o.Carrier i → o.Carrier i → Prop} (h : Faithful o same) (a : o.Box) :
    o.boxEq a (o.boxClone a) = true := by
  cases a with
  | glsl a => rw [C42_glsl_clone, C42_glsl]
  | other i a => exact (boxEq_iff h _ _).mpr (.inr ⟨i, a, o.clone i a, rfl, rfl, h.clone i a⟩)

/-- The hypothesis cannot be dropped: with a foreign type that is equal to everything, equality is not
symmetric. -/
theorem C42_needs_faithful : ∃ (o : Others) (a b : o.Box), o.boxEq a b = true ∧ o.boxEq b a = false :=
  ⟨{ Id := Unit, Carrier := fun _ => Unit, asAny := fun _ a => (.other () a), eq := fun _ _ _ => true,
     clone := fun _ a => a }, (.other () ()), (.glsl (.Sin ⟨⟨1⟩⟩)), rfl, rfl⟩

/-- Two foreign types of numbers -/
inductive Kind where
  | exact
  | modulo

/-- How they compare: one of them modulo 10 -/
def kindSame : Kind → Nat → Nat → Prop
  | .exact, a, b => a = b
  | .modulo, a, b => a % 10 = b % 10

/-- Their implementation of equality -/
def kindEq : Kind → Nat → Typed (fun _ : Kind => Nat) → Bool
  | .exact, a, .other .exact b => a == b
  | .modulo, a, .other .modulo b => a % 10 == b % 10
  | _, _, _ => false

theorem kindEq_iff (i : Kind) (a : Nat) (b : Typed (fun _ : Kind => Nat)) :
    kindEq i a b = true ↔ ∃ a' : Nat, b = .other i a' ∧ kindSame i a a' := by
  rcases b with b | ⟨_ | _, b⟩ <;> cases i <;> simp [kindEq, kindSame]

/-- Two foreign types, implemented like the GLSL set -/
def foreign : Others where
  Id := Kind
  Carrier := fun _ => Nat
  asAny i a := .other i a
  eq := kindEq
  clone _ a := a

/-- The hypothesis of the theorems above holds here. -/
theorem foreign_faithful : Faithful foreign kindSame where
  equivalence i := by cases i <;> exact ⟨fun _ => rfl, fun h => h.symm, fun h h' => h.trans h'⟩
  asAny _ _ := rfl
  eq := kindEq_iff
  clone i a := by cases i <;> rfl

example : foreign.boxEq (.other Kind.modulo (3 : Nat)) (.other Kind.modulo (13 : Nat)) = true ∧
    foreign.boxEq (.other Kind.exact (3 : Nat)) (.other Kind.exact (13 : Nat)) = false ∧
    foreign.boxEq (.glsl (.Sin ⟨⟨3⟩⟩)) (.other Kind.exact (3 : Nat)) = false ∧
    foreign.boxEq (.glsl (.Sin ⟨⟨3⟩⟩)) (.glsl (.Cos ⟨⟨3⟩⟩)) = false := ⟨rfl, rfl, rfl, rfl⟩

example (a b : foreign.Box) (h : foreign.boxEq a b = true) : foreign.boxEq b a = true :=
  (C42_equivalence foreign_faithful).symm h
example (n : Nat) : foreign.boxEq (.other Kind.exact n) (.other Kind.modulo n) = false :=
  C42_different_sets foreign_faithful _ _ (fun h => by cases h)
example (a : foreign.Box) : foreign.boxEq a (foreign.boxClone a) = true := C42_clone foreign_faithful a

end Magma.Props
