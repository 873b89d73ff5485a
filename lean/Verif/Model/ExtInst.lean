import Verif.Model.Glsl
/-! Boxed extended instructions (`src/spv/mod.rs:14-75`). The reader of the model is generic in the type of
extended instructions; here is what the trait objects themselves do. -/

namespace Magma

/-- `#[derive(PartialEq)]` of src/glsl450/op.rs:7-10, 24-27 and src/glsl450/mod.rs:14-18 -/
def Glsl.Inst.derivedEq : Glsl.Inst → Glsl.Inst → Bool
  | .Sin a, .Sin b => a.x.val == b.x.val
  | .Cos a, .Cos b => a.x.val == b.x.val
  | _, _ => false

/-- `#[derive(Clone)]` of the same types -/
def Glsl.Inst.derivedClone : Glsl.Inst → Glsl.Inst
  | .Sin a => .Sin { x := { val := a.x.val } }
  | .Cos a => .Cos { x := { val := a.x.val } }

/-- A value with its type, which is `glsl450::Inst` or one of the types outside of this crate: a
`Box<ExtInst>` or a `&Any` -/
inductive Typed {Id : Type} (Carrier : Id → Type) where
  | glsl (a : Glsl.Inst)
  | other (i : Id) (a : Carrier i)

/-- The types outside of this crate that implement `ExtInst`, with their implementations
(src/spv/mod.rs:20-35): `as_any`, `eq`, and `clone_box` through `Clone` (src/spv/mod.rs:37-43). They are
arbitrary, and may look at values of this crate. -/
structure Others where
  Id : Type
  Carrier : Id → Type
  asAny : ∀ i, Carrier i → Typed Carrier
  eq : ∀ i, Carrier i → Typed Carrier → Bool
  clone : ∀ i, Carrier i → Carrier i

namespace Others
variable (o : Others)

/-- `Box<ExtInst>`, and `ExtInstBox` around it (src/spv/mod.rs:51-53) -/
abbrev Box := Typed o.Carrier

/-- The method `as_any`: of `glsl450::Inst` src/glsl450/mod.rs:28-30 -/
def asAnyOf : o.Box → Typed o.Carrier
  | .glsl a => .glsl a
  | .other i a => o.asAny i a

/-- `downcast_ref::<Inst>()` -/
def downcastInst : Typed o.Carrier → Option Glsl.Inst
  | .glsl a => some a
  | .other _ _ => none

/-- src/glsl450/mod.rs:32-37 -/
def glslEq (self : Glsl.Inst) (other : o.Box) : Bool :=
  match o.downcastInst (o.asAnyOf other) with
  | some other_glsl450 => self.derivedEq other_glsl450
  | none => false

/-- `==` of `ExtInstBox`, src/spv/mod.rs:55-59: the method `eq` of the left operand -/
def boxEq : o.Box → o.Box → Bool
  | .glsl a, b => o.glslEq a b
  | .other i a, b => o.eq i a b

/-- `clone` of `ExtInstBox`, src/spv/mod.rs:37-53 -/
def boxClone : o.Box → o.Box
  | .glsl a => .glsl a.derivedClone
  | .other i a => .other i (o.clone i a)

end Others

end Magma
