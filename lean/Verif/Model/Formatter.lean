import Verif.Model.Fmt
/-! `std::fmt` as the printers see it: a `Formatter` has options and writes to a writer that may fail. Here nothing
is built in memory; each call of `write_str` is a step of the writer. The parts of `std` that are used are modelled
as documented: `write!`, `Formatter::pad`, `Formatter::pad_integral` and the `Display` of strings and numbers. -/

namespace Magma

/-- `fmt::Alignment` -/
inductive Align where
  | left
  | right
  | center
  deriving DecidableEq, Repr

/-- The options of a `Formatter`: those of `{:fill align + # 0 width .precision}` -/
structure Options where
  fill : Char := ' '
  align : Option Align := none
  plus : Bool := false
  alternate : Bool := false
  zero : Bool := false
  width : Option Nat := none
  precision : Option Nat := none
  deriving DecidableEq, Repr

/-- `fmt::Write::write_str`: takes a text and says whether it succeeded. The state is that of the writer. -/
abbrev Writer (σ : Type) := Text → σ → Bool × σ

/-- How a printer may end other than by `Ok(())` -/
inductive Stop where
  | err
  | panic (message : String)
  deriving DecidableEq, Repr

/-- A function that takes `f: &mut Formatter`, with result `Result<α, fmt::Error>`. `fmt::Result` is the one with
`Unit`. -/
def PutM (σ α : Type) := Writer σ → Options → σ → Except Stop α × σ

/-- `Ok(())` -/
def PutM.ret {σ α : Type} (a : α) : PutM σ α := fun _ _ s => (.ok a, s)

/-- `try!(p); q` -/
def PutM.next {σ α β : Type} (p : PutM σ α) (q : α → PutM σ β) : PutM σ β := fun w o s =>
  match p w o s with
  | (.ok a, s) => q a w o s
  | (.error e, s) => (.error e, s)

instance {σ : Type} : Monad (PutM σ) where
  pure := PutM.ret
  bind := PutM.next

variable {σ : Type}

/-- `f.write_str(t)` -/
def writeStr (t : Text) : PutM σ Unit := fun w _ s =>
  match w t s with
  | (true, s) => (.ok (), s)
  | (false, s) => (.error .err, s)

/-- `f.write_char(fill)`, some times -/
def writeFill : Nat → PutM σ Unit
  | 0 => pure ()
  | n + 1 => do
    (fun w o s => writeStr [o.fill] w o s : PutM σ Unit)
    writeFill n

/-- `Formatter::padding`: the numbers of characters before and after -/
def padding (o : Options) (pad : Nat) (default : Align) : Nat × Nat :=
  match o.align.getD default with
  | .left => (0, pad)
  | .right => (pad, 0)
  | .center => (pad / 2, (pad + 1) / 2)

/-- `Formatter::pad`: cut to the precision, filled up to the width, from the left unless otherwise asked for -/
def pad (t : Text) : PutM σ Unit := fun w o s =>
  let t := match o.precision with
    | some max => t.take max
    | none => t
  match o.width with
  | none => writeStr t w o s
  | some width =>
    if width ≤ t.length then writeStr t w o s
    else
      let (pre, post) := padding o (width - t.length) .left
      (do writeFill pre; writeStr t; writeFill post : PutM σ Unit) w o s

/-- The sign that `Formatter::pad_integral` writes for a number that is not negative -/
def putSign : PutM σ Unit := fun w o s => if o.plus then writeStr ['+'] w o s else (.ok (), s)

/-- `Formatter::pad_integral(true, "", digits)` -/
def padIntegral (digits : Text) : PutM σ Unit := fun w o s =>
  let length := digits.length + (if o.plus then 1 else 0)
  match o.width with
  | none => (do putSign; writeStr digits : PutM σ Unit) w o s
  | some width =>
    if width ≤ length then (do putSign; writeStr digits : PutM σ Unit) w o s
    else if o.zero then
      let o' := { o with fill := '0', align := some .right }
      let (pre, post) := padding o' (width - length) .right
      (do putSign; writeFill pre; writeStr digits; writeFill post : PutM σ Unit) w o' s
    else
      let (pre, post) := padding o (width - length) .right
      (do writeFill pre; putSign; writeStr digits; writeFill post : PutM σ Unit) w o s

/-- `{}` in `write!`: the argument is formatted with options of its own -/
def arg {α : Type} (p : PutM σ α) (options : Options := {}) : PutM σ α := fun w _ s => p w options s

/-- A literal in `write!` -/
def lit (t : String) : PutM σ Unit := writeStr t.toList

/-- `std::fmt::Display` -/
class DisplayTo (σ α : Type) where
  fmtTo : α → PutM σ Unit

export DisplayTo (fmtTo)

instance : DisplayTo σ UInt32 := ⟨fun n => padIntegral (fmtNat n.toNat)⟩
instance : DisplayTo σ UInt16 := ⟨fun n => padIntegral (fmtNat n.toNat)⟩
instance : DisplayTo σ UInt8 := ⟨fun n => padIntegral (fmtNat n.toNat)⟩
instance : DisplayTo σ String := ⟨fun s => pad s.toList⟩

/-- src/spv/types.rs:11-15 -/
instance : DisplayTo σ OpId := ⟨fun id => pad ("%".toList ++ Display.fmt id.val)⟩

/-- src/spv/dis.rs:7-14 -/
def putResult (r : ResultId) : PutM σ Unit := do
  arg (fmtTo (OpId.mk r.val)) { width := some 12, align := some .right }
  lit " = "

/-- src/spv/dis.rs:17-24 -/
def putNoResult : PutM σ Unit := lit "               "

/-- src/spv/dis.rs:66-88: `DisplayArg` -/
class DisplayArgTo (σ α : Type) where
  displayArgTo : α → PutM σ Unit

/-- src/spv/dis.rs:70-74 -/
instance (priority := high) : DisplayArgTo σ String := ⟨fun s => do lit "\""; arg (fmtTo s); lit "\""⟩
/-- src/spv/dis.rs:81-85: the options are those of the caller. -/
instance {α : Type} [DisplayTo σ α] : DisplayArgTo σ α := ⟨fmtTo⟩

/-- src/spv/dis.rs:28-30 -/
class FormatArgTo (σ α : Type) where
  formatArgTo : α → PutM σ Unit

export FormatArgTo (formatArgTo)

/-- src/spv/dis.rs:32-39 -/
instance (priority := low) {α : Type} [DisplayArgTo σ α] : FormatArgTo σ α :=
  ⟨fun a => do lit " "; DisplayArgTo.displayArgTo a⟩
/-- src/spv/dis.rs:41-53 -/
instance {α : Type} [DisplayArgTo σ α] : FormatArgTo σ (Option α) :=
  ⟨fun o => match o with
    | some t => do lit " "; DisplayArgTo.displayArgTo t
    | none => pure ()⟩
/-- The loop of src/spv/dis.rs:59-62 -/
def putEach {α : Type} [DisplayArgTo σ α] : List α → PutM σ Unit
  | [] => pure ()
  | e :: es => do lit " "; DisplayArgTo.displayArgTo e; putEach es
/-- src/spv/dis.rs:55-64 -/
instance {α : Type} [DisplayArgTo σ α] : FormatArgTo σ (List α) := ⟨putEach⟩

namespace Glsl
/-- src/glsl450/op.rs:18-22 -/
instance : DisplayTo σ Sin := ⟨fun s => do lit "Sin "; arg (fmtTo s.x)⟩
/-- src/glsl450/op.rs:35-39 -/
instance : DisplayTo σ Cos := ⟨fun s => do lit "Cos "; arg (fmtTo s.x)⟩
/-- src/glsl450/mod.rs:40-48 -/
instance : DisplayTo σ Inst := ⟨fun i => match i with
  | .Sin op => fmtTo op
  | .Cos op => fmtTo op⟩
end Glsl

end Magma
