import Verif.Model.Glsl
/-! Text output primitives (`src/spv/dis.rs`, `std::fmt`). Text is a list of characters. -/

namespace Magma

abbrev Text := List Char

/-- `std::fmt::Display`: the characters written for a value -/
class Display (α : Type) where
  fmt : α → Text

/-- Decimal output of an unsigned integer -/
def fmtNat (n : Nat) : Text := Nat.toDigits 10 n

instance : Display UInt32 := ⟨fun n => fmtNat n.toNat⟩
instance : Display UInt16 := ⟨fun n => fmtNat n.toNat⟩
instance : Display UInt8 := ⟨fun n => fmtNat n.toNat⟩
instance : Display String := ⟨fun s => s.toList⟩

/-- src/spv/types.rs:11-15 for an empty format spec -/
instance : Display OpId := ⟨fun id => "%".toList ++ Display.fmt id.val⟩

/-- `{:>width}` with `Formatter::pad`: spaces on the left up to the width -/
def padLeft (width : Nat) (t : Text) : Text := List.replicate (width - t.length) ' ' ++ t

/-- src/spv/dis.rs:7-14 -/
def fmtResult (r : ResultId) : Text := padLeft 12 (Display.fmt (OpId.mk r.val)) ++ " = ".toList

/-- src/spv/dis.rs:17-24 -/
def fmtNoResult : Text := "               ".toList

/-- src/spv/dis.rs:66-88: `DisplayArg`; a `String` is quoted, every other type uses `Display`. -/
class DisplayArg (α : Type) where
  displayArg : α → Text

/-- src/spv/dis.rs:70-74 -/
instance (priority := high) : DisplayArg String := ⟨fun s => "\"".toList ++ s.toList ++ "\"".toList⟩
/-- src/spv/dis.rs:81-85 -/
instance {α : Type} [Display α] : DisplayArg α := ⟨Display.fmt⟩

/-- src/spv/dis.rs:28-30 -/
class FormatArg (α : Type) where
  formatArg : α → Text

/-- src/spv/dis.rs:32-39 -/
instance (priority := low) {α : Type} [DisplayArg α] : FormatArg α :=
  ⟨fun a => " ".toList ++ DisplayArg.displayArg a⟩
/-- src/spv/dis.rs:41-53 -/
instance {α : Type} [DisplayArg α] : FormatArg (Option α) :=
  ⟨fun o => match o with
    | some t => " ".toList ++ DisplayArg.displayArg t
    | none => []⟩
/-- src/spv/dis.rs:55-64 -/
instance {α : Type} [DisplayArg α] : FormatArg (List α) :=
  ⟨fun l => l.flatMap (fun e => " ".toList ++ DisplayArg.displayArg e)⟩

/-- `[T]::join(" | ")` -/
def joinBar : List Text → Text
  | [] => []
  | [p] => p
  | p :: ps => p ++ " | ".toList ++ joinBar ps

/-- The end of the flag printers, e.g. src/spv/types.rs:720-724: `None` or the parts joined. -/
def joinParts (parts : List Text) : Text :=
  if parts.length = 0 then "None".toList else joinBar parts

namespace Glsl
/-- src/glsl450/op.rs:18-22 -/
instance : Display Sin := ⟨fun s => "Sin ".toList ++ Display.fmt s.x⟩
/-- src/glsl450/op.rs:35-39 -/
instance : Display Cos := ⟨fun s => "Cos ".toList ++ Display.fmt s.x⟩
/-- src/glsl450/mod.rs:40-48 -/
instance : Display Inst := ⟨fun i => match i with
  | .Sin op => Display.fmt op
  | .Cos op => Display.fmt op⟩
end Glsl

end Magma
