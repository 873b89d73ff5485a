import Verif.Model.Fmt
/-! Debug output (`{:?}`): the builders of `std::fmt` that `derive(Debug)` uses, and the implementations of the standard
library for the types of fields. Only the form without `#` is modelled. Which characters the standard library shows as
they are in a string depends on its version; it is a parameter, `shown`. -/

namespace Magma

/-- `std::fmt::Debug`: the characters written for a value -/
class Debug (α : Type) where
  debug : (Char → Bool) → α → Text

/-- Further fields: each after a comma -/
def moreFields : List Text → Text
  | [] => []
  | f :: fs => ',' :: ' ' :: (f ++ moreFields fs)

/-- Fields in brackets, if there are any -/
def tupleFields : List Text → Text
  | [] => []
  | f :: fs => '(' :: (f ++ (moreFields fs ++ [')']))

/-- `Formatter::debug_tuple`, which tuple structs, variants of enums and tuples use. Unit structs and variants without
fields just write their name. -/
def debugTuple (name : String) (fields : List Text) : Text := name.toList ++ tupleFields fields

/-- Further fields with names -/
def moreNamed : List (String × Text) → Text
  | [] => []
  | (n, f) :: fs => ',' :: ' ' :: (n.toList ++ (':' :: ' ' :: (f ++ moreNamed fs)))

/-- Fields with names in braces, if there are any -/
def structFields : List (String × Text) → Text
  | [] => []
  | (n, f) :: fs => ' ' :: '{' :: ' ' :: (n.toList ++ (':' :: ' ' :: (f ++ (moreNamed fs ++ [' ', '}']))))

/-- `Formatter::debug_struct` -/
def debugStruct (name : String) (fields : List (String × Text)) : Text := name.toList ++ structFields fields

/-- `Formatter::debug_list`, which vectors use -/
def debugList : List Text → Text
  | [] => ['[', ']']
  | f :: fs => '[' :: (f ++ (moreFields fs ++ [']']))

/-- `char::escape_debug_ext` in a string. Characters that are not shown are written as their number in hexadecimal.
Older versions of the standard library differ in two characters: a NUL had no escape of its own, and single quotation
marks had a backslash. -/
def escapeChar (shown : Char → Bool) (c : Char) : Text :=
  if c = '\x00' then ['\\', '0']
  else if c = '\t' then ['\\', 't']
  else if c = '\r' then ['\\', 'r']
  else if c = '\n' then ['\\', 'n']
  else if c = '\\' then ['\\', '\\']
  else if c = '"' then ['\\', '"']
  else if shown c then [c]
  else '\\' :: 'u' :: '{' :: (Nat.toDigits 16 c.toNat ++ ['}'])

/-- A string: escaped, in quotation marks -/
def debugText (shown : Char → Bool) (s : Text) : Text := '"' :: (s.flatMap (escapeChar shown) ++ ['"'])

instance : Debug UInt32 := ⟨fun _ n => fmtNat n.toNat⟩
instance : Debug UInt16 := ⟨fun _ n => fmtNat n.toNat⟩
instance : Debug UInt8 := ⟨fun _ n => fmtNat n.toNat⟩
/-- `usize` -/
instance : Debug Nat := ⟨fun _ n => fmtNat n⟩
instance : Debug Bool := ⟨fun _ b => if b then "true".toList else "false".toList⟩
instance : Debug String := ⟨fun shown s => debugText shown s.toList⟩
instance {α : Type} [Debug α] : Debug (Option α) :=
  ⟨fun shown o => match o with
    | none => debugTuple "None" []
    | some a => debugTuple "Some" [Debug.debug shown a]⟩
instance {α : Type} [Debug α] : Debug (List α) := ⟨fun shown l => debugList (l.map (Debug.debug shown))⟩
instance {α β : Type} [Debug α] [Debug β] : Debug (α × β) :=
  ⟨fun shown ⟨a, b⟩ => debugTuple "" [Debug.debug shown a, Debug.debug shown b]⟩
instance : Debug Empty := ⟨fun _ x => nomatch x⟩

end Magma
