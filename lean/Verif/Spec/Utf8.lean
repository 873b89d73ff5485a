import Verif.Spec.Encoding
/-! What a well-formed UTF-8 byte sequence is, byte by byte, as in table 3-7 of the Unicode standard. Says
nothing about strings of Lean or Rust. -/

namespace Magma.Spec

/-- The rows of table 3-7 of the Unicode standard: for each, the least and the greatest value of each byte -/
def utf8Table : List (List (Nat × Nat)) :=
  [ [(0x00, 0x7F)],
    [(0xC2, 0xDF), (0x80, 0xBF)],
    [(0xE0, 0xE0), (0xA0, 0xBF), (0x80, 0xBF)],
    [(0xE1, 0xEC), (0x80, 0xBF), (0x80, 0xBF)],
    [(0xED, 0xED), (0x80, 0x9F), (0x80, 0xBF)],
    [(0xEE, 0xEF), (0x80, 0xBF), (0x80, 0xBF)],
    [(0xF0, 0xF0), (0x90, 0xBF), (0x80, 0xBF), (0x80, 0xBF)],
    [(0xF1, 0xF3), (0x80, 0xBF), (0x80, 0xBF), (0x80, 0xBF)],
    [(0xF4, 0xF4), (0x80, 0x8F), (0x80, 0xBF), (0x80, 0xBF)] ]

/-- The bytes lie in the ranges of a row. -/
def InRow : List UInt8 → List (Nat × Nat) → Prop
  | [], [] => True
  | b :: bs, (lo, hi) :: row => lo ≤ b.toNat ∧ b.toNat ≤ hi ∧ InRow bs row
  | _, _ => False

instance : (bs : List UInt8) → (row : List (Nat × Nat)) → Decidable (InRow bs row)
  | [], [] => .isTrue trivial
  | b :: bs, (lo, hi) :: row =>
    have := instDecidableInRow bs row
    inferInstanceAs (Decidable (lo ≤ b.toNat ∧ b.toNat ≤ hi ∧ InRow bs row))
  | [], _ :: _ => .isFalse id
  | _ :: _, [] => .isFalse id

/-- The code point that a sequence of up to four bytes stands for: the low bits of the first byte, and six bits
of every other byte (table 3-6) -/
def codePoint : List UInt8 → Nat
  | [a] => a.toNat
  | [a, b] => (a.toNat - 0xC0) * 64 + (b.toNat - 0x80)
  | [a, b, c] => (a.toNat - 0xE0) * 4096 + (b.toNat - 0x80) * 64 + (c.toNat - 0x80)
  | [a, b, c, d] =>
    (a.toNat - 0xF0) * 262144 + (b.toNat - 0x80) * 4096 + (c.toNat - 0x80) * 64 + (d.toNat - 0x80)
  | _ => 0

/-- The bytes are well-formed UTF-8, and stand for these code points. -/
inductive Utf8 : List UInt8 → List Nat → Prop
  | nil : Utf8 [] []
  | cons {bs rest : List UInt8} {row : List (Nat × Nat)} {cs : List Nat} :
    row ∈ utf8Table → InRow bs row → Utf8 rest cs → Utf8 (bs ++ rest) (codePoint bs :: cs)

/-- A Unicode scalar value: a code point that is not a surrogate -/
def IsScalar (n : Nat) : Prop := n < 0xD800 ∨ 0xDFFF < n ∧ n < 0x110000

end Magma.Spec
