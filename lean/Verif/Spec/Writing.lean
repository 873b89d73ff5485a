import Verif.Model.Formatter
import Verif.Spec.Encoding
/-! What a writer sees of a text that is handed to it in pieces. -/

namespace Magma.Spec
variable {σ : Type}

/-- Hands pieces to a writer, one after the other, until it refuses one: whether all were taken, and the state of
the writer after -/
def handOver (w : Writer σ) : List Text → σ → Bool × σ
  | [], s => (true, s)
  | t :: ts, s =>
    match w t s with
    | (true, s) => handOver w ts s
    | (false, s) => (false, s)

/-- How a printer ends that has handed over its pieces: with an error if one was refused; otherwise well, or with a
panic that comes after -/
def ended (then_ : Except Stop Unit) : Bool × σ → Except Stop Unit × σ
  | (true, s) => (then_, s)
  | (false, s) => (.error .err, s)

/-- The bytes of a text in UTF-8 -/
def utf8 (t : Text) : List UInt8 := stringBytes (String.ofList t)

/-- A buffer of limited size, with the bytes in it and the number of bytes that are free. Of a text that does not
fit it takes the bytes that do, and fails. -/
def buffer : Writer (List UInt8 × Nat) := fun t (bytes, free) =>
  (decide ((utf8 t).length ≤ free), (bytes ++ (utf8 t).take free, free - (utf8 t).length))

end Magma.Spec
