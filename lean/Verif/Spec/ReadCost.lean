import Verif.Spec.Reference
/-! What reading costs, said of the words of the input and of what the reference makes of each
instruction: how many words are asked for, and how many words each instruction sets aside. -/

namespace Magma.Spec

/-- The instructions: a word asked for in vain counts too. -/
def bodyCost {X : Type} (known : List (ExtInstSet X)) (left : List UInt8) (imports : Imports X) :
    List UInt32 → Nat × List Nat
  | [] => (if left.isEmpty then 0 else 1, [])
  | head :: ws =>
    let size := head.toNat / 65536
    if ws.length < size - 1 then (1 + ws.length + 1, [size])
    else
      match checkInst known imports head (ws.take (size - 1)) with
      | .error _ => (1 + (size - 1), [size])
      | .ok imports =>
        let (n, sizes) := bodyCost known left imports (ws.drop (size - 1))
        (1 + (size - 1) + n, size :: sizes)
  termination_by ws => ws.length
  decreasing_by simp; omega

/-- What follows the magic number -/
def headerCost {X : Type} (known : List (ExtInstSet X)) (left : List UInt8) : List UInt32 → Nat × List Nat
  | [] => (1, [])
  | ver :: ws =>
    match checkVersion ver, ws with
    | .error _, _ => (1, [])
    | .ok _, _ :: _ :: schema :: ws =>
      if schema = 0 then
        let (n, sizes) := bodyCost known left [] ws
        (4 + n, sizes)
      else (4, [])
    | .ok _, ws => (1 + ws.length + 1, [])

/-- The whole input -/
def readCost {X : Type} (known : List (ExtInstSet X)) : List UInt8 → Nat × List Nat
  | 0x03 :: 0x02 :: 0x23 :: 0x07 :: rest =>
    let (n, sizes) := headerCost known (wordsOf true rest).2 (wordsOf true rest).1
    (1 + n, sizes)
  | 0x07 :: 0x23 :: 0x02 :: 0x03 :: rest =>
    let (n, sizes) := headerCost known (wordsOf false rest).2 (wordsOf false rest).1
    (1 + n, sizes)
  | _ => (1, [])

/-- The sizes that the instructions of a body give themselves, up to the first that is cut short -/
def declared : List UInt32 → List Nat
  | [] => []
  | head :: ws =>
    let size := head.toNat / 65536
    size :: if ws.length < size - 1 then [] else declared (ws.drop (size - 1))
  termination_by ws => ws.length
  decreasing_by simp; omega

end Magma.Spec
