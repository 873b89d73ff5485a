import Verif.Spec.Encoding
/-! What the reader does not look at: the bits of masks that have no meaning, the bytes after the end of a string, the
difference between a word count of 0 and one of 1, and the upper halves of three bytes of the version. Everything here
is about words; no module is built. -/

namespace Magma.Spec

/-- How a word of an instruction is looked at -/
inductive Slack where
  /-- the whole word -/
  | word
  /-- all but these bits -/
  | clear (bits : UInt32)
  /-- the words of a string: the bytes before the first NUL -/
  | text

/-- The bytes from the first NUL on cleared -/
def upToNul (w : UInt32) : UInt32 :=
  if w.toNat % 256 = 0 then 0
  else if w.toNat / 256 % 256 = 0 then UInt32.ofNat (w.toNat % 256)
  else if w.toNat / 65536 % 256 = 0 then UInt32.ofNat (w.toNat % 65536)
  else w

/-- A string, up to the first word with a NUL in it, then something else -/
def tidyText (others : List UInt32 → List UInt32) : List UInt32 → List UInt32
  | [] => []
  | w :: ws => if (wordBytes w).contains 0 then upToNul w :: others ws else w :: tidyText others ws

/-- Everything that is not looked at cleared; the words after those listed are looked at. -/
def tidy : List Slack → List UInt32 → List UInt32
  | [], ws => ws
  | .word :: _, [] => []
  | .word :: sl, w :: ws => w :: tidy sl ws
  | .clear _ :: _, [] => []
  | .clear bits :: sl, w :: ws => (w &&& ~~~bits) :: tidy sl ws
  | .text :: sl, ws => tidyText (tidy sl) ws

/-- A decoration: the fast math mode is a mask, linkage attributes start with a name. -/
def decorationSlack : List UInt32 → List Slack
  | [] => []
  | d :: _ => if d = 40 then [.word, .clear 0xFFFF0020] else if d = 41 then [.word, .text] else []

/-- The operand words of an instruction -/
def slackOf (opcode : Nat) (ops : List UInt32) : List Slack :=
  match opcode with
  | 2 | 4 | 10 => [.text]  -- OpSourceContinued, OpSourceExtension, OpExtension
  | 5 | 7 | 11 | 31 => [.word, .text]  -- OpName, OpString, OpExtInstImport, OpTypeOpaque
  | 6 | 15 => [.word, .word, .text]  -- OpMemberName, OpEntryPoint
  | 3 => [.word, .word, .word, .text]  -- OpSource
  | 54 => [.word, .word, .clear 0xFFFFFFF0]  -- OpFunction
  | 61 => [.word, .word, .word, .clear 0xFFFF0000]  -- OpLoad
  | 62 | 246 => [.word, .word, .clear 0xFFFF0000]  -- OpStore, OpLoopMerge
  | 247 => [.word, .clear 0xFFFF0000]  -- OpSelectionMerge
  | 71 => .word :: decorationSlack (ops.drop 1)  -- OpDecorate
  | 72 => .word :: .word :: decorationSlack (ops.drop 2)  -- OpMemberDecorate
  | _ => []

/-- A word count of 0 made 1 -/
def tidyHead (head : UInt32) : UInt32 := if head.toNat / 65536 = 0 then UInt32.ofNat (head.toNat + 65536) else head

/-- The words of the instructions -/
def tidyBody : List UInt32 → List UInt32
  | [] => []
  | head :: ws =>
    let n := head.toNat / 65536 - 1
    tidyHead head :: (tidy (slackOf (head.toNat % 65536) (ws.take n)) (ws.take n) ++ tidyBody (ws.drop n))
  termination_by ws => ws.length
  decreasing_by simp; omega

/-- The upper halves of all bytes but the highest one cleared -/
def tidyVersion (w : UInt32) : UInt32 :=
  UInt32.ofNat (w.toNat / 16777216 * 16777216 + w.toNat / 65536 % 16 * 65536 + w.toNat / 256 % 16 * 256 + w.toNat % 16)

/-- The words of a module after the magic number: version, generator, bound, schema, instructions -/
def tidyWords : List UInt32 → List UInt32
  | ver :: gen :: bound :: schema :: ws => tidyVersion ver :: gen :: bound :: schema :: tidyBody ws
  | ws => ws

/-- Some errors tell the word they are about. -/
def tidyError : ReadError → ReadError
  | .UnknownOp op wc => .UnknownOp op (if wc = 0 then 1 else wc)
  | .UnknownMemoryAccess w => .UnknownMemoryAccess (w &&& ~~~0xFFFF0000)
  | .UnknownLoopControl w => .UnknownLoopControl (w &&& ~~~0xFFFF0000)
  | .UnknownSelectionControl w => .UnknownSelectionControl (w &&& ~~~0xFFFF0000)
  | .UnknownFpFastMathMode w => .UnknownFpFastMathMode (w &&& ~~~0xFFFF0020)
  | e => e

/-- The same outcome, but for what the error tells of the bits that are not looked at -/
def Agrees {α : Type} (r r' : R α) : Prop := r' = r ∨ ∃ e, r = .error (.err e) ∧ r' = .error (.err (tidyError e))

/-- The set reads every word: from what it reads, the number and the words can be told. -/
def Recalls {X : Type} (encX : X → UInt32 × List UInt32) (s : ExtInstSet X) : Prop :=
  ∀ n args x, s.readInstruction n args = .ok ([], x) → encX x = (n, args)

end Magma.Spec
