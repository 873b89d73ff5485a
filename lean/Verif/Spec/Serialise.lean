import Verif.Spec.Encoding
/-! The canonical serialisation of a module, and the modules that have one. -/

namespace Magma.Spec

/-- A word from four bytes, least significant first -/
def packWord (a b c d : UInt8) : UInt32 :=
  UInt32.ofNat (a.toNat + b.toNat * 256 + c.toNat * 65536 + d.toNat * 16777216)

/-- Bytes to words, the last word filled up with zeros -/
def packWords : List UInt8 → List UInt32
  | [] => []
  | [a] => [packWord a 0 0 0]
  | [a, b] => [packWord a b 0 0]
  | [a, b, c] => [packWord a b c 0]
  | a :: b :: c :: d :: r => packWord a b c d :: packWords r

/-- The bytes of words, in one of the byte orders -/
def bytesOf (littleEndian : Bool) (ws : List UInt32) : List UInt8 :=
  ws.flatMap fun w => if littleEndian then wordBytes w else (wordBytes w).reverse

/-- The words of a literal string: its bytes and a NUL, zero padded -/
def stringWords (s : String) : List UInt32 := packWords (stringBytes s ++ [0])

/-- The words of operands, all the ignored bits zero -/
def encodeOperands : List Operand → List UInt32
  | [] => []
  | .lit w :: os => w :: encodeOperands os
  | .mask _ v :: os => v :: encodeOperands os
  | .str s :: os => stringWords s ++ encodeOperands os
  | .done :: os => encodeOperands os
  | .never :: os => encodeOperands os

/-- The words of an instruction. `encX` gives the number and the operand words of an extended
instruction. -/
def encodeInst {X : Type} (encX : X → UInt32 × List UInt32) (inst : Core X) : List UInt32 :=
  let ops := encodeOperands (operands inst) ++
    match inst with
    | .OpExtInst op => (encX op.instruction).1 :: (encX op.instruction).2
    | _ => []
  UInt32.ofNat ((ops.length + 1) * 65536 + opcode inst) :: ops

/-- The words of a module -/
def encodeWords {X : Type} (encX : X → UInt32 × List UInt32) (m : RawModule X) : List UInt32 :=
  [0x07230203, 0x00010000,
   UInt32.ofNat ((toolCode m.generator.tool).toNat * 65536 + m.generator.version.toNat),
   m.bound, 0] ++ m.instructions.flatMap (encodeInst encX)

/-- The bytes of a module -/
def encodeModule {X : Type} (encX : X → UInt32 × List UInt32) (littleEndian : Bool)
    (m : RawModule X) : List UInt8 :=
  bytesOf littleEndian (encodeWords encX m)

/-- The operands have a spelling: the strings have no NUL, an absent optional operand is not
followed by a present one. -/
def Expressible : List Operand → Prop
  | [] => True
  | .lit _ :: os => Expressible os
  | .mask ignored v :: os => v &&& ~~~ignored = v ∧ Expressible os
  | .str s :: os => 0 ∉ stringBytes s ∧ Expressible os
  | .done :: os => encodeOperands os = [] ∧ Expressible os
  | .never :: _ => False

/-- The instruction, coming after the instructions `before`, has a spelling. -/
def SerialisableInst {X : Type} (encX : X → UInt32 × List UInt32) (known : List (ExtInstSet X))
    (before : List (Core X)) (inst : Core X) : Prop :=
  supported inst = true ∧ Expressible (operands inst) ∧ (encodeInst encX inst).length < 65536 ∧
  match inst with
  | .OpExtInstImport op =>
    setNamed known op.name ≠ none ∧ ∀ i ∈ before, importName op.result_id.val i = none
  | .OpExtInst op => ∃ importer name s, importer ∈ before ∧
      importName op.set.val importer = some name ∧ setNamed known name = some s ∧
      s.readInstruction (encX op.instruction).1 (encX op.instruction).2 = .ok ([], op.instruction)
  | _ => True

/-- The module has a spelling. -/
def Serialisable {X : Type} (encX : X → UInt32 × List UInt32) (known : List (ExtInstSet X))
    (m : RawModule X) : Prop :=
  m.version = ⟨1, 0⟩ ∧ (∀ n, m.generator.tool = .Other n → 12 ≤ n) ∧
  ∀ before inst after, m.instructions = before ++ inst :: after →
    SerialisableInst encX known before inst

/-- The set's encoder gives back words for everything the set decodes, and not more of them. -/
def EncodesSet {X : Type} (encX : X → UInt32 × List UInt32) (s : ExtInstSet X) : Prop :=
  ∀ n args x, s.readInstruction n args = .ok ([], x) →
    s.readInstruction (encX x).1 (encX x).2 = .ok ([], x) ∧ (encX x).2.length ≤ args.length

/-- Reverses the bytes of every complete word. -/
def swapWords : List UInt8 → List UInt8
  | a :: b :: c :: d :: r => d :: c :: b :: a :: swapWords r
  | t => t

/-- `bytes` is, in either byte order, a valid header, then the instructions `before`, then the
words `ws`, then `tail` (less than a word). -/
def Continues {X : Type} (known : List (ExtInstSet X)) (before : List (Core X)) (ws : List UInt32)
    (tail bytes : List UInt8) : Prop :=
  ∃ le ver gen bound body, IsVersionWord ver ∧ SpellsBody known [] before body ∧ tail.length < 4 ∧
    bytes = bytesOf le (0x07230203 :: ver :: gen :: bound :: 0 :: (body ++ ws)) ++ tail

end Magma.Spec
