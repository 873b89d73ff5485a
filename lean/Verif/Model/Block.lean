import Verif.Model.Types
/-! Errors, memory blocks and the generic operand readers (`src/spv/raw/mod.rs`). -/

namespace Magma

/-- src/spv/raw/mod.rs:259-302 -/
inductive ReadError where
  | UnexpectedEndOfStream
  | UnexpectedStreamAlignment
  | BadMagic
  | UnknownVersionBytes (v3 v2 v1 v0 : UInt8)
  | UnknownVersion (v : Version)
  | UnknownReservedSchema
  | UnknownOp (id wc : UInt16)
  | UnimplementedOp (name : String)
  | WrongWordCountForOp
  | InvalidString
  | UnexpectedEndOfInstruction
  | InstructionHadExcessData
  | UnknownInstSet (name : String)
  | UnknownInstSetId (id : OpId)
  | UnknownExtInstOp (set : String) (inst : UInt32)
  | DuplicateResultId (id : ResultId)
  | UnknownAddressingModel (w : UInt32)
  | UnknownMemoryModel (w : UInt32)
  | UnknownExecutionModel (w : UInt32)
  | UnknownExecutionMode (w : UInt32)
  | UnknownCapability (w : UInt32)
  | UnknownDecoration (w : UInt32)
  | UnknownBuiltIn (w : UInt32)
  | UnknownFpRoundingMode (w : UInt32)
  | UnknownFpFastMathMode (w : UInt32)
  | UnknownLinkageType (w : UInt32)
  | UnknownSignedness (w : UInt32)
  | UnknownStorageClass (w : UInt32)
  | UnknownFunctionParameterAttribute (w : UInt32)
  | UnknownMemoryAccess (w : UInt32)
  | UnknownDim (w : UInt32)
  | UnknownDepthStatus (w : UInt32)
  | UnknownArrayed (w : UInt32)
  | UnknownMS (w : UInt32)
  | UnknownSampledStatus (w : UInt32)
  | UnknownImageFormat (w : UInt32)
  | UnknownAccessQualifier (w : UInt32)
  | UnknownLoopControl (w : UInt32)
  | UnknownSelectionControl (w : UInt32)
  deriving DecidableEq, Repr

/-- What can go wrong when a modelled function runs: the `Err` of the Rust result type, a panic
(failed assertion, out-of-range slice, division by zero, `unimplemented!`), or running forever
(a loop or recursion that used up the fuel given to it in the model). -/
inductive Fault (E : Type) where
  | err (e : E)
  | panic (msg : String)
  | diverge
  deriving DecidableEq, Repr

/-- `ReadResult<T>` (src/spv/raw/mod.rs:357) extended with the two other outcomes. -/
abbrev R (α : Type) := Except (Fault ReadError) α

/-- `Err(e)` -/
abbrev fail {α : Type} (e : ReadError) : R α := .error (.err e)

/-- src/spv/raw/mod.rs:359-361: a memory block is the slice of words not read yet. -/
abbrev Block := List UInt32

/-- src/spv/raw/mod.rs:370-376. The index and the slice are in range because of the length test. -/
def Block.readWord (block : Block) : R (Block × UInt32) :=
  match block with
  | w :: rest => .ok (rest, w)
  | [] => fail .UnexpectedEndOfInstruction

/-- src/spv/raw/mod.rs:378-380 -/
def Block.remaining (block : Block) : Nat := block.length

/-- src/spv/raw/mod.rs:382-384 -/
def Block.atEnd (block : Block) : Bool := block.length == 0

/-- src/spv/raw/mod.rs:386-389 -/
def Block.readOpId (block : Block) : R (Block × OpId) := do
  let (next, word) ← block.readWord
  return (next, ⟨word⟩)

/-- src/spv/raw/mod.rs:392-394 -/
class MemoryBlockRead (α : Type) where
  read : Block → R (Block × α)

/-- `std::mem::size_of::<T>()` for the types that occur in a `Vec` operand. -/
class RustSize (α : Type) where
  size : Nat

/-- `OpId` is a newtype of `u32`: 4 bytes (src/spv/types.rs:8-9) -/
instance : RustSize OpId := ⟨4⟩
/-- 4 bytes -/
instance : RustSize UInt32 := ⟨4⟩
/-- two `OpId`s: 8 bytes (src/spv/types.rs:1228-1232) -/
instance : RustSize PhiArg := ⟨8⟩

/-- src/spv/raw/mod.rs:396-401 -/
instance : MemoryBlockRead OpId where
  read block := do
    let (block, id) ← block.readWord
    return (block, ⟨id⟩)

/-- src/spv/raw/mod.rs:403-408 -/
instance : MemoryBlockRead ResultId where
  read block := do
    let (block, id) ← block.readWord
    return (block, ⟨id⟩)

/-- The `while` loop of src/spv/raw/mod.rs:415-419. `items` is in reverse order. One unit of fuel
per iteration; running out of fuel is the outcome `diverge`. -/
def readVecLoop {α : Type} [MemoryBlockRead α] : Nat → Block → List α → R (Block × List α)
  | 0, _, _ => .error .diverge
  | fuel + 1, block, items =>
    if block.remaining > 0 then do
      let (next_block, item) ← MemoryBlockRead.read block
      readVecLoop fuel next_block (item :: items)
    else
      .ok (block, items.reverse)

/-- src/spv/raw/mod.rs:410-422. The capacity computation divides by
`min(1, size_of::<T>() / 4)`, which panics if that is zero. -/
instance {α : Type} [MemoryBlockRead α] [RustSize α] : MemoryBlockRead (List α) where
  read block :=
    let item_word_size := min 1 (RustSize.size α / 4)
    if item_word_size = 0 then .error (.panic "attempt to divide by zero")
    else readVecLoop (block.length + 1) block []

/-- src/spv/raw/mod.rs:424-433 -/
instance {α : Type} [MemoryBlockRead α] : MemoryBlockRead (Option α) where
  read block :=
    if block.remaining > 0 then do
      let (block, item) ← MemoryBlockRead.read block
      return (block, some item)
    else
      .ok (block, none)

/-- src/spv/raw/mod.rs:435-439 -/
instance : MemoryBlockRead UInt32 where
  read block := block.readWord

/-- The four bytes of a word, least significant first: the array `chars`,
src/spv/raw/mod.rs:447-450 -/
def wordChars (word : UInt32) : List UInt8 :=
  [(word &&& 0xFF).toUInt8, ((word >>> 8) &&& 0xFF).toUInt8,
   ((word >>> 16) &&& 0xFF).toUInt8, (word >>> 24).toUInt8]

/-- The inner `for` loop of src/spv/raw/mod.rs:451-456: push bytes until a NUL.
Returns the bytes so far (reversed) and whether a NUL was found (`break 'null`). -/
def pushChars : List UInt8 → List UInt8 → List UInt8 × Bool
  | [], bytes => (bytes, false)
  | c :: cs, bytes => if c = 0 then (bytes, true) else pushChars cs (c :: bytes)

/-- The outer loop of src/spv/raw/mod.rs:444-457. -/
def readStringLoop : Block → List UInt8 → R (Block × List UInt8)
  | [], _ => fail .UnexpectedEndOfInstruction
  | word :: block, bytes =>
    match pushChars (wordChars word) bytes with
    | (bytes, true) => .ok (block, bytes.reverse)
    | (bytes, false) => readStringLoop block bytes

/-- src/spv/raw/mod.rs:441-464. `String::from_utf8` is Lean's `String.fromUTF8?`. -/
instance : MemoryBlockRead String where
  read block := do
    let (block, bytes) ← readStringLoop block []
    match String.fromUTF8? ⟨bytes.toArray⟩ with
    | some s => .ok (block, s)
    | none => fail .InvalidString

/-- A `match word { lit => value, .. , id => return Err(e(id)) }` whose arms are given by a table. -/
def readEnum {α : Type} (table : List (UInt32 × α)) (e : UInt32 → ReadError) (block : Block) :
    R (Block × α) := do
  let (block, word) ← block.readWord
  match table.lookup word with
  | some a => return (block, a)
  | none => fail (e word)

/-- A `match word` whose arms may read further words, given by a table of handlers. -/
def readHandler {α : Type} (table : List (UInt32 × (Block → R (Block × α))))
    (e : UInt32 → ReadError) (block : Block) : R (Block × α) := do
  let (block, word) ← block.readWord
  match table.lookup word with
  | some h => h block
  | none => fail (e word)

/-- An arm `lit => Variant` -/
def readUnit {α : Type} (a : α) (block : Block) : R (Block × α) := .ok (block, a)

/-- An arm that reads one operand -/
def read1 {α β : Type} [MemoryBlockRead β] (f : β → α) (block : Block) : R (Block × α) := do
  let (block, b) ← MemoryBlockRead.read block
  return (block, f b)

/-- An arm that reads two operands -/
def read2 {α β γ : Type} [MemoryBlockRead β] [MemoryBlockRead γ] (f : β → γ → α) (block : Block) :
    R (Block × α) := do
  let (block, b) ← MemoryBlockRead.read block
  let (block, c) ← MemoryBlockRead.read block
  return (block, f b c)

/-- An arm that reads three operands -/
def read3 {α β γ δ : Type} [MemoryBlockRead β] [MemoryBlockRead γ] [MemoryBlockRead δ]
    (f : β → γ → δ → α) (block : Block) : R (Block × α) := do
  let (block, b) ← MemoryBlockRead.read block
  let (block, c) ← MemoryBlockRead.read block
  let (block, d) ← MemoryBlockRead.read block
  return (block, f b c d)

end Magma
