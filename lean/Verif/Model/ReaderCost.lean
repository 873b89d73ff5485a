import Verif.Model.Reader
/-! The reader of `src/spv/raw/reader.rs` once more, with a meter: how often a word is asked of the stream,
and the capacity, in words, of each vector that is set aside for an instruction before its words are there.
Lists inside the operands have `vecCapacity`; strings (src/spv/raw/mod.rs:443, always 16 bytes at first) are
not metered. -/

namespace Magma

/-- What reading has cost so far -/
structure Meter where
  /-- calls of `Stream::read_word` -/
  reads : Nat
  /-- arguments of the `Vec::with_capacity` of src/spv/raw/reader.rs:132, in order -/
  asked : List Nat
  deriving DecidableEq

/-- `try!` on a metered outcome: the cost stays also if the outcome is an error. -/
def metered {α β : Type} (r : R α × Meter) (f : α → Meter → R β × Meter) : R β × Meter :=
  match r with
  | (.error e, m) => (.error e, m)
  | (.ok a, m) => f a m

/-- src/spv/raw/reader.rs:100-114, as `Stream.readWord` -/
def Stream.readWordM (s : Stream) (m : Meter) : R (UInt32 × Stream) × Meter :=
  (s.readWord, { m with reads := m.reads + 1 })

/-- src/spv/raw/reader.rs:134-136, as `Stream.readWords` -/
def Stream.readWordsM (s : Stream) : Nat → Meter → R (List UInt32 × Stream) × Meter
  | 0, m => (.ok ([], s), m)
  | n + 1, m =>
    metered (s.readWordM m) fun (w, s) m =>
    metered (s.readWordsM n m) fun (ws, s) m => (.ok (w :: ws, s), m)

/-- src/spv/raw/reader.rs:125-431, as `readInstruction` -/
def readInstructionM {X : Type} (stream : Stream) (known : List (ExtInstSet X))
    (bound : BoundSets X) (m : Meter) : R (Core X × Stream × BoundSets X) × Meter :=
  metered (stream.readWordM m) fun (head, stream) m =>
  let id : UInt16 := (head &&& 0xFFFF).toUInt16
  let wc : UInt16 := (head >>> 16).toUInt16
  let m := { m with asked := m.asked ++ [wc.toNat] }
  metered (stream.readWordsM (wc.toNat - 1) m) fun (rest, stream) m =>
  (do
    let block ← sliceFromOne (head :: rest)
    match (opTable X).lookup id.toNat with
    | none => fail (.UnknownOp id wc)
    | some (.unimplemented name) => fail (.UnimplementedOp name)
    | some (.read f) => do
      let ((block, inst), bound) ← f block known bound
      if !block.atEnd then fail .InstructionHadExcessData
      else return (inst, stream, bound), m)

/-- The `while` loop of src/spv/raw/reader.rs:74-77, as `readLoop` -/
def readLoopM {X : Type} (known : List (ExtInstSet X)) :
    Nat → Stream → BoundSets X → List (Core X) → Meter → R (List (Core X)) × Meter
  | 0, _, _, _, m => (.error .diverge, m)
  | fuel + 1, stream, bound, acc, m =>
    if stream.isEnd then (.ok acc.reverse, m)
    else
      metered (readInstructionM stream known bound m) fun (inst, stream, bound) m =>
      readLoopM known fuel stream bound (inst :: acc) m

/-- src/spv/raw/reader.rs:14-85, as `readModule` -/
def readModuleM {X : Type} (data : List UInt8) (known : List (ExtInstSet X)) : R (RawModule X) × Meter :=
  let stream := Stream.new data
  metered (stream.readWordM ⟨0, []⟩) fun (magic, stream) m =>
  metered (if magic = SPIRV_MAGIC_NUMBER then pure stream
    else if magic = SPIRV_MAGIC_NUMBER_OTHER_ENDIAN then pure stream.invertEndianness
    else fail .BadMagic, m) fun stream m =>
  metered (stream.readWordM m) fun (ver_word, stream) m =>
  metered (readVersion ver_word, m) fun version m =>
  metered (stream.readWordM m) fun (generator_word, stream) m =>
  let generator_id : UInt16 := (generator_word >>> 16).toUInt16
  let generator : Generator :=
    { tool := readTool generator_id, version := (generator_word &&& 0xFFFF).toUInt16 }
  metered (stream.readWordM m) fun (bound, stream) m =>
  metered (stream.readWordM m) fun (zero, stream) m =>
  if zero ≠ 0 then (fail .UnknownReservedSchema, m)
  else
    metered (readLoopM known (stream.source.length + 1) stream [] [] m) fun instructions m =>
    (.ok { version := version, generator := generator, bound := bound, instructions := instructions }, m)

/-- The capacity that src/spv/raw/mod.rs:412-414 asks for before a list of operands is read -/
def vecCapacity (α : Type) [RustSize α] (block : Block) : Nat :=
  block.remaining / min 1 (RustSize.size α / 4)

end Magma
