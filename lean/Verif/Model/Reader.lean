import Verif.Model.OpTable
/-! The module reader (`src/spv/raw/reader.rs`). -/

namespace Magma

/-- src/spv/raw/reader.rs:10 -/
def SPIRV_MAGIC_NUMBER : UInt32 := 0x07230203
/-- src/spv/raw/reader.rs:12 -/
def SPIRV_MAGIC_NUMBER_OTHER_ENDIAN : UInt32 := 0x03022307

/-- src/spv/raw/reader.rs:87-90 -/
structure Stream where
  source : List UInt8
  is_le : Bool

/-- src/spv/raw/reader.rs:93-98 -/
def Stream.new (source : List UInt8) : Stream := { source := source, is_le := true }

/-- `LittleEndian::read_u32` of the `byteorder` crate -/
def leWord (b0 b1 b2 b3 : UInt8) : UInt32 :=
  b0.toUInt32 ||| (b1.toUInt32 <<< 8) ||| (b2.toUInt32 <<< 16) ||| (b3.toUInt32 <<< 24)

/-- `BigEndian::read_u32` of the `byteorder` crate -/
def beWord (b0 b1 b2 b3 : UInt8) : UInt32 :=
  (b0.toUInt32 <<< 24) ||| (b1.toUInt32 <<< 16) ||| (b2.toUInt32 <<< 8) ||| b3.toUInt32

/-- src/spv/raw/reader.rs:100-114 -/
def Stream.readWord (s : Stream) : R (UInt32 × Stream) :=
  match s.source with
  | b0 :: b1 :: b2 :: b3 :: rest =>
    let result := if s.is_le then leWord b0 b1 b2 b3 else beWord b0 b1 b2 b3
    .ok (result, { s with source := rest })
  | _ :: _ => fail .UnexpectedStreamAlignment
  | [] => fail .UnexpectedEndOfStream

/-- src/spv/raw/reader.rs:116-118 -/
def Stream.isEnd (s : Stream) : Bool := s.source.length == 0

/-- src/spv/raw/reader.rs:120-122 -/
def Stream.invertEndianness (s : Stream) : Stream := { s with is_le := !s.is_le }

/-- The loop `for _ in 1..wc` of src/spv/raw/reader.rs:134-136: `n` words -/
def Stream.readWords (s : Stream) : Nat → R (List UInt32 × Stream)
  | 0 => .ok ([], s)
  | n + 1 => do
    let (w, s) ← s.readWord
    let (ws, s) ← s.readWords n
    return (w :: ws, s)

/-- The slice `&words[1..words.len()]` of src/spv/raw/reader.rs:137; out of range for an empty
vector. -/
def sliceFromOne (words : List UInt32) : R Block :=
  if 1 ≤ words.length then .ok (words.drop 1)
  else .error (.panic "slice index starts at 1 but ends at 0")

/-- src/spv/raw/reader.rs:125-431 -/
def readInstruction {X : Type} (stream : Stream) (known : List (ExtInstSet X))
    (bound : BoundSets X) : R (Core X × Stream × BoundSets X) := do
  let (head, stream) ← stream.readWord
  let id : UInt16 := (head &&& 0xFFFF).toUInt16
  let wc : UInt16 := (head >>> 16).toUInt16
  let (rest, stream) ← stream.readWords (wc.toNat - 1)
  let block ← sliceFromOne (head :: rest)
  match (opTable X).lookup id.toNat with
  | none => fail (.UnknownOp id wc)
  | some (.unimplemented name) => fail (.UnimplementedOp name)
  | some (.read f) => do
    let ((block, inst), bound) ← f block known bound
    if !block.atEnd then fail .InstructionHadExcessData
    else return (inst, stream, bound)

/-- The `while` loop of src/spv/raw/reader.rs:74-77. `acc` is in reverse order. One unit of fuel
per iteration; running out of fuel is the outcome `diverge`. -/
def readLoop {X : Type} (known : List (ExtInstSet X)) :
    Nat → Stream → BoundSets X → List (Core X) → R (List (Core X))
  | 0, _, _, _ => .error .diverge
  | fuel + 1, stream, bound, acc =>
    if stream.isEnd then .ok acc.reverse
    else do
      let (inst, stream, bound) ← readInstruction stream known bound
      readLoop known fuel stream bound (inst :: acc)

/-- The `match generator_id` of src/spv/raw/reader.rs:43-57 -/
def toolTable : List (UInt16 × Tool) :=
  [(0, .KhronosReserved), (1, .LunarG), (2, .Valve), (3, .Codeplay), (4, .Nvidia), (5, .Arm),
   (6, .KhronosLLvmTranslator), (7, .KhronosAssembler), (8, .KhronosGlslang), (9, .Qualcomm),
   (10, .Amd), (11, .Intel)]

/-- src/spv/raw/reader.rs:43-57 -/
def readTool (generator_id : UInt16) : Tool :=
  match toolTable.lookup generator_id with
  | some t => t
  | none => .Other generator_id

/-- src/spv/raw/reader.rs:27-39: version bytes of the version word, and both checks -/
def readVersion (ver_word : UInt32) : R Version := do
  let ver_high : UInt8 := (ver_word >>> 24).toUInt8
  let ver_major : UInt8 := ((ver_word >>> 16) &&& 0xF).toUInt8
  let ver_minor : UInt8 := ((ver_word >>> 8) &&& 0xF).toUInt8
  let ver_low : UInt8 := (ver_word &&& 0xF).toUInt8
  let version : Version ←
    if ver_high = 0 ∧ ver_major = 1 ∧ ver_minor = 0 ∧ ver_low = 0 then
      pure ⟨ver_major, ver_minor⟩
    else
      fail (.UnknownVersionBytes ver_high ver_major ver_minor ver_low)
  if version.f0 = 1 ∧ version.f1 = 0 then return version
  else fail (.UnknownVersion version)

/-- src/spv/raw/reader.rs:14-85 -/
def readModule {X : Type} (data : List UInt8) (known : List (ExtInstSet X)) : R (RawModule X) := do
  let stream := Stream.new data
  let (magic, stream) ← stream.readWord
  let stream ←
    if magic = SPIRV_MAGIC_NUMBER then pure stream
    else if magic = SPIRV_MAGIC_NUMBER_OTHER_ENDIAN then pure stream.invertEndianness
    else fail .BadMagic
  let (ver_word, stream) ← stream.readWord
  let version ← readVersion ver_word
  let (generator_word, stream) ← stream.readWord
  let generator_id : UInt16 := (generator_word >>> 16).toUInt16
  let generator : Generator :=
    { tool := readTool generator_id, version := (generator_word &&& 0xFFFF).toUInt16 }
  let (bound, stream) ← stream.readWord
  let (zero, stream) ← stream.readWord
  if zero ≠ 0 then fail .UnknownReservedSchema
  else do
    let instructions ← readLoop known (stream.source.length + 1) stream [] []
    return { version := version, generator := generator, bound := bound,
             instructions := instructions }

end Magma
