import Verif.Model.ReadOps
/-! Extended instruction sets and the `CoreRead` implementations (`src/spv/raw/reader.rs`). -/

namespace Magma

/-- The trait object `Box<ExtInstSet>` (src/spv/mod.rs:78-90): its name and its reading function.
`duplicate` returns the same set, so it is the identity here. `X` is the type of the extended
instructions the sets can return. -/
structure ExtInstSet (X : Type) where
  name : String
  readInstruction : UInt32 → Block → R (Block × X)

/-- `HashMap<OpId, Box<ExtInstSet>>`: the entries inserted so far. -/
abbrev BoundSets (X : Type) := List (UInt32 × ExtInstSet X)

/-- `HashMap::get` -/
def BoundSets.get {X : Type} (m : BoundSets X) (id : OpId) : Option (ExtInstSet X) :=
  List.lookup id.val m

/-- `HashMap::insert`: the new map and the previous value of the key -/
def BoundSets.insert {X : Type} (m : BoundSets X) (id : OpId) (s : ExtInstSet X) :
    BoundSets X × Option (ExtInstSet X) :=
  ((id.val, s) :: m, m.get id)

/-- `CoreRead::read_core` (src/spv/raw/reader.rs:433-438). The map of bound sets, a `&mut`
argument, is an extra component of the result. -/
abbrev CoreReader (X : Type) :=
  Block → List (ExtInstSet X) → BoundSets X → R ((Block × Core X) × BoundSets X)

/-- The `CoreRead` implementation made by `def_op_read!` (src/spv/raw/reader.rs:457-465) -/
def liftOp {X α : Type} (read : Block → R (Block × α)) (mk : α → Core X) : CoreReader X :=
  fun block _ bound => do
    let (block, item) ← read block
    return ((block, mk item), bound)

/-- src/spv/raw/reader.rs:502-524: the `for` loop over the known sets is a search for the first
set with that name. -/
def OpExtInstImport.readCore {X : Type} : CoreReader X := fun block known bound => do
  let (block, result_id) ← (MemoryBlockRead.read block : R (Block × ResultId))
  let (block, name) ← (MemoryBlockRead.read block : R (Block × String))
  match known.find? (fun s => s.name == name) with
  | some s =>
    match bound.insert ⟨result_id.val⟩ s with
    | (_, some _) => fail (.DuplicateResultId result_id)
    | (bound, none) =>
      return ((block, .OpExtInstImport { result_id := result_id, name := name }), bound)
  | none => fail (.UnknownInstSet name)

/-- src/spv/raw/reader.rs:526-549 -/
def OpExtInst.readCore {X : Type} : CoreReader X := fun block _ bound => do
  let (block, result_type) ← (MemoryBlockRead.read block : R (Block × OpId))
  let (block, result_id) ← (MemoryBlockRead.read block : R (Block × ResultId))
  let (block, set_id) ← (MemoryBlockRead.read block : R (Block × OpId))
  let (block, inst) ← (MemoryBlockRead.read block : R (Block × UInt32))
  match bound.get set_id with
  | some s => do
    let (block, extinst) ← s.readInstruction inst block
    return ((block, .OpExtInst { result_type := result_type, result_id := result_id,
                                 set := set_id, instruction := extinst }), bound)
  | none => fail (.UnknownInstSetId set_id)

/-- One literal arm of the opcode `match` in `read_instruction`
(src/spv/raw/reader.rs:137-425). -/
inductive OpEntry (X : Type) where
  | read (f : CoreReader X)
  | unimplemented (name : String)

end Magma
