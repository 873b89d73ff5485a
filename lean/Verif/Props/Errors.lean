import Verif.Model.Errors
import Verif.Props.Operands
/-! C47: aligned memory access. C48: the messages of errors. -/

namespace Magma.Props
open Magma Magma.Spec

/-! ### C47 -/

/-- The words of a memory access operand as the standard has it: the mask, and if bit 1 of the mask is
set, the alignment -/
def accessWords (mask alignment : UInt32) : List UInt32 :=
  if bitOf mask 1 then [mask, alignment] else [mask]

theorem continues_ok {X : Type} {known : List (ExtInstSet X)} {before : List (Core X)} {head : UInt32}
    {ops : List UInt32} {bytes : List UInt8} {inst : Core X}
    (h : Continues known before (head :: ops) [] bytes) (hl : ops.length = opWords head)
    (hd : ∀ b, decode head ops known b = .ok (inst, b)) :
    ∃ m, readModule bytes known = .ok m ∧ m.instructions = before ++ [inst] := by
  obtain ⟨le, ver, gen, bound, body, hver, hbody, ht, rfl⟩ := h
  obtain ⟨b', hinv, hb⟩ := bodyW_after (head :: ops) [] (Inv.nil known) hbody
  rw [readModule_bytesOf ht]
  simp only [headerW, readVersion_iff.mpr ⟨hver, rfl⟩, ok_bind, ne_eq, not_true, ite_false]
  rw [hb, bodyW_cons (by omega), ← hl, List.take_length, List.drop_length, hd, ok_bind, bodyW_nil, if_pos rfl]
  exact ⟨_, rfl, rfl⟩

theorem access_some {mask : UInt32} {rest : List UInt32} {a : MemoryAccess}
    (h : (MemoryBlockRead.read (mask :: rest) : R (Block × MemoryAccess)) = .ok (rest, a)) :
    (MemoryBlockRead.read (mask :: rest) : R (Block × Option MemoryAccess)) = .ok (rest, some a) := by
  show (if (mask :: rest).length > 0 then _ else _) = _
  rw [if_pos (by simp), h]
  rfl

/-- C47 is violated by every load: with an alignment, as the standard demands for masks with bit 1, the
module is rejected. -/
theorem C47_violated_load {X : Type} {known : List (ExtInstSet X)} {before : List (Core X)}
    {head type id pointer mask alignment : UInt32} {rest : List UInt32} {tail bytes : List UInt8}
    (h : Continues known before
      (head :: ([type, id, pointer] ++ accessWords mask alignment ++ rest)) tail bytes)
    (hh : IsHead 61 6 head) (hm : LowClear 3 mask) (ha : bitOf mask 1 = true) :
    readModule bytes known = .error (.err .InstructionHadExcessData) := by
  rw [accessWords, if_pos ha] at h
  refine Continues_error h (isHead_opWords hh).1.symm fun b _ => ?_
  rw [decode_eq (isHead_opWords hh).2 (f := liftOp OpLoad.read .OpLoad) (by rfl)]
  have h1 := access_some ((C11_memory_access_partial mask [alignment]).1 hm)
  have h2 : OpLoad.read ([type, id, pointer] ++ [mask, alignment]) = .ok ([alignment],
      ⟨⟨type⟩, ⟨id⟩, ⟨pointer⟩, some ⟨bitOf mask 0, bitOf mask 1, bitOf mask 2⟩⟩) := by
    show (MemoryBlockRead.read [mask, alignment] >>= fun p => _) = _
    rw [h1]
    rfl
  simp only [liftOp, h2, ok_bind]
  rfl

/-- C47 is violated by every store in the same way. -/
theorem C47_violated_store {X : Type} {known : List (ExtInstSet X)} {before : List (Core X)}
    {head pointer object mask alignment : UInt32} {rest : List UInt32} {tail bytes : List UInt8}
    (h : Continues known before
      (head :: ([pointer, object] ++ accessWords mask alignment ++ rest)) tail bytes)
    (hh : IsHead 62 5 head) (hm : LowClear 3 mask) (ha : bitOf mask 1 = true) :
    readModule bytes known = .error (.err .InstructionHadExcessData) := by
  rw [accessWords, if_pos ha] at h
  refine Continues_error h (isHead_opWords hh).1.symm fun b _ => ?_
  rw [decode_eq (isHead_opWords hh).2 (f := liftOp OpStore.read .OpStore) (by rfl)]
  have h1 := access_some ((C11_memory_access_partial mask [alignment]).1 hm)
  have h2 : OpStore.read ([pointer, object] ++ [mask, alignment]) = .ok ([alignment],
      ⟨⟨pointer⟩, ⟨object⟩, some ⟨bitOf mask 0, bitOf mask 1, bitOf mask 2⟩⟩) := by
    show (MemoryBlockRead.read [mask, alignment] >>= fun p => _) = _
    rw [h1]
    rfl
  simp only [liftOp, h2, ok_bind]
  rfl

/-- C47 for loads, what holds: without an alignment they are read. Missing are the masks with bit 1. -/
theorem C47_load_partial {X : Type} {known : List (ExtInstSet X)} {before : List (Core X)}
    {head type id pointer mask alignment : UInt32} {bytes : List UInt8}
    (h : Continues known before (head :: ([type, id, pointer] ++ accessWords mask alignment)) [] bytes)
    (hh : IsHead 61 5 head) (hm : LowClear 3 mask) (ha : bitOf mask 1 = false) :
    ∃ m, readModule bytes known = .ok m ∧ m.instructions = before ++
      [.OpLoad ⟨⟨type⟩, ⟨id⟩, ⟨pointer⟩, some ⟨bitOf mask 0, false, bitOf mask 2⟩⟩] := by
  rw [accessWords, if_neg (by rw [ha]; decide)] at h
  refine continues_ok h (isHead_opWords hh).1.symm fun b => ?_
  rw [decode_eq (isHead_opWords hh).2 (f := liftOp OpLoad.read .OpLoad) (by rfl)]
  have h1 := access_some ((C11_memory_access_partial mask []).1 hm)
  have h2 : OpLoad.read ([type, id, pointer] ++ [mask]) = .ok ([],
      ⟨⟨type⟩, ⟨id⟩, ⟨pointer⟩, some ⟨bitOf mask 0, false, bitOf mask 2⟩⟩) := by
    show (MemoryBlockRead.read [mask] >>= fun p => _) = _
    rw [h1, ha]
    rfl
  simp only [liftOp, h2, ok_bind]
  rfl

/-- C47 for stores, what holds: without an alignment they are read. Missing are the masks with bit 1. -/
theorem C47_store_partial {X : Type} {known : List (ExtInstSet X)} {before : List (Core X)}
    {head pointer object mask alignment : UInt32} {bytes : List UInt8}
    (h : Continues known before (head :: ([pointer, object] ++ accessWords mask alignment)) [] bytes)
    (hh : IsHead 62 4 head) (hm : LowClear 3 mask) (ha : bitOf mask 1 = false) :
    ∃ m, readModule bytes known = .ok m ∧ m.instructions = before ++
      [.OpStore ⟨⟨pointer⟩, ⟨object⟩, some ⟨bitOf mask 0, false, bitOf mask 2⟩⟩] := by
  rw [accessWords, if_neg (by rw [ha]; decide)] at h
  refine continues_ok h (isHead_opWords hh).1.symm fun b => ?_
  rw [decode_eq (isHead_opWords hh).2 (f := liftOp OpStore.read .OpStore) (by rfl)]
  have h1 := access_some ((C11_memory_access_partial mask []).1 hm)
  have h2 : OpStore.read ([pointer, object] ++ [mask]) = .ok ([],
      ⟨⟨pointer⟩, ⟨object⟩, some ⟨bitOf mask 0, false, bitOf mask 2⟩⟩) := by
    show (MemoryBlockRead.read [mask] >>= fun p => _) = _
    rw [h1, ha]
    rfl
  simp only [liftOp, h2, ok_bind]
  rfl

/-- `OpLoad %1 %2 %3 Aligned 4` -/
example : readModule (X := Empty) (Samples.header ++ bytesOf true [0x0006003D, 1, 2, 3, 2, 4]) [] =
    .error (.err .InstructionHadExcessData) :=
  C47_violated_load (mask := 2) (alignment := 4) (rest := []) (continues_header _ _) ⟨6, rfl, by decide, .inl rfl⟩
    (by intro i h1 h2; have : ∀ i, i < 16 → 3 ≤ i → bitOf 2 i = false := by decide
        exact this i h2 h1) (by decide)

/-- `OpStore %3 %4 Volatile | Nontemporal` -/
example : ∃ m, readModule (X := Empty) (Samples.header ++ bytesOf true [0x0004003E, 3, 4, 5]) [] = .ok m ∧
    m.instructions = [] ++ [.OpStore ⟨⟨3⟩, ⟨4⟩, some ⟨true, false, true⟩⟩] :=
  C47_store_partial (mask := 5) (alignment := 0) (continues_header _ _) ⟨4, rfl, by decide, .inl rfl⟩
    (by intro i h1 h2; have : ∀ i, i < 16 → 3 ≤ i → bitOf 5 i = false := by decide
        exact this i h2 h1) (by decide)

/-! ### C48 -/

/-- The messages, in the order of the constructors -/
def descriptions : List String :=
  ["unexpected end of stream",
   "stream is not word aligned",
   "invalid magic number",
   "unknown version bytes",
   "unknown version",
   "unknown reserved schema field",
   "unknown op",
   "unimplemented op",
   "op has invalid word count",
   "invalid string literal",
   "instruction didn't have enough data",
   "instruction didn't require all data",
   "unknown instruction set",
   "extended instruction referenced unknown instruction set",
   "unknown op in extended instruction set",
   "duplicate result id",
   "unknown addressing model",
   "unknown memory model",
   "unknown execution model",
   "unknown execution mode",
   "unknown capability",
   "unknown decoration",
   "unknown built in",
   "unknown fp rounding mode",
   "unknown fp fast math mode",
   "unknown linkage type",
   "unknown signedness",
   "unknown storage class",
   "unknown function parameter attribute",
   "unknown memory access",
   "unknown image dimension",
   "unknown image depth hint",
   "unknown image arrayed status",
   "unknown multisampled status",
   "unknown sampled hint",
   "unknown image format",
   "unknown access qualifier",
   "unknown loop control",
   "unknown selection control"]

theorem description_at (e : ReadError) : descriptions[e.ctorIdx]? = some e.description := by
  cases e <;> rfl

/-- C48: the message of an error names its kind: two errors have the same message if and only if they
are made by the same constructor. -/
theorem C48_kinds (e e' : ReadError) : (Display.fmt e : Text) = Display.fmt e' ↔ e.ctorIdx = e'.ctorIdx := by
  have hd : descriptions.Nodup := by decide
  constructor
  · intro h
    have h : e.description = e'.description := String.toList_injective h
    have h1 := description_at e
    have h2 := description_at e'
    rw [← h, ← h1] at h2
    exact ((List.getElem?_inj (by
      rcases Nat.lt_or_ge e.ctorIdx descriptions.length with h | h
      · exact h
      · rw [List.getElem?_eq_none h] at h1; cases h1) hd).mp h2.symm)
  · intro h
    have h1 := description_at e
    rw [h, description_at e'] at h1
    exact congrArg String.toList (Option.some.inj h1).symm

/-- C48: messages are single lines and are not empty. -/
theorem C48_line (e : ReadError) : (Display.fmt e : Text) ≠ [] ∧ '\n' ∉ (Display.fmt e : Text) := by
  have h : ∀ d ∈ descriptions, d.toList ≠ [] ∧ '\n' ∉ d.toList := by decide +kernel
  exact h _ (List.mem_of_getElem? (description_at e))

example : (Display.fmt (ReadError.UnknownDim 9) : Text) = "unknown image dimension".toList ∧
    (Display.fmt (ReadError.UnknownDim 9) : Text) = Display.fmt (ReadError.UnknownDim 10) ∧
    (Display.fmt (ReadError.UnknownDim 9) : Text) ≠ Display.fmt (ReadError.UnknownMS 9) := by decide +kernel

end Magma.Props
