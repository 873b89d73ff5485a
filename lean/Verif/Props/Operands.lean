import Verif.Props.Instructions
/-! Properties of the operand readers: C08, C11, C12. -/

namespace Magma.Props
open Spec

/-! ### C08: literal strings -/

/-- The position of the terminator: the first byte that is NUL -/
def IsFirstNul (bytes : List UInt8) (k : Nat) : Prop :=
  bytes[k]? = some 0 ∧ 0 ∉ bytes.take k

theorem stringWords_of_firstNul {ws : List UInt32} {k : Nat} (h : IsFirstNul (ws.flatMap wordBytes) k) :
    StringWords ((ws.flatMap wordBytes).take k) (ws.take (k / 4 + 1)) := by
  obtain ⟨h1, h2⟩ := h
  have hk : k < (ws.flatMap wordBytes).length := by
    apply Nat.lt_of_not_le
    intro hle
    rw [List.getElem?_eq_none hle] at h1
    cases h1
  have hl := flatMap_wordBytes_length ws
  have htake : (ws.take (k / 4 + 1)).flatMap wordBytes = (ws.flatMap wordBytes).take (4 * (k / 4 + 1)) := by
    have : ∀ (n : Nat) (l : List UInt32), (l.take n).flatMap wordBytes = (l.flatMap wordBytes).take (4 * n) := by
      intro n
      induction n with
      | zero => simp
      | succ n ih =>
        intro l
        cases l with
        | nil => simp
        | cons w l =>
          have e : 4 * (n + 1) = 4 * n + 1 + 1 + 1 + 1 := by omega
          simp [ih, wordBytes, e]
    exact this _ _
  refine ⟨((ws.flatMap wordBytes).take (4 * (k / 4 + 1))).drop (k + 1), ?_, ?_, h2⟩
  · rw [htake]
    have hk' : k < ((ws.flatMap wordBytes).take (4 * (k / 4 + 1))).length := by
      rw [List.length_take]; omega
    conv => lhs; rw [← List.take_append_drop k ((ws.flatMap wordBytes).take (4 * (k / 4 + 1)))]
    rw [List.take_take, Nat.min_eq_left (by omega), List.drop_eq_getElem_cons hk']
    congr 2
    rw [List.getElem_take]
    rw [List.getElem?_eq_getElem hk] at h1
    exact Option.some.inj h1
  · rw [List.length_drop, List.length_take]
    omega

/-- C08: a string with a terminator: it is the bytes before the terminator, and takes up as many
words as needed for the bytes and the terminator. -/
theorem C08_string {ws : List UInt32} {k : Nat} (h : IsFirstNul (ws.flatMap wordBytes) k) :
    (∀ s, stringBytes s = (ws.flatMap wordBytes).take k →
      (MemoryBlockRead.read ws : R (Block × String)) = .ok (ws.drop (k / 4 + 1), s)) ∧
    ((∀ s, stringBytes s ≠ (ws.flatMap wordBytes).take k) →
      (MemoryBlockRead.read ws : R (Block × String)) = .error (.err .InvalidString)) := by
  have hs := stringWords_of_firstNul h
  have hl : readStringLoop ws [] = .ok (ws.drop (k / 4 + 1), (ws.flatMap wordBytes).take k) :=
    readStringLoop_iff.mpr ⟨_, _, (List.take_append_drop _ ws).symm, by simp, hs⟩
  constructor
  · intro s hb
    simp only [MemoryBlockRead.read, hl, ok_bind]
    rw [fromUTF8?_bytes.mpr hb.symm]
  · intro hb
    simp only [MemoryBlockRead.read, hl, ok_bind]
    cases hf : String.fromUTF8? ⟨((ws.flatMap wordBytes).take k).toArray⟩ with
    | none => rfl
    | some s => exact absurd (fromUTF8?_bytes.mp hf).symm (hb s)

theorem readStringLoop_noNul {ws : List UInt32} (h : 0 ∉ ws.flatMap wordBytes) :
    ∀ acc, readStringLoop ws acc = fail .UnexpectedEndOfInstruction := by
  induction ws with
  | nil => intro acc; rfl
  | cons w ws ih =>
    intro acc
    simp only [List.flatMap_cons, List.mem_append, not_or] at h
    simp only [readStringLoop, wordChars_eq]
    rw [pushChars_false.mpr ⟨h.1, rfl⟩]
    exact ih h.2 _

/-- C08: a string without terminator is an error. -/
theorem C08_no_terminator {ws : List UInt32} (h : 0 ∉ ws.flatMap wordBytes) :
    (MemoryBlockRead.read ws : R (Block × String)) = .error (.err .UnexpectedEndOfInstruction) := by
  simp only [MemoryBlockRead.read, readStringLoop_noNul h]
  rfl

/-- C08: what is returned has no NUL. -/
theorem C08_no_nul {ws rest : List UInt32} {s : String} (h : MemoryBlockRead.read ws = .ok (rest, s)) :
    0 ∉ stringBytes s := by
  obtain ⟨u, ws', rfl, ⟨pad, h1, h2, h3⟩, -⟩ := (Lawful.iff ws rest s).mp h
  exact h3

/-- The instructions that are a number of words and then a string, with that number -/
def stringOps : List (Nat × Nat) := [(2, 0), (4, 0), (5, 1), (6, 2), (7, 1), (10, 0), (11, 1)]

theorem readBind_end {α β : Type} {x : R α} {f : α → R β} (h : x = fail .UnexpectedEndOfInstruction) :
    (x >>= f) = fail .UnexpectedEndOfInstruction := by
  rw [h]; rfl

/-- C08: a string that is not terminated inside its instruction is an error, whatever follows the
instruction: the string never extends into the next one. -/
theorem C08_not_beyond {X : Type} {known : List (ExtInstSet X)} {before : List (Core X)}
    {head : UInt32} {ops rest : List UInt32} {tail bytes : List UInt8} {k n : Nat}
    (h : Continues known before (head :: (ops ++ rest)) tail bytes)
    (hk : (k, n) ∈ stringOps) (hh : IsHead k (ops.length + 1) head) (hn : n ≤ ops.length)
    (hz : 0 ∉ (ops.drop n).flatMap wordBytes) :
    readModule bytes known = .error (.err .UnexpectedEndOfInstruction) := by
  refine Continues_error h (isHead_opWords hh).1.symm ?_
  intro b _
  have hk2 := (isHead_opWords hh).2
  simp only [stringOps, List.mem_cons, Prod.mk.injEq, List.not_mem_nil, or_false] at hk
  rcases hk with ⟨rfl, rfl⟩ | ⟨rfl, rfl⟩ | ⟨rfl, rfl⟩ | ⟨rfl, rfl⟩ | ⟨rfl, rfl⟩ | ⟨rfl, rfl⟩ | ⟨rfl, rfl⟩
  · rw [decode_eq hk2 (f := liftOp OpSourceContinued.read .OpSourceContinued) (by rfl)]
    exact readBind_end (readBind_end (readBind_end (C08_no_terminator hz)))
  · rw [decode_eq hk2 (f := liftOp OpSourceExtension.read .OpSourceExtension) (by rfl)]
    exact readBind_end (readBind_end (readBind_end (C08_no_terminator hz)))
  · match ops with
    | a :: ops =>
      rw [decode_eq hk2 (f := liftOp OpName.read .OpName) (by rfl)]
      have hid : (MemoryBlockRead.read (a :: ops) : R (Block × OpId)) = .ok (ops, ⟨a⟩) := rfl
      have hz' : 0 ∉ ops.flatMap wordBytes := hz
      simp only [liftOp, OpName.read, hid, ok_bind, C08_no_terminator hz']
      rfl
  · match ops with
    | a :: c :: ops =>
      rw [decode_eq hk2 (f := liftOp OpMemberName.read .OpMemberName) (by rfl)]
      have hid : (MemoryBlockRead.read (a :: c :: ops) : R (Block × OpId)) = .ok (c :: ops, ⟨a⟩) := rfl
      have hid' : (MemoryBlockRead.read (c :: ops) : R (Block × MemberIndex)) = .ok (ops, ⟨c⟩) := rfl
      have hz' : 0 ∉ ops.flatMap wordBytes := hz
      simp only [liftOp, OpMemberName.read, hid, hid', ok_bind, C08_no_terminator hz']
      rfl
    | [_] => simp at hn
  · match ops with
    | a :: ops =>
      rw [decode_eq hk2 (f := liftOp OpString.read .OpString) (by rfl)]
      have hid : (MemoryBlockRead.read (a :: ops) : R (Block × ResultId)) = .ok (ops, ⟨a⟩) := rfl
      have hz' : 0 ∉ ops.flatMap wordBytes := hz
      simp only [liftOp, OpString.read, hid, ok_bind, C08_no_terminator hz']
      rfl
  · rw [decode_eq hk2 (f := liftOp OpExtension.read .OpExtension) (by rfl)]
    exact readBind_end (readBind_end (readBind_end (C08_no_terminator hz)))
  · match ops with
    | a :: ops =>
      rw [decode_eq hk2 (f := OpExtInstImport.readCore) (by rfl)]
      have hid : (MemoryBlockRead.read (a :: ops) : R (Block × ResultId)) = .ok (ops, ⟨a⟩) := rfl
      have hz' : 0 ∉ ops.flatMap wordBytes := hz
      simp only [OpExtInstImport.readCore, hid, ok_bind, C08_no_terminator hz']
      rfl

/-- "abcd" and its terminator in two words, with rubbish behind the terminator -/
example : IsFirstNul ([0x64636261, 0x12FF0000, 7].flatMap wordBytes) 4 ∧
    stringBytes "abcd" = ([0x64636261, 0x12FF0000, 7].flatMap wordBytes).take 4 := by
  constructor
  · constructor
    · rfl
    · decide
  · rfl

example : (MemoryBlockRead.read [0x64636261, 0x12FF0000, 7] : R (Block × String)) = .ok ([7], "abcd") :=
  (C08_string (k := 4) ⟨rfl, by decide⟩).1 _ rfl

/-- A byte that is not UTF-8 -/
example : (MemoryBlockRead.read [0xFF] : R (Block × String)) = .error (.err .InvalidString) := by rfl

/-- `OpName` without terminator; the next instruction has a zero byte. -/
example : readModule (X := Empty) (Samples.header ++ bytesOf true [0x00030005, 7, 0x64636261, 0]) [] =
    .error (.err .UnexpectedEndOfInstruction) :=
  C08_not_beyond (ops := [7, 0x64636261]) (rest := [0]) (k := 5) (n := 1) (continues_header _ _)
    (by simp [stringOps]) ⟨3, rfl, by decide, .inl rfl⟩ (by simp) (by decide)

/-! ### C11: bit masks -/

/-- Bit `i` of a word -/
def bitOf (w : UInt32) (i : Nat) : Bool := w.toNat.testBit i

theorem and_eq_zero_iff {w m : UInt32} {lo hi : Nat}
    (hm : ∀ i, i < 32 → m.toNat.testBit i = decide (lo ≤ i ∧ i < hi)) (hh : hi ≤ 32) :
    (w &&& m) = 0 ↔ ∀ i, lo ≤ i → i < hi → bitOf w i = false := by
  rw [← UInt32.toNat_inj, UInt32.toNat_and]
  constructor
  · intro h i h1 h2
    have := congrArg (fun n => n.testBit i) h
    simp only [Nat.testBit_and, hm i (by omega)] at this
    simpa [h1, h2, bitOf] using this
  · intro h
    apply Nat.eq_of_testBit_eq
    intro i
    rw [Nat.testBit_and]
    by_cases hi' : i < 32
    · rw [hm i hi']
      by_cases hc : lo ≤ i ∧ i < hi
      · have := h i hc.1 hc.2
        simp only [bitOf] at this
        simp [this]
      · simp [hc]
    · have : w.toNat.testBit i = false :=
        Nat.testBit_lt_two_pow (Nat.lt_of_lt_of_le w.toNat_lt (Nat.pow_le_pow_right (by omega) (by omega)))
      simp [this]

theorem bit_ne_zero {w m : UInt32} {k : Nat}
    (hm : ∀ i, i < 32 → m.toNat.testBit i = decide (k ≤ i ∧ i < k + 1)) (hk : k < 32) :
    ((w &&& m) != 0) = bitOf w k := by
  have := and_eq_zero_iff (w := w) hm (by omega)
  cases hb : bitOf w k with
  | false =>
    have h0 : (w &&& m) = 0 := this.mpr (by
      intro i h1 h2
      obtain rfl : i = k := by omega
      exact hb)
    simp [h0]
  | true =>
    have h0 : (w &&& m) ≠ 0 := by
      intro h
      have := this.mp h k (Nat.le_refl _) (by omega)
      rw [hb] at this
      cases this
    simpa using h0

theorem bit0 (w : UInt32) : ((w &&& 0x1) != 0) = bitOf w 0 := bit_ne_zero (by decide) (by omega)
theorem bit1 (w : UInt32) : ((w &&& 0x2) != 0) = bitOf w 1 := bit_ne_zero (by decide) (by omega)
theorem bit2 (w : UInt32) : ((w &&& 0x4) != 0) = bitOf w 2 := bit_ne_zero (by decide) (by omega)
theorem bit3 (w : UInt32) : ((w &&& 0x8) != 0) = bitOf w 3 := bit_ne_zero (by decide) (by omega)
theorem bit4 (w : UInt32) : ((w &&& 0x10) != 0) = bitOf w 4 := bit_ne_zero (by decide) (by omega)

/-- The bits `lo..15` of the word are zero. -/
def LowClear (lo : Nat) (w : UInt32) : Prop := ∀ i, lo ≤ i → i < 16 → bitOf w i = false

theorem guard_low {lo : Nat} {w m : UInt32}
    (hm : ∀ i, i < 32 → m.toNat.testBit i = decide (lo ≤ i ∧ i < 16)) :
    ((w &&& m) != 0) = true ↔ ¬ LowClear lo w := by
  rw [LowClear, ← and_eq_zero_iff hm (by omega)]
  simp

/-- C11, memory access: what holds. Missing from the full claim: bits 16-31 are not checked. -/
theorem C11_memory_access_partial (w : UInt32) (rest : List UInt32) :
    (LowClear 3 w → (MemoryBlockRead.read (w :: rest) : R (Block × MemoryAccess)) =
      .ok (rest, { volatile := bitOf w 0, aligned := bitOf w 1, non_temporal := bitOf w 2 })) ∧
    (¬ LowClear 3 w → (MemoryBlockRead.read (w :: rest) : R (Block × MemoryAccess)) =
      .error (.err (.UnknownMemoryAccess w))) := by
  have hg := guard_low (lo := 3) (w := w) (m := 0xFFF8) (by decide)
  simp only [MemoryBlockRead.read, Block.readWord, ok_bind, bit0, bit1, bit2]
  constructor
  · intro h
    rw [if_neg (by rw [hg]; exact fun hc => hc h)]
    rfl
  · intro h
    rw [if_pos (hg.mpr h)]

/-- C11, fast-math mode: what holds. Missing from the full claim: bits 5 and 16-31 are not
checked. -/
theorem C11_fast_math_partial (w : UInt32) (rest : List UInt32) :
    (LowClear 6 w → (MemoryBlockRead.read (w :: rest) : R (Block × FpFastMathMode)) =
      .ok (rest, { not_nan := bitOf w 0, not_inf := bitOf w 1, nsz := bitOf w 2,
                   allow_recip := bitOf w 3, fast := bitOf w 4 })) ∧
    (¬ LowClear 6 w → (MemoryBlockRead.read (w :: rest) : R (Block × FpFastMathMode)) =
      .error (.err (.UnknownFpFastMathMode w))) := by
  have hg := guard_low (lo := 6) (w := w) (m := 0xFFC0) (by decide)
  simp only [MemoryBlockRead.read, Block.readWord, ok_bind, bit0, bit1, bit2, bit3, bit4]
  constructor
  · intro h
    rw [if_neg (by rw [hg]; exact fun hc => hc h)]
    rfl
  · intro h
    rw [if_pos (hg.mpr h)]

/-- C11, selection control: what holds. Missing from the full claim: bits 16-31 are not checked. -/
theorem C11_selection_control_partial (w : UInt32) (rest : List UInt32) :
    (LowClear 2 w → (MemoryBlockRead.read (w :: rest) : R (Block × SelectionControl)) =
      .ok (rest, { flatten := bitOf w 0, dont_flatten := bitOf w 1 })) ∧
    (¬ LowClear 2 w → (MemoryBlockRead.read (w :: rest) : R (Block × SelectionControl)) =
      .error (.err (.UnknownSelectionControl w))) := by
  have hg := guard_low (lo := 2) (w := w) (m := 0xFFFC) (by decide)
  simp only [MemoryBlockRead.read, Block.readWord, ok_bind, bit0, bit1]
  constructor
  · intro h
    rw [if_neg (by rw [hg]; exact fun hc => hc h)]
    rfl
  · intro h
    rw [if_pos (hg.mpr h)]

/-- C11, loop control: what holds; bit 3 announces a further word. Missing from the full claim: bits
16-31 are not checked. -/
theorem C11_loop_control_partial (w : UInt32) (rest : List UInt32) :
    (LowClear 4 w → bitOf w 3 = false →
      (MemoryBlockRead.read (w :: rest) : R (Block × LoopControl)) =
      .ok (rest, { unroll := bitOf w 0, dont_unroll := bitOf w 1, dependency_infinite := bitOf w 2,
                   dependency_length := none })) ∧
    (∀ n, LowClear 4 w → bitOf w 3 = true →
      (MemoryBlockRead.read (w :: n :: rest) : R (Block × LoopControl)) =
      .ok (rest, { unroll := bitOf w 0, dont_unroll := bitOf w 1, dependency_infinite := bitOf w 2,
                   dependency_length := some n })) ∧
    (LowClear 4 w → bitOf w 3 = true → (MemoryBlockRead.read [w] : R (Block × LoopControl)) =
      .error (.err .UnexpectedEndOfInstruction)) ∧
    (¬ LowClear 4 w → (MemoryBlockRead.read (w :: rest) : R (Block × LoopControl)) =
      .error (.err (.UnknownLoopControl w))) := by
  have hg := guard_low (lo := 4) (w := w) (m := 0xFFF0) (by decide)
  simp only [MemoryBlockRead.read, Block.readWord, ok_bind, bit0, bit1, bit2, bit3]
  refine ⟨?_, ?_, ?_, ?_⟩
  · intro h hb
    rw [if_neg (by rw [hg]; exact fun hc => hc h)]
    simp only [hb]
    rfl
  · intro n h hb
    rw [if_neg (by rw [hg]; exact fun hc => hc h)]
    simp only [hb]
    rfl
  · intro h hb
    rw [if_neg (by rw [hg]; exact fun hc => hc h)]
    simp only [hb]
    rfl
  · intro h
    rw [if_pos (hg.mpr h)]

/-- C11, function control: what holds. Missing from the full claim: no bit is checked, so the
reading never fails on a word. -/
theorem C11_function_control_partial (w : UInt32) (rest : List UInt32) :
    (MemoryBlockRead.read (w :: rest) : R (Block × FunctionControl)) =
      .ok (rest, { inline := bitOf w 0, dont_inline := bitOf w 1, pure_function := bitOf w 2,
                   const_function := bitOf w 3 }) := by
  simp only [MemoryBlockRead.read, Block.readWord, ok_bind, bit0, bit1, bit2, bit3]
  rfl

example : LowClear 3 0xFFFF0005 ∧ bitOf 0xFFFF0005 0 = true ∧ ¬ LowClear 3 0x8 := by
  have h : ∀ i, i < 16 → 3 ≤ i → bitOf 0xFFFF0005 i = false := by decide
  refine ⟨fun i h1 h2 => h i h2 h1, by decide, fun h => ?_⟩
  exact absurd (h 3 (by omega) (by omega)) (by decide)

/-- C11 is violated: masks with reserved bits are accepted, in modules too: a function whose control
mask is `0xFFFFFFF0` is read as one without any control. -/
theorem C11_violated :
    (MemoryBlockRead.read [0x00080000] : R (Block × MemoryAccess)) = .ok ([], ⟨false, false, false⟩) ∧
    (MemoryBlockRead.read [0x20] : R (Block × FpFastMathMode)) =
      .ok ([], ⟨false, false, false, false, false⟩) ∧
    (MemoryBlockRead.read [0x10000] : R (Block × SelectionControl)) = .ok ([], ⟨false, false⟩) ∧
    (MemoryBlockRead.read [0x10000] : R (Block × LoopControl)) =
      .ok ([], ⟨false, false, false, none⟩) ∧
    ∃ m, readModule (X := Empty) (Samples.header ++ bytesOf true [0x00050036, 1, 2, 0xFFFFFFF0, 3]) [] =
      .ok m ∧ m.instructions = [.OpFunction
        { result_type := ⟨1⟩, result_id := ⟨2⟩, function_control := ⟨false, false, false, false⟩,
          function_type := ⟨3⟩ }] :=
  ⟨rfl, rfl, rfl, rfl, _, rfl, rfl⟩

/-! ### C12: enumerants -/

/-- The reader of an enumerated operand agrees with the table `code` of the standard; `e` is the
error for other words. -/
structure AgreesWith {α : Type} [MemoryBlockRead α] (code : α → UInt32) (e : UInt32 → ReadError) :
    Prop where
  distinct : ∀ a b, code a = code b → a = b
  accepts : ∀ a rest, (MemoryBlockRead.read (code a :: rest) : R (Block × α)) = .ok (rest, a)
  rejects : ∀ w rest, (∀ a, code a ≠ w) →
    (MemoryBlockRead.read (w :: rest) : R (Block × α)) = .error (.err (e w))

theorem AgreesWith.of_lawful {α : Type} [MemoryBlockRead α] [Encode α] [Lawful α]
    {code : α → UInt32} {e : UInt32 → ReadError} {table : List (UInt32 × α)}
    (henc : ∀ a : α, enc a = [.lit (code a)])
    (hread : ∀ ws : Block, (MemoryBlockRead.read ws : R (Block × α)) = readEnum table e ws) :
    AgreesWith code e := by
  have hacc (a : α) (rest : List UInt32) :
      (MemoryBlockRead.read (code a :: rest) : R (Block × α)) = .ok (rest, a) :=
    (Lawful.iff _ _ _).mpr (by rw [henc]; exact ⟨_, rfl, rfl⟩)
  refine ⟨?_, hacc, ?_⟩
  · intro a b h
    have h1 := hacc a []
    rw [h, hacc b []] at h1
    cases h1
    rfl
  · intro w rest hn
    rw [hread]
    simp only [readEnum, Block.readWord, ok_bind]
    cases hl : table.lookup w with
    | none => rfl
    | some a =>
      exfalso
      have : (MemoryBlockRead.read (w :: rest) : R (Block × α)) = .ok (rest, a) := by
        rw [hread]
        simp only [readEnum, Block.readWord, ok_bind, hl]
        rfl
      have := (Lawful.iff _ _ _).mp this
      rw [henc] at this
      obtain ⟨_, hw, _⟩ := this
      simp only [List.cons.injEq] at hw
      exact hn a hw.1.symm

/-- C12 for `BuiltIn` -/
theorem C12_built_in : AgreesWith builtInCode .UnknownBuiltIn :=
  .of_lawful (fun _ => rfl) (fun _ => rfl)

/-- C12 for `FunctionParameterAttribute` -/
theorem C12_function_parameter_attribute : AgreesWith functionParameterAttributeCode .UnknownFunctionParameterAttribute :=
  .of_lawful (fun _ => rfl) (fun _ => rfl)

/-- C12 for `FpRoundingMode` -/
theorem C12_fp_rounding_mode : AgreesWith fpRoundingModeCode .UnknownFpRoundingMode :=
  .of_lawful (fun _ => rfl) (fun _ => rfl)

/-- C12 for `LinkageType` -/
theorem C12_linkage_type : AgreesWith linkageTypeCode .UnknownLinkageType :=
  .of_lawful (fun _ => rfl) (fun _ => rfl)

/-- C12 for `AddressingModel` -/
theorem C12_addressing_model : AgreesWith addressingModelCode .UnknownAddressingModel :=
  .of_lawful (fun _ => rfl) (fun _ => rfl)

/-- C12 for `MemoryModel` -/
theorem C12_memory_model : AgreesWith memoryModelCode .UnknownMemoryModel :=
  .of_lawful (fun _ => rfl) (fun _ => rfl)

/-- C12 for `ExecutionModel` -/
theorem C12_execution_model : AgreesWith executionModelCode .UnknownExecutionModel :=
  .of_lawful (fun _ => rfl) (fun _ => rfl)

/-- C12 for `Capability` -/
theorem C12_capability : AgreesWith capabilityCode .UnknownCapability :=
  .of_lawful (fun _ => rfl) (fun _ => rfl)

/-- C12 for `Signedness` -/
theorem C12_signedness : AgreesWith signednessCode .UnknownSignedness :=
  .of_lawful (fun _ => rfl) (fun _ => rfl)

/-- C12 for `StorageClass` -/
theorem C12_storage_class : AgreesWith storageClassCode .UnknownStorageClass :=
  .of_lawful (fun _ => rfl) (fun _ => rfl)

/-- C12 for `Dim` -/
theorem C12_dim : AgreesWith dimCode .UnknownDim :=
  .of_lawful (fun _ => rfl) (fun _ => rfl)

/-- C12 for `DepthStatus` -/
theorem C12_depth_status : AgreesWith depthStatusCode .UnknownDepthStatus :=
  .of_lawful (fun _ => rfl) (fun _ => rfl)

/-- C12 for `Arrayed` -/
theorem C12_arrayed : AgreesWith arrayedCode .UnknownArrayed :=
  .of_lawful (fun _ => rfl) (fun _ => rfl)

/-- C12 for `MS` -/
theorem C12_ms : AgreesWith mSCode .UnknownMS :=
  .of_lawful (fun _ => rfl) (fun _ => rfl)

/-- C12 for `SampledStatus` -/
theorem C12_sampled_status : AgreesWith sampledStatusCode .UnknownSampledStatus :=
  .of_lawful (fun _ => rfl) (fun _ => rfl)

/-- C12 for `ImageFormat` -/
theorem C12_image_format : AgreesWith imageFormatCode .UnknownImageFormat :=
  .of_lawful (fun _ => rfl) (fun _ => rfl)

/-- C12 for `AccessQualifier` -/
theorem C12_access_qualifier : AgreesWith accessQualifierCode .UnknownAccessQualifier :=
  .of_lawful (fun _ => rfl) (fun _ => rfl)

theorem readHandler_reject {α : Type} {table : List (UInt32 × (Block → R (Block × α)))}
    {e : UInt32 → ReadError} {w : UInt32} {rest : List UInt32} (h : ∀ p ∈ table, p.1 ≠ w) :
    readHandler table e (w :: rest) = fail (e w) := by
  have : table.lookup w = none := by
    cases hl : table.lookup w with
    | none => rfl
    | some f => exact absurd rfl (h _ (mem_of_lookup hl))
  simp only [readHandler, Block.readWord, ok_bind, this]

/-- One execution mode of every kind -/
def someModes : List ExecutionMode :=
  [.Invocations 0, .SpacingEqual, .SpacingFractionalEven, .SpacingFractionalOdd,
   .VertexOrderCw, .VertexOrderCcw, .PixelCenterInteger, .OriginUpperLeft, .OriginLowerLeft,
   .EarlyFragmentTests, .PointMode, .Xfb, .DepthReplacing, .DepthGreater, .DepthLess,
   .DepthUnchanged, .LocalSize 0 0 0, .LocalSizeHint 0 0 0, .InputPoints, .InputLines,
   .InputLinesAdjacency, .Triangles, .InputTrianglesAdjacency, .Quads, .Isolines,
   .OutputVerticies 0, .OutputPoints, .OutputLineStrip, .OutputTriangleStrip,
   .VecTypeHint ⟨0⟩, .ContractionOff]

/-- One decoration of every kind -/
def someDecorations : List Decoration :=
  [.RelaxedPrecision, .SpecId 0, .Block, .BufferBlock, .RowMajor, .ColMajor, .ArrayStride 0,
   .MatrixStride 0, .GlslShared, .GlslPacked, .CPacked, .BuiltIn .Position, .NoPerspective,
   .Flat, .Patch, .Centroid, .Sample, .Invariant, .Restrict, .Aliased, .Volatile, .Constant,
   .Coherent, .NonWritable, .NonReadable, .Uniform, .SaturatedConversion, .Stream 0,
   .Location 0, .Component 0, .Index 0, .Binding 0, .DescriptorSet 0, .Offset 0,
   .XfbBuffer 0, .XfbStride 0, .FuncParamAttr .Zext, .FpRoundingMode .Rte,
   .FpFastMathMode ⟨false, false, false, false, false⟩, .LinkageAttributes "" .Export,
   .NoContraction, .InputAttachmentIndex 0, .Alignment 0]

/-- C12: an execution mode is read only from its number; a word that is not a number of the table is
rejected. -/
theorem C12_execution_mode (w : UInt32) (ws : List UInt32) :
    (∀ rest a, (MemoryBlockRead.read (w :: ws) : R (Block × ExecutionMode)) = .ok (rest, a) →
      executionModeNumber a = w) ∧
    ((∀ a, executionModeNumber a ≠ w) →
      (MemoryBlockRead.read (w :: ws) : R (Block × ExecutionMode)) =
        .error (.err (.UnknownExecutionMode w))) := by
  constructor
  · intro rest a h
    have := (Lawful.iff _ _ _).mp h
    cases a <;> (obtain ⟨_, hw, _⟩ := this; simp only [List.cons.injEq] at hw; exact hw.1.symm)
  · intro h
    refine readHandler_reject ?_
    have h1 : ∀ k ∈ executionModeHandlers.map Prod.fst, k ∈ someModes.map executionModeNumber := by
      decide
    intro p hp hw
    obtain ⟨a, -, ha⟩ := List.mem_map.mp (h1 p.1 (List.mem_map_of_mem hp))
    exact h a (ha.trans hw)

/-- C12: the same for decorations. -/
theorem C12_decoration (w : UInt32) (ws : List UInt32) :
    (∀ rest a, (MemoryBlockRead.read (w :: ws) : R (Block × Decoration)) = .ok (rest, a) →
      decorationNumber a = w) ∧
    ((∀ a, decorationNumber a ≠ w) →
      (MemoryBlockRead.read (w :: ws) : R (Block × Decoration)) =
        .error (.err (.UnknownDecoration w))) := by
  constructor
  · intro rest a h
    have := (Lawful.iff _ _ _).mp h
    cases a <;> (obtain ⟨_, hw, _⟩ := this; simp only [List.cons.injEq] at hw; exact hw.1.symm)
  · intro h
    refine readHandler_reject ?_
    have h1 : ∀ k ∈ decorationHandlers.map Prod.fst, k ∈ someDecorations.map decorationNumber := by
      decide
    intro p hp hw
    obtain ⟨a, -, ha⟩ := List.mem_map.mp (h1 p.1 (List.mem_map_of_mem hp))
    exact h a (ha.trans hw)

/-- C12: every execution mode of the table is read, from its number and some operand words. -/
theorem C12_execution_mode_accepted (a : ExecutionMode) :
    ∃ ws, ∀ rest, (MemoryBlockRead.read (executionModeNumber a :: (ws ++ rest)) :
      R (Block × ExecutionMode)) = .ok (rest, a) := by
  cases a
  case Invocations n => exact ⟨[n], fun _ => rfl⟩
  case LocalSize x y z => exact ⟨[x, y, z], fun _ => rfl⟩
  case LocalSizeHint x y z => exact ⟨[x, y, z], fun _ => rfl⟩
  case OutputVerticies n => exact ⟨[n], fun _ => rfl⟩
  case VecTypeHint n => exact ⟨[n.val], fun _ => rfl⟩
  all_goals exact ⟨[], fun _ => rfl⟩

/-- C12: every number of the table of decorations is accepted, with some operand words. -/
theorem C12_decoration_accepted (a : Decoration) :
    ∃ b ws, decorationNumber b = decorationNumber a ∧
      ∀ rest, (MemoryBlockRead.read (decorationNumber a :: (ws ++ rest)) :
        R (Block × Decoration)) = .ok (rest, b) := by
  cases a
  case LinkageAttributes => exact ⟨.LinkageAttributes "" .Export, [0, 0], rfl, fun _ => rfl⟩
  case BuiltIn => exact ⟨.BuiltIn .Position, [0], rfl, fun _ => rfl⟩
  case FuncParamAttr => exact ⟨.FuncParamAttr .Zext, [0], rfl, fun _ => rfl⟩
  case FpRoundingMode => exact ⟨.FpRoundingMode .Rte, [0], rfl, fun _ => rfl⟩
  case FpFastMathMode => exact ⟨.FpFastMathMode ⟨false, false, false, false, false⟩, [0], rfl, fun _ => rfl⟩
  all_goals first
    | exact ⟨_, [], rfl, fun _ => rfl⟩
    | (rename_i n; exact ⟨_, [n], rfl, fun _ => rfl⟩)

/-- C12: the tool never fails; a number without a name is kept. -/
theorem C12_tool (n : UInt16) : toolCode (readTool n) = n ∧ ∀ k, readTool n = .Other k → 12 ≤ k :=
  readTool_code n

/-- C12: the source language never fails; a number without a name is kept. -/
theorem C12_source_language (w : UInt32) (rest : List UInt32) :
    ∃ l, (MemoryBlockRead.read (w :: rest) : R (Block × SourceLanguage)) = .ok (rest, l) ∧
      sourceLanguageCode l = w ∧ ∀ n, l = .Other n → 4 < n := by
  by_cases h : w ≤ 4
  · have h1 : ∀ k, k < 5 → ∃ l, SourceLanguage.table.lookup (UInt32.ofNat k) = some l ∧
        sourceLanguageCode l = UInt32.ofNat k ∧ ∀ n, l ≠ .Other n := by
      intro k hk
      match k, hk with
      | 0, _ => exact ⟨_, rfl, rfl, by simp⟩
      | 1, _ => exact ⟨_, rfl, rfl, by simp⟩
      | 2, _ => exact ⟨_, rfl, rfl, by simp⟩
      | 3, _ => exact ⟨_, rfl, rfl, by simp⟩
      | 4, _ => exact ⟨_, rfl, rfl, by simp⟩
    have hlt : w.toNat < 5 := Nat.lt_succ_of_le h
    obtain ⟨l, e1, e2, e3⟩ := h1 w.toNat hlt
    rw [UInt32.ofNat_toNat] at e1 e2
    refine ⟨l, ?_, e2, fun n hn => absurd hn (e3 n)⟩
    simp only [MemoryBlockRead.read, Block.readWord, ok_bind, e1]
    rfl
  · have hlt : 4 < w := UInt32.not_le.mp h
    refine ⟨.Other w, (Lawful.iff _ _ _).mpr ?_, rfl, fun n hn => by cases hn; exact hlt⟩
    simp only [enc, if_neg h]
    exact ⟨_, rfl, rfl⟩

example : (∀ a, storageClassCode a ≠ 12) ∧ (∀ a, executionModeNumber a ≠ 13) ∧
    ∀ a, decorationNumber a ≠ 12 := by
  refine ⟨?_, ?_, ?_⟩ <;> intro a <;> cases a <;>
    simp [storageClassCode, executionModeNumber, decorationNumber]

example : (MemoryBlockRead.read [0x64636261, 0x64636261] : R (Block × String)) =
    .error (.err .UnexpectedEndOfInstruction) := C08_no_terminator (by decide)
example : (0 : UInt8) ∉ stringBytes "abcd" :=
  C08_no_nul (ws := [0x64636261, 0x12FF0000, 7]) (rest := [7]) ((C08_string (k := 4) ⟨rfl, by decide⟩).1 _ rfl)

end Magma.Props
