import Verif.Proofs.ReadsFlags
/-! Lemmas: bit mask operands. -/

namespace Magma
open Spec

theorem and_and_of {w a b : UInt32} (h : a &&& b = b) : (w &&& a) &&& b = w &&& b := by
  rw [UInt32.and_assoc, h]

theorem and_split {w c l f : UInt32} (h : c ||| l = f) (hc : w &&& c = 0) :
    w &&& f = w &&& l := by
  have hd : w &&& (c ||| l) = (w &&& c) ||| (w &&& l) := by
    apply UInt32.toNat_inj.mp
    simp [Nat.and_or_distrib_left]
  rw [← h, hd, hc, UInt32.zero_or]

/-- A statement about all small words -/
theorem forall_small {P : UInt32 → Prop} (n : Nat) (h : ∀ k, k < n → P (UInt32.ofNat k))
    (w : UInt32) (hw : w.toNat < n) : P w := by
  have := h w.toNat hw
  simpa using this

theorem and_lt {w : UInt32} (k : Nat) (m : UInt32) (hm : m.toNat = 2 ^ k - 1) :
    (w &&& m).toNat < 2 ^ k := by
  rw [UInt32.toNat_and, hm, Nat.and_two_pow_sub_one_eq_mod]
  exact Nat.mod_lt _ (Nat.two_pow_pos k)

/-- A mask operand: the checked bits `c` must be zero, the flags are the low bits `l`. -/
theorem mask_iff {α : Type} {flags : UInt32 → α} {bits : α → UInt32} {c l f : UInt32} (k : Nat)
    (hl : l.toNat = 2 ^ k - 1) (hf : c ||| l = f) (hfc : f &&& c = c) (hfl : f &&& l = l)
    (hdep : ∀ w, flags w = flags (w &&& l))
    (h1 : ∀ n, n < 2 ^ k → bits (flags (UInt32.ofNat n)) = UInt32.ofNat n)
    (h2 : ∀ a, flags (bits a) = a) (h3 : ∀ a, bits a &&& c = 0) (w : UInt32) (a : α) :
    (w &&& c = 0 ∧ flags w = a) ↔ w &&& f = bits a := by
  constructor
  · rintro ⟨hc, rfl⟩
    rw [and_split hf hc, hdep w]
    exact (forall_small (P := fun x => bits (flags x) = x) _ h1 _ (and_lt k l hl)).symm
  · intro h
    have h0 : w &&& c = 0 := by
      rw [← and_and_of (w := w) hfc, h, h3]
    refine ⟨h0, ?_⟩
    rw [hdep w, ← and_and_of (w := w) hfl, h, ← hdep, h2]

def memoryAccessFlags (w : UInt32) : MemoryAccess :=
  { volatile := (w &&& 0x1) != 0
    aligned := (w &&& 0x2) != 0
    non_temporal := (w &&& 0x4) != 0 }

def functionControlFlags (w : UInt32) : FunctionControl :=
  { inline := (w &&& 0x1) != 0
    dont_inline := (w &&& 0x2) != 0
    pure_function := (w &&& 0x4) != 0
    const_function := (w &&& 0x8) != 0 }

def fastMathFlags (w : UInt32) : FpFastMathMode :=
  { not_nan := (w &&& 0x1) != 0
    not_inf := (w &&& 0x2) != 0
    nsz := (w &&& 0x4) != 0
    allow_recip := (w &&& 0x8) != 0
    fast := (w &&& 0x10) != 0 }

def selectionFlags (w : UInt32) : SelectionControl :=
  { flatten := (w &&& 0x1) != 0
    dont_flatten := (w &&& 0x2) != 0 }

/-- The four bits of a loop control word -/
structure LoopBits where
  unroll : Bool
  dont_unroll : Bool
  infinite : Bool
  length : Bool
  deriving DecidableEq

def loopFlags (w : UInt32) : LoopBits :=
  ⟨(w &&& 0x1) != 0, (w &&& 0x2) != 0, (w &&& 0x4) != 0, (w &&& 0x8) != 0⟩

theorem memoryAccess_mask (w : UInt32) (a : MemoryAccess) :
    (w &&& 0xFFF8 = 0 ∧ memoryAccessFlags w = a) ↔ w &&& ~~~0xFFFF0000 =
      (bit a.volatile 1 ||| bit a.aligned 2 ||| bit a.non_temporal 4) := by
  apply mask_iff (flags := memoryAccessFlags)
    (bits := fun a => (bit a.volatile 1 ||| bit a.aligned 2 ||| bit a.non_temporal 4))
    (l := 7) 3
  · rfl
  · rfl
  · rfl
  · rfl
  · intro w
    simp only [memoryAccessFlags]
    congr 2 <;> exact (and_and_of rfl).symm
  · decide
  · rintro ⟨a, b, c⟩; revert a b c; decide
  · rintro ⟨a, b, c⟩; revert a b c; decide

theorem selection_mask (w : UInt32) (a : SelectionControl) :
    (w &&& 0xFFFC = 0 ∧ selectionFlags w = a) ↔ w &&& ~~~0xFFFF0000 =
      (bit a.flatten 1 ||| bit a.dont_flatten 2) := by
  apply mask_iff (flags := selectionFlags)
    (bits := fun a => (bit a.flatten 1 ||| bit a.dont_flatten 2)) (l := 3) 2
  · rfl
  · rfl
  · rfl
  · rfl
  · intro w
    simp only [selectionFlags]
    congr 2 <;> exact (and_and_of rfl).symm
  · decide
  · rintro ⟨a, b⟩; revert a b; decide
  · rintro ⟨a, b⟩; revert a b; decide

theorem functionControl_mask (w : UInt32) (a : FunctionControl) :
    functionControlFlags w = a ↔ w &&& ~~~0xFFFFFFF0 =
      (bit a.inline 1 ||| bit a.dont_inline 2 ||| bit a.pure_function 4 |||
        bit a.const_function 8) := by
  rw [← mask_iff (flags := functionControlFlags) (c := 0)
    (bits := fun a => (bit a.inline 1 ||| bit a.dont_inline 2 ||| bit a.pure_function 4 |||
        bit a.const_function 8)) (l := 15) 4]
  · simp
  · rfl
  · rfl
  · rfl
  · rfl
  · intro w
    simp only [functionControlFlags]
    congr 2 <;> exact (and_and_of rfl).symm
  · decide
  · rintro ⟨a, b, c, d⟩; revert a b c d; decide
  · rintro ⟨a, b, c, d⟩; revert a b c d; decide

theorem fastMath_mask (w : UInt32) (a : FpFastMathMode) :
    (w &&& 0xFFC0 = 0 ∧ fastMathFlags w = a) ↔ w &&& ~~~0xFFFF0020 =
      (bit a.not_nan 1 ||| bit a.not_inf 2 ||| bit a.nsz 4 |||
        bit a.allow_recip 8 ||| bit a.fast 16) := by
  apply mask_iff (flags := fastMathFlags)
    (bits := fun a => (bit a.not_nan 1 ||| bit a.not_inf 2 ||| bit a.nsz 4 |||
        bit a.allow_recip 8 ||| bit a.fast 16)) (l := 31) 5
  · rfl
  · rfl
  · rfl
  · rfl
  · intro w
    simp only [fastMathFlags]
    congr 2 <;> exact (and_and_of rfl).symm
  · decide
  · rintro ⟨a, b, c, d, e⟩; revert a b c d e; decide
  · rintro ⟨a, b, c, d, e⟩; revert a b c d e; decide

theorem loop_mask (w : UInt32) (a : LoopBits) :
    (w &&& 0xFFF0 = 0 ∧ loopFlags w = a) ↔ w &&& ~~~0xFFFF0000 =
      (bit a.unroll 1 ||| bit a.dont_unroll 2 ||| bit a.infinite 4 ||| bit a.length 8) := by
  apply mask_iff (flags := loopFlags)
    (bits := fun a => (bit a.unroll 1 ||| bit a.dont_unroll 2 ||| bit a.infinite 4 |||
      bit a.length 8)) (l := 15) 4
  · rfl
  · rfl
  · rfl
  · rfl
  · intro w
    simp only [loopFlags]
    congr 2 <;> exact (and_and_of rfl).symm
  · decide
  · rintro ⟨a, b, c, d⟩; revert a b c d; decide
  · rintro ⟨a, b, c, d⟩; revert a b c d; decide

theorem guard_ok {c : Prop} [Decidable c] {α : Type} {e : ReadError} {x : R α} {a : α} :
    (if c then fail e else x) = .ok a ↔ ¬c ∧ x = .ok a := by
  split <;> simp_all

instance : Lawful MemoryAccess where
  iff ws rest a := by
    simp only [MemoryBlockRead.read, readWord_ok, bind_ok, pure_ok, Prod.exists, enc, Reads,
      Prod.mk.injEq, guard_ok, ← memoryAccess_mask, bne_iff_ne, ne_eq, Decidable.not_not]
    constructor
    · rintro ⟨r, w, rfl, h, rfl, h2⟩
      exact ⟨w, r, rfl, ⟨h, h2⟩, rfl⟩
    · rintro ⟨w, r, rfl, ⟨h, h2⟩, rfl⟩
      exact ⟨r, w, rfl, h, rfl, h2⟩
  safe ws := Safe.bind (readWord_safe _) fun _ _ => .ite (.fail _) (.pure _)

instance : Lawful SelectionControl where
  iff ws rest a := by
    simp only [MemoryBlockRead.read, readWord_ok, bind_ok, pure_ok, Prod.exists, enc, Reads,
      Prod.mk.injEq, guard_ok, ← selection_mask, bne_iff_ne, ne_eq, Decidable.not_not]
    constructor
    · rintro ⟨r, w, rfl, h, rfl, h2⟩
      exact ⟨w, r, rfl, ⟨h, h2⟩, rfl⟩
    · rintro ⟨w, r, rfl, ⟨h, h2⟩, rfl⟩
      exact ⟨r, w, rfl, h, rfl, h2⟩
  safe ws := Safe.bind (readWord_safe _) fun _ _ => .ite (.fail _) (.pure _)

instance : Lawful FpFastMathMode where
  iff ws rest a := by
    simp only [MemoryBlockRead.read, readWord_ok, bind_ok, pure_ok, Prod.exists, enc, Reads,
      Prod.mk.injEq, guard_ok, ← fastMath_mask, bne_iff_ne, ne_eq, Decidable.not_not]
    constructor
    · rintro ⟨r, w, rfl, h, rfl, h2⟩
      exact ⟨w, r, rfl, ⟨h, h2⟩, rfl⟩
    · rintro ⟨w, r, rfl, ⟨h, h2⟩, rfl⟩
      exact ⟨r, w, rfl, h, rfl, h2⟩
  safe ws := Safe.bind (readWord_safe _) fun _ _ => .ite (.fail _) (.pure _)

instance : Lawful FunctionControl where
  iff ws rest a := by
    simp only [MemoryBlockRead.read, readWord_ok, bind_ok, pure_ok, Prod.exists, enc, Reads,
      Prod.mk.injEq, ← functionControl_mask]
    constructor
    · rintro ⟨r, w, rfl, rfl, h2⟩
      exact ⟨w, r, rfl, h2, rfl⟩
    · rintro ⟨w, r, rfl, h2, rfl⟩
      exact ⟨r, w, rfl, rfl, h2⟩
  safe ws := Safe.bind (readWord_safe _) fun _ _ => .pure _

theorem LoopControl_read (ws : List UInt32) (rest : List UInt32) (a : LoopControl) :
    (MemoryBlockRead.read ws : R (Block × LoopControl)) = .ok (rest, a) ↔
      ∃ w r, ws = w :: r ∧ (w &&& 0xFFF0 = 0 ∧ loopFlags w =
        ⟨a.unroll, a.dont_unroll, a.dependency_infinite, a.dependency_length.isSome⟩) ∧
      (match a.dependency_length with
       | some n => r = n :: rest
       | none => r = rest) := by
  simp only [MemoryBlockRead.read, readWord_ok, bind_ok, Prod.exists, guard_ok, bne_iff_ne, ne_eq,
    Decidable.not_not]
  constructor
  · rintro ⟨r, w, rfl, h0, h⟩
    by_cases h8 : w &&& 8 = 0
    · rw [if_neg (by simpa using h8)] at h
      simp only [bind_ok, pure_ok, Prod.exists, Prod.mk.injEq] at h
      obtain ⟨_, _, ⟨rfl, rfl⟩, rfl, rfl⟩ := h
      exact ⟨w, r, rfl, ⟨h0, by simp [loopFlags, h8]⟩, rfl⟩
    · rw [if_pos (by simpa using h8)] at h
      simp only [bind_ok, Prod.exists, readWord_ok, pure_ok, Prod.mk.injEq] at h
      obtain ⟨r2, n, rfl, _, _, ⟨rfl, rfl⟩, rfl, rfl⟩ := h
      exact ⟨w, _, rfl, ⟨h0, by simp [loopFlags, h8]⟩, rfl⟩
  · rintro ⟨w, r, rfl, ⟨h0, hl⟩, h⟩
    obtain ⟨u, du, inf, len⟩ := a
    simp only [loopFlags, LoopBits.mk.injEq] at hl
    obtain ⟨rfl, rfl, rfl, hlen⟩ := hl
    refine ⟨r, w, rfl, h0, ?_⟩
    cases len with
    | none =>
      dsimp only at h hlen
      subst h
      simp only [Option.isSome_none] at hlen
      rw [if_neg (by simpa using hlen)]
      rfl
    | some n =>
      dsimp only at h hlen
      subst h
      simp only [Option.isSome_some] at hlen
      rw [if_pos (by simpa using hlen)]
      rfl

instance : Lawful LoopControl where
  iff ws rest a := by
    rw [LoopControl_read]
    obtain ⟨u, du, inf, len⟩ := a
    simp only [loop_mask]
    cases len
    · simp only [enc, Reads]
    · simp only [enc, Reads, ↓existsAndEq, and_true]
  safe ws := by
    refine Safe.bind (readWord_safe _) fun p _ => .ite (.fail _) ?_
    dsimp only
    split
    · exact Safe.bind (readWord_safe _) fun _ _ => Safe.bind (.pure _) fun _ _ => .pure _
    · exact Safe.bind (.pure _) fun _ _ => .pure _

end Magma
