import Verif.Spec.Reference
import Verif.Proofs.Ids
import Verif.Proofs.OpKinds
/-! Lemmas: the readers of operands and instructions against the table of the reference. -/

namespace Magma
open Spec
variable {X : Type}

/-- The reader gives an error exactly if the checks do, the same one, and leaves the same words. -/
def Checked {α : Type} (cs : List Check) (read : Block → R (Block × α)) : Prop :=
  ∀ ws, (read ws).map Prod.fst = asVerdict (inTurn cs ws)

/-- A type of operands and what is checked of it -/
class CheckRead (α : Type) [MemoryBlockRead α] (c : outParam Check) : Prop where
  check : ∀ ws, (MemoryBlockRead.read ws : R (Block × α)).map Prod.fst = asVerdict (c ws)

theorem Checked.pure {α : Type} (a : α) : Checked [] (fun block => (Pure.pure (block, a) : R (Block × α))) :=
  fun _ => rfl

theorem Checked.step {α β : Type} {c : Check} {cs : List Check} {read : Block → R (Block × β)}
    {k : Block × β → R (Block × α)} (hr : ∀ ws, (read ws).map Prod.fst = asVerdict (c ws))
    (h : ∀ b, Checked cs (fun block => k (block, b))) : Checked (c :: cs) (fun block => read block >>= k) := by
  intro ws
  have := hr ws
  simp only [inTurn]
  cases hq : read ws with
  | error e =>
    rw [hq] at this
    cases hc : c ws with
    | error e' => rw [hc] at this; cases this; rfl
    | ok r => rw [hc] at this; cases this
  | ok q =>
    rw [hq] at this
    cases hc : c ws with
    | error e' => rw [hc] at this; cases this
    | ok r =>
      rw [hc] at this
      cases this
      exact h q.2 q.1

theorem Checked.bind {α β : Type} [MemoryBlockRead β] {c : Check} [CheckRead β c] {cs : List Check}
    {k : Block × β → R (Block × α)} (h : ∀ b, Checked cs (fun block => k (block, b))) :
    Checked (c :: cs) (fun block => MemoryBlockRead.read block >>= k) :=
  .step CheckRead.check h

macro "checked" r:ident : tactic => `(tactic| (
  unfold $r:ident
  repeat' (first
    | exact Checked.pure _
    | refine Checked.bind (fun _ => ?_))))

/-- A word of which nothing is asked -/
theorem checkRead_any {α : Type} [MemoryBlockRead α] (f : UInt32 → α)
    (h : ∀ ws : Block, (MemoryBlockRead.read ws : R (Block × α)) = match ws with
      | [] => fail .UnexpectedEndOfInstruction
      | w :: ws => .ok (ws, f w)) : CheckRead α anyWord := ⟨fun ws => by rw [h]; cases ws <;> rfl⟩

instance : CheckRead OpId anyWord := checkRead_any (fun w => ⟨w⟩) fun ws => by cases ws <;> rfl
instance : CheckRead ResultId anyWord := checkRead_any (fun w => ⟨w⟩) fun ws => by cases ws <;> rfl
instance : CheckRead UInt32 anyWord := checkRead_any (fun w => w) fun ws => by cases ws <;> rfl
instance : CheckRead SourceVersion anyWord := checkRead_any (fun w => ⟨w⟩) fun ws => by cases ws <;> rfl
instance : CheckRead MemberIndex anyWord := checkRead_any (fun w => ⟨w⟩) fun ws => by cases ws <;> rfl
instance : CheckRead FunctionControl anyWord := checkRead_any _ fun ws => by cases ws <;> rfl
instance : CheckRead SourceLanguage anyWord :=
  checkRead_any (fun w => match SourceLanguage.table.lookup w with
    | some l => l
    | none => .Other w) fun ws => by
    cases ws with
    | nil => rfl
    | cons w ws =>
      show (match SourceLanguage.table.lookup w with
        | some l => pure (ws, l)
        | none => pure (ws, .Other w) : R (Block × SourceLanguage)) = _
      dsimp only
      cases SourceLanguage.table.lookup w <;> rfl

theorem lookup_none_of_lt {α : Type} {table : List (UInt32 × α)} {last : Nat} (h : ∀ p ∈ table, p.1.toNat ≤ last)
    {w : UInt32} (hw : last < w.toNat) : table.lookup w = none := by
  induction table with
  | nil => rfl
  | cons p table ih =>
    have hp := h p List.mem_cons_self
    have hne : (w == p.1) = false := by
      rw [beq_eq_false_iff_ne]
      rintro rfl
      omega
    rw [List.lookup_cons, hne]
    exact ih fun q hq => h q (List.mem_cons_of_mem _ hq)

/-- The numbers of a table -/
theorem enum_upTo {α : Type} {table : List (UInt32 × α)} {last : Nat} {reserved : List Nat} (e : UInt32 → ReadError)
    (h : ∀ p ∈ table, p.1.toNat ≤ last)
    (hs : ∀ n, n ≤ last → (table.lookup (UInt32.ofNat n)).isSome = !reserved.contains n) (ws : Block) :
    (readEnum table e ws).map Prod.fst = asVerdict (upTo last reserved e ws) := by
  rw [readEnum_word]
  cases ws with
  | nil => rfl
  | cons w ws =>
    simp only [upTo, wordWith]
    by_cases hw : w.toNat ≤ last
    · have := hs _ hw
      rw [UInt32.ofNat_toNat] at this
      cases hl : table.lookup w with
      | none =>
        rw [hl] at this
        simp only [← this]
        simp [Except.map, asVerdict, refuse]
      | some a =>
        rw [hl] at this
        simp only [← this]
        simp [Except.map, asVerdict, hw]
    · rw [lookup_none_of_lt h (by omega)]
      simp [Except.map, asVerdict, refuse, hw]

instance : CheckRead AddressingModel (upTo 2 [] .UnknownAddressingModel) :=
  ⟨enum_upTo _ (by decide +kernel) (by decide +kernel)⟩
instance : CheckRead MemoryModel (upTo 2 [] .UnknownMemoryModel) :=
  ⟨enum_upTo _ (by decide +kernel) (by decide +kernel)⟩
instance : CheckRead ExecutionModel (upTo 6 [] .UnknownExecutionModel) :=
  ⟨enum_upTo _ (by decide +kernel) (by decide +kernel)⟩
instance : CheckRead Capability (upTo 57 [16, 26] .UnknownCapability) :=
  ⟨enum_upTo _ (by decide +kernel) (by decide +kernel)⟩
instance : CheckRead Signedness (upTo 1 [] .UnknownSignedness) :=
  ⟨enum_upTo _ (by decide +kernel) (by decide +kernel)⟩
instance : CheckRead Dim (upTo 6 [] .UnknownDim) :=
  ⟨enum_upTo _ (by decide +kernel) (by decide +kernel)⟩
instance : CheckRead DepthStatus (upTo 2 [] .UnknownDepthStatus) :=
  ⟨enum_upTo _ (by decide +kernel) (by decide +kernel)⟩
instance : CheckRead Arrayed (upTo 1 [] .UnknownArrayed) :=
  ⟨enum_upTo _ (by decide +kernel) (by decide +kernel)⟩
instance : CheckRead MS (upTo 1 [] .UnknownMS) :=
  ⟨enum_upTo _ (by decide +kernel) (by decide +kernel)⟩
instance : CheckRead SampledStatus (upTo 2 [] .UnknownSampledStatus) :=
  ⟨enum_upTo _ (by decide +kernel) (by decide +kernel)⟩
instance : CheckRead ImageFormat (upTo 39 [] .UnknownImageFormat) :=
  ⟨enum_upTo _ (by decide +kernel) (by decide +kernel)⟩
instance : CheckRead AccessQualifier (upTo 2 [] .UnknownAccessQualifier) :=
  ⟨enum_upTo _ (by decide +kernel) (by decide +kernel)⟩
instance : CheckRead StorageClass (upTo 11 [] .UnknownStorageClass) :=
  ⟨enum_upTo _ (by decide +kernel) (by decide +kernel)⟩
instance : CheckRead BuiltIn (upTo 43 [2, 21, 35] .UnknownBuiltIn) :=
  ⟨enum_upTo _ (by decide +kernel) (by decide +kernel)⟩
instance : CheckRead FunctionParameterAttribute (upTo 7 [] .UnknownFunctionParameterAttribute) :=
  ⟨enum_upTo _ (by decide +kernel) (by decide +kernel)⟩
instance : CheckRead FpRoundingMode (upTo 3 [] .UnknownFpRoundingMode) :=
  ⟨enum_upTo _ (by decide +kernel) (by decide +kernel)⟩
instance : CheckRead LinkageType (upTo 1 [] .UnknownLinkageType) :=
  ⟨enum_upTo _ (by decide +kernel) (by decide +kernel)⟩

theorem and_mask (n k : Nat) (hk : k ≤ 16) : n &&& (65536 - 2 ^ k) = n % 65536 / 2 ^ k * 2 ^ k := by
  have hm : 65536 - 2 ^ k = (2 ^ (16 - k) - 1) * 2 ^ k := by
    have : 65536 = 2 ^ (16 - k) * 2 ^ k := by rw [← Nat.pow_add, Nat.sub_add_cancel hk]
    rw [this, Nat.sub_mul, Nat.one_mul]
  rw [hm, ← Nat.shiftLeft_eq, ← Nat.shiftLeft_eq]
  apply Nat.eq_of_testBit_eq
  intro i
  rw [Nat.testBit_and, Nat.testBit_shiftLeft, Nat.testBit_shiftLeft, ← Nat.shiftRight_eq_div_pow, Nat.testBit_shiftRight,
    show (65536 : Nat) = 2 ^ 16 from rfl, Nat.testBit_mod_two_pow, Nat.testBit_two_pow_sub_one]
  by_cases h : k ≤ i
  · rw [show k + (i - k) = i by omega]
    simp only [ge_iff_le, h, decide_true, Bool.true_and]
    by_cases h' : i < 16
    · simp [h', show i - k < 16 - k by omega]
    · simp [h', show ¬ i - k < 16 - k by omega]
  · simp [h]

/-- A mask of which the bits from `k` to 15 are refused -/
theorem mask_below {w m : UInt32} {k : Nat} (hk : k ≤ 16) (hm : m.toNat = 65536 - 2 ^ k) :
    ((w &&& m) != 0) = !decide (w.toNat % 65536 < 2 ^ k) := by
  have h : (w &&& m).toNat = w.toNat % 65536 / 2 ^ k * 2 ^ k := by
    rw [UInt32.toNat_and, hm, and_mask _ _ hk]
  have hp : 0 < 2 ^ k := Nat.two_pow_pos k
  rw [Bool.eq_iff_iff]
  simp only [bne_iff_ne, ne_eq, Bool.not_eq_true', decide_eq_false_iff_not]
  have e : (w &&& m = 0) ↔ w.toNat % 65536 < 2 ^ k := by
    rw [← UInt32.toNat_inj, h]
    show _ = 0 ↔ _
    rw [Nat.mul_eq_zero, Nat.div_eq_zero_iff]
    constructor
    · rintro ((h | h) | h)
      · omega
      · exact h
      · omega
    · intro h; exact .inl (.inr h)
  rw [e]

theorem checkRead_mask {α : Type} [MemoryBlockRead α] (f : UInt32 → α) {m : UInt32} {k : Nat} {e : UInt32 → ReadError}
    (hk : k ≤ 16) (hm : m.toNat = 65536 - 2 ^ k)
    (h : ∀ ws : Block, (MemoryBlockRead.read ws : R (Block × α)) = match ws with
      | [] => fail .UnexpectedEndOfInstruction
      | w :: ws => if ((w &&& m) != 0) = true then fail (e w) else .ok (ws, f w)) :
    CheckRead α (maskBelow k e) := ⟨fun ws => by
  rw [h]
  cases ws with
  | nil => rfl
  | cons w ws =>
    simp only [maskBelow, wordWith, mask_below hk hm]
    by_cases hw : w.toNat % 65536 < 2 ^ k
    · simp [hw, Except.map, asVerdict]
    · simp [hw, Except.map, asVerdict, refuse]⟩

instance : CheckRead MemoryAccess memoryAccess :=
  checkRead_mask _ (m := 0xFFF8) (by decide) (by decide) fun ws => by cases ws <;> rfl
instance : CheckRead FpFastMathMode (maskBelow 6 .UnknownFpFastMathMode) :=
  checkRead_mask _ (m := 0xFFC0) (by decide) (by decide) fun ws => by cases ws <;> rfl
instance : CheckRead SelectionControl (maskBelow 2 .UnknownSelectionControl) :=
  checkRead_mask _ (m := 0xFFFC) (by decide) (by decide) fun ws => by cases ws <;> rfl

theorem bit_three (w : UInt32) : ((w &&& 0x8) != 0) = w.toNat.testBit 3 := by
  have h : (w &&& 0x8).toNat = w.toNat &&& 2 ^ 3 := by rw [UInt32.toNat_and]; rfl
  rw [Bool.eq_iff_iff, bne_iff_ne, ne_eq, ← UInt32.toNat_inj, h]
  show ¬ _ = 0 ↔ _
  constructor
  · intro hn
    refine Classical.byContradiction fun hb => ?_
    apply hn
    apply Nat.eq_of_testBit_eq
    intro i
    rw [Nat.testBit_and, Nat.testBit_two_pow, Nat.zero_testBit]
    by_cases hi : 3 = i
    · subst hi; simpa using hb
    · simp [hi]
  · intro hb h0
    have : (w.toNat &&& 2 ^ 3).testBit 3 = true := by rw [Nat.testBit_and, hb, Nat.testBit_two_pow]; decide
    rw [h0, Nat.zero_testBit] at this
    cases this

instance : CheckRead LoopControl loopControl := ⟨fun ws => by
  cases ws with
  | nil => rfl
  | cons w ws =>
    simp only [MemoryBlockRead.read, Block.readWord, loopControl, maskBelow, wordWith, List.headD_cons, ok_bind, bit_three,
      mask_below (m := 0xFFF0) (k := 4) (by decide) (by decide)]
    by_cases hw : w.toNat % 65536 < 2 ^ 4
    · simp only [hw, decide_true, ite_true, Bool.not_true, Bool.false_eq_true, ite_false]
      by_cases hb : w.toNat.testBit 3 = true
      · simp only [hb, ite_true]
        cases ws <;> rfl
      · simp only [hb]
        rfl
    · simp only [hw, decide_false, Bool.not_false, Bool.false_eq_true, ite_true, ite_false]
      rfl⟩

instance : CheckRead BranchWeights (inTurn [anyWord, anyWord]) := ⟨fun ws => by
  cases ws with
  | nil => rfl
  | cons w ws => cases ws <;> rfl⟩

instance {α : Type} [MemoryBlockRead α] {c : Check} [CheckRead α c] : CheckRead (Option α) (optionally c) := ⟨fun ws => by
  cases ws with
  | nil => rfl
  | cons w ws =>
    rw [optionally, ← CheckRead.check (α := α)]
    show ((MemoryBlockRead.read (w :: ws) : R (Block × α)) >>= fun q => Pure.pure (q.1, some q.2)).map Prod.fst = _
    cases (MemoryBlockRead.read (w :: ws) : R (Block × α)) <;> rfl⟩

theorem readVecLoop_any {α : Type} [MemoryBlockRead α] (f : UInt32 → α)
    (h : ∀ w (ws : Block), (MemoryBlockRead.read (w :: ws) : R (Block × α)) = .ok (ws, f w)) (fuel : Nat) :
    ∀ (ws : Block) (items : List α), ws.length < fuel → (readVecLoop fuel ws items).map Prod.fst = .ok [] := by
  induction fuel with
  | zero => intro ws items hf; omega
  | succ fuel ih =>
    intro ws items hf
    cases ws with
    | nil => rfl
    | cons w ws =>
      simp only [readVecLoop]
      rw [if_pos (by simp [Block.remaining]), h]
      exact ih ws _ (by simp at hf; omega)

instance : CheckRead (List OpId) anyWords :=
  ⟨fun _ => readVecLoop_any (fun w => ⟨w⟩) (fun _ _ => rfl) _ _ _ (Nat.lt_succ_self _)⟩
instance : CheckRead (List UInt32) anyWords :=
  ⟨fun _ => readVecLoop_any (fun w => w) (fun _ _ => rfl) _ _ _ (Nat.lt_succ_self _)⟩

theorem readVecLoop_pairs (fuel : Nat) : ∀ (ws : Block) (items : List PhiArg), ws.length < fuel →
    (readVecLoop fuel ws items).map Prod.fst = asVerdict (anyPairs ws) := by
  induction fuel with
  | zero => intro ws items hf; omega
  | succ fuel ih =>
    intro ws items hf
    match ws with
    | [] => rfl
    | [_] => rfl
    | a :: b :: ws =>
      simp only [readVecLoop]
      rw [if_pos (by simp [Block.remaining])]
      have hp : anyPairs (a :: b :: ws) = anyPairs ws := by
        simp only [anyPairs, List.length_cons]
        simp only [show (ws.length + 1 + 1) % 2 = ws.length % 2 by omega]
      rw [hp]
      exact ih ws _ (by simp at hf; omega)

instance : CheckRead (List PhiArg) anyPairs := ⟨fun _ => readVecLoop_pairs _ _ _ (Nat.lt_succ_self _)⟩

theorem pushChars_eq (cs : List UInt8) : ∀ bs,
    pushChars cs bs = ((cs.takeWhile (· ≠ 0)).reverse ++ bs, cs.contains 0) := by
  induction cs with
  | nil => intro bs; rfl
  | cons c cs ih =>
    intro bs
    simp only [pushChars, List.contains_cons, List.takeWhile_cons]
    by_cases h : c = 0
    · simp [h]
    · have : ¬ 0 = c := fun e => h e.symm
      simp [h, ih, this]

theorem takeWhile_append_some {p : UInt8 → Bool} (l m : List UInt8) (h : ∃ x ∈ l, p x = false) :
    (l ++ m).takeWhile p = l.takeWhile p := by
  induction l with
  | nil => obtain ⟨_, h, _⟩ := h; cases h
  | cons a l ih =>
    simp only [List.cons_append, List.takeWhile_cons]
    cases hp : p a with
    | false => rfl
    | true =>
      have : ∃ x ∈ l, p x = false := by
        obtain ⟨x, hx, hpx⟩ := h
        cases hx with
        | head => rw [hp] at hpx; cases hpx
        | tail _ hx => exact ⟨x, hx, hpx⟩
      simp [ih this]

theorem takeWhile_append_all {p : UInt8 → Bool} (l m : List UInt8) (h : ∀ x ∈ l, p x = true) :
    (l ++ m).takeWhile p = l ++ m.takeWhile p := by
  induction l with
  | nil => rfl
  | cons a l ih =>
    simp only [List.cons_append, List.takeWhile_cons, h a List.mem_cons_self, ite_true]
    rw [ih fun x hx => h x (List.mem_cons_of_mem _ hx)]

/-- The words of a string -/
theorem readStringLoop_eq : ∀ (ws : Block) (bs : List UInt8), readStringLoop ws bs = match afterText ws with
    | none => fail .UnexpectedEndOfInstruction
    | some rest => .ok (rest, bs.reverse ++ textBytes ws) := by
  intro ws
  induction ws with
  | nil => intro bs; rfl
  | cons w ws ih =>
    intro bs
    simp only [readStringLoop, afterText, textBytes, List.flatMap_cons]
    rw [pushChars_eq, wordChars_eq]
    cases hc : (wordBytes w).contains 0 with
    | true =>
      rw [List.contains_iff_mem] at hc
      dsimp only
      rw [if_pos rfl, takeWhile_append_some _ _ ⟨0, hc, by decide⟩]
      simp
    | false =>
      have hall : ∀ x ∈ wordBytes w, decide (x ≠ 0) = true := by
        intro x hx
        rw [decide_eq_true_iff]
        rintro rfl
        rw [List.contains_iff_mem.mpr hx] at hc
        cases hc
      dsimp only
      rw [if_neg (by decide), ih, takeWhile_append_all _ _ hall]
      cases afterText ws with
      | none => rfl
      | some r =>
        have ht : (wordBytes w).takeWhile (fun x => decide (x ≠ 0)) = wordBytes w := by
          have := takeWhile_append_all (p := fun x => decide (x ≠ 0)) (wordBytes w) [] hall
          simpa using this
        simp only [ht, textBytes, List.reverse_append, List.reverse_reverse, List.append_assoc]

theorem readString_eq (ws : Block) : (MemoryBlockRead.read ws : R (Block × String)) = match afterText ws with
    | none => fail .UnexpectedEndOfInstruction
    | some rest => match textOf ws with
      | some s => .ok (rest, s)
      | none => fail .InvalidString := by
  simp only [MemoryBlockRead.read, readStringLoop_eq]
  cases afterText ws with
  | none => rfl
  | some rest => rfl

instance : CheckRead String text := ⟨fun ws => by
  rw [readString_eq]
  simp only [text]
  cases afterText ws with
  | none => rfl
  | some rest =>
    dsimp only
    cases textOf ws <;> rfl⟩

/-- A `match` whose arms may read further operands -/
theorem selects_handler {α : Type} {table : List (UInt32 × (Block → R (Block × α)))} {follow : Nat → Option (List Check)}
    {e : UInt32 → ReadError} (h : ∀ p ∈ table, ∃ cs, follow p.1.toNat = some cs ∧ Checked cs p.2)
    (hn : ∀ w : UInt32, (follow w.toNat).isSome = true → ∃ p ∈ table, p.1 = w) (ws : Block) :
    (readHandler table e ws).map Prod.fst = asVerdict (selects follow e ws) := by
  cases ws with
  | nil => rfl
  | cons w ws =>
    show (match table.lookup w with
      | some h => h ws
      | none => fail (e w) : R (Block × α)).map Prod.fst = _
    simp only [selects]
    cases hl : table.lookup w with
    | some f =>
      obtain ⟨cs, hf, hc⟩ := h _ (mem_of_lookup hl)
      dsimp only at hf ⊢
      rw [hf]
      exact hc ws
    | none =>
      cases hf : follow w.toNat with
      | none => rfl
      | some cs =>
        obtain ⟨p, hp, rfl⟩ := hn w (by rw [hf]; rfl)
        exfalso
        clear h hn hf
        induction table with
        | nil => cases hp
        | cons q table ih =>
          rw [List.lookup_cons] at hl
          split at hl
          · cases hl
          · rename_i hne
            cases hp with
            | head => simp at hne
            | tail _ hp => exact ih hp hl

theorem Checked.unit {α : Type} (a : α) : Checked [] (readUnit a) := fun _ => rfl
theorem Checked.one {α β : Type} [MemoryBlockRead β] {c : Check} [CheckRead β c] (f : β → α) : Checked [c] (read1 f) := by
  checked read1
theorem Checked.two {α β γ : Type} [MemoryBlockRead β] [MemoryBlockRead γ] {c d : Check} [CheckRead β c] [CheckRead γ d]
    (f : β → γ → α) : Checked [c, d] (read2 f) := by
  checked read2
theorem Checked.three {α β γ δ : Type} [MemoryBlockRead β] [MemoryBlockRead γ] [MemoryBlockRead δ] {c d e : Check}
    [CheckRead β c] [CheckRead γ d] [CheckRead δ e] (f : β → γ → δ → α) : Checked [c, d, e] (read3 f) := by
  checked read3

/-- The numbers for which operands are given are among those of the table. -/
theorem follow_some {α : Type} {table : List (UInt32 × α)} {follow : Nat → Option (List Check)} {b : Nat}
    (hb : ∀ n, b ≤ n → follow n = none)
    (hs : ∀ n, n < b → (follow n).isSome = true → (table.any fun p => p.1 == UInt32.ofNat n) = true) (w : UInt32)
    (h : (follow w.toNat).isSome = true) : ∃ p ∈ table, p.1 = w := by
  by_cases hw : w.toNat < b
  · have := hs _ hw h
    rw [UInt32.ofNat_toNat, List.any_eq_true] at this
    obtain ⟨p, hp, he⟩ := this
    exact ⟨p, hp, beq_iff_eq.mp he⟩
  · rw [hb _ (by omega)] at h
    cases h

macro "arms" : tactic => `(tactic| (
  repeat' (first
    | exact fun _ h => absurd h List.not_mem_nil
    | refine List.forall_mem_cons.mpr ⟨⟨_, rfl, Checked.unit _⟩, ?_⟩
    | refine List.forall_mem_cons.mpr ⟨⟨_, rfl, Checked.one _⟩, ?_⟩
    | refine List.forall_mem_cons.mpr ⟨⟨_, rfl, Checked.two _⟩, ?_⟩
    | refine List.forall_mem_cons.mpr ⟨⟨_, rfl, Checked.three _⟩, ?_⟩)))

instance : CheckRead ExecutionMode (selects executionModeOperands .UnknownExecutionMode) := ⟨fun ws => by
  refine selects_handler (table := executionModeHandlers) ?_ (follow_some (b := 32) ?_ ?_) ws
  · unfold executionModeHandlers
    arms
  · intro n hn
    unfold executionModeOperands
    split <;> first | omega | rfl | exact if_neg (by omega)
  · decide +kernel⟩

instance : CheckRead Decoration (selects decorationOperands .UnknownDecoration) := ⟨fun ws => by
  refine selects_handler (table := decorationHandlers) ?_ (follow_some (b := 45) ?_ ?_) ws
  · unfold decorationHandlers
    arms
  · intro n hn
    unfold decorationOperands
    split <;> first | omega | rfl | exact if_neg (by omega)
  · decide +kernel⟩

/-- The reading of an instruction, from the operands the reference gives to the opcode -/
class OpChecked {α : Type} (read : Block → R (Block × α)) (k : Nat) : Prop where
  checked : ∃ cs, operandsOf k = some cs ∧ Checked cs read

instance : OpChecked OpNop.read 0 := ⟨⟨_, rfl, by checked OpNop.read⟩⟩
instance : OpChecked OpUndef.read 1 := ⟨⟨_, rfl, by checked OpUndef.read⟩⟩
instance : OpChecked OpSourceContinued.read 2 := ⟨⟨_, rfl, by checked OpSourceContinued.read⟩⟩
instance : OpChecked OpSource.read 3 := ⟨⟨_, rfl, by checked OpSource.read⟩⟩
instance : OpChecked OpSourceExtension.read 4 := ⟨⟨_, rfl, by checked OpSourceExtension.read⟩⟩
instance : OpChecked OpName.read 5 := ⟨⟨_, rfl, by checked OpName.read⟩⟩
instance : OpChecked OpMemberName.read 6 := ⟨⟨_, rfl, by checked OpMemberName.read⟩⟩
instance : OpChecked OpString.read 7 := ⟨⟨_, rfl, by checked OpString.read⟩⟩
instance : OpChecked OpExtension.read 10 := ⟨⟨_, rfl, by checked OpExtension.read⟩⟩
instance : OpChecked OpMemoryModel.read 14 := ⟨⟨_, rfl, by checked OpMemoryModel.read⟩⟩
instance : OpChecked OpEntryPoint.read 15 := ⟨⟨_, rfl, by checked OpEntryPoint.read⟩⟩
instance : OpChecked OpExecutionMode.read 16 := ⟨⟨_, rfl, by checked OpExecutionMode.read⟩⟩
instance : OpChecked OpCapability.read 17 := ⟨⟨_, rfl, by checked OpCapability.read⟩⟩
instance : OpChecked OpTypeVoid.read 19 := ⟨⟨_, rfl, by checked OpTypeVoid.read⟩⟩
instance : OpChecked OpTypeBool.read 20 := ⟨⟨_, rfl, by checked OpTypeBool.read⟩⟩
instance : OpChecked OpTypeInt.read 21 := ⟨⟨_, rfl, by checked OpTypeInt.read⟩⟩
instance : OpChecked OpTypeFloat.read 22 := ⟨⟨_, rfl, by checked OpTypeFloat.read⟩⟩
instance : OpChecked OpTypeVector.read 23 := ⟨⟨_, rfl, by checked OpTypeVector.read⟩⟩
instance : OpChecked OpTypeMatrix.read 24 := ⟨⟨_, rfl, by checked OpTypeMatrix.read⟩⟩
instance : OpChecked OpTypeImage.read 25 := ⟨⟨_, rfl, by checked OpTypeImage.read⟩⟩
instance : OpChecked OpTypeSampler.read 26 := ⟨⟨_, rfl, by checked OpTypeSampler.read⟩⟩
instance : OpChecked OpTypeSampledImage.read 27 := ⟨⟨_, rfl, by checked OpTypeSampledImage.read⟩⟩
instance : OpChecked OpTypeArray.read 28 := ⟨⟨_, rfl, by checked OpTypeArray.read⟩⟩
instance : OpChecked OpTypeRuntimeArray.read 29 := ⟨⟨_, rfl, by checked OpTypeRuntimeArray.read⟩⟩
instance : OpChecked OpTypeStruct.read 30 := ⟨⟨_, rfl, by checked OpTypeStruct.read⟩⟩
instance : OpChecked OpTypeOpaque.read 31 := ⟨⟨_, rfl, by checked OpTypeOpaque.read⟩⟩
instance : OpChecked OpTypePointer.read 32 := ⟨⟨_, rfl, by checked OpTypePointer.read⟩⟩
instance : OpChecked OpTypeFunction.read 33 := ⟨⟨_, rfl, by checked OpTypeFunction.read⟩⟩
instance : OpChecked OpConstant.read 43 := ⟨⟨_, rfl, by checked OpConstant.read⟩⟩
instance : OpChecked OpConstantComposite.read 44 := ⟨⟨_, rfl, by checked OpConstantComposite.read⟩⟩
instance : OpChecked OpFunction.read 54 := ⟨⟨_, rfl, by checked OpFunction.read⟩⟩
instance : OpChecked OpFunctionParameter.read 55 := ⟨⟨_, rfl, by checked OpFunctionParameter.read⟩⟩
instance : OpChecked OpFunctionEnd.read 56 := ⟨⟨_, rfl, by checked OpFunctionEnd.read⟩⟩
instance : OpChecked OpVariable.read 59 := ⟨⟨_, rfl, by checked OpVariable.read⟩⟩
instance : OpChecked OpLoad.read 61 := ⟨⟨_, rfl, by checked OpLoad.read⟩⟩
instance : OpChecked OpStore.read 62 := ⟨⟨_, rfl, by checked OpStore.read⟩⟩
instance : OpChecked OpAccessChain.read 65 := ⟨⟨_, rfl, by checked OpAccessChain.read⟩⟩
instance : OpChecked OpDecorate.read 71 := ⟨⟨_, rfl, by checked OpDecorate.read⟩⟩
instance : OpChecked OpMemberDecorate.read 72 := ⟨⟨_, rfl, by checked OpMemberDecorate.read⟩⟩
instance : OpChecked OpConvertUToF.read 112 := ⟨⟨_, rfl, by checked OpConvertUToF.read⟩⟩
instance : OpChecked OpBitcast.read 124 := ⟨⟨_, rfl, by checked OpBitcast.read⟩⟩
instance : OpChecked OpIAdd.read 128 := ⟨⟨_, rfl, by checked OpIAdd.read⟩⟩
instance : OpChecked OpFAdd.read 129 := ⟨⟨_, rfl, by checked OpFAdd.read⟩⟩
instance : OpChecked OpISub.read 130 := ⟨⟨_, rfl, by checked OpISub.read⟩⟩
instance : OpChecked OpFSub.read 131 := ⟨⟨_, rfl, by checked OpFSub.read⟩⟩
instance : OpChecked OpIMul.read 132 := ⟨⟨_, rfl, by checked OpIMul.read⟩⟩
instance : OpChecked OpFMul.read 133 := ⟨⟨_, rfl, by checked OpFMul.read⟩⟩
instance : OpChecked OpUDiv.read 134 := ⟨⟨_, rfl, by checked OpUDiv.read⟩⟩
instance : OpChecked OpSDiv.read 135 := ⟨⟨_, rfl, by checked OpSDiv.read⟩⟩
instance : OpChecked OpFDiv.read 136 := ⟨⟨_, rfl, by checked OpFDiv.read⟩⟩
instance : OpChecked OpUMod.read 137 := ⟨⟨_, rfl, by checked OpUMod.read⟩⟩
instance : OpChecked OpSRem.read 138 := ⟨⟨_, rfl, by checked OpSRem.read⟩⟩
instance : OpChecked OpSMod.read 139 := ⟨⟨_, rfl, by checked OpSMod.read⟩⟩
instance : OpChecked OpFRem.read 140 := ⟨⟨_, rfl, by checked OpFRem.read⟩⟩
instance : OpChecked OpFMod.read 141 := ⟨⟨_, rfl, by checked OpFMod.read⟩⟩
instance : OpChecked OpIAddCarry.read 149 := ⟨⟨_, rfl, by checked OpIAddCarry.read⟩⟩
instance : OpChecked OpISubBorrow.read 150 := ⟨⟨_, rfl, by checked OpISubBorrow.read⟩⟩
instance : OpChecked OpUMulExtended.read 151 := ⟨⟨_, rfl, by checked OpUMulExtended.read⟩⟩
instance : OpChecked OpSMulExtended.read 152 := ⟨⟨_, rfl, by checked OpSMulExtended.read⟩⟩
instance : OpChecked OpIEqual.read 170 := ⟨⟨_, rfl, by checked OpIEqual.read⟩⟩
instance : OpChecked OpINotEqual.read 171 := ⟨⟨_, rfl, by checked OpINotEqual.read⟩⟩
instance : OpChecked OpUGreaterThan.read 172 := ⟨⟨_, rfl, by checked OpUGreaterThan.read⟩⟩
instance : OpChecked OpSGreaterThan.read 173 := ⟨⟨_, rfl, by checked OpSGreaterThan.read⟩⟩
instance : OpChecked OpUGreaterThanEqual.read 174 := ⟨⟨_, rfl, by checked OpUGreaterThanEqual.read⟩⟩
instance : OpChecked OpSGreaterThanEqual.read 175 := ⟨⟨_, rfl, by checked OpSGreaterThanEqual.read⟩⟩
instance : OpChecked OpULessThan.read 176 := ⟨⟨_, rfl, by checked OpULessThan.read⟩⟩
instance : OpChecked OpSLessThan.read 177 := ⟨⟨_, rfl, by checked OpSLessThan.read⟩⟩
instance : OpChecked OpULessThanEqual.read 178 := ⟨⟨_, rfl, by checked OpULessThanEqual.read⟩⟩
instance : OpChecked OpSLessThanEqual.read 179 := ⟨⟨_, rfl, by checked OpSLessThanEqual.read⟩⟩
instance : OpChecked OpFOrdEqual.read 180 := ⟨⟨_, rfl, by checked OpFOrdEqual.read⟩⟩
instance : OpChecked OpFUnordEqual.read 181 := ⟨⟨_, rfl, by checked OpFUnordEqual.read⟩⟩
instance : OpChecked OpFOrdNotEqual.read 182 := ⟨⟨_, rfl, by checked OpFOrdNotEqual.read⟩⟩
instance : OpChecked OpFUnordNotEqual.read 183 := ⟨⟨_, rfl, by checked OpFUnordNotEqual.read⟩⟩
instance : OpChecked OpFOrdLessThan.read 184 := ⟨⟨_, rfl, by checked OpFOrdLessThan.read⟩⟩
instance : OpChecked OpFUnordLessThan.read 185 := ⟨⟨_, rfl, by checked OpFUnordLessThan.read⟩⟩
instance : OpChecked OpFOrdGreaterThan.read 186 := ⟨⟨_, rfl, by checked OpFOrdGreaterThan.read⟩⟩
instance : OpChecked OpFUnordGreaterThan.read 187 := ⟨⟨_, rfl, by checked OpFUnordGreaterThan.read⟩⟩
instance : OpChecked OpFOrdLessThanEqual.read 188 := ⟨⟨_, rfl, by checked OpFOrdLessThanEqual.read⟩⟩
instance : OpChecked OpFUnordLessThanEqual.read 189 := ⟨⟨_, rfl, by checked OpFUnordLessThanEqual.read⟩⟩
instance : OpChecked OpFOrdGreaterThanEqual.read 190 := ⟨⟨_, rfl, by checked OpFOrdGreaterThanEqual.read⟩⟩
instance : OpChecked OpFUnordGreaterThanEqual.read 191 := ⟨⟨_, rfl, by checked OpFUnordGreaterThanEqual.read⟩⟩
instance : OpChecked OpBitwiseOr.read 197 := ⟨⟨_, rfl, by checked OpBitwiseOr.read⟩⟩
instance : OpChecked OpBitwiseXor.read 198 := ⟨⟨_, rfl, by checked OpBitwiseXor.read⟩⟩
instance : OpChecked OpBitwiseAnd.read 199 := ⟨⟨_, rfl, by checked OpBitwiseAnd.read⟩⟩
instance : OpChecked OpPhi.read 245 := ⟨⟨_, rfl, by checked OpPhi.read⟩⟩
instance : OpChecked OpLoopMerge.read 246 := ⟨⟨_, rfl, by checked OpLoopMerge.read⟩⟩
instance : OpChecked OpSelectionMerge.read 247 := ⟨⟨_, rfl, by checked OpSelectionMerge.read⟩⟩
instance : OpChecked OpLabel.read 248 := ⟨⟨_, rfl, by checked OpLabel.read⟩⟩
instance : OpChecked OpBranch.read 249 := ⟨⟨_, rfl, by checked OpBranch.read⟩⟩
instance : OpChecked OpBranchConditional.read 250 := ⟨⟨_, rfl, by checked OpBranchConditional.read⟩⟩
instance : OpChecked OpReturn.read 253 := ⟨⟨_, rfl, by checked OpReturn.read⟩⟩

end Magma
