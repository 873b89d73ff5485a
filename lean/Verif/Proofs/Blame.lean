import Verif.Spec.Blame
import Verif.Proofs.ErrorSplit
import Verif.Proofs.GlslLaws
/-! Lemmas: errors about operands are justified by the operands. -/

namespace Magma
open Spec

theorem BadOperand_suffix {ws vs : List UInt32} (h : ws <:+ vs) {e : ReadError} (hb : BadOperand ws e) :
    BadOperand vs e := by
  obtain ⟨u, rfl⟩ := h
  cases e <;> first
    | exact hb
    | exact ⟨List.mem_append_right _ hb.1, hb.2⟩
    | (obtain ⟨pre, w, rest, bytes, pad, rfl, hb⟩ := hb
       exact ⟨u ++ pre, w, rest, bytes, pad, by simp, hb⟩)

/-- An outcome of reading from `ws`: an error that is justified, or a value and a rest of `ws` -/
structure Good {α : Type} (ws : Block) (x : R (Block × α)) : Prop where
  err : ∀ e, x = .error (.err e) → BadOperand ws e
  ok : ∀ rest a, x = .ok (rest, a) → rest <:+ ws

theorem Good.pure {α : Type} (ws : Block) (a : α) : Good ws (pure (ws, a) : R (Block × α)) :=
  ⟨(fun _ h => by cases h), fun _ _ h => by cases h; exact List.suffix_refl _⟩
theorem Good.fail {α : Type} {ws : Block} {e : ReadError} (h : BadOperand ws e) : Good ws (fail e : R (Block × α)) :=
  ⟨(fun _ h' => by cases h'; exact h), fun _ _ h => by cases h⟩
theorem Good.bind {α β : Type} {ws : Block} {x : R (Block × α)} {f : Block × α → R (Block × β)} (hx : Good ws x)
    (hf : ∀ rest a, Good rest (f (rest, a))) : Good ws (x >>= f) := by
  cases x with
  | error e => exact ⟨(fun e' h => by cases h; exact hx.err e' rfl), fun _ _ h => by cases h⟩
  | ok p =>
    obtain ⟨rest, a⟩ := p
    have hs := hx.ok rest a rfl
    exact ⟨fun e h => BadOperand_suffix hs ((hf rest a).err e h), fun r b h => ((hf rest a).ok r b h).trans hs⟩

class GoodRead (α : Type) [MemoryBlockRead α] : Prop where
  good : ∀ ws : Block, Good ws (MemoryBlockRead.read ws : R (Block × α))

theorem readWord_good (ws : Block) : Good ws (Block.readWord ws) := by
  cases ws with
  | nil => exact .fail trivial
  | cons w ws => exact ⟨(fun _ h => by cases h), fun _ _ h => by cases h; exact List.suffix_cons _ _⟩

/-- Read a word, and be at the word when looking at it -/
theorem Good.word {β : Type} {ws : Block} {f : Block × UInt32 → R (Block × β)}
    (hf : ∀ rest w, (∀ e, f (rest, w) = .error (.err e) → BadOperand (w :: rest) e) ∧
      ∀ r a, f (rest, w) = .ok (r, a) → r <:+ rest) : Good ws (Block.readWord ws >>= f) := by
  cases ws with
  | nil => exact .fail trivial
  | cons w ws => exact ⟨(hf ws w).1, fun r a h => ((hf ws w).2 r a h).trans (List.suffix_cons _ _)⟩

instance : GoodRead UInt32 := ⟨readWord_good⟩
instance : GoodRead OpId := ⟨fun ws => .bind (readWord_good ws) fun _ _ => .pure _ _⟩
instance : GoodRead ResultId := ⟨fun ws => .bind (readWord_good ws) fun _ _ => .pure _ _⟩
instance : GoodRead SourceVersion := ⟨fun ws => .bind (readWord_good ws) fun _ _ => .pure _ _⟩
instance : GoodRead MemberIndex := ⟨fun ws => .bind (readWord_good ws) fun _ _ => .pure _ _⟩
instance : GoodRead FunctionControl := ⟨fun ws => .bind (readWord_good ws) fun _ _ => .pure _ _⟩
instance : GoodRead BranchWeights :=
  ⟨fun ws => .bind (readWord_good ws) fun _ _ => .bind (readWord_good _) fun _ _ => .pure _ _⟩
instance : GoodRead PhiArg :=
  ⟨fun _ => .bind (GoodRead.good _) fun _ _ => .bind (GoodRead.good _) fun _ _ => .pure _ _⟩
instance : GoodRead SourceLanguage := by
  refine ⟨fun ws => .bind (readWord_good ws) fun _ _ => ?_⟩
  dsimp only
  split <;> exact .pure _ _

/-- A bit of the mask is set in the word. -/
theorem bit_of_and {w m : UInt32} {lo : Nat} (h : ((w &&& m) != 0) = true) (hm : m.toNat % 2 ^ lo = 0) :
    ∃ i, lo ≤ i ∧ w.toNat.testBit i = true := by
  have h0 : (w &&& m).toNat ≠ 0 := by
    intro h'
    have : w &&& m = 0 := UInt32.toNat_inj.mp (by simpa using h')
    simp [this] at h
  obtain ⟨i, hi⟩ := Nat.exists_testBit_of_ne_zero h0
  rw [UInt32.toNat_and, Nat.testBit_and, Bool.and_eq_true] at hi
  refine ⟨i, ?_, hi.1⟩
  refine Classical.byContradiction fun hlt => ?_
  have h1 := Nat.testBit_mod_two_pow m.toNat lo i
  rw [hm] at h1
  simp [hi.2, show i < lo by omega] at h1

theorem mask_arm {α : Type} {rest : Block} {w m : UInt32} {lo : Nat} {e : ReadError} {y : R (Block × α)}
    (hm : m.toNat % 2 ^ lo = 0) (he : (∃ i, lo ≤ i ∧ w.toNat.testBit i = true) → BadOperand (w :: rest) e)
    (hy : Good rest y) :
    (∀ e', (if (w &&& m) != 0 then fail e else y) = .error (.err e') → BadOperand (w :: rest) e') ∧
    ∀ r a, (if (w &&& m) != 0 then fail e else y) = .ok (r, a) → r <:+ rest := by
  split
  · rename_i h
    exact ⟨(fun e' h' => by cases h'; exact he (bit_of_and h hm)), fun _ _ h => by cases h⟩
  · exact ⟨fun e h => BadOperand_suffix (List.suffix_cons _ _) (hy.err e h), hy.ok⟩

instance : GoodRead MemoryAccess :=
  ⟨fun _ => .word fun _ _ => mask_arm (lo := 3) (by decide) (fun h => ⟨List.mem_cons_self, h⟩) (.pure _ _)⟩
instance : GoodRead FpFastMathMode :=
  ⟨fun _ => .word fun _ _ => mask_arm (lo := 5) (by decide) (fun h => ⟨List.mem_cons_self, h⟩) (.pure _ _)⟩
instance : GoodRead SelectionControl :=
  ⟨fun _ => .word fun _ _ => mask_arm (lo := 2) (by decide) (fun h => ⟨List.mem_cons_self, h⟩) (.pure _ _)⟩
instance : GoodRead LoopControl := by
  refine ⟨fun _ => .word fun _ _ => mask_arm (lo := 4) (by decide) (fun h => ⟨List.mem_cons_self, h⟩) ?_⟩
  dsimp only
  split
  · exact .bind (readWord_good _) fun _ _ => .pure _ _
  · exact .pure _ _

theorem lookup_none_code {α : Type} {table : List (UInt32 × α)} {code : α → UInt32} {w : UInt32}
    (h : table.lookup w = none) (hc : ∀ a, table.lookup (code a) = some a) : ∀ a, code a ≠ w := by
  rintro a rfl
  rw [hc a] at h
  cases h

theorem readEnum_good {α : Type} {table : List (UInt32 × α)} {e : UInt32 → ReadError} {code : α → UInt32}
    (hc : ∀ a, table.lookup (code a) = some a)
    (he : ∀ w rest, (∀ a, code a ≠ w) → BadOperand (w :: rest) (e w)) (ws : Block) : Good ws (readEnum table e ws) := by
  refine .word fun rest w => ?_
  dsimp only
  split
  · exact ⟨(fun _ h => by cases h), fun _ _ h => by cases h; exact List.suffix_refl _⟩
  · rename_i h
    exact ⟨(fun e' h' => by cases h'; exact he _ _ (lookup_none_code h hc)), fun _ _ h => by cases h⟩

instance : GoodRead AddressingModel :=
  ⟨readEnum_good (code := addressingModelCode) (by intro a; cases a <;> rfl) fun _ _ h => ⟨List.mem_cons_self, h⟩⟩
instance : GoodRead MemoryModel :=
  ⟨readEnum_good (code := memoryModelCode) (by intro a; cases a <;> rfl) fun _ _ h => ⟨List.mem_cons_self, h⟩⟩
instance : GoodRead ExecutionModel :=
  ⟨readEnum_good (code := executionModelCode) (by intro a; cases a <;> rfl) fun _ _ h => ⟨List.mem_cons_self, h⟩⟩
instance : GoodRead Capability :=
  ⟨readEnum_good (code := capabilityCode) (by intro a; cases a <;> rfl) fun _ _ h => ⟨List.mem_cons_self, h⟩⟩
instance : GoodRead BuiltIn :=
  ⟨readEnum_good (code := builtInCode) (by intro a; cases a <;> rfl) fun _ _ h => ⟨List.mem_cons_self, h⟩⟩
instance : GoodRead FpRoundingMode :=
  ⟨readEnum_good (code := fpRoundingModeCode) (by intro a; cases a <;> rfl) fun _ _ h => ⟨List.mem_cons_self, h⟩⟩
instance : GoodRead LinkageType :=
  ⟨readEnum_good (code := linkageTypeCode) (by intro a; cases a <;> rfl) fun _ _ h => ⟨List.mem_cons_self, h⟩⟩
instance : GoodRead Signedness :=
  ⟨readEnum_good (code := signednessCode) (by intro a; cases a <;> rfl) fun _ _ h => ⟨List.mem_cons_self, h⟩⟩
instance : GoodRead StorageClass :=
  ⟨readEnum_good (code := storageClassCode) (by intro a; cases a <;> rfl) fun _ _ h => ⟨List.mem_cons_self, h⟩⟩
instance : GoodRead FunctionParameterAttribute :=
  ⟨readEnum_good (code := functionParameterAttributeCode) (by intro a; cases a <;> rfl) fun _ _ h => ⟨List.mem_cons_self, h⟩⟩
instance : GoodRead Dim :=
  ⟨readEnum_good (code := dimCode) (by intro a; cases a <;> rfl) fun _ _ h => ⟨List.mem_cons_self, h⟩⟩
instance : GoodRead DepthStatus :=
  ⟨readEnum_good (code := depthStatusCode) (by intro a; cases a <;> rfl) fun _ _ h => ⟨List.mem_cons_self, h⟩⟩
instance : GoodRead Arrayed :=
  ⟨readEnum_good (code := arrayedCode) (by intro a; cases a <;> rfl) fun _ _ h => ⟨List.mem_cons_self, h⟩⟩
instance : GoodRead MS :=
  ⟨readEnum_good (code := mSCode) (by intro a; cases a <;> rfl) fun _ _ h => ⟨List.mem_cons_self, h⟩⟩
instance : GoodRead SampledStatus :=
  ⟨readEnum_good (code := sampledStatusCode) (by intro a; cases a <;> rfl) fun _ _ h => ⟨List.mem_cons_self, h⟩⟩
instance : GoodRead ImageFormat :=
  ⟨readEnum_good (code := imageFormatCode) (by intro a; cases a <;> rfl) fun _ _ h => ⟨List.mem_cons_self, h⟩⟩
instance : GoodRead AccessQualifier :=
  ⟨readEnum_good (code := accessQualifierCode) (by intro a; cases a <;> rfl) fun _ _ h => ⟨List.mem_cons_self, h⟩⟩

theorem readStringLoop_good : ∀ (ws : Block) (acc : List UInt8),
    (∀ e, readStringLoop ws acc = .error (.err e) → e = .UnexpectedEndOfInstruction) ∧
    ∀ rest bytes, readStringLoop ws acc = .ok (rest, bytes) → ∃ u more pad, ws = u ++ rest ∧ bytes = acc.reverse ++ more ∧
      u.flatMap wordBytes = more ++ 0 :: pad ∧ pad.length ≤ 3 ∧ 0 ∉ more := by
  intro ws
  induction ws with
  | nil => exact fun acc => ⟨(fun e h => by cases h; rfl), fun _ _ h => by cases h⟩
  | cons w ws ih =>
    intro acc
    have push : ∀ (cs acc : List UInt8), (∃ more pad, cs = more ++ 0 :: pad ∧ 0 ∉ more ∧
        pushChars cs acc = (more.reverse ++ acc, true)) ∨ (0 ∉ cs ∧ pushChars cs acc = (cs.reverse ++ acc, false)) := by
      intro cs
      induction cs with
      | nil => intro acc; exact .inr ⟨by simp, rfl⟩
      | cons c cs ih =>
        intro acc
        by_cases hc : c = 0
        · subst hc
          exact .inl ⟨[], cs, rfl, by simp, by simp [pushChars]⟩
        · have hc' : ¬ (0 = c) := fun h => hc h.symm
          rcases ih (c :: acc) with ⟨more, pad, rfl, h1, h2⟩ | ⟨h1, h2⟩
          · exact .inl ⟨c :: more, pad, rfl, by simp [hc', h1], by simp [pushChars, hc, h2]⟩
          · exact .inr ⟨by simp [hc', h1], by simp [pushChars, hc, h2]⟩
    have hw : wordChars w = wordBytes w := wordChars_eq w
    simp only [readStringLoop]
    rcases push (wordChars w) acc with ⟨more, pad, h1, h2, h3⟩ | ⟨h1, h2⟩
    · rw [h3]
      refine ⟨(fun e h => by cases h), fun rest bytes h => ?_⟩
      cases h
      refine ⟨[w], more, pad, rfl, by simp, ?_, ?_, h2⟩
      · simp [← hw, h1]
      · have := congrArg List.length h1
        simp [wordChars] at this
        omega
    · rw [h2]
      obtain ⟨i1, i2⟩ := ih ((wordChars w).reverse ++ acc)
      refine ⟨i1, fun rest bytes h => ?_⟩
      obtain ⟨u, more, pad, rfl, rfl, hu, hp, hn⟩ := i2 rest bytes h
      refine ⟨w :: u, wordChars w ++ more, pad, rfl, by simp, ?_, hp, by simp [h1, hn]⟩
      simp [hu, hw]

instance : GoodRead String := by
  refine ⟨fun ws => ?_⟩
  simp only [MemoryBlockRead.read]
  obtain ⟨h1, h2⟩ := readStringLoop_good ws []
  cases hx : readStringLoop ws [] with
  | error e =>
    refine ⟨fun e' h => ?_, fun _ _ h => by cases h⟩
    cases h
    rw [h1 e' hx]
    trivial
  | ok p =>
    obtain ⟨rest, bytes⟩ := p
    obtain ⟨u, more, pad, rfl, hb, hu, hp, hn⟩ := h2 rest bytes hx
    simp only [List.reverse_nil, List.nil_append] at hb
    subst hb
    rw [ok_bind]
    dsimp only
    split
    · exact ⟨(fun _ h => by cases h), fun _ _ h => by cases h; exact List.suffix_append _ _⟩
    · rename_i hs
      refine .fail ⟨[], u, rest, bytes, pad, by simp, hu, hp, hn, ?_⟩
      rintro s rfl
      rw [fromUTF8?_bytes.mpr rfl] at hs
      cases hs

instance {α : Type} [MemoryBlockRead α] [GoodRead α] : GoodRead (Option α) := by
  refine ⟨fun ws => ?_⟩
  simp only [MemoryBlockRead.read]
  split
  · exact .bind (GoodRead.good _) fun _ _ => .pure _ _
  · exact .pure _ _

theorem readVecLoop_good {α : Type} [MemoryBlockRead α] [GoodRead α] :
    ∀ (fuel : Nat) (ws : Block) (acc : List α), Good ws (readVecLoop fuel ws acc) := by
  intro fuel
  induction fuel with
  | zero => exact fun ws acc => ⟨(fun _ h => by cases h), fun _ _ h => by cases h⟩
  | succ fuel ih =>
    intro ws acc
    simp only [readVecLoop]
    split
    · exact .bind (GoodRead.good _) fun _ _ => ih _ _
    · exact .pure _ _

instance {α : Type} [MemoryBlockRead α] [RustSize α] [GoodRead α] : GoodRead (List α) := by
  refine ⟨fun ws => ?_⟩
  simp only [MemoryBlockRead.read]
  split
  · exact ⟨(fun _ h => by cases h), fun _ _ h => by cases h⟩
  · exact readVecLoop_good _ _ _

structure HandlerGood {α : Type} (p : UInt32 × (Block → R (Block × α))) : Prop where
  good : ∀ ws, Good ws (p.2 ws)

theorem readHandler_good {α : Type} {table : List (UInt32 × (Block → R (Block × α)))} {code : α → UInt32}
    {e : UInt32 → ReadError} (hc : ∀ a, (table.lookup (code a)).isSome = true)
    (he : ∀ w rest, (∀ a, code a ≠ w) → BadOperand (w :: rest) (e w)) (ht : ∀ p ∈ table, HandlerGood p)
    (ws : Block) : Good ws (readHandler table e ws) := by
  refine .word fun rest w => ?_
  dsimp only
  split
  · rename_i f hf
    have := (ht _ (mem_of_lookup hf)).good rest
    exact ⟨fun e h => BadOperand_suffix (List.suffix_cons _ _) (this.err e h), this.ok⟩
  · rename_i h
    refine ⟨fun e' h' => ?_, fun _ _ h => by cases h⟩
    cases h'
    refine he _ _ ?_
    rintro a rfl
    have := hc a
    rw [h] at this
    cases this

theorem HandlerGood.unit {α : Type} (k : UInt32) (a : α) : HandlerGood (k, readUnit a) :=
  ⟨fun _ => .pure _ _⟩
theorem HandlerGood.one {α β : Type} [MemoryBlockRead β] [GoodRead β] (k : UInt32) (f : β → α) :
    HandlerGood (k, read1 f) := ⟨fun _ => .bind (GoodRead.good _) fun _ _ => .pure _ _⟩
theorem HandlerGood.two {α β γ : Type} [MemoryBlockRead β] [GoodRead β] [MemoryBlockRead γ]
    [GoodRead γ] (k : UInt32) (f : β → γ → α) : HandlerGood (k, read2 f) :=
  ⟨fun _ => .bind (GoodRead.good _) fun _ _ => .bind (GoodRead.good _) fun _ _ => .pure _ _⟩
theorem HandlerGood.three {α β γ δ : Type} [MemoryBlockRead β] [GoodRead β] [MemoryBlockRead γ]
    [GoodRead γ] [MemoryBlockRead δ] [GoodRead δ] (k : UInt32) (f : β → γ → δ → α) :
    HandlerGood (k, read3 f) :=
  ⟨fun _ => .bind (GoodRead.good _) fun _ _ => .bind (GoodRead.good _) fun _ _ =>
    .bind (GoodRead.good _) fun _ _ => .pure _ _⟩

macro "handlers_good" : tactic => `(tactic| (
  repeat' (first
    | exact fun _ h => absurd h List.not_mem_nil
    | refine List.forall_mem_cons.mpr ⟨HandlerGood.unit _ _, ?_⟩
    | refine List.forall_mem_cons.mpr ⟨HandlerGood.one _ _, ?_⟩
    | refine List.forall_mem_cons.mpr ⟨HandlerGood.two _ _, ?_⟩
    | refine List.forall_mem_cons.mpr ⟨HandlerGood.three _ _, ?_⟩)))

instance : GoodRead ExecutionMode := by
  refine ⟨readHandler_good (code := executionModeNumber) (by intro a; cases a <;> rfl)
    (fun _ _ h => ⟨List.mem_cons_self, h⟩) ?_⟩
  unfold executionModeHandlers
  handlers_good

instance : GoodRead Decoration := by
  refine ⟨readHandler_good (code := decorationNumber) (by intro a; cases a <;> rfl)
    (fun _ _ h => ⟨List.mem_cons_self, h⟩) ?_⟩
  unfold decorationHandlers
  handlers_good

class OpGood {α : Type} (read : Block → R (Block × α)) : Prop where
  good : ∀ ws, Good ws (read ws)

macro "op_good" r:ident : tactic => `(tactic| (
  refine ⟨fun ws => ?_⟩
  unfold $r:ident
  repeat (refine Good.bind (GoodRead.good _) fun _ _ => ?_)
  exact .pure _ _))

instance : OpGood OpNop.read := by op_good OpNop.read
instance : OpGood OpUndef.read := by op_good OpUndef.read
instance : OpGood OpSourceContinued.read := by op_good OpSourceContinued.read
instance : OpGood OpSource.read := by op_good OpSource.read
instance : OpGood OpSourceExtension.read := by op_good OpSourceExtension.read
instance : OpGood OpName.read := by op_good OpName.read
instance : OpGood OpMemberName.read := by op_good OpMemberName.read
instance : OpGood OpString.read := by op_good OpString.read
instance : OpGood OpDecorate.read := by op_good OpDecorate.read
instance : OpGood OpMemberDecorate.read := by op_good OpMemberDecorate.read
instance : OpGood OpExtension.read := by op_good OpExtension.read
instance : OpGood OpMemoryModel.read := by op_good OpMemoryModel.read
instance : OpGood OpEntryPoint.read := by op_good OpEntryPoint.read
instance : OpGood OpExecutionMode.read := by op_good OpExecutionMode.read
instance : OpGood OpCapability.read := by op_good OpCapability.read
instance : OpGood OpTypeVoid.read := by op_good OpTypeVoid.read
instance : OpGood OpTypeBool.read := by op_good OpTypeBool.read
instance : OpGood OpTypeInt.read := by op_good OpTypeInt.read
instance : OpGood OpTypeFloat.read := by op_good OpTypeFloat.read
instance : OpGood OpTypeVector.read := by op_good OpTypeVector.read
instance : OpGood OpTypeMatrix.read := by op_good OpTypeMatrix.read
instance : OpGood OpTypeImage.read := by op_good OpTypeImage.read
instance : OpGood OpTypeSampler.read := by op_good OpTypeSampler.read
instance : OpGood OpTypeSampledImage.read := by op_good OpTypeSampledImage.read
instance : OpGood OpTypeArray.read := by op_good OpTypeArray.read
instance : OpGood OpTypeRuntimeArray.read := by op_good OpTypeRuntimeArray.read
instance : OpGood OpTypeStruct.read := by op_good OpTypeStruct.read
instance : OpGood OpTypeOpaque.read := by op_good OpTypeOpaque.read
instance : OpGood OpTypePointer.read := by op_good OpTypePointer.read
instance : OpGood OpTypeFunction.read := by op_good OpTypeFunction.read
instance : OpGood OpConstant.read := by op_good OpConstant.read
instance : OpGood OpConstantComposite.read := by op_good OpConstantComposite.read
instance : OpGood OpFunction.read := by op_good OpFunction.read
instance : OpGood OpFunctionParameter.read := by op_good OpFunctionParameter.read
instance : OpGood OpFunctionEnd.read := by op_good OpFunctionEnd.read
instance : OpGood OpVariable.read := by op_good OpVariable.read
instance : OpGood OpLoad.read := by op_good OpLoad.read
instance : OpGood OpStore.read := by op_good OpStore.read
instance : OpGood OpAccessChain.read := by op_good OpAccessChain.read
instance : OpGood OpConvertUToF.read := by op_good OpConvertUToF.read
instance : OpGood OpPhi.read := by op_good OpPhi.read
instance : OpGood OpLoopMerge.read := by op_good OpLoopMerge.read
instance : OpGood OpSelectionMerge.read := by op_good OpSelectionMerge.read
instance : OpGood OpLabel.read := by op_good OpLabel.read
instance : OpGood OpBranch.read := by op_good OpBranch.read
instance : OpGood OpBranchConditional.read := by op_good OpBranchConditional.read
instance : OpGood OpReturn.read := by op_good OpReturn.read
instance : OpGood OpBitcast.read := by op_good OpBitcast.read
instance : OpGood OpIAdd.read := by op_good OpIAdd.read
instance : OpGood OpFAdd.read := by op_good OpFAdd.read
instance : OpGood OpISub.read := by op_good OpISub.read
instance : OpGood OpFSub.read := by op_good OpFSub.read
instance : OpGood OpIMul.read := by op_good OpIMul.read
instance : OpGood OpFMul.read := by op_good OpFMul.read
instance : OpGood OpUDiv.read := by op_good OpUDiv.read
instance : OpGood OpSDiv.read := by op_good OpSDiv.read
instance : OpGood OpFDiv.read := by op_good OpFDiv.read
instance : OpGood OpUMod.read := by op_good OpUMod.read
instance : OpGood OpSRem.read := by op_good OpSRem.read
instance : OpGood OpSMod.read := by op_good OpSMod.read
instance : OpGood OpFRem.read := by op_good OpFRem.read
instance : OpGood OpFMod.read := by op_good OpFMod.read
instance : OpGood OpIAddCarry.read := by op_good OpIAddCarry.read
instance : OpGood OpISubBorrow.read := by op_good OpISubBorrow.read
instance : OpGood OpUMulExtended.read := by op_good OpUMulExtended.read
instance : OpGood OpSMulExtended.read := by op_good OpSMulExtended.read
instance : OpGood OpBitwiseOr.read := by op_good OpBitwiseOr.read
instance : OpGood OpBitwiseXor.read := by op_good OpBitwiseXor.read
instance : OpGood OpBitwiseAnd.read := by op_good OpBitwiseAnd.read
instance : OpGood OpIEqual.read := by op_good OpIEqual.read
instance : OpGood OpINotEqual.read := by op_good OpINotEqual.read
instance : OpGood OpUGreaterThan.read := by op_good OpUGreaterThan.read
instance : OpGood OpSGreaterThan.read := by op_good OpSGreaterThan.read
instance : OpGood OpUGreaterThanEqual.read := by op_good OpUGreaterThanEqual.read
instance : OpGood OpSGreaterThanEqual.read := by op_good OpSGreaterThanEqual.read
instance : OpGood OpULessThan.read := by op_good OpULessThan.read
instance : OpGood OpSLessThan.read := by op_good OpSLessThan.read
instance : OpGood OpULessThanEqual.read := by op_good OpULessThanEqual.read
instance : OpGood OpSLessThanEqual.read := by op_good OpSLessThanEqual.read
instance : OpGood OpFOrdEqual.read := by op_good OpFOrdEqual.read
instance : OpGood OpFUnordEqual.read := by op_good OpFUnordEqual.read
instance : OpGood OpFOrdNotEqual.read := by op_good OpFOrdNotEqual.read
instance : OpGood OpFUnordNotEqual.read := by op_good OpFUnordNotEqual.read
instance : OpGood OpFOrdLessThan.read := by op_good OpFOrdLessThan.read
instance : OpGood OpFUnordLessThan.read := by op_good OpFUnordLessThan.read
instance : OpGood OpFOrdGreaterThan.read := by op_good OpFOrdGreaterThan.read
instance : OpGood OpFUnordGreaterThan.read := by op_good OpFUnordGreaterThan.read
instance : OpGood OpFOrdLessThanEqual.read := by op_good OpFOrdLessThanEqual.read
instance : OpGood OpFUnordLessThanEqual.read := by op_good OpFUnordLessThanEqual.read
instance : OpGood OpFOrdGreaterThanEqual.read := by op_good OpFOrdGreaterThanEqual.read
instance : OpGood OpFUnordGreaterThanEqual.read := by op_good OpFUnordGreaterThanEqual.read

end Magma
