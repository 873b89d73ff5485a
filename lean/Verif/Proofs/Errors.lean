import Verif.Proofs.TruncOps
/-! Lemmas: which errors the readers of operands and instructions can give. -/

namespace Magma
open Spec

/-- Errors about the header, the stream or the opcode, not about operands -/
def ReadError.outer : ReadError → Bool
  | .UnexpectedEndOfStream | .UnexpectedStreamAlignment | .BadMagic | .UnknownVersionBytes ..
  | .UnknownVersion _ | .UnknownReservedSchema | .UnknownOp .. | .UnimplementedOp _
  | .WrongWordCountForOp => true
  | _ => false

/-- Not an outer error -/
def Inner {α : Type} (x : R α) : Prop := ∀ e, x = .error (.err e) → e.outer = false

theorem Inner.ok {α : Type} (a : α) : Inner (.ok a : R α) := by intro e h; cases h
theorem Inner.pure {α : Type} (a : α) : Inner (pure a : R α) := by intro e h; cases h
theorem Inner.fail {α : Type} {e : ReadError} (he : e.outer = false) : Inner (Magma.fail e : R α) := by
  intro e' h; cases h; exact he
theorem Inner.bind {α β : Type} {x : R α} {f : α → R β} (hx : Inner x) (hf : ∀ a, Inner (f a)) :
    Inner (x >>= f) := by
  intro e h
  cases x with
  | error e' => cases h; exact hx e rfl
  | ok a => exact hf a e h
theorem Inner.ite {α : Type} {c : Prop} [Decidable c] {x y : R α}
    (hx : Inner x) (hy : Inner y) : Inner (if c then x else y) := by
  split <;> assumption

class InnerRead (α : Type) [MemoryBlockRead α] : Prop where
  inner : ∀ ws : Block, Inner (MemoryBlockRead.read ws : R (Block × α))

theorem readWord_inner (ws : Block) : Inner (Block.readWord ws) := by
  cases ws
  · exact .fail rfl
  · exact .ok _

instance : InnerRead UInt32 := ⟨readWord_inner⟩
instance : InnerRead OpId := ⟨fun ws => .bind (readWord_inner ws) fun _ => .pure _⟩
instance : InnerRead ResultId := ⟨fun ws => .bind (readWord_inner ws) fun _ => .pure _⟩
instance : InnerRead SourceVersion := ⟨fun ws => .bind (readWord_inner ws) fun _ => .pure _⟩
instance : InnerRead MemberIndex := ⟨fun ws => .bind (readWord_inner ws) fun _ => .pure _⟩
instance : InnerRead FunctionControl := ⟨fun ws => .bind (readWord_inner ws) fun _ => .pure _⟩
instance : InnerRead MemoryAccess :=
  ⟨fun ws => .bind (readWord_inner ws) fun _ => .ite (.fail rfl) (.pure _)⟩
instance : InnerRead FpFastMathMode :=
  ⟨fun ws => .bind (readWord_inner ws) fun _ => .ite (.fail rfl) (.pure _)⟩
instance : InnerRead SelectionControl :=
  ⟨fun ws => .bind (readWord_inner ws) fun _ => .ite (.fail rfl) (.pure _)⟩
instance : InnerRead LoopControl :=
  ⟨fun ws => .bind (readWord_inner ws) fun _ => .ite (.fail rfl)
    (.ite (.bind (readWord_inner _) fun _ => .pure _) (.pure _))⟩
instance : InnerRead BranchWeights :=
  ⟨fun ws => .bind (readWord_inner ws) fun _ => .bind (readWord_inner _) fun _ => .pure _⟩
instance : InnerRead PhiArg :=
  ⟨fun _ => .bind (InnerRead.inner _) fun _ => .bind (InnerRead.inner _) fun _ => .pure _⟩

theorem readEnum_inner {α : Type} (table : List (UInt32 × α)) {e : UInt32 → ReadError}
    (he : ∀ w, (e w).outer = false) (ws : Block) : Inner (readEnum table e ws) := by
  refine .bind (readWord_inner ws) fun p => ?_
  dsimp only
  split
  · exact .pure _
  · exact .fail (he _)

instance : InnerRead BuiltIn := ⟨readEnum_inner _ fun _ => rfl⟩
instance : InnerRead FunctionParameterAttribute := ⟨readEnum_inner _ fun _ => rfl⟩
instance : InnerRead FpRoundingMode := ⟨readEnum_inner _ fun _ => rfl⟩
instance : InnerRead LinkageType := ⟨readEnum_inner _ fun _ => rfl⟩
instance : InnerRead AddressingModel := ⟨readEnum_inner _ fun _ => rfl⟩
instance : InnerRead MemoryModel := ⟨readEnum_inner _ fun _ => rfl⟩
instance : InnerRead ExecutionModel := ⟨readEnum_inner _ fun _ => rfl⟩
instance : InnerRead Capability := ⟨readEnum_inner _ fun _ => rfl⟩
instance : InnerRead Signedness := ⟨readEnum_inner _ fun _ => rfl⟩
instance : InnerRead StorageClass := ⟨readEnum_inner _ fun _ => rfl⟩
instance : InnerRead Dim := ⟨readEnum_inner _ fun _ => rfl⟩
instance : InnerRead DepthStatus := ⟨readEnum_inner _ fun _ => rfl⟩
instance : InnerRead Arrayed := ⟨readEnum_inner _ fun _ => rfl⟩
instance : InnerRead MS := ⟨readEnum_inner _ fun _ => rfl⟩
instance : InnerRead SampledStatus := ⟨readEnum_inner _ fun _ => rfl⟩
instance : InnerRead ImageFormat := ⟨readEnum_inner _ fun _ => rfl⟩
instance : InnerRead AccessQualifier := ⟨readEnum_inner _ fun _ => rfl⟩

instance : InnerRead SourceLanguage := by
  refine ⟨fun ws => .bind (readWord_inner ws) fun p => ?_⟩
  dsimp only
  split <;> exact .pure _

theorem readStringLoop_inner (ws : Block) : ∀ acc, Inner (readStringLoop ws acc) := by
  induction ws with
  | nil => intro acc; exact .fail rfl
  | cons w ws ih =>
    intro acc
    simp only [readStringLoop]
    split
    · exact .ok _
    · exact ih _

instance : InnerRead String := by
  refine ⟨fun ws => .bind (readStringLoop_inner ws _) fun p => ?_⟩
  dsimp only
  split
  · exact .ok _
  · exact .fail rfl

instance {α : Type} [MemoryBlockRead α] [InnerRead α] : InnerRead (Option α) := by
  refine ⟨fun ws => ?_⟩
  simp only [MemoryBlockRead.read]
  exact .ite (.bind (InnerRead.inner _) fun _ => .pure _) (.ok _)

theorem readVecLoop_inner {α : Type} [MemoryBlockRead α] [InnerRead α] :
    ∀ (fuel : Nat) (ws : Block) (acc : List α), Inner (readVecLoop fuel ws acc) := by
  intro fuel
  induction fuel with
  | zero => intro ws acc e h; cases h
  | succ fuel ih =>
    intro ws acc
    exact .ite (.bind (InnerRead.inner _) fun _ => ih _ _) (.ok _)

instance {α : Type} [MemoryBlockRead α] [RustSize α] [InnerRead α] : InnerRead (List α) := by
  refine ⟨fun ws => ?_⟩
  simp only [MemoryBlockRead.read]
  refine .ite ?_ (readVecLoop_inner _ _ _)
  intro e h
  cases h

structure HandlerInner {α : Type} (p : UInt32 × (Block → R (Block × α))) : Prop where
  inner : ∀ ws, Inner (p.2 ws)

theorem readHandler_inner {α : Type} {table : List (UInt32 × (Block → R (Block × α)))}
    {e : UInt32 → ReadError} (he : ∀ w, (e w).outer = false) (ht : ∀ p ∈ table, HandlerInner p)
    (ws : Block) : Inner (readHandler table e ws) := by
  refine .bind (readWord_inner ws) fun p => ?_
  dsimp only
  split
  · rename_i f hf
    exact (ht _ (mem_of_lookup hf)).inner _
  · exact .fail (he _)

theorem HandlerInner.unit {α : Type} (k : UInt32) (a : α) : HandlerInner (k, readUnit a) :=
  ⟨fun _ => .ok _⟩
theorem HandlerInner.one {α β : Type} [MemoryBlockRead β] [InnerRead β] (k : UInt32) (f : β → α) :
    HandlerInner (k, read1 f) := ⟨fun _ => .bind (InnerRead.inner _) fun _ => .pure _⟩
theorem HandlerInner.two {α β γ : Type} [MemoryBlockRead β] [InnerRead β] [MemoryBlockRead γ]
    [InnerRead γ] (k : UInt32) (f : β → γ → α) : HandlerInner (k, read2 f) :=
  ⟨fun _ => .bind (InnerRead.inner _) fun _ => .bind (InnerRead.inner _) fun _ => .pure _⟩
theorem HandlerInner.three {α β γ δ : Type} [MemoryBlockRead β] [InnerRead β] [MemoryBlockRead γ]
    [InnerRead γ] [MemoryBlockRead δ] [InnerRead δ] (k : UInt32) (f : β → γ → δ → α) :
    HandlerInner (k, read3 f) :=
  ⟨fun _ => .bind (InnerRead.inner _) fun _ => .bind (InnerRead.inner _) fun _ =>
    .bind (InnerRead.inner _) fun _ => .pure _⟩

macro "handlers_inner" : tactic => `(tactic| (
  repeat' (first
    | exact fun _ h => absurd h List.not_mem_nil
    | refine List.forall_mem_cons.mpr ⟨HandlerInner.unit _ _, ?_⟩
    | refine List.forall_mem_cons.mpr ⟨HandlerInner.one _ _, ?_⟩
    | refine List.forall_mem_cons.mpr ⟨HandlerInner.two _ _, ?_⟩
    | refine List.forall_mem_cons.mpr ⟨HandlerInner.three _ _, ?_⟩)))

instance : InnerRead ExecutionMode := by
  refine ⟨readHandler_inner (fun _ => rfl) ?_⟩
  unfold executionModeHandlers
  handlers_inner

instance : InnerRead Decoration := by
  refine ⟨readHandler_inner (fun _ => rfl) ?_⟩
  unfold decorationHandlers
  handlers_inner

class OpInner {α : Type} (read : Block → R (Block × α)) : Prop where
  inner : ∀ ws, Inner (read ws)

macro "op_inner" r:ident : tactic => `(tactic| (
  refine ⟨fun ws => ?_⟩
  unfold $r:ident
  repeat (refine Inner.bind (InnerRead.inner _) fun _ => ?_)
  exact .pure _))

instance : OpInner OpNop.read := by op_inner OpNop.read
instance : OpInner OpUndef.read := by op_inner OpUndef.read
instance : OpInner OpSourceContinued.read := by op_inner OpSourceContinued.read
instance : OpInner OpSource.read := by op_inner OpSource.read
instance : OpInner OpSourceExtension.read := by op_inner OpSourceExtension.read
instance : OpInner OpName.read := by op_inner OpName.read
instance : OpInner OpMemberName.read := by op_inner OpMemberName.read
instance : OpInner OpString.read := by op_inner OpString.read
instance : OpInner OpDecorate.read := by op_inner OpDecorate.read
instance : OpInner OpMemberDecorate.read := by op_inner OpMemberDecorate.read
instance : OpInner OpExtension.read := by op_inner OpExtension.read
instance : OpInner OpMemoryModel.read := by op_inner OpMemoryModel.read
instance : OpInner OpEntryPoint.read := by op_inner OpEntryPoint.read
instance : OpInner OpExecutionMode.read := by op_inner OpExecutionMode.read
instance : OpInner OpCapability.read := by op_inner OpCapability.read
instance : OpInner OpTypeVoid.read := by op_inner OpTypeVoid.read
instance : OpInner OpTypeBool.read := by op_inner OpTypeBool.read
instance : OpInner OpTypeInt.read := by op_inner OpTypeInt.read
instance : OpInner OpTypeFloat.read := by op_inner OpTypeFloat.read
instance : OpInner OpTypeVector.read := by op_inner OpTypeVector.read
instance : OpInner OpTypeMatrix.read := by op_inner OpTypeMatrix.read
instance : OpInner OpTypeImage.read := by op_inner OpTypeImage.read
instance : OpInner OpTypeSampler.read := by op_inner OpTypeSampler.read
instance : OpInner OpTypeSampledImage.read := by op_inner OpTypeSampledImage.read
instance : OpInner OpTypeArray.read := by op_inner OpTypeArray.read
instance : OpInner OpTypeRuntimeArray.read := by op_inner OpTypeRuntimeArray.read
instance : OpInner OpTypeStruct.read := by op_inner OpTypeStruct.read
instance : OpInner OpTypeOpaque.read := by op_inner OpTypeOpaque.read
instance : OpInner OpTypePointer.read := by op_inner OpTypePointer.read
instance : OpInner OpTypeFunction.read := by op_inner OpTypeFunction.read
instance : OpInner OpConstant.read := by op_inner OpConstant.read
instance : OpInner OpConstantComposite.read := by op_inner OpConstantComposite.read
instance : OpInner OpFunction.read := by op_inner OpFunction.read
instance : OpInner OpFunctionParameter.read := by op_inner OpFunctionParameter.read
instance : OpInner OpFunctionEnd.read := by op_inner OpFunctionEnd.read
instance : OpInner OpVariable.read := by op_inner OpVariable.read
instance : OpInner OpLoad.read := by op_inner OpLoad.read
instance : OpInner OpStore.read := by op_inner OpStore.read
instance : OpInner OpAccessChain.read := by op_inner OpAccessChain.read
instance : OpInner OpConvertUToF.read := by op_inner OpConvertUToF.read
instance : OpInner OpPhi.read := by op_inner OpPhi.read
instance : OpInner OpLoopMerge.read := by op_inner OpLoopMerge.read
instance : OpInner OpSelectionMerge.read := by op_inner OpSelectionMerge.read
instance : OpInner OpLabel.read := by op_inner OpLabel.read
instance : OpInner OpBranch.read := by op_inner OpBranch.read
instance : OpInner OpBranchConditional.read := by op_inner OpBranchConditional.read
instance : OpInner OpReturn.read := by op_inner OpReturn.read
instance : OpInner OpBitcast.read := by op_inner OpBitcast.read
instance : OpInner OpIAdd.read := by op_inner OpIAdd.read
instance : OpInner OpFAdd.read := by op_inner OpFAdd.read
instance : OpInner OpISub.read := by op_inner OpISub.read
instance : OpInner OpFSub.read := by op_inner OpFSub.read
instance : OpInner OpIMul.read := by op_inner OpIMul.read
instance : OpInner OpFMul.read := by op_inner OpFMul.read
instance : OpInner OpUDiv.read := by op_inner OpUDiv.read
instance : OpInner OpSDiv.read := by op_inner OpSDiv.read
instance : OpInner OpFDiv.read := by op_inner OpFDiv.read
instance : OpInner OpUMod.read := by op_inner OpUMod.read
instance : OpInner OpSRem.read := by op_inner OpSRem.read
instance : OpInner OpSMod.read := by op_inner OpSMod.read
instance : OpInner OpFRem.read := by op_inner OpFRem.read
instance : OpInner OpFMod.read := by op_inner OpFMod.read
instance : OpInner OpIAddCarry.read := by op_inner OpIAddCarry.read
instance : OpInner OpISubBorrow.read := by op_inner OpISubBorrow.read
instance : OpInner OpUMulExtended.read := by op_inner OpUMulExtended.read
instance : OpInner OpSMulExtended.read := by op_inner OpSMulExtended.read
instance : OpInner OpBitwiseOr.read := by op_inner OpBitwiseOr.read
instance : OpInner OpBitwiseXor.read := by op_inner OpBitwiseXor.read
instance : OpInner OpBitwiseAnd.read := by op_inner OpBitwiseAnd.read
instance : OpInner OpIEqual.read := by op_inner OpIEqual.read
instance : OpInner OpINotEqual.read := by op_inner OpINotEqual.read
instance : OpInner OpUGreaterThan.read := by op_inner OpUGreaterThan.read
instance : OpInner OpSGreaterThan.read := by op_inner OpSGreaterThan.read
instance : OpInner OpUGreaterThanEqual.read := by op_inner OpUGreaterThanEqual.read
instance : OpInner OpSGreaterThanEqual.read := by op_inner OpSGreaterThanEqual.read
instance : OpInner OpULessThan.read := by op_inner OpULessThan.read
instance : OpInner OpSLessThan.read := by op_inner OpSLessThan.read
instance : OpInner OpULessThanEqual.read := by op_inner OpULessThanEqual.read
instance : OpInner OpSLessThanEqual.read := by op_inner OpSLessThanEqual.read
instance : OpInner OpFOrdEqual.read := by op_inner OpFOrdEqual.read
instance : OpInner OpFUnordEqual.read := by op_inner OpFUnordEqual.read
instance : OpInner OpFOrdNotEqual.read := by op_inner OpFOrdNotEqual.read
instance : OpInner OpFUnordNotEqual.read := by op_inner OpFUnordNotEqual.read
instance : OpInner OpFOrdLessThan.read := by op_inner OpFOrdLessThan.read
instance : OpInner OpFUnordLessThan.read := by op_inner OpFUnordLessThan.read
instance : OpInner OpFOrdGreaterThan.read := by op_inner OpFOrdGreaterThan.read
instance : OpInner OpFUnordGreaterThan.read := by op_inner OpFUnordGreaterThan.read
instance : OpInner OpFOrdLessThanEqual.read := by op_inner OpFOrdLessThanEqual.read
instance : OpInner OpFUnordLessThanEqual.read := by op_inner OpFUnordLessThanEqual.read
instance : OpInner OpFOrdGreaterThanEqual.read := by op_inner OpFOrdGreaterThanEqual.read
instance : OpInner OpFUnordGreaterThanEqual.read := by op_inner OpFUnordGreaterThanEqual.read

/-- The entry gives no outer errors if the bound sets do not. -/
def EntryInner {X : Type} (p : Nat × OpEntry X) : Prop :=
  ∀ f, p.2 = .read f → ∀ ws known (bound : BoundSets X),
    (∀ b ∈ bound, ∀ n ws, Inner (b.2.readInstruction n ws)) → Inner (f ws known bound)

theorem EntryInner.lift {X α : Type} {k : Nat} {read : Block → R (Block × α)} {mk : α → Core X}
    [OpInner read] : EntryInner (k, .read (liftOp read mk)) := by
  rintro f hf ws known bound hb
  cases hf
  exact .bind (OpInner.inner _) fun _ => .pure _

theorem EntryInner.unimplemented {X : Type} {k : Nat} {n : String} :
    EntryInner (X := X) (k, .unimplemented n) := by
  rintro f hf
  cases hf

theorem EntryInner.extInst {X : Type} : EntryInner (X := X) (12, .read OpExtInst.readCore) := by
  rintro f hf ws known bound hb
  cases hf
  unfold OpExtInst.readCore
  refine .bind (InnerRead.inner _) fun _ => .bind (InnerRead.inner _) fun _ =>
    .bind (InnerRead.inner _) fun _ => .bind (InnerRead.inner _) fun _ => ?_
  dsimp only
  split
  · rename_i s hs
    exact .bind (hb _ (mem_of_lookup hs) _ _) fun _ => .pure _
  · exact .fail rfl

theorem EntryInner.import {X : Type} :
    EntryInner (X := X) (11, .read OpExtInstImport.readCore) := by
  rintro f hf ws known bound hb
  cases hf
  unfold OpExtInstImport.readCore
  refine .bind (InnerRead.inner _) fun _ => .bind (InnerRead.inner _) fun _ => ?_
  dsimp only
  split
  · split
    · exact .fail rfl
    · exact .pure _
  · exact .fail rfl

theorem opTable_inner (X : Type) : ∀ p ∈ opTable X, EntryInner p := by
  unfold opTable
  repeat' (first
    | exact fun _ h => absurd h List.not_mem_nil
    | refine List.forall_mem_cons.mpr ⟨EntryInner.unimplemented, ?_⟩
    | refine List.forall_mem_cons.mpr ⟨EntryInner.lift, ?_⟩
    | refine List.forall_mem_cons.mpr ⟨EntryInner.import, ?_⟩
    | refine List.forall_mem_cons.mpr ⟨EntryInner.extInst, ?_⟩)

end Magma
