import Verif.Proofs.Trunc
import Verif.Proofs.Decode
/-! Lemmas: what the instruction readers do when words are missing. -/

namespace Magma
open Spec

class OpTrunc {α : Type} (read : Block → R (Block × α)) : Prop where
  trunc : Trunc read

macro "op_trunc" r:ident : tactic => `(tactic| (
  refine ⟨?_⟩
  unfold $r:ident
  repeat' (first
    | exact Trunc.pure _
    | exact Local.pure _
    | refine Trunc.bind TruncRead.trunc Lawful.local (fun _ => ?_) (fun _ => ?_)
    | refine Local.bind Lawful.local (fun _ => ?_))))

instance : OpTrunc OpNop.read := by op_trunc OpNop.read
instance : OpTrunc OpUndef.read := by op_trunc OpUndef.read
instance : OpTrunc OpSourceContinued.read := by op_trunc OpSourceContinued.read
instance : OpTrunc OpSource.read := by op_trunc OpSource.read
instance : OpTrunc OpSourceExtension.read := by op_trunc OpSourceExtension.read
instance : OpTrunc OpName.read := by op_trunc OpName.read
instance : OpTrunc OpMemberName.read := by op_trunc OpMemberName.read
instance : OpTrunc OpString.read := by op_trunc OpString.read
instance : OpTrunc OpDecorate.read := by op_trunc OpDecorate.read
instance : OpTrunc OpMemberDecorate.read := by op_trunc OpMemberDecorate.read
instance : OpTrunc OpExtension.read := by op_trunc OpExtension.read
instance : OpTrunc OpMemoryModel.read := by op_trunc OpMemoryModel.read
instance : OpTrunc OpEntryPoint.read := by op_trunc OpEntryPoint.read
instance : OpTrunc OpExecutionMode.read := by op_trunc OpExecutionMode.read
instance : OpTrunc OpCapability.read := by op_trunc OpCapability.read
instance : OpTrunc OpTypeVoid.read := by op_trunc OpTypeVoid.read
instance : OpTrunc OpTypeBool.read := by op_trunc OpTypeBool.read
instance : OpTrunc OpTypeInt.read := by op_trunc OpTypeInt.read
instance : OpTrunc OpTypeFloat.read := by op_trunc OpTypeFloat.read
instance : OpTrunc OpTypeVector.read := by op_trunc OpTypeVector.read
instance : OpTrunc OpTypeMatrix.read := by op_trunc OpTypeMatrix.read
instance : OpTrunc OpTypeImage.read := by op_trunc OpTypeImage.read
instance : OpTrunc OpTypeSampler.read := by op_trunc OpTypeSampler.read
instance : OpTrunc OpTypeSampledImage.read := by op_trunc OpTypeSampledImage.read
instance : OpTrunc OpTypeArray.read := by op_trunc OpTypeArray.read
instance : OpTrunc OpTypeRuntimeArray.read := by op_trunc OpTypeRuntimeArray.read
instance : OpTrunc OpTypeStruct.read := by op_trunc OpTypeStruct.read
instance : OpTrunc OpTypeOpaque.read := by op_trunc OpTypeOpaque.read
instance : OpTrunc OpTypePointer.read := by op_trunc OpTypePointer.read
instance : OpTrunc OpTypeFunction.read := by op_trunc OpTypeFunction.read
instance : OpTrunc OpConstant.read := by op_trunc OpConstant.read
instance : OpTrunc OpConstantComposite.read := by op_trunc OpConstantComposite.read
instance : OpTrunc OpFunction.read := by op_trunc OpFunction.read
instance : OpTrunc OpFunctionParameter.read := by op_trunc OpFunctionParameter.read
instance : OpTrunc OpFunctionEnd.read := by op_trunc OpFunctionEnd.read
instance : OpTrunc OpVariable.read := by op_trunc OpVariable.read
instance : OpTrunc OpLoad.read := by op_trunc OpLoad.read
instance : OpTrunc OpStore.read := by op_trunc OpStore.read
instance : OpTrunc OpAccessChain.read := by op_trunc OpAccessChain.read
instance : OpTrunc OpConvertUToF.read := by op_trunc OpConvertUToF.read
instance : OpTrunc OpPhi.read := by op_trunc OpPhi.read
instance : OpTrunc OpLoopMerge.read := by op_trunc OpLoopMerge.read
instance : OpTrunc OpSelectionMerge.read := by op_trunc OpSelectionMerge.read
instance : OpTrunc OpLabel.read := by op_trunc OpLabel.read
instance : OpTrunc OpBranch.read := by op_trunc OpBranch.read
instance : OpTrunc OpBranchConditional.read := by op_trunc OpBranchConditional.read
instance : OpTrunc OpReturn.read := by op_trunc OpReturn.read
instance : OpTrunc OpBitcast.read := by op_trunc OpBitcast.read
instance : OpTrunc OpIAdd.read := by op_trunc OpIAdd.read
instance : OpTrunc OpFAdd.read := by op_trunc OpFAdd.read
instance : OpTrunc OpISub.read := by op_trunc OpISub.read
instance : OpTrunc OpFSub.read := by op_trunc OpFSub.read
instance : OpTrunc OpIMul.read := by op_trunc OpIMul.read
instance : OpTrunc OpFMul.read := by op_trunc OpFMul.read
instance : OpTrunc OpUDiv.read := by op_trunc OpUDiv.read
instance : OpTrunc OpSDiv.read := by op_trunc OpSDiv.read
instance : OpTrunc OpFDiv.read := by op_trunc OpFDiv.read
instance : OpTrunc OpUMod.read := by op_trunc OpUMod.read
instance : OpTrunc OpSRem.read := by op_trunc OpSRem.read
instance : OpTrunc OpSMod.read := by op_trunc OpSMod.read
instance : OpTrunc OpFRem.read := by op_trunc OpFRem.read
instance : OpTrunc OpFMod.read := by op_trunc OpFMod.read
instance : OpTrunc OpIAddCarry.read := by op_trunc OpIAddCarry.read
instance : OpTrunc OpISubBorrow.read := by op_trunc OpISubBorrow.read
instance : OpTrunc OpUMulExtended.read := by op_trunc OpUMulExtended.read
instance : OpTrunc OpSMulExtended.read := by op_trunc OpSMulExtended.read
instance : OpTrunc OpBitwiseOr.read := by op_trunc OpBitwiseOr.read
instance : OpTrunc OpBitwiseXor.read := by op_trunc OpBitwiseXor.read
instance : OpTrunc OpBitwiseAnd.read := by op_trunc OpBitwiseAnd.read
instance : OpTrunc OpIEqual.read := by op_trunc OpIEqual.read
instance : OpTrunc OpINotEqual.read := by op_trunc OpINotEqual.read
instance : OpTrunc OpUGreaterThan.read := by op_trunc OpUGreaterThan.read
instance : OpTrunc OpSGreaterThan.read := by op_trunc OpSGreaterThan.read
instance : OpTrunc OpUGreaterThanEqual.read := by op_trunc OpUGreaterThanEqual.read
instance : OpTrunc OpSGreaterThanEqual.read := by op_trunc OpSGreaterThanEqual.read
instance : OpTrunc OpULessThan.read := by op_trunc OpULessThan.read
instance : OpTrunc OpSLessThan.read := by op_trunc OpSLessThan.read
instance : OpTrunc OpULessThanEqual.read := by op_trunc OpULessThanEqual.read
instance : OpTrunc OpSLessThanEqual.read := by op_trunc OpSLessThanEqual.read
instance : OpTrunc OpFOrdEqual.read := by op_trunc OpFOrdEqual.read
instance : OpTrunc OpFUnordEqual.read := by op_trunc OpFUnordEqual.read
instance : OpTrunc OpFOrdNotEqual.read := by op_trunc OpFOrdNotEqual.read
instance : OpTrunc OpFUnordNotEqual.read := by op_trunc OpFUnordNotEqual.read
instance : OpTrunc OpFOrdLessThan.read := by op_trunc OpFOrdLessThan.read
instance : OpTrunc OpFUnordLessThan.read := by op_trunc OpFUnordLessThan.read
instance : OpTrunc OpFOrdGreaterThan.read := by op_trunc OpFOrdGreaterThan.read
instance : OpTrunc OpFUnordGreaterThan.read := by op_trunc OpFUnordGreaterThan.read
instance : OpTrunc OpFOrdLessThanEqual.read := by op_trunc OpFOrdLessThanEqual.read
instance : OpTrunc OpFUnordLessThanEqual.read := by op_trunc OpFUnordLessThanEqual.read
instance : OpTrunc OpFOrdGreaterThanEqual.read := by op_trunc OpFOrdGreaterThanEqual.read
instance : OpTrunc OpFUnordGreaterThanEqual.read := by op_trunc OpFUnordGreaterThanEqual.read

/-- Given only a prefix of the words it would take, the entry fails with
`UnexpectedEndOfInstruction` or takes all of the words. -/
def EntryTrunc {X : Type} (p : Nat × OpEntry X) : Prop :=
  ∀ f, p.2 = .read f → p.1 ≠ 12 → ∀ known bound u rest inst bound',
    f (u ++ rest) known bound = .ok ((rest, inst), bound') → ∀ q, q <+: u →
    f q known bound = fail .UnexpectedEndOfInstruction ∨
      ∃ inst' b', f q known bound = .ok (([], inst'), b')

theorem EntryTrunc.lift {X α : Type} {k : Nat} {read : Block → R (Block × α)} {mk : α → Core X}
    [OpTrunc read] : EntryTrunc (k, .read (liftOp read mk)) := by
  rintro f hf - known bound u rest inst bound' h q hq
  cases hf
  obtain ⟨a, h1, rfl, rfl⟩ := liftOp_ok.mp h
  rcases OpTrunc.trunc.pre _ _ _ h1 q hq with h | ⟨a', h⟩
  · left; simp only [liftOp, h]; rfl
  · right; exact ⟨mk a', _, liftOp_ok.mpr ⟨a', h, rfl, rfl⟩⟩

theorem EntryTrunc.unimplemented {X : Type} {k : Nat} {n : String} :
    EntryTrunc (X := X) (k, .unimplemented n) := by
  rintro f hf
  cases hf

theorem EntryTrunc.extInst {X : Type} : EntryTrunc (X := X) (12, .read OpExtInst.readCore) := by
  intro f _ h
  exact absurd rfl h

/-- The words of an import -/
def readImport (block : Block) : R (Block × OpExtInstImport) := do
  let (block, result_id) ← (MemoryBlockRead.read block : R (Block × ResultId))
  let (block, name) ← (MemoryBlockRead.read block : R (Block × String))
  pure (block, { result_id := result_id, name := name })

/-- What is done with an import -/
def bindImport {X : Type} (known : List (ExtInstSet X)) (bound : BoundSets X) (block : Block)
    (op : OpExtInstImport) : R ((Block × Core X) × BoundSets X) :=
  match known.find? (fun s => s.name == op.name) with
  | some s =>
    match bound.insert ⟨op.result_id.val⟩ s with
    | (_, some _) => fail (.DuplicateResultId op.result_id)
    | (bound, none) => return ((block, .OpExtInstImport op), bound)
  | none => fail (.UnknownInstSet op.name)

theorem readImport_eq {X : Type} (block : Block) (known : List (ExtInstSet X)) (bound : BoundSets X) :
    OpExtInstImport.readCore block known bound =
      (readImport block >>= fun p => bindImport known bound p.1 p.2) := by
  simp only [OpExtInstImport.readCore, readImport, bind_assoc, pure_bind]
  rfl

instance : OpTrunc readImport := by op_trunc readImport

theorem readImport_law (X : Type) :
    OpLaw readImport (fun op => operands (.OpExtInstImport op : Core X)) := by
  op_law readImport OpExtInstImport.mk.injEq

theorem EntryTrunc.import {X : Type} :
    EntryTrunc (X := X) (11, .read OpExtInstImport.readCore) := by
  rintro f hf - known bound u rest inst bound' h q hq
  cases hf
  simp only [readImport_eq] at h ⊢
  simp only [bind_ok, Prod.exists] at h
  obtain ⟨mid, op, h1, h2⟩ := h
  have hm : mid = rest := by
    simp only [bindImport] at h2
    split at h2
    · split at h2
      · cases h2
      · cases h2; rfl
    · cases h2
  subst hm
  have hl : Local readImport := by
    unfold readImport
    exact .bind Lawful.local fun _ => .bind Lawful.local fun _ => .pure _
  by_cases hqu : q = u
  · subst hqu
    have h3 := hl.pre _ _ _ h1 [] List.nil_prefix
    rw [List.append_nil] at h3
    right
    rw [h3]
    simp only [bindImport] at h2
    split at h2
    · rename_i s hs
      split at h2
      · cases h2
      · rename_i b hb
        simp only [bindImport, hs, hb, bind, Except.bind]
        exact ⟨_, _, rfl⟩
    · cases h2
  · left
    rcases OpTrunc.trunc.pre _ _ _ h1 q hq with h | ⟨a', h⟩
    · rw [h]; rfl
    · exfalso
      have law := readImport_law X
      obtain ⟨v, rfl⟩ := hq
      have h5 : Reads (operands (.OpExtInstImport a' : Core X)) (q ++ []) [] := by
        rw [List.append_nil]; exact (law.iff _ _ _).mp h
      have h6 := Reads_local (v ++ mid) h5 (by simp [operands, enc])
      rw [← List.append_assoc] at h6
      have h7 := (law.iff _ _ _).mpr h6
      rw [h1] at h7
      simp only [ok_ok, Prod.mk.injEq] at h7
      have : v = [] := by simpa using h7.1.symm
      exact hqu (by simp [this])

theorem opTable_trunc (X : Type) : ∀ p ∈ opTable X, EntryTrunc p := by
  unfold opTable
  repeat' (first
    | exact fun _ h => absurd h List.not_mem_nil
    | refine List.forall_mem_cons.mpr ⟨EntryTrunc.unimplemented, ?_⟩
    | refine List.forall_mem_cons.mpr ⟨EntryTrunc.lift, ?_⟩
    | refine List.forall_mem_cons.mpr ⟨EntryTrunc.import, ?_⟩
    | refine List.forall_mem_cons.mpr ⟨EntryTrunc.extInst, ?_⟩)

end Magma
