import Verif.Proofs.ReadsOps
/-! Lemmas: the opcode table and the decoding of one instruction. -/

namespace Magma
open Spec

/-- What the reader of the instruction does with the operand words and the map of sets. -/
def OpsRel {X : Type} (known : List (ExtInstSet X)) (bound : BoundSets X) (inst : Core X)
    (ws rest : List UInt32) (bound' : BoundSets X) : Prop :=
  match inst with
  | .OpExtInstImport op =>
    Reads (operands (.OpExtInstImport op : Core X)) ws rest ∧ ∃ s, setNamed known op.name = some s ∧
      bound.lookup op.result_id.val = none ∧ bound' = (op.result_id.val, s) :: bound
  | .OpExtInst op => ∃ number args s,
    Reads (operands (.OpExtInst op)) ws (number :: args) ∧
      bound.lookup op.set.val = some s ∧ s.readInstruction number args = .ok (rest, op.instruction) ∧
      bound' = bound
  | inst => Reads (operands inst) ws rest ∧ bound' = bound

/-- The opcode of the entry determines the instruction that comes out. -/
structure EntrySound {X : Type} (k : Nat) (f : CoreReader X) : Prop where
  sound : ∀ known bound ws rest inst bound', f ws known bound = .ok ((rest, inst), bound') →
    opcode inst = k ∧ supported inst = true ∧ OpsRel known bound inst ws rest bound'
  safe : ∀ known bound ws, (∀ p ∈ bound, ∀ n ws, Safe ((p : UInt32 × ExtInstSet X).2.readInstruction n ws)) →
    Safe (f ws known bound)

theorem liftOp_ok {X α : Type} {read : Block → R (Block × α)} {mk : α → Core X}
    {ws rest : List UInt32} {known : List (ExtInstSet X)} {bound bound' : BoundSets X}
    {inst : Core X} :
    liftOp read mk ws known bound = .ok ((rest, inst), bound') ↔
      ∃ a, read ws = .ok (rest, a) ∧ inst = mk a ∧ bound' = bound := by
  simp only [liftOp, bind_ok, Prod.exists, pure_ok, Prod.mk.injEq]
  constructor
  · rintro ⟨r, a, h, ⟨rfl, rfl⟩, rfl⟩
    exact ⟨a, h, rfl, rfl⟩
  · rintro ⟨a, h, rfl, rfl⟩
    exact ⟨rest, a, h, ⟨rfl, rfl⟩, rfl⟩

theorem liftOp_sound {X α : Type} {k : Nat} {read : Block → R (Block × α)} {mk : α → Core X}
    (hl : OpLaw read (fun a => operands (mk a))) (hk : ∀ a, opcode (mk a) = k)
    (hs : ∀ a, supported (mk a) = true)
    (hr : ∀ a known (bound : BoundSets X) ws rest bound', Reads (operands (mk a)) ws rest →
      bound' = bound → OpsRel known bound (mk a) ws rest bound') :
    EntrySound k (liftOp read mk) := by
  refine ⟨?_, fun known bound ws _ => Safe.bind (hl.safe ws) fun _ _ => .pure _⟩
  intro known bound ws rest inst bound' h
  obtain ⟨a, h1, rfl, rfl⟩ := liftOp_ok.mp h
  exact ⟨hk a, hs a, hr _ _ _ _ _ _ ((hl.iff _ _ _).mp h1) rfl⟩

theorem extInstImport_ok {X : Type} {ws rest : List UInt32} {known : List (ExtInstSet X)}
    {bound bound' : BoundSets X} {inst : Core X} :
    OpExtInstImport.readCore ws known bound = .ok ((rest, inst), bound') ↔
      ∃ op s, inst = .OpExtInstImport op ∧
        Reads (operands (.OpExtInstImport op : Core X)) ws rest ∧ setNamed known op.name = some s ∧
      bound.lookup op.result_id.val = none ∧ bound' = (op.result_id.val, s) :: bound := by
  simp only [OpExtInstImport.readCore, bind_ok, Prod.exists, Lawful.iff]
  constructor
  · rintro ⟨r1, id, h1, r2, name, h2, h⟩
    split at h
    · rename_i s hs
      simp only [BoundSets.insert, BoundSets.get] at h
      split at h
      · simp at h
      · rename_i hb
        simp only [Prod.mk.injEq] at hb
        simp only [pure_ok, Prod.mk.injEq] at h
        obtain ⟨⟨rfl, rfl⟩, rfl⟩ := h
        exact ⟨_, s, rfl, by simp only [operands, Reads_append]; exact ⟨r1, h1, h2⟩, hs, hb.2,
          hb.1.symm⟩
    · simp at h
  · rintro ⟨op, s, rfl, h, hs, hb, rfl⟩
    simp only [operands, Reads_append] at h
    obtain ⟨r1, h1, h2⟩ := h
    refine ⟨r1, op.result_id, h1, rest, op.name, h2, ?_⟩
    simp only [setNamed] at hs
    rw [hs]
    simp only [BoundSets.insert, BoundSets.get, hb]
    rfl

theorem extInst_ok {X : Type} {ws rest : List UInt32} {known : List (ExtInstSet X)}
    {bound bound' : BoundSets X} {inst : Core X} :
    OpExtInst.readCore ws known bound = .ok ((rest, inst), bound') ↔
      ∃ op number args s, inst = .OpExtInst op ∧
        Reads (operands (.OpExtInst op)) ws (number :: args) ∧
      bound.lookup op.set.val = some s ∧ s.readInstruction number args = .ok (rest, op.instruction) ∧
      bound' = bound := by
  simp only [OpExtInst.readCore, bind_ok, Prod.exists, Lawful.iff]
  constructor
  · rintro ⟨r1, rt, h1, r2, id, h2, r3, set, h3, r4, n, h4, h⟩
    simp only [enc, Reads] at h4
    obtain ⟨r5, rfl, rfl⟩ := h4
    split at h
    · rename_i s hs
      simp only [bind_ok, Prod.exists, pure_ok, Prod.mk.injEq] at h
      obtain ⟨r6, x, hx, ⟨rfl, rfl⟩, rfl⟩ := h
      exact ⟨_, n, r5, s, rfl,
        by simp only [operands, Reads_append]; exact ⟨r2, ⟨r1, h1, h2⟩, h3⟩, hs, hx, rfl⟩
    · simp at h
  · rintro ⟨op, n, args, s, rfl, h, hb, hx, rfl⟩
    simp only [operands, Reads_append] at h
    obtain ⟨r2, ⟨r1, h1, h2⟩, h3⟩ := h
    refine ⟨r1, op.result_type, h1, r2, op.result_id, h2, _, op.set, h3, args, n, ⟨_, rfl, rfl⟩, ?_⟩
    simp only [BoundSets.get, hb, bind_ok, Prod.exists, pure_ok, Prod.mk.injEq]
    exact ⟨rest, op.instruction, hx, by simp⟩

theorem extInstImport_sound {X : Type} : EntrySound 11 (OpExtInstImport.readCore (X := X)) := by
  refine ⟨?_, ?_⟩
  · intro known bound ws rest inst bound' h
    obtain ⟨op, s, rfl, h1, hs, hb, rfl⟩ := extInstImport_ok.mp h
    exact ⟨rfl, rfl, h1, s, hs, hb, rfl⟩
  · intro known bound ws _
    refine Safe.bind (Lawful.safe _) fun _ _ => Safe.bind (Lawful.safe _) fun _ _ => ?_
    dsimp only
    split
    · split
      · exact .fail _
      · exact .pure _
    · exact .fail _

theorem extInst_sound {X : Type} : EntrySound 12 (OpExtInst.readCore (X := X)) := by
  refine ⟨?_, ?_⟩
  · intro known bound ws rest inst bound' h
    obtain ⟨op, n, args, s, rfl, h1, hb, hx, rfl⟩ := extInst_ok.mp h
    exact ⟨rfl, rfl, n, args, s, h1, hb, hx, rfl⟩
  · intro known bound ws hsafe
    refine Safe.bind (Lawful.safe _) fun _ _ => Safe.bind (Lawful.safe _) fun _ _ =>
      Safe.bind (Lawful.safe _) fun _ _ => Safe.bind (Lawful.safe _) fun _ _ => ?_
    dsimp only
    split
    · rename_i s hs
      exact Safe.bind (hsafe _ (mem_of_lookup hs) _ _) fun _ _ => .pure _
    · exact .fail _

/-- An entry of the table that reads an instruction is sound. -/
def EntryOk {X : Type} (p : Nat × OpEntry X) : Prop :=
  ∀ f, p.2 = .read f → EntrySound p.1 f

theorem EntryOk.read {X : Type} {k : Nat} {f : CoreReader X} (h : EntrySound k f) :
    EntryOk (k, .read f) := by
  rintro f' hf
  cases hf
  exact h

theorem EntryOk.unimplemented {X : Type} {k : Nat} {n : String} :
    EntryOk (X := X) (k, .unimplemented n) := by
  rintro f' hf
  cases hf

theorem opTable_ok (X : Type) : ∀ p ∈ opTable X, EntryOk p := by
  unfold opTable
  refine List.forall_mem_cons.mpr ⟨(.read (liftOp_sound (OpNop_law X) (fun _ => rfl) (fun _ => rfl) (fun _ _ _ _ _ _ h h2 => ⟨h, h2⟩))), ?_⟩
  refine List.forall_mem_cons.mpr ⟨(.read (liftOp_sound (OpUndef_law X) (fun _ => rfl) (fun _ => rfl) (fun _ _ _ _ _ _ h h2 => ⟨h, h2⟩))), ?_⟩
  refine List.forall_mem_cons.mpr ⟨(.read (liftOp_sound (OpSourceContinued_law X) (fun _ => rfl) (fun _ => rfl) (fun _ _ _ _ _ _ h h2 => ⟨h, h2⟩))), ?_⟩
  refine List.forall_mem_cons.mpr ⟨(.read (liftOp_sound (OpSource_law X) (fun _ => rfl) (fun _ => rfl) (fun _ _ _ _ _ _ h h2 => ⟨h, h2⟩))), ?_⟩
  refine List.forall_mem_cons.mpr ⟨(.read (liftOp_sound (OpSourceExtension_law X) (fun _ => rfl) (fun _ => rfl) (fun _ _ _ _ _ _ h h2 => ⟨h, h2⟩))), ?_⟩
  refine List.forall_mem_cons.mpr ⟨(.read (liftOp_sound (OpName_law X) (fun _ => rfl) (fun _ => rfl) (fun _ _ _ _ _ _ h h2 => ⟨h, h2⟩))), ?_⟩
  refine List.forall_mem_cons.mpr ⟨(.read (liftOp_sound (OpMemberName_law X) (fun _ => rfl) (fun _ => rfl) (fun _ _ _ _ _ _ h h2 => ⟨h, h2⟩))), ?_⟩
  refine List.forall_mem_cons.mpr ⟨(.read (liftOp_sound (OpString_law X) (fun _ => rfl) (fun _ => rfl) (fun _ _ _ _ _ _ h h2 => ⟨h, h2⟩))), ?_⟩
  refine List.forall_mem_cons.mpr ⟨.unimplemented, ?_⟩
  refine List.forall_mem_cons.mpr ⟨(.read (liftOp_sound (OpExtension_law X) (fun _ => rfl) (fun _ => rfl) (fun _ _ _ _ _ _ h h2 => ⟨h, h2⟩))), ?_⟩
  refine List.forall_mem_cons.mpr ⟨(.read extInstImport_sound), ?_⟩
  refine List.forall_mem_cons.mpr ⟨(.read extInst_sound), ?_⟩
  refine List.forall_mem_cons.mpr ⟨(.read (liftOp_sound (OpMemoryModel_law X) (fun _ => rfl) (fun _ => rfl) (fun _ _ _ _ _ _ h h2 => ⟨h, h2⟩))), ?_⟩
  refine List.forall_mem_cons.mpr ⟨(.read (liftOp_sound (OpEntryPoint_law X) (fun _ => rfl) (fun _ => rfl) (fun _ _ _ _ _ _ h h2 => ⟨h, h2⟩))), ?_⟩
  refine List.forall_mem_cons.mpr ⟨(.read (liftOp_sound (OpExecutionMode_law X) (fun _ => rfl) (fun _ => rfl) (fun _ _ _ _ _ _ h h2 => ⟨h, h2⟩))), ?_⟩
  refine List.forall_mem_cons.mpr ⟨(.read (liftOp_sound (OpCapability_law X) (fun _ => rfl) (fun _ => rfl) (fun _ _ _ _ _ _ h h2 => ⟨h, h2⟩))), ?_⟩
  refine List.forall_mem_cons.mpr ⟨(.read (liftOp_sound (OpTypeVoid_law X) (fun _ => rfl) (fun _ => rfl) (fun _ _ _ _ _ _ h h2 => ⟨h, h2⟩))), ?_⟩
  refine List.forall_mem_cons.mpr ⟨(.read (liftOp_sound (OpTypeBool_law X) (fun _ => rfl) (fun _ => rfl) (fun _ _ _ _ _ _ h h2 => ⟨h, h2⟩))), ?_⟩
  refine List.forall_mem_cons.mpr ⟨(.read (liftOp_sound (OpTypeInt_law X) (fun _ => rfl) (fun _ => rfl) (fun _ _ _ _ _ _ h h2 => ⟨h, h2⟩))), ?_⟩
  refine List.forall_mem_cons.mpr ⟨(.read (liftOp_sound (OpTypeFloat_law X) (fun _ => rfl) (fun _ => rfl) (fun _ _ _ _ _ _ h h2 => ⟨h, h2⟩))), ?_⟩
  refine List.forall_mem_cons.mpr ⟨(.read (liftOp_sound (OpTypeVector_law X) (fun _ => rfl) (fun _ => rfl) (fun _ _ _ _ _ _ h h2 => ⟨h, h2⟩))), ?_⟩
  refine List.forall_mem_cons.mpr ⟨(.read (liftOp_sound (OpTypeMatrix_law X) (fun _ => rfl) (fun _ => rfl) (fun _ _ _ _ _ _ h h2 => ⟨h, h2⟩))), ?_⟩
  refine List.forall_mem_cons.mpr ⟨(.read (liftOp_sound (OpTypeImage_law X) (fun _ => rfl) (fun _ => rfl) (fun _ _ _ _ _ _ h h2 => ⟨h, h2⟩))), ?_⟩
  refine List.forall_mem_cons.mpr ⟨(.read (liftOp_sound (OpTypeSampler_law X) (fun _ => rfl) (fun _ => rfl) (fun _ _ _ _ _ _ h h2 => ⟨h, h2⟩))), ?_⟩
  refine List.forall_mem_cons.mpr ⟨(.read (liftOp_sound (OpTypeSampledImage_law X) (fun _ => rfl) (fun _ => rfl) (fun _ _ _ _ _ _ h h2 => ⟨h, h2⟩))), ?_⟩
  refine List.forall_mem_cons.mpr ⟨(.read (liftOp_sound (OpTypeArray_law X) (fun _ => rfl) (fun _ => rfl) (fun _ _ _ _ _ _ h h2 => ⟨h, h2⟩))), ?_⟩
  refine List.forall_mem_cons.mpr ⟨(.read (liftOp_sound (OpTypeRuntimeArray_law X) (fun _ => rfl) (fun _ => rfl) (fun _ _ _ _ _ _ h h2 => ⟨h, h2⟩))), ?_⟩
  refine List.forall_mem_cons.mpr ⟨(.read (liftOp_sound (OpTypeStruct_law X) (fun _ => rfl) (fun _ => rfl) (fun _ _ _ _ _ _ h h2 => ⟨h, h2⟩))), ?_⟩
  refine List.forall_mem_cons.mpr ⟨(.read (liftOp_sound (OpTypeOpaque_law X) (fun _ => rfl) (fun _ => rfl) (fun _ _ _ _ _ _ h h2 => ⟨h, h2⟩))), ?_⟩
  refine List.forall_mem_cons.mpr ⟨(.read (liftOp_sound (OpTypePointer_law X) (fun _ => rfl) (fun _ => rfl) (fun _ _ _ _ _ _ h h2 => ⟨h, h2⟩))), ?_⟩
  refine List.forall_mem_cons.mpr ⟨(.read (liftOp_sound (OpTypeFunction_law X) (fun _ => rfl) (fun _ => rfl) (fun _ _ _ _ _ _ h h2 => ⟨h, h2⟩))), ?_⟩
  refine List.forall_mem_cons.mpr ⟨.unimplemented, ?_⟩
  refine List.forall_mem_cons.mpr ⟨.unimplemented, ?_⟩
  refine List.forall_mem_cons.mpr ⟨(.read (liftOp_sound (OpConstant_law X) (fun _ => rfl) (fun _ => rfl) (fun _ _ _ _ _ _ h h2 => ⟨h, h2⟩))), ?_⟩
  refine List.forall_mem_cons.mpr ⟨(.read (liftOp_sound (OpConstantComposite_law X) (fun _ => rfl) (fun _ => rfl) (fun _ _ _ _ _ _ h h2 => ⟨h, h2⟩))), ?_⟩
  refine List.forall_mem_cons.mpr ⟨.unimplemented, ?_⟩
  refine List.forall_mem_cons.mpr ⟨.unimplemented, ?_⟩
  refine List.forall_mem_cons.mpr ⟨.unimplemented, ?_⟩
  refine List.forall_mem_cons.mpr ⟨.unimplemented, ?_⟩
  refine List.forall_mem_cons.mpr ⟨.unimplemented, ?_⟩
  refine List.forall_mem_cons.mpr ⟨.unimplemented, ?_⟩
  refine List.forall_mem_cons.mpr ⟨.unimplemented, ?_⟩
  refine List.forall_mem_cons.mpr ⟨(.read (liftOp_sound (OpFunction_law X) (fun _ => rfl) (fun _ => rfl) (fun _ _ _ _ _ _ h h2 => ⟨h, h2⟩))), ?_⟩
  refine List.forall_mem_cons.mpr ⟨(.read (liftOp_sound (OpFunctionParameter_law X) (fun _ => rfl) (fun _ => rfl) (fun _ _ _ _ _ _ h h2 => ⟨h, h2⟩))), ?_⟩
  refine List.forall_mem_cons.mpr ⟨(.read (liftOp_sound (OpFunctionEnd_law X) (fun _ => rfl) (fun _ => rfl) (fun _ _ _ _ _ _ h h2 => ⟨h, h2⟩))), ?_⟩
  refine List.forall_mem_cons.mpr ⟨.unimplemented, ?_⟩
  refine List.forall_mem_cons.mpr ⟨(.read (liftOp_sound (OpVariable_law X) (fun _ => rfl) (fun _ => rfl) (fun _ _ _ _ _ _ h h2 => ⟨h, h2⟩))), ?_⟩
  refine List.forall_mem_cons.mpr ⟨.unimplemented, ?_⟩
  refine List.forall_mem_cons.mpr ⟨(.read (liftOp_sound (OpLoad_law X) (fun _ => rfl) (fun _ => rfl) (fun _ _ _ _ _ _ h h2 => ⟨h, h2⟩))), ?_⟩
  refine List.forall_mem_cons.mpr ⟨(.read (liftOp_sound (OpStore_law X) (fun _ => rfl) (fun _ => rfl) (fun _ _ _ _ _ _ h h2 => ⟨h, h2⟩))), ?_⟩
  refine List.forall_mem_cons.mpr ⟨.unimplemented, ?_⟩
  refine List.forall_mem_cons.mpr ⟨.unimplemented, ?_⟩
  refine List.forall_mem_cons.mpr ⟨(.read (liftOp_sound (OpAccessChain_law X) (fun _ => rfl) (fun _ => rfl) (fun _ _ _ _ _ _ h h2 => ⟨h, h2⟩))), ?_⟩
  refine List.forall_mem_cons.mpr ⟨.unimplemented, ?_⟩
  refine List.forall_mem_cons.mpr ⟨.unimplemented, ?_⟩
  refine List.forall_mem_cons.mpr ⟨.unimplemented, ?_⟩
  refine List.forall_mem_cons.mpr ⟨.unimplemented, ?_⟩
  refine List.forall_mem_cons.mpr ⟨.unimplemented, ?_⟩
  refine List.forall_mem_cons.mpr ⟨(.read (liftOp_sound (OpDecorate_law X) (fun _ => rfl) (fun _ => rfl) (fun _ _ _ _ _ _ h h2 => ⟨h, h2⟩))), ?_⟩
  refine List.forall_mem_cons.mpr ⟨(.read (liftOp_sound (OpMemberDecorate_law X) (fun _ => rfl) (fun _ => rfl) (fun _ _ _ _ _ _ h h2 => ⟨h, h2⟩))), ?_⟩
  refine List.forall_mem_cons.mpr ⟨.unimplemented, ?_⟩
  refine List.forall_mem_cons.mpr ⟨.unimplemented, ?_⟩
  refine List.forall_mem_cons.mpr ⟨.unimplemented, ?_⟩
  refine List.forall_mem_cons.mpr ⟨.unimplemented, ?_⟩
  refine List.forall_mem_cons.mpr ⟨.unimplemented, ?_⟩
  refine List.forall_mem_cons.mpr ⟨.unimplemented, ?_⟩
  refine List.forall_mem_cons.mpr ⟨.unimplemented, ?_⟩
  refine List.forall_mem_cons.mpr ⟨.unimplemented, ?_⟩
  refine List.forall_mem_cons.mpr ⟨.unimplemented, ?_⟩
  refine List.forall_mem_cons.mpr ⟨.unimplemented, ?_⟩
  refine List.forall_mem_cons.mpr ⟨.unimplemented, ?_⟩
  refine List.forall_mem_cons.mpr ⟨.unimplemented, ?_⟩
  refine List.forall_mem_cons.mpr ⟨.unimplemented, ?_⟩
  refine List.forall_mem_cons.mpr ⟨.unimplemented, ?_⟩
  refine List.forall_mem_cons.mpr ⟨.unimplemented, ?_⟩
  refine List.forall_mem_cons.mpr ⟨.unimplemented, ?_⟩
  refine List.forall_mem_cons.mpr ⟨.unimplemented, ?_⟩
  refine List.forall_mem_cons.mpr ⟨.unimplemented, ?_⟩
  refine List.forall_mem_cons.mpr ⟨.unimplemented, ?_⟩
  refine List.forall_mem_cons.mpr ⟨.unimplemented, ?_⟩
  refine List.forall_mem_cons.mpr ⟨.unimplemented, ?_⟩
  refine List.forall_mem_cons.mpr ⟨.unimplemented, ?_⟩
  refine List.forall_mem_cons.mpr ⟨.unimplemented, ?_⟩
  refine List.forall_mem_cons.mpr ⟨.unimplemented, ?_⟩
  refine List.forall_mem_cons.mpr ⟨.unimplemented, ?_⟩
  refine List.forall_mem_cons.mpr ⟨.unimplemented, ?_⟩
  refine List.forall_mem_cons.mpr ⟨.unimplemented, ?_⟩
  refine List.forall_mem_cons.mpr ⟨.unimplemented, ?_⟩
  refine List.forall_mem_cons.mpr ⟨.unimplemented, ?_⟩
  refine List.forall_mem_cons.mpr ⟨.unimplemented, ?_⟩
  refine List.forall_mem_cons.mpr ⟨.unimplemented, ?_⟩
  refine List.forall_mem_cons.mpr ⟨.unimplemented, ?_⟩
  refine List.forall_mem_cons.mpr ⟨.unimplemented, ?_⟩
  refine List.forall_mem_cons.mpr ⟨(.read (liftOp_sound (OpConvertUToF_law X) (fun _ => rfl) (fun _ => rfl) (fun _ _ _ _ _ _ h h2 => ⟨h, h2⟩))), ?_⟩
  refine List.forall_mem_cons.mpr ⟨.unimplemented, ?_⟩
  refine List.forall_mem_cons.mpr ⟨.unimplemented, ?_⟩
  refine List.forall_mem_cons.mpr ⟨.unimplemented, ?_⟩
  refine List.forall_mem_cons.mpr ⟨.unimplemented, ?_⟩
  refine List.forall_mem_cons.mpr ⟨.unimplemented, ?_⟩
  refine List.forall_mem_cons.mpr ⟨.unimplemented, ?_⟩
  refine List.forall_mem_cons.mpr ⟨.unimplemented, ?_⟩
  refine List.forall_mem_cons.mpr ⟨.unimplemented, ?_⟩
  refine List.forall_mem_cons.mpr ⟨.unimplemented, ?_⟩
  refine List.forall_mem_cons.mpr ⟨.unimplemented, ?_⟩
  refine List.forall_mem_cons.mpr ⟨.unimplemented, ?_⟩
  refine List.forall_mem_cons.mpr ⟨(.read (liftOp_sound (OpBitcast_law X) (fun _ => rfl) (fun _ => rfl) (fun _ _ _ _ _ _ h h2 => ⟨h, h2⟩))), ?_⟩
  refine List.forall_mem_cons.mpr ⟨.unimplemented, ?_⟩
  refine List.forall_mem_cons.mpr ⟨.unimplemented, ?_⟩
  refine List.forall_mem_cons.mpr ⟨(.read (liftOp_sound (OpIAdd_law X) (fun _ => rfl) (fun _ => rfl) (fun _ _ _ _ _ _ h h2 => ⟨h, h2⟩))), ?_⟩
  refine List.forall_mem_cons.mpr ⟨(.read (liftOp_sound (OpFAdd_law X) (fun _ => rfl) (fun _ => rfl) (fun _ _ _ _ _ _ h h2 => ⟨h, h2⟩))), ?_⟩
  refine List.forall_mem_cons.mpr ⟨(.read (liftOp_sound (OpISub_law X) (fun _ => rfl) (fun _ => rfl) (fun _ _ _ _ _ _ h h2 => ⟨h, h2⟩))), ?_⟩
  refine List.forall_mem_cons.mpr ⟨(.read (liftOp_sound (OpFSub_law X) (fun _ => rfl) (fun _ => rfl) (fun _ _ _ _ _ _ h h2 => ⟨h, h2⟩))), ?_⟩
  refine List.forall_mem_cons.mpr ⟨(.read (liftOp_sound (OpIMul_law X) (fun _ => rfl) (fun _ => rfl) (fun _ _ _ _ _ _ h h2 => ⟨h, h2⟩))), ?_⟩
  refine List.forall_mem_cons.mpr ⟨(.read (liftOp_sound (OpFMul_law X) (fun _ => rfl) (fun _ => rfl) (fun _ _ _ _ _ _ h h2 => ⟨h, h2⟩))), ?_⟩
  refine List.forall_mem_cons.mpr ⟨(.read (liftOp_sound (OpUDiv_law X) (fun _ => rfl) (fun _ => rfl) (fun _ _ _ _ _ _ h h2 => ⟨h, h2⟩))), ?_⟩
  refine List.forall_mem_cons.mpr ⟨(.read (liftOp_sound (OpSDiv_law X) (fun _ => rfl) (fun _ => rfl) (fun _ _ _ _ _ _ h h2 => ⟨h, h2⟩))), ?_⟩
  refine List.forall_mem_cons.mpr ⟨(.read (liftOp_sound (OpFDiv_law X) (fun _ => rfl) (fun _ => rfl) (fun _ _ _ _ _ _ h h2 => ⟨h, h2⟩))), ?_⟩
  refine List.forall_mem_cons.mpr ⟨(.read (liftOp_sound (OpUMod_law X) (fun _ => rfl) (fun _ => rfl) (fun _ _ _ _ _ _ h h2 => ⟨h, h2⟩))), ?_⟩
  refine List.forall_mem_cons.mpr ⟨(.read (liftOp_sound (OpSRem_law X) (fun _ => rfl) (fun _ => rfl) (fun _ _ _ _ _ _ h h2 => ⟨h, h2⟩))), ?_⟩
  refine List.forall_mem_cons.mpr ⟨(.read (liftOp_sound (OpSMod_law X) (fun _ => rfl) (fun _ => rfl) (fun _ _ _ _ _ _ h h2 => ⟨h, h2⟩))), ?_⟩
  refine List.forall_mem_cons.mpr ⟨(.read (liftOp_sound (OpFRem_law X) (fun _ => rfl) (fun _ => rfl) (fun _ _ _ _ _ _ h h2 => ⟨h, h2⟩))), ?_⟩
  refine List.forall_mem_cons.mpr ⟨(.read (liftOp_sound (OpFMod_law X) (fun _ => rfl) (fun _ => rfl) (fun _ _ _ _ _ _ h h2 => ⟨h, h2⟩))), ?_⟩
  refine List.forall_mem_cons.mpr ⟨.unimplemented, ?_⟩
  refine List.forall_mem_cons.mpr ⟨.unimplemented, ?_⟩
  refine List.forall_mem_cons.mpr ⟨.unimplemented, ?_⟩
  refine List.forall_mem_cons.mpr ⟨.unimplemented, ?_⟩
  refine List.forall_mem_cons.mpr ⟨.unimplemented, ?_⟩
  refine List.forall_mem_cons.mpr ⟨.unimplemented, ?_⟩
  refine List.forall_mem_cons.mpr ⟨.unimplemented, ?_⟩
  refine List.forall_mem_cons.mpr ⟨(.read (liftOp_sound (OpIAddCarry_law X) (fun _ => rfl) (fun _ => rfl) (fun _ _ _ _ _ _ h h2 => ⟨h, h2⟩))), ?_⟩
  refine List.forall_mem_cons.mpr ⟨(.read (liftOp_sound (OpISubBorrow_law X) (fun _ => rfl) (fun _ => rfl) (fun _ _ _ _ _ _ h h2 => ⟨h, h2⟩))), ?_⟩
  refine List.forall_mem_cons.mpr ⟨(.read (liftOp_sound (OpUMulExtended_law X) (fun _ => rfl) (fun _ => rfl) (fun _ _ _ _ _ _ h h2 => ⟨h, h2⟩))), ?_⟩
  refine List.forall_mem_cons.mpr ⟨(.read (liftOp_sound (OpSMulExtended_law X) (fun _ => rfl) (fun _ => rfl) (fun _ _ _ _ _ _ h h2 => ⟨h, h2⟩))), ?_⟩
  refine List.forall_mem_cons.mpr ⟨.unimplemented, ?_⟩
  refine List.forall_mem_cons.mpr ⟨.unimplemented, ?_⟩
  refine List.forall_mem_cons.mpr ⟨.unimplemented, ?_⟩
  refine List.forall_mem_cons.mpr ⟨.unimplemented, ?_⟩
  refine List.forall_mem_cons.mpr ⟨.unimplemented, ?_⟩
  refine List.forall_mem_cons.mpr ⟨.unimplemented, ?_⟩
  refine List.forall_mem_cons.mpr ⟨.unimplemented, ?_⟩
  refine List.forall_mem_cons.mpr ⟨.unimplemented, ?_⟩
  refine List.forall_mem_cons.mpr ⟨.unimplemented, ?_⟩
  refine List.forall_mem_cons.mpr ⟨.unimplemented, ?_⟩
  refine List.forall_mem_cons.mpr ⟨.unimplemented, ?_⟩
  refine List.forall_mem_cons.mpr ⟨.unimplemented, ?_⟩
  refine List.forall_mem_cons.mpr ⟨.unimplemented, ?_⟩
  refine List.forall_mem_cons.mpr ⟨.unimplemented, ?_⟩
  refine List.forall_mem_cons.mpr ⟨.unimplemented, ?_⟩
  refine List.forall_mem_cons.mpr ⟨.unimplemented, ?_⟩
  refine List.forall_mem_cons.mpr ⟨(.read (liftOp_sound (OpIEqual_law X) (fun _ => rfl) (fun _ => rfl) (fun _ _ _ _ _ _ h h2 => ⟨h, h2⟩))), ?_⟩
  refine List.forall_mem_cons.mpr ⟨(.read (liftOp_sound (OpINotEqual_law X) (fun _ => rfl) (fun _ => rfl) (fun _ _ _ _ _ _ h h2 => ⟨h, h2⟩))), ?_⟩
  refine List.forall_mem_cons.mpr ⟨(.read (liftOp_sound (OpUGreaterThan_law X) (fun _ => rfl) (fun _ => rfl) (fun _ _ _ _ _ _ h h2 => ⟨h, h2⟩))), ?_⟩
  refine List.forall_mem_cons.mpr ⟨(.read (liftOp_sound (OpSGreaterThan_law X) (fun _ => rfl) (fun _ => rfl) (fun _ _ _ _ _ _ h h2 => ⟨h, h2⟩))), ?_⟩
  refine List.forall_mem_cons.mpr ⟨(.read (liftOp_sound (OpUGreaterThanEqual_law X) (fun _ => rfl) (fun _ => rfl) (fun _ _ _ _ _ _ h h2 => ⟨h, h2⟩))), ?_⟩
  refine List.forall_mem_cons.mpr ⟨(.read (liftOp_sound (OpSGreaterThanEqual_law X) (fun _ => rfl) (fun _ => rfl) (fun _ _ _ _ _ _ h h2 => ⟨h, h2⟩))), ?_⟩
  refine List.forall_mem_cons.mpr ⟨(.read (liftOp_sound (OpULessThan_law X) (fun _ => rfl) (fun _ => rfl) (fun _ _ _ _ _ _ h h2 => ⟨h, h2⟩))), ?_⟩
  refine List.forall_mem_cons.mpr ⟨(.read (liftOp_sound (OpSLessThan_law X) (fun _ => rfl) (fun _ => rfl) (fun _ _ _ _ _ _ h h2 => ⟨h, h2⟩))), ?_⟩
  refine List.forall_mem_cons.mpr ⟨(.read (liftOp_sound (OpULessThanEqual_law X) (fun _ => rfl) (fun _ => rfl) (fun _ _ _ _ _ _ h h2 => ⟨h, h2⟩))), ?_⟩
  refine List.forall_mem_cons.mpr ⟨(.read (liftOp_sound (OpSLessThanEqual_law X) (fun _ => rfl) (fun _ => rfl) (fun _ _ _ _ _ _ h h2 => ⟨h, h2⟩))), ?_⟩
  refine List.forall_mem_cons.mpr ⟨(.read (liftOp_sound (OpFOrdEqual_law X) (fun _ => rfl) (fun _ => rfl) (fun _ _ _ _ _ _ h h2 => ⟨h, h2⟩))), ?_⟩
  refine List.forall_mem_cons.mpr ⟨(.read (liftOp_sound (OpFUnordEqual_law X) (fun _ => rfl) (fun _ => rfl) (fun _ _ _ _ _ _ h h2 => ⟨h, h2⟩))), ?_⟩
  refine List.forall_mem_cons.mpr ⟨(.read (liftOp_sound (OpFOrdNotEqual_law X) (fun _ => rfl) (fun _ => rfl) (fun _ _ _ _ _ _ h h2 => ⟨h, h2⟩))), ?_⟩
  refine List.forall_mem_cons.mpr ⟨(.read (liftOp_sound (OpFUnordNotEqual_law X) (fun _ => rfl) (fun _ => rfl) (fun _ _ _ _ _ _ h h2 => ⟨h, h2⟩))), ?_⟩
  refine List.forall_mem_cons.mpr ⟨(.read (liftOp_sound (OpFOrdLessThan_law X) (fun _ => rfl) (fun _ => rfl) (fun _ _ _ _ _ _ h h2 => ⟨h, h2⟩))), ?_⟩
  refine List.forall_mem_cons.mpr ⟨(.read (liftOp_sound (OpFUnordLessThan_law X) (fun _ => rfl) (fun _ => rfl) (fun _ _ _ _ _ _ h h2 => ⟨h, h2⟩))), ?_⟩
  refine List.forall_mem_cons.mpr ⟨(.read (liftOp_sound (OpFOrdGreaterThan_law X) (fun _ => rfl) (fun _ => rfl) (fun _ _ _ _ _ _ h h2 => ⟨h, h2⟩))), ?_⟩
  refine List.forall_mem_cons.mpr ⟨(.read (liftOp_sound (OpFUnordGreaterThan_law X) (fun _ => rfl) (fun _ => rfl) (fun _ _ _ _ _ _ h h2 => ⟨h, h2⟩))), ?_⟩
  refine List.forall_mem_cons.mpr ⟨(.read (liftOp_sound (OpFOrdLessThanEqual_law X) (fun _ => rfl) (fun _ => rfl) (fun _ _ _ _ _ _ h h2 => ⟨h, h2⟩))), ?_⟩
  refine List.forall_mem_cons.mpr ⟨(.read (liftOp_sound (OpFUnordLessThanEqual_law X) (fun _ => rfl) (fun _ => rfl) (fun _ _ _ _ _ _ h h2 => ⟨h, h2⟩))), ?_⟩
  refine List.forall_mem_cons.mpr ⟨(.read (liftOp_sound (OpFOrdGreaterThanEqual_law X) (fun _ => rfl) (fun _ => rfl) (fun _ _ _ _ _ _ h h2 => ⟨h, h2⟩))), ?_⟩
  refine List.forall_mem_cons.mpr ⟨(.read (liftOp_sound (OpFUnordGreaterThanEqual_law X) (fun _ => rfl) (fun _ => rfl) (fun _ _ _ _ _ _ h h2 => ⟨h, h2⟩))), ?_⟩
  refine List.forall_mem_cons.mpr ⟨.unimplemented, ?_⟩
  refine List.forall_mem_cons.mpr ⟨.unimplemented, ?_⟩
  refine List.forall_mem_cons.mpr ⟨.unimplemented, ?_⟩
  refine List.forall_mem_cons.mpr ⟨(.read (liftOp_sound (OpBitwiseOr_law X) (fun _ => rfl) (fun _ => rfl) (fun _ _ _ _ _ _ h h2 => ⟨h, h2⟩))), ?_⟩
  refine List.forall_mem_cons.mpr ⟨(.read (liftOp_sound (OpBitwiseXor_law X) (fun _ => rfl) (fun _ => rfl) (fun _ _ _ _ _ _ h h2 => ⟨h, h2⟩))), ?_⟩
  refine List.forall_mem_cons.mpr ⟨(.read (liftOp_sound (OpBitwiseAnd_law X) (fun _ => rfl) (fun _ => rfl) (fun _ _ _ _ _ _ h h2 => ⟨h, h2⟩))), ?_⟩
  refine List.forall_mem_cons.mpr ⟨.unimplemented, ?_⟩
  refine List.forall_mem_cons.mpr ⟨.unimplemented, ?_⟩
  refine List.forall_mem_cons.mpr ⟨.unimplemented, ?_⟩
  refine List.forall_mem_cons.mpr ⟨.unimplemented, ?_⟩
  refine List.forall_mem_cons.mpr ⟨.unimplemented, ?_⟩
  refine List.forall_mem_cons.mpr ⟨.unimplemented, ?_⟩
  refine List.forall_mem_cons.mpr ⟨.unimplemented, ?_⟩
  refine List.forall_mem_cons.mpr ⟨.unimplemented, ?_⟩
  refine List.forall_mem_cons.mpr ⟨.unimplemented, ?_⟩
  refine List.forall_mem_cons.mpr ⟨.unimplemented, ?_⟩
  refine List.forall_mem_cons.mpr ⟨.unimplemented, ?_⟩
  refine List.forall_mem_cons.mpr ⟨.unimplemented, ?_⟩
  refine List.forall_mem_cons.mpr ⟨.unimplemented, ?_⟩
  refine List.forall_mem_cons.mpr ⟨.unimplemented, ?_⟩
  refine List.forall_mem_cons.mpr ⟨.unimplemented, ?_⟩
  refine List.forall_mem_cons.mpr ⟨.unimplemented, ?_⟩
  refine List.forall_mem_cons.mpr ⟨.unimplemented, ?_⟩
  refine List.forall_mem_cons.mpr ⟨.unimplemented, ?_⟩
  refine List.forall_mem_cons.mpr ⟨.unimplemented, ?_⟩
  refine List.forall_mem_cons.mpr ⟨.unimplemented, ?_⟩
  refine List.forall_mem_cons.mpr ⟨.unimplemented, ?_⟩
  refine List.forall_mem_cons.mpr ⟨.unimplemented, ?_⟩
  refine List.forall_mem_cons.mpr ⟨.unimplemented, ?_⟩
  refine List.forall_mem_cons.mpr ⟨.unimplemented, ?_⟩
  refine List.forall_mem_cons.mpr ⟨.unimplemented, ?_⟩
  refine List.forall_mem_cons.mpr ⟨.unimplemented, ?_⟩
  refine List.forall_mem_cons.mpr ⟨.unimplemented, ?_⟩
  refine List.forall_mem_cons.mpr ⟨.unimplemented, ?_⟩
  refine List.forall_mem_cons.mpr ⟨.unimplemented, ?_⟩
  refine List.forall_mem_cons.mpr ⟨.unimplemented, ?_⟩
  refine List.forall_mem_cons.mpr ⟨.unimplemented, ?_⟩
  refine List.forall_mem_cons.mpr ⟨.unimplemented, ?_⟩
  refine List.forall_mem_cons.mpr ⟨.unimplemented, ?_⟩
  refine List.forall_mem_cons.mpr ⟨.unimplemented, ?_⟩
  refine List.forall_mem_cons.mpr ⟨.unimplemented, ?_⟩
  refine List.forall_mem_cons.mpr ⟨.unimplemented, ?_⟩
  refine List.forall_mem_cons.mpr ⟨.unimplemented, ?_⟩
  refine List.forall_mem_cons.mpr ⟨(.read (liftOp_sound (OpPhi_law X) (fun _ => rfl) (fun _ => rfl) (fun _ _ _ _ _ _ h h2 => ⟨h, h2⟩))), ?_⟩
  refine List.forall_mem_cons.mpr ⟨(.read (liftOp_sound (OpLoopMerge_law X) (fun _ => rfl) (fun _ => rfl) (fun _ _ _ _ _ _ h h2 => ⟨h, h2⟩))), ?_⟩
  refine List.forall_mem_cons.mpr ⟨(.read (liftOp_sound (OpSelectionMerge_law X) (fun _ => rfl) (fun _ => rfl) (fun _ _ _ _ _ _ h h2 => ⟨h, h2⟩))), ?_⟩
  refine List.forall_mem_cons.mpr ⟨(.read (liftOp_sound (OpLabel_law X) (fun _ => rfl) (fun _ => rfl) (fun _ _ _ _ _ _ h h2 => ⟨h, h2⟩))), ?_⟩
  refine List.forall_mem_cons.mpr ⟨(.read (liftOp_sound (OpBranch_law X) (fun _ => rfl) (fun _ => rfl) (fun _ _ _ _ _ _ h h2 => ⟨h, h2⟩))), ?_⟩
  refine List.forall_mem_cons.mpr ⟨(.read (liftOp_sound (OpBranchConditional_law X) (fun _ => rfl) (fun _ => rfl) (fun _ _ _ _ _ _ h h2 => ⟨h, h2⟩))), ?_⟩
  refine List.forall_mem_cons.mpr ⟨.unimplemented, ?_⟩
  refine List.forall_mem_cons.mpr ⟨.unimplemented, ?_⟩
  refine List.forall_mem_cons.mpr ⟨(.read (liftOp_sound (OpReturn_law X) (fun _ => rfl) (fun _ => rfl) (fun _ _ _ _ _ _ h h2 => ⟨h, h2⟩))), ?_⟩
  refine List.forall_mem_cons.mpr ⟨.unimplemented, ?_⟩
  refine List.forall_mem_cons.mpr ⟨.unimplemented, ?_⟩
  refine List.forall_mem_cons.mpr ⟨.unimplemented, ?_⟩
  refine List.forall_mem_cons.mpr ⟨.unimplemented, ?_⟩
  refine List.forall_mem_cons.mpr ⟨.unimplemented, ?_⟩
  refine List.forall_mem_cons.mpr ⟨.unimplemented, ?_⟩
  refine List.forall_mem_cons.mpr ⟨.unimplemented, ?_⟩
  refine List.forall_mem_cons.mpr ⟨.unimplemented, ?_⟩
  refine List.forall_mem_cons.mpr ⟨.unimplemented, ?_⟩
  refine List.forall_mem_cons.mpr ⟨.unimplemented, ?_⟩
  refine List.forall_mem_cons.mpr ⟨.unimplemented, ?_⟩
  refine List.forall_mem_cons.mpr ⟨.unimplemented, ?_⟩
  refine List.forall_mem_cons.mpr ⟨.unimplemented, ?_⟩
  refine List.forall_mem_cons.mpr ⟨.unimplemented, ?_⟩
  refine List.forall_mem_cons.mpr ⟨.unimplemented, ?_⟩
  refine List.forall_mem_cons.mpr ⟨.unimplemented, ?_⟩
  refine List.forall_mem_cons.mpr ⟨.unimplemented, ?_⟩
  refine List.forall_mem_cons.mpr ⟨.unimplemented, ?_⟩
  refine List.forall_mem_cons.mpr ⟨.unimplemented, ?_⟩
  refine List.forall_mem_cons.mpr ⟨.unimplemented, ?_⟩
  refine List.forall_mem_cons.mpr ⟨.unimplemented, ?_⟩
  refine List.forall_mem_cons.mpr ⟨.unimplemented, ?_⟩
  refine List.forall_mem_cons.mpr ⟨.unimplemented, ?_⟩
  refine List.forall_mem_cons.mpr ⟨.unimplemented, ?_⟩
  refine List.forall_mem_cons.mpr ⟨.unimplemented, ?_⟩
  refine List.forall_mem_cons.mpr ⟨.unimplemented, ?_⟩
  refine List.forall_mem_cons.mpr ⟨.unimplemented, ?_⟩
  refine List.forall_mem_cons.mpr ⟨.unimplemented, ?_⟩
  refine List.forall_mem_cons.mpr ⟨.unimplemented, ?_⟩
  refine List.forall_mem_cons.mpr ⟨.unimplemented, ?_⟩
  refine List.forall_mem_cons.mpr ⟨.unimplemented, ?_⟩
  refine List.forall_mem_cons.mpr ⟨.unimplemented, ?_⟩
  refine List.forall_mem_cons.mpr ⟨.unimplemented, ?_⟩
  refine List.forall_mem_cons.mpr ⟨.unimplemented, ?_⟩
  refine List.forall_mem_cons.mpr ⟨.unimplemented, ?_⟩
  refine List.forall_mem_cons.mpr ⟨.unimplemented, ?_⟩
  refine List.forall_mem_cons.mpr ⟨.unimplemented, ?_⟩
  refine List.forall_mem_cons.mpr ⟨.unimplemented, ?_⟩
  refine List.forall_mem_cons.mpr ⟨.unimplemented, ?_⟩
  refine List.forall_mem_cons.mpr ⟨.unimplemented, ?_⟩
  refine List.forall_mem_cons.mpr ⟨.unimplemented, ?_⟩
  refine List.forall_mem_cons.mpr ⟨.unimplemented, ?_⟩
  refine List.forall_mem_cons.mpr ⟨.unimplemented, ?_⟩
  refine List.forall_mem_cons.mpr ⟨.unimplemented, ?_⟩
  refine List.forall_mem_cons.mpr ⟨.unimplemented, ?_⟩
  refine List.forall_mem_cons.mpr ⟨.unimplemented, ?_⟩
  refine List.forall_mem_cons.mpr ⟨.unimplemented, ?_⟩
  refine List.forall_mem_cons.mpr ⟨.unimplemented, ?_⟩
  refine List.forall_mem_cons.mpr ⟨.unimplemented, ?_⟩
  refine List.forall_mem_cons.mpr ⟨.unimplemented, ?_⟩
  refine List.forall_mem_cons.mpr ⟨.unimplemented, ?_⟩
  refine List.forall_mem_cons.mpr ⟨.unimplemented, ?_⟩
  refine List.forall_mem_cons.mpr ⟨.unimplemented, ?_⟩
  refine List.forall_mem_cons.mpr ⟨.unimplemented, ?_⟩
  refine List.forall_mem_cons.mpr ⟨.unimplemented, ?_⟩
  refine List.forall_mem_cons.mpr ⟨.unimplemented, ?_⟩
  refine List.forall_mem_cons.mpr ⟨.unimplemented, ?_⟩
  refine List.forall_mem_cons.mpr ⟨.unimplemented, ?_⟩
  refine List.forall_mem_cons.mpr ⟨.unimplemented, ?_⟩
  refine List.forall_mem_cons.mpr ⟨.unimplemented, ?_⟩
  refine List.forall_mem_cons.mpr ⟨.unimplemented, ?_⟩
  refine List.forall_mem_cons.mpr ⟨.unimplemented, ?_⟩
  exact fun _ h => nomatch h

theorem liftOp_complete {X α : Type} {read : Block → R (Block × α)} {mk : α → Core X} {a : α}
    (hl : OpLaw read (fun a => operands (mk a))) {known : List (ExtInstSet X)}
    {bound bound' : BoundSets X} {ws rest : List UInt32}
    (h : Reads (operands (mk a)) ws rest ∧ bound' = bound) :
    liftOp read mk ws known bound = .ok ((rest, mk a), bound') :=
  liftOp_ok.mpr ⟨a, (hl.iff _ _ _).mpr h.1, rfl, h.2⟩

/-- Every supported instruction has an entry that reads it. -/
theorem opTable_complete {X : Type} (inst : Core X) (hs : supported inst = true) :
    ∃ f, (opTable X).lookup (opcode inst) = some (.read f) ∧
      ∀ known bound ws rest bound', OpsRel known bound inst ws rest bound' →
        f ws known bound = .ok ((rest, inst), bound') := by
  cases inst with
  | OpTypeEvent op => cases hs
  | OpTypeDeviceEvent op => cases hs
  | OpTypeQueue op => cases hs
  | OpTypePipe op => cases hs
  | OpTypeForwardPointer op => cases hs
  | OpExtInstImport op =>
    exact ⟨_, rfl, fun _ _ _ _ _ ⟨h, s, h2, h3, h4⟩ => extInstImport_ok.mpr ⟨op, s, rfl, h, h2, h3, h4⟩⟩
  | OpExtInst op =>
    exact ⟨_, rfl, fun _ _ _ _ _ ⟨n, args, s, h, h2, h3, h4⟩ =>
      extInst_ok.mpr ⟨op, n, args, s, rfl, h, h2, h3, h4⟩⟩
  | OpNop op => exact ⟨_, rfl, fun _ _ _ _ _ h => liftOp_complete (OpNop_law X) h⟩
  | OpUndef op => exact ⟨_, rfl, fun _ _ _ _ _ h => liftOp_complete (OpUndef_law X) h⟩
  | OpSourceContinued op => exact ⟨_, rfl, fun _ _ _ _ _ h => liftOp_complete (OpSourceContinued_law X) h⟩
  | OpSource op => exact ⟨_, rfl, fun _ _ _ _ _ h => liftOp_complete (OpSource_law X) h⟩
  | OpSourceExtension op => exact ⟨_, rfl, fun _ _ _ _ _ h => liftOp_complete (OpSourceExtension_law X) h⟩
  | OpName op => exact ⟨_, rfl, fun _ _ _ _ _ h => liftOp_complete (OpName_law X) h⟩
  | OpMemberName op => exact ⟨_, rfl, fun _ _ _ _ _ h => liftOp_complete (OpMemberName_law X) h⟩
  | OpString op => exact ⟨_, rfl, fun _ _ _ _ _ h => liftOp_complete (OpString_law X) h⟩
  | OpDecorate op => exact ⟨_, rfl, fun _ _ _ _ _ h => liftOp_complete (OpDecorate_law X) h⟩
  | OpMemberDecorate op => exact ⟨_, rfl, fun _ _ _ _ _ h => liftOp_complete (OpMemberDecorate_law X) h⟩
  | OpExtension op => exact ⟨_, rfl, fun _ _ _ _ _ h => liftOp_complete (OpExtension_law X) h⟩
  | OpMemoryModel op => exact ⟨_, rfl, fun _ _ _ _ _ h => liftOp_complete (OpMemoryModel_law X) h⟩
  | OpEntryPoint op => exact ⟨_, rfl, fun _ _ _ _ _ h => liftOp_complete (OpEntryPoint_law X) h⟩
  | OpExecutionMode op => exact ⟨_, rfl, fun _ _ _ _ _ h => liftOp_complete (OpExecutionMode_law X) h⟩
  | OpCapability op => exact ⟨_, rfl, fun _ _ _ _ _ h => liftOp_complete (OpCapability_law X) h⟩
  | OpTypeVoid op => exact ⟨_, rfl, fun _ _ _ _ _ h => liftOp_complete (OpTypeVoid_law X) h⟩
  | OpTypeBool op => exact ⟨_, rfl, fun _ _ _ _ _ h => liftOp_complete (OpTypeBool_law X) h⟩
  | OpTypeInt op => exact ⟨_, rfl, fun _ _ _ _ _ h => liftOp_complete (OpTypeInt_law X) h⟩
  | OpTypeFloat op => exact ⟨_, rfl, fun _ _ _ _ _ h => liftOp_complete (OpTypeFloat_law X) h⟩
  | OpTypeVector op => exact ⟨_, rfl, fun _ _ _ _ _ h => liftOp_complete (OpTypeVector_law X) h⟩
  | OpTypeMatrix op => exact ⟨_, rfl, fun _ _ _ _ _ h => liftOp_complete (OpTypeMatrix_law X) h⟩
  | OpTypeImage op => exact ⟨_, rfl, fun _ _ _ _ _ h => liftOp_complete (OpTypeImage_law X) h⟩
  | OpTypeSampler op => exact ⟨_, rfl, fun _ _ _ _ _ h => liftOp_complete (OpTypeSampler_law X) h⟩
  | OpTypeSampledImage op => exact ⟨_, rfl, fun _ _ _ _ _ h => liftOp_complete (OpTypeSampledImage_law X) h⟩
  | OpTypeArray op => exact ⟨_, rfl, fun _ _ _ _ _ h => liftOp_complete (OpTypeArray_law X) h⟩
  | OpTypeRuntimeArray op => exact ⟨_, rfl, fun _ _ _ _ _ h => liftOp_complete (OpTypeRuntimeArray_law X) h⟩
  | OpTypeStruct op => exact ⟨_, rfl, fun _ _ _ _ _ h => liftOp_complete (OpTypeStruct_law X) h⟩
  | OpTypeOpaque op => exact ⟨_, rfl, fun _ _ _ _ _ h => liftOp_complete (OpTypeOpaque_law X) h⟩
  | OpTypePointer op => exact ⟨_, rfl, fun _ _ _ _ _ h => liftOp_complete (OpTypePointer_law X) h⟩
  | OpTypeFunction op => exact ⟨_, rfl, fun _ _ _ _ _ h => liftOp_complete (OpTypeFunction_law X) h⟩
  | OpConstant op => exact ⟨_, rfl, fun _ _ _ _ _ h => liftOp_complete (OpConstant_law X) h⟩
  | OpConstantComposite op => exact ⟨_, rfl, fun _ _ _ _ _ h => liftOp_complete (OpConstantComposite_law X) h⟩
  | OpFunction op => exact ⟨_, rfl, fun _ _ _ _ _ h => liftOp_complete (OpFunction_law X) h⟩
  | OpFunctionParameter op => exact ⟨_, rfl, fun _ _ _ _ _ h => liftOp_complete (OpFunctionParameter_law X) h⟩
  | OpFunctionEnd op => exact ⟨_, rfl, fun _ _ _ _ _ h => liftOp_complete (OpFunctionEnd_law X) h⟩
  | OpVariable op => exact ⟨_, rfl, fun _ _ _ _ _ h => liftOp_complete (OpVariable_law X) h⟩
  | OpLoad op => exact ⟨_, rfl, fun _ _ _ _ _ h => liftOp_complete (OpLoad_law X) h⟩
  | OpStore op => exact ⟨_, rfl, fun _ _ _ _ _ h => liftOp_complete (OpStore_law X) h⟩
  | OpAccessChain op => exact ⟨_, rfl, fun _ _ _ _ _ h => liftOp_complete (OpAccessChain_law X) h⟩
  | OpConvertUToF op => exact ⟨_, rfl, fun _ _ _ _ _ h => liftOp_complete (OpConvertUToF_law X) h⟩
  | OpPhi op => exact ⟨_, rfl, fun _ _ _ _ _ h => liftOp_complete (OpPhi_law X) h⟩
  | OpLoopMerge op => exact ⟨_, rfl, fun _ _ _ _ _ h => liftOp_complete (OpLoopMerge_law X) h⟩
  | OpSelectionMerge op => exact ⟨_, rfl, fun _ _ _ _ _ h => liftOp_complete (OpSelectionMerge_law X) h⟩
  | OpLabel op => exact ⟨_, rfl, fun _ _ _ _ _ h => liftOp_complete (OpLabel_law X) h⟩
  | OpBranch op => exact ⟨_, rfl, fun _ _ _ _ _ h => liftOp_complete (OpBranch_law X) h⟩
  | OpBranchConditional op => exact ⟨_, rfl, fun _ _ _ _ _ h => liftOp_complete (OpBranchConditional_law X) h⟩
  | OpReturn op => exact ⟨_, rfl, fun _ _ _ _ _ h => liftOp_complete (OpReturn_law X) h⟩
  | OpBitcast op => exact ⟨_, rfl, fun _ _ _ _ _ h => liftOp_complete (OpBitcast_law X) h⟩
  | OpIAdd op => exact ⟨_, rfl, fun _ _ _ _ _ h => liftOp_complete (OpIAdd_law X) h⟩
  | OpFAdd op => exact ⟨_, rfl, fun _ _ _ _ _ h => liftOp_complete (OpFAdd_law X) h⟩
  | OpISub op => exact ⟨_, rfl, fun _ _ _ _ _ h => liftOp_complete (OpISub_law X) h⟩
  | OpFSub op => exact ⟨_, rfl, fun _ _ _ _ _ h => liftOp_complete (OpFSub_law X) h⟩
  | OpIMul op => exact ⟨_, rfl, fun _ _ _ _ _ h => liftOp_complete (OpIMul_law X) h⟩
  | OpFMul op => exact ⟨_, rfl, fun _ _ _ _ _ h => liftOp_complete (OpFMul_law X) h⟩
  | OpUDiv op => exact ⟨_, rfl, fun _ _ _ _ _ h => liftOp_complete (OpUDiv_law X) h⟩
  | OpSDiv op => exact ⟨_, rfl, fun _ _ _ _ _ h => liftOp_complete (OpSDiv_law X) h⟩
  | OpFDiv op => exact ⟨_, rfl, fun _ _ _ _ _ h => liftOp_complete (OpFDiv_law X) h⟩
  | OpUMod op => exact ⟨_, rfl, fun _ _ _ _ _ h => liftOp_complete (OpUMod_law X) h⟩
  | OpSRem op => exact ⟨_, rfl, fun _ _ _ _ _ h => liftOp_complete (OpSRem_law X) h⟩
  | OpSMod op => exact ⟨_, rfl, fun _ _ _ _ _ h => liftOp_complete (OpSMod_law X) h⟩
  | OpFRem op => exact ⟨_, rfl, fun _ _ _ _ _ h => liftOp_complete (OpFRem_law X) h⟩
  | OpFMod op => exact ⟨_, rfl, fun _ _ _ _ _ h => liftOp_complete (OpFMod_law X) h⟩
  | OpIAddCarry op => exact ⟨_, rfl, fun _ _ _ _ _ h => liftOp_complete (OpIAddCarry_law X) h⟩
  | OpISubBorrow op => exact ⟨_, rfl, fun _ _ _ _ _ h => liftOp_complete (OpISubBorrow_law X) h⟩
  | OpUMulExtended op => exact ⟨_, rfl, fun _ _ _ _ _ h => liftOp_complete (OpUMulExtended_law X) h⟩
  | OpSMulExtended op => exact ⟨_, rfl, fun _ _ _ _ _ h => liftOp_complete (OpSMulExtended_law X) h⟩
  | OpBitwiseOr op => exact ⟨_, rfl, fun _ _ _ _ _ h => liftOp_complete (OpBitwiseOr_law X) h⟩
  | OpBitwiseXor op => exact ⟨_, rfl, fun _ _ _ _ _ h => liftOp_complete (OpBitwiseXor_law X) h⟩
  | OpBitwiseAnd op => exact ⟨_, rfl, fun _ _ _ _ _ h => liftOp_complete (OpBitwiseAnd_law X) h⟩
  | OpIEqual op => exact ⟨_, rfl, fun _ _ _ _ _ h => liftOp_complete (OpIEqual_law X) h⟩
  | OpINotEqual op => exact ⟨_, rfl, fun _ _ _ _ _ h => liftOp_complete (OpINotEqual_law X) h⟩
  | OpUGreaterThan op => exact ⟨_, rfl, fun _ _ _ _ _ h => liftOp_complete (OpUGreaterThan_law X) h⟩
  | OpSGreaterThan op => exact ⟨_, rfl, fun _ _ _ _ _ h => liftOp_complete (OpSGreaterThan_law X) h⟩
  | OpUGreaterThanEqual op => exact ⟨_, rfl, fun _ _ _ _ _ h => liftOp_complete (OpUGreaterThanEqual_law X) h⟩
  | OpSGreaterThanEqual op => exact ⟨_, rfl, fun _ _ _ _ _ h => liftOp_complete (OpSGreaterThanEqual_law X) h⟩
  | OpULessThan op => exact ⟨_, rfl, fun _ _ _ _ _ h => liftOp_complete (OpULessThan_law X) h⟩
  | OpSLessThan op => exact ⟨_, rfl, fun _ _ _ _ _ h => liftOp_complete (OpSLessThan_law X) h⟩
  | OpULessThanEqual op => exact ⟨_, rfl, fun _ _ _ _ _ h => liftOp_complete (OpULessThanEqual_law X) h⟩
  | OpSLessThanEqual op => exact ⟨_, rfl, fun _ _ _ _ _ h => liftOp_complete (OpSLessThanEqual_law X) h⟩
  | OpFOrdEqual op => exact ⟨_, rfl, fun _ _ _ _ _ h => liftOp_complete (OpFOrdEqual_law X) h⟩
  | OpFUnordEqual op => exact ⟨_, rfl, fun _ _ _ _ _ h => liftOp_complete (OpFUnordEqual_law X) h⟩
  | OpFOrdNotEqual op => exact ⟨_, rfl, fun _ _ _ _ _ h => liftOp_complete (OpFOrdNotEqual_law X) h⟩
  | OpFUnordNotEqual op => exact ⟨_, rfl, fun _ _ _ _ _ h => liftOp_complete (OpFUnordNotEqual_law X) h⟩
  | OpFOrdLessThan op => exact ⟨_, rfl, fun _ _ _ _ _ h => liftOp_complete (OpFOrdLessThan_law X) h⟩
  | OpFUnordLessThan op => exact ⟨_, rfl, fun _ _ _ _ _ h => liftOp_complete (OpFUnordLessThan_law X) h⟩
  | OpFOrdGreaterThan op => exact ⟨_, rfl, fun _ _ _ _ _ h => liftOp_complete (OpFOrdGreaterThan_law X) h⟩
  | OpFUnordGreaterThan op => exact ⟨_, rfl, fun _ _ _ _ _ h => liftOp_complete (OpFUnordGreaterThan_law X) h⟩
  | OpFOrdLessThanEqual op => exact ⟨_, rfl, fun _ _ _ _ _ h => liftOp_complete (OpFOrdLessThanEqual_law X) h⟩
  | OpFUnordLessThanEqual op => exact ⟨_, rfl, fun _ _ _ _ _ h => liftOp_complete (OpFUnordLessThanEqual_law X) h⟩
  | OpFOrdGreaterThanEqual op => exact ⟨_, rfl, fun _ _ _ _ _ h => liftOp_complete (OpFOrdGreaterThanEqual_law X) h⟩
  | OpFUnordGreaterThanEqual op => exact ⟨_, rfl, fun _ _ _ _ _ h => liftOp_complete (OpFUnordGreaterThanEqual_law X) h⟩

/-- The part of `readInstruction` after the words of the instruction have been fetched. -/
def decode {X : Type} (head : UInt32) (ops : List UInt32) (known : List (ExtInstSet X))
    (bound : BoundSets X) : R (Core X × BoundSets X) :=
  match (opTable X).lookup (head &&& 0xFFFF).toUInt16.toNat with
  | none => fail (.UnknownOp (head &&& 0xFFFF).toUInt16 (head >>> 16).toUInt16)
  | some (.unimplemented name) => fail (.UnimplementedOp name)
  | some (.read f) => do
    let ((block, inst), bound) ← f ops known bound
    if !block.atEnd then fail .InstructionHadExcessData
    else return (inst, bound)

theorem opcode_word (head : UInt32) : (head &&& 0xFFFF).toUInt16.toNat = head.toNat % 65536 := by
  have h (n : Nat) : n &&& 65535 = n % 65536 := Nat.and_two_pow_sub_one_eq_mod _ 16
  simp [h]

theorem wc_word (head : UInt32) : (head >>> 16).toUInt16.toNat = head.toNat / 65536 := by
  have := head.toNat_lt
  simp [Nat.shiftRight_eq_div_pow]
  omega

theorem decode_iff {X : Type} {head : UInt32} {ops : List UInt32} {known : List (ExtInstSet X)}
    {bound bound' : BoundSets X} {inst : Core X} :
    decode head ops known bound = .ok (inst, bound') ↔
      supported inst = true ∧ opcode inst = head.toNat % 65536 ∧
        OpsRel known bound inst ops [] bound' := by
  rw [decode, opcode_word]
  constructor
  · intro h
    split at h
    · simp at h
    · simp at h
    · rename_i f hf
      simp only [bind_ok, Prod.exists, guard_ok, pure_ok, Prod.mk.injEq] at h
      obtain ⟨r, i, b, h, he, rfl, rfl⟩ := h
      obtain ⟨h1, h2, h3⟩ := (opTable_ok X _ (mem_of_lookup hf) f rfl).sound _ _ _ _ _ _ h
      refine ⟨h2, h1, ?_⟩
      cases r with
      | nil => exact h3
      | cons w r => simp [Block.atEnd] at he
  · rintro ⟨hs, hk, h⟩
    obtain ⟨f, hf, hc⟩ := opTable_complete inst hs
    rw [← hk, hf]
    simp only [bind_ok, Prod.exists, guard_ok, pure_ok, Prod.mk.injEq]
    exact ⟨[], inst, bound', hc _ _ _ _ _ h, by simp [Block.atEnd], rfl, rfl⟩

theorem decode_safe {X : Type} (head : UInt32) (ops : List UInt32) (known : List (ExtInstSet X))
    (bound : BoundSets X) (hb : ∀ p ∈ bound, ∀ n ws, Safe (p.2.readInstruction n ws)) :
    Safe (decode head ops known bound) := by
  unfold decode
  split
  · exact .fail _
  · exact .fail _
  · rename_i f hf
    refine Safe.bind ((opTable_ok X _ (mem_of_lookup hf) f rfl).safe _ _ _ hb) fun p _ => ?_
    dsimp only
    exact .ite (.fail _) (.pure _)

end Magma
