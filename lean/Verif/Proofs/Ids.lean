import Verif.Spec.RenameOps
import Verif.Proofs.BlameInst
import Verif.Proofs.Header
/-! Lemmas: reading operands whose ids have been replaced. -/

namespace Magma
open Spec
variable {X : Type}

variable {σ : UInt32 → UInt32}

theorem renameParts_nil (ps : List Part) : renameParts σ ps [] = [] := by cases ps <;> rfl
theorem renameParts_none (ws : List UInt32) : renameParts σ [] ws = ws := by cases ws <;> rfl
theorem renameParts_ids (ps : List Part) (ws : List UInt32) : renameParts σ (.ids :: ps) ws = ws.map σ := by
  cases ws <;> rfl

theorem renameParts_length : ∀ (ws : List UInt32) (ps : List Part), (renameParts σ ps ws).length = ws.length
  | [], ps => by rw [renameParts_nil]
  | w :: ws, [] => rfl
  | w :: ws, .id :: ps => by simp [renameParts, renameParts_length ws]
  | w :: ws, .word :: ps => by simp [renameParts, renameParts_length ws]
  | w :: ws, .string :: ps => by simp [renameParts, renameParts_length ws]
  | w :: ws, .ids :: ps => by simp [renameParts]

/-- A type read from an operand of the kind `p` -/
class ReadPart (α : Type) [MemoryBlockRead α] [Renames α] (p : outParam Part) : Prop where
  part : ∀ (σ : UInt32 → UInt32) (ps : List Part) (ws : Block),
    (MemoryBlockRead.read (renameParts σ (p :: ps) ws) : R (Block × α)) =
      (MemoryBlockRead.read ws).map fun q => (renameParts σ ps q.1, ren σ q.2)

/-- The same reading, of the operands as they are and as they are with other ids -/
def ReadsRen {α : Type} (σ : UInt32 → UInt32) (ps : List Part) (f : α → α) (read' read : Block → R (Block × α)) : Prop :=
  ∀ ws, read' (renameParts σ ps ws) = (read ws).map fun q => (q.1, f q.2)

theorem ReadsRen.pure {α : Type} (σ : UInt32 → UInt32) (f : α → α) (a b : α) (h : f a = b) :
    ReadsRen σ [] f (fun block => (Pure.pure (block, b) : R (Block × α))) (fun block => Pure.pure (block, a)) := by
  intro ws
  subst h
  rw [renameParts_none]
  rfl

theorem ReadsRen.bind {α β : Type} [MemoryBlockRead β] [Renames β] {p : Part} [ReadPart β p] {ps : List Part} {f : α → α}
    {k' k : Block × β → R (Block × α)}
    (h : ∀ b, ReadsRen σ ps f (fun block => k' (block, ren σ b)) (fun block => k (block, b))) :
    ReadsRen σ (p :: ps) f (fun block => MemoryBlockRead.read block >>= k')
      (fun block => MemoryBlockRead.read block >>= k) := by
  intro ws
  dsimp only
  rw [ReadPart.part]
  cases (MemoryBlockRead.read ws : R (Block × β)) with
  | error e => rfl
  | ok q => exact h q.2 q.1

/-- Once no ids are left, values without ids are read as before. -/
class Fixed (α : Type) [Renames α] : Prop where
  fixed : ∀ (σ : UInt32 → UInt32) (a : α), ren σ a = a

instance {α : Type} [NoIds α] : Fixed α := ⟨fun _ _ => rfl⟩
instance {α : Type} [NoIds α] : Fixed (Option α) := ⟨fun _ a => by cases a <;> rfl⟩
instance {α : Type} [NoIds α] : Fixed (List α) := ⟨fun σ a => by
  show a.map (fun x => x) = a
  simp⟩

theorem ReadsRen.bindFixed {α β : Type} [MemoryBlockRead β] [Renames β] [Fixed β] {f : α → α}
    {k' k : Block × β → R (Block × α)}
    (h : ∀ b, ReadsRen σ [] f (fun block => k' (block, ren σ b)) (fun block => k (block, b))) :
    ReadsRen σ [] f (fun block => MemoryBlockRead.read block >>= k')
      (fun block => MemoryBlockRead.read block >>= k) := by
  intro ws
  dsimp only
  rw [renameParts_none]
  cases (MemoryBlockRead.read ws : R (Block × β)) with
  | error e => rfl
  | ok q =>
    have := h q.2 q.1
    rw [Fixed.fixed, renameParts_none] at this
    exact this

instance : ReadPart OpId .id := ⟨fun σ ps ws => by cases ws <;> rfl⟩
instance : ReadPart ResultId .id := ⟨fun σ ps ws => by cases ws <;> rfl⟩

/-- One word that decides alone -/
theorem readPart_word {α : Type} [MemoryBlockRead α] [NoIds α] (f : UInt32 → R α)
    (h : ∀ ws : Block, (MemoryBlockRead.read ws : R (Block × α)) = match ws with
      | [] => fail .UnexpectedEndOfInstruction
      | w :: ws => (f w).map fun a => (ws, a)) : ReadPart α .word := ⟨fun σ ps ws => by
  cases ws with
  | nil => rw [renameParts_nil, h]; rfl
  | cons w ws =>
    rw [h, h]
    simp only [renameParts]
    cases f w <;> rfl⟩

theorem readEnum_word {α : Type} (table : List (UInt32 × α)) (e : UInt32 → ReadError) (ws : Block) :
    readEnum table e ws = match ws with
      | [] => fail .UnexpectedEndOfInstruction
      | w :: ws => (match table.lookup w with
        | some a => .ok a
        | none => fail (e w) : R α).map fun a => (ws, a) := by
  cases ws with
  | nil => rfl
  | cons w ws =>
    simp only [readEnum, Block.readWord]
    show (match List.lookup w table with
      | some a => pure (ws, a)
      | none => fail (e w) : R (Block × α)) = _
    cases List.lookup w table <;> rfl

instance : ReadPart UInt32 .word := readPart_word (fun w => .ok w) fun ws => by cases ws <;> rfl
instance : ReadPart SourceVersion .word := readPart_word (fun w => .ok ⟨w⟩) fun ws => by cases ws <;> rfl
instance : ReadPart FunctionControl .word := readPart_word (fun w => .ok _) fun ws => by cases ws <;> rfl
instance : ReadPart ExecutionModel .word := readPart_word _ fun ws => readEnum_word _ _ ws
instance : ReadPart StorageClass .word := readPart_word _ fun ws => readEnum_word _ _ ws
instance : ReadPart SourceLanguage .word :=
  readPart_word (fun w => match SourceLanguage.table.lookup w with
    | some l => .ok l
    | none => .ok (.Other w)) fun ws => by
    cases ws with
    | nil => rfl
    | cons w ws =>
      show (match SourceLanguage.table.lookup w with
        | some l => pure (ws, l)
        | none => pure (ws, .Other w) : R (Block × SourceLanguage)) = _
      dsimp only
      cases SourceLanguage.table.lookup w <;> rfl

instance {α : Type} [MemoryBlockRead α] [Renames α] {p : Part} [ReadPart α p] : ReadPart (Option α) p :=
  ⟨fun σ ps ws => by
    have hl : Block.remaining (renameParts σ (p :: ps) ws) = Block.remaining ws := renameParts_length ws (p :: ps)
    simp only [MemoryBlockRead.read, hl]
    by_cases h : Block.remaining ws > 0
    · rw [if_pos h, if_pos h, ReadPart.part]
      cases (MemoryBlockRead.read ws : R (Block × α)) <;> rfl
    · rw [if_neg h, if_neg h]
      have : ws = [] := List.length_eq_zero_iff.mp (by unfold Block.remaining at h; omega)
      subst this
      simp only [renameParts_nil, Except.map]
      rfl⟩

/-- A type whose values are made of ids only -/
class AllIds (α : Type) [MemoryBlockRead α] [Renames α] : Prop where
  all : ∀ (σ : UInt32 → UInt32) (ws : Block),
    (MemoryBlockRead.read (ws.map σ) : R (Block × α)) =
      (MemoryBlockRead.read ws).map fun q => (q.1.map σ, ren σ q.2)

instance : AllIds OpId := ⟨fun σ ws => by cases ws <;> rfl⟩
instance : AllIds PhiArg := ⟨fun σ ws => by
  cases ws with
  | nil => rfl
  | cons w ws => cases ws <;> rfl⟩

theorem readVecLoop_ren {α : Type} [MemoryBlockRead α] [Renames α] [AllIds α] (fuel : Nat) : ∀ (ws : Block) (items : List α),
    readVecLoop fuel (ws.map σ) (items.map (ren σ)) =
      (readVecLoop fuel ws items).map fun q => (q.1.map σ, ren σ q.2) := by
  induction fuel with
  | zero => intro ws items; rfl
  | succ fuel ih =>
    intro ws items
    have hl : Block.remaining (ws.map σ) = Block.remaining ws := List.length_map _
    simp only [readVecLoop, hl]
    by_cases h : Block.remaining ws > 0
    · rw [if_pos h, if_pos h, AllIds.all]
      cases (MemoryBlockRead.read ws : R (Block × α)) with
      | error e => rfl
      | ok q =>
        have := ih q.1 (q.2 :: items)
        exact this
    · rw [if_neg h, if_neg h]
      simp only [Except.map, Renames.ren, List.map_reverse]

theorem readVecLoop_empty {α : Type} [MemoryBlockRead α] (fuel : Nat) : ∀ (ws : Block) (items : List α) {r : Block} {l : List α},
    readVecLoop fuel ws items = .ok (r, l) → r = [] := by
  induction fuel with
  | zero => intro ws items r l h; cases h
  | succ fuel ih =>
    intro ws items r l h
    simp only [readVecLoop] at h
    by_cases hw : Block.remaining ws > 0
    · rw [if_pos hw] at h
      cases hr : (MemoryBlockRead.read ws : R (Block × α)) with
      | error e => rw [hr] at h; cases h
      | ok q => rw [hr] at h; exact ih q.1 _ h
    · rw [if_neg hw] at h
      cases h
      exact List.length_eq_zero_iff.mp (by unfold Block.remaining at hw; omega)

instance {α : Type} [MemoryBlockRead α] [RustSize α] [Renames α] [AllIds α] : ReadPart (List α) .ids :=
  ⟨fun σ ps ws => by
    rw [renameParts_ids]
    simp only [MemoryBlockRead.read, List.length_map]
    by_cases h : min 1 (RustSize.size α / 4) = 0
    · rw [if_pos h, if_pos h]; rfl
    · rw [if_neg h, if_neg h]
      have := readVecLoop_ren (σ := σ) (ws.length + 1) ws ([] : List α)
      rw [List.map_nil] at this
      rw [this]
      cases hr : readVecLoop (ws.length + 1) ws ([] : List α) with
      | error e => rfl
      | ok q =>
        obtain ⟨r, l⟩ := q
        have := readVecLoop_empty _ _ _ hr
        subst this
        simp [Except.map, renameParts_nil]⟩

theorem pushChars_found (cs : List UInt8) : ∀ bs, (pushChars cs bs).2 = cs.contains 0 := by
  induction cs with
  | nil => intro bs; rfl
  | cons c cs ih =>
    intro bs
    simp only [pushChars, List.contains_cons]
    by_cases h : c = 0
    · simp [h]
    · have : ¬ 0 = c := fun e => h e.symm
      simp [h, ih, this]

theorem wordChars_ends (w : UInt32) (bs : List UInt8) : (pushChars (wordChars w) bs).2 = endsString w := by
  rw [pushChars_found, endsString, wordChars_eq]

theorem readStringLoop_ren (ps : List Part) : ∀ (ws : Block) (bs : List UInt8),
    readStringLoop (renameParts σ (.string :: ps) ws) bs =
      (readStringLoop ws bs).map fun q => (renameParts σ ps q.1, q.2) := by
  intro ws
  induction ws with
  | nil => intro bs; rfl
  | cons w ws ih =>
    intro bs
    simp only [renameParts, readStringLoop]
    have := wordChars_ends w bs
    rcases hp : pushChars (wordChars w) bs with ⟨b, _ | _⟩ <;> rw [hp] at this <;> rw [← this]
    · exact ih b
    · rfl

instance : ReadPart String .string := ⟨fun σ ps ws => by
  simp only [MemoryBlockRead.read, readStringLoop_ren]
  cases readStringLoop ws [] with
  | error e => rfl
  | ok q =>
    simp only [Except.map, bind, Except.bind]
    cases String.fromUTF8? _ <;> rfl⟩

macro "follows" r:ident : tactic => `(tactic| (
  unfold $r:ident
  repeat' (first
    | exact ReadsRen.pure _ _ _ _ rfl
    | refine ReadsRen.bind (fun _ => ?_)
    | refine ReadsRen.bindFixed (fun _ => ?_))))

/-- The reading of an instruction, from the operands the standard gives to the opcode -/
class OpFollows {α : Type} [Renames α] (read : Block → R (Block × α)) (k : Nat) : Prop where
  follows : ∀ σ, ReadsRen σ (parts k) (ren σ) read read

instance : OpFollows OpNop.read 0 := ⟨fun σ => by follows OpNop.read⟩
instance : OpFollows OpUndef.read 1 := ⟨fun σ => by follows OpUndef.read⟩
instance : OpFollows OpSourceContinued.read 2 := ⟨fun σ => by follows OpSourceContinued.read⟩
instance : OpFollows OpSource.read 3 := ⟨fun σ => by follows OpSource.read⟩
instance : OpFollows OpSourceExtension.read 4 := ⟨fun σ => by follows OpSourceExtension.read⟩
instance : OpFollows OpName.read 5 := ⟨fun σ => by follows OpName.read⟩
instance : OpFollows OpMemberName.read 6 := ⟨fun σ => by follows OpMemberName.read⟩
instance : OpFollows OpString.read 7 := ⟨fun σ => by follows OpString.read⟩
instance : OpFollows OpExtension.read 10 := ⟨fun σ => by follows OpExtension.read⟩
instance : OpFollows OpMemoryModel.read 14 := ⟨fun σ => by follows OpMemoryModel.read⟩
instance : OpFollows OpEntryPoint.read 15 := ⟨fun σ => by follows OpEntryPoint.read⟩
instance : OpFollows OpExecutionMode.read 16 := ⟨fun σ => by follows OpExecutionMode.read⟩
instance : OpFollows OpCapability.read 17 := ⟨fun σ => by follows OpCapability.read⟩
instance : OpFollows OpTypeVoid.read 19 := ⟨fun σ => by follows OpTypeVoid.read⟩
instance : OpFollows OpTypeBool.read 20 := ⟨fun σ => by follows OpTypeBool.read⟩
instance : OpFollows OpTypeInt.read 21 := ⟨fun σ => by follows OpTypeInt.read⟩
instance : OpFollows OpTypeFloat.read 22 := ⟨fun σ => by follows OpTypeFloat.read⟩
instance : OpFollows OpTypeVector.read 23 := ⟨fun σ => by follows OpTypeVector.read⟩
instance : OpFollows OpTypeMatrix.read 24 := ⟨fun σ => by follows OpTypeMatrix.read⟩
instance : OpFollows OpTypeImage.read 25 := ⟨fun σ => by follows OpTypeImage.read⟩
instance : OpFollows OpTypeSampler.read 26 := ⟨fun σ => by follows OpTypeSampler.read⟩
instance : OpFollows OpTypeSampledImage.read 27 := ⟨fun σ => by follows OpTypeSampledImage.read⟩
instance : OpFollows OpTypeArray.read 28 := ⟨fun σ => by follows OpTypeArray.read⟩
instance : OpFollows OpTypeRuntimeArray.read 29 := ⟨fun σ => by follows OpTypeRuntimeArray.read⟩
instance : OpFollows OpTypeStruct.read 30 := ⟨fun σ => by follows OpTypeStruct.read⟩
instance : OpFollows OpTypeOpaque.read 31 := ⟨fun σ => by follows OpTypeOpaque.read⟩
instance : OpFollows OpTypePointer.read 32 := ⟨fun σ => by follows OpTypePointer.read⟩
instance : OpFollows OpTypeFunction.read 33 := ⟨fun σ => by follows OpTypeFunction.read⟩
instance : OpFollows OpConstant.read 43 := ⟨fun σ => by follows OpConstant.read⟩
instance : OpFollows OpConstantComposite.read 44 := ⟨fun σ => by follows OpConstantComposite.read⟩
instance : OpFollows OpFunction.read 54 := ⟨fun σ => by follows OpFunction.read⟩
instance : OpFollows OpFunctionParameter.read 55 := ⟨fun σ => by follows OpFunctionParameter.read⟩
instance : OpFollows OpFunctionEnd.read 56 := ⟨fun σ => by follows OpFunctionEnd.read⟩
instance : OpFollows OpVariable.read 59 := ⟨fun σ => by follows OpVariable.read⟩
instance : OpFollows OpLoad.read 61 := ⟨fun σ => by follows OpLoad.read⟩
instance : OpFollows OpStore.read 62 := ⟨fun σ => by follows OpStore.read⟩
instance : OpFollows OpAccessChain.read 65 := ⟨fun σ => by follows OpAccessChain.read⟩
instance : OpFollows OpDecorate.read 71 := ⟨fun σ => by follows OpDecorate.read⟩
instance : OpFollows OpMemberDecorate.read 72 := ⟨fun σ => by follows OpMemberDecorate.read⟩
instance : OpFollows OpConvertUToF.read 112 := ⟨fun σ => by follows OpConvertUToF.read⟩
instance : OpFollows OpBitcast.read 124 := ⟨fun σ => by follows OpBitcast.read⟩
instance : OpFollows OpIAdd.read 128 := ⟨fun σ => by follows OpIAdd.read⟩
instance : OpFollows OpFAdd.read 129 := ⟨fun σ => by follows OpFAdd.read⟩
instance : OpFollows OpISub.read 130 := ⟨fun σ => by follows OpISub.read⟩
instance : OpFollows OpFSub.read 131 := ⟨fun σ => by follows OpFSub.read⟩
instance : OpFollows OpIMul.read 132 := ⟨fun σ => by follows OpIMul.read⟩
instance : OpFollows OpFMul.read 133 := ⟨fun σ => by follows OpFMul.read⟩
instance : OpFollows OpUDiv.read 134 := ⟨fun σ => by follows OpUDiv.read⟩
instance : OpFollows OpSDiv.read 135 := ⟨fun σ => by follows OpSDiv.read⟩
instance : OpFollows OpFDiv.read 136 := ⟨fun σ => by follows OpFDiv.read⟩
instance : OpFollows OpUMod.read 137 := ⟨fun σ => by follows OpUMod.read⟩
instance : OpFollows OpSRem.read 138 := ⟨fun σ => by follows OpSRem.read⟩
instance : OpFollows OpSMod.read 139 := ⟨fun σ => by follows OpSMod.read⟩
instance : OpFollows OpFRem.read 140 := ⟨fun σ => by follows OpFRem.read⟩
instance : OpFollows OpFMod.read 141 := ⟨fun σ => by follows OpFMod.read⟩
instance : OpFollows OpIAddCarry.read 149 := ⟨fun σ => by follows OpIAddCarry.read⟩
instance : OpFollows OpISubBorrow.read 150 := ⟨fun σ => by follows OpISubBorrow.read⟩
instance : OpFollows OpUMulExtended.read 151 := ⟨fun σ => by follows OpUMulExtended.read⟩
instance : OpFollows OpSMulExtended.read 152 := ⟨fun σ => by follows OpSMulExtended.read⟩
instance : OpFollows OpIEqual.read 170 := ⟨fun σ => by follows OpIEqual.read⟩
instance : OpFollows OpINotEqual.read 171 := ⟨fun σ => by follows OpINotEqual.read⟩
instance : OpFollows OpUGreaterThan.read 172 := ⟨fun σ => by follows OpUGreaterThan.read⟩
instance : OpFollows OpSGreaterThan.read 173 := ⟨fun σ => by follows OpSGreaterThan.read⟩
instance : OpFollows OpUGreaterThanEqual.read 174 := ⟨fun σ => by follows OpUGreaterThanEqual.read⟩
instance : OpFollows OpSGreaterThanEqual.read 175 := ⟨fun σ => by follows OpSGreaterThanEqual.read⟩
instance : OpFollows OpULessThan.read 176 := ⟨fun σ => by follows OpULessThan.read⟩
instance : OpFollows OpSLessThan.read 177 := ⟨fun σ => by follows OpSLessThan.read⟩
instance : OpFollows OpULessThanEqual.read 178 := ⟨fun σ => by follows OpULessThanEqual.read⟩
instance : OpFollows OpSLessThanEqual.read 179 := ⟨fun σ => by follows OpSLessThanEqual.read⟩
instance : OpFollows OpFOrdEqual.read 180 := ⟨fun σ => by follows OpFOrdEqual.read⟩
instance : OpFollows OpFUnordEqual.read 181 := ⟨fun σ => by follows OpFUnordEqual.read⟩
instance : OpFollows OpFOrdNotEqual.read 182 := ⟨fun σ => by follows OpFOrdNotEqual.read⟩
instance : OpFollows OpFUnordNotEqual.read 183 := ⟨fun σ => by follows OpFUnordNotEqual.read⟩
instance : OpFollows OpFOrdLessThan.read 184 := ⟨fun σ => by follows OpFOrdLessThan.read⟩
instance : OpFollows OpFUnordLessThan.read 185 := ⟨fun σ => by follows OpFUnordLessThan.read⟩
instance : OpFollows OpFOrdGreaterThan.read 186 := ⟨fun σ => by follows OpFOrdGreaterThan.read⟩
instance : OpFollows OpFUnordGreaterThan.read 187 := ⟨fun σ => by follows OpFUnordGreaterThan.read⟩
instance : OpFollows OpFOrdLessThanEqual.read 188 := ⟨fun σ => by follows OpFOrdLessThanEqual.read⟩
instance : OpFollows OpFUnordLessThanEqual.read 189 := ⟨fun σ => by follows OpFUnordLessThanEqual.read⟩
instance : OpFollows OpFOrdGreaterThanEqual.read 190 := ⟨fun σ => by follows OpFOrdGreaterThanEqual.read⟩
instance : OpFollows OpFUnordGreaterThanEqual.read 191 := ⟨fun σ => by follows OpFUnordGreaterThanEqual.read⟩
instance : OpFollows OpBitwiseOr.read 197 := ⟨fun σ => by follows OpBitwiseOr.read⟩
instance : OpFollows OpBitwiseXor.read 198 := ⟨fun σ => by follows OpBitwiseXor.read⟩
instance : OpFollows OpBitwiseAnd.read 199 := ⟨fun σ => by follows OpBitwiseAnd.read⟩
instance : OpFollows OpPhi.read 245 := ⟨fun σ => by follows OpPhi.read⟩
instance : OpFollows OpLoopMerge.read 246 := ⟨fun σ => by follows OpLoopMerge.read⟩
instance : OpFollows OpSelectionMerge.read 247 := ⟨fun σ => by follows OpSelectionMerge.read⟩
instance : OpFollows OpLabel.read 248 := ⟨fun σ => by follows OpLabel.read⟩
instance : OpFollows OpBranch.read 249 := ⟨fun σ => by follows OpBranch.read⟩
instance : OpFollows OpBranchConditional.read 250 := ⟨fun σ => by follows OpBranchConditional.read⟩
instance : OpFollows OpReturn.read 253 := ⟨fun σ => by follows OpReturn.read⟩
instance : OpFollows readImport 11 := ⟨fun σ => by follows readImport⟩

/-- The sets that are bound, under other ids -/
def renBound (σ : UInt32 → UInt32) (bound : BoundSets X) : BoundSets X := bound.map fun p => (σ p.1, p.2)

theorem get_ren (hσ : ∀ a b, σ a = σ b → a = b) (bound : BoundSets X) (id : OpId) :
    (renBound σ bound).get (ren σ id) = bound.get id := by
  show List.lookup (σ id.val) (renBound σ bound) = List.lookup id.val bound
  unfold renBound
  induction bound with
  | nil => rfl
  | cons p bound ih =>
    rw [List.map_cons, List.lookup_cons, List.lookup_cons, ih]
    have : (σ id.val == σ p.1) = (id.val == p.1) := by
      rw [Bool.eq_iff_iff, beq_iff_eq, beq_iff_eq]
      exact ⟨hσ _ _, fun h => by rw [h]⟩
    rw [this]

/-- An instruction that takes up all of the words -/
def decodeEntry (f : CoreReader X) (ws : Block) (known : List (ExtInstSet X)) (bound : BoundSets X) : R (Core X × BoundSets X) := do
  let ((block, inst), bound) ← f ws known bound
  if !block.atEnd then fail .InstructionHadExcessData
  else return (inst, bound)

/-- Both components of an outcome -/
def renBoth [Renames X] (σ : UInt32 → UInt32) (p : Core X × BoundSets X) : Core X × BoundSets X :=
  (renameInst σ p.1, renBound σ p.2)

/-- The entry of the table does not care about ids. -/
def EntryRen [Renames X] (σ : UInt32 → UInt32) (p : Nat × OpEntry X) : Prop :=
  ∀ f, p.2 = .read f → ∀ ws known bound, (∀ q ∈ bound, TakesIds σ q.2) →
    decodeEntry f (renameParts σ (parts p.1) ws) known (renBound σ bound) =
      renameRead σ (renBoth σ) (decodeEntry f ws known bound)

theorem bad_ren {ws : Block} {e : ReadError} (h : BadOperand ws e) : renameReadError σ e = e := by
  cases e <;> first | rfl | exact h.elim

theorem renameRead_good {α β : Type} {g : β → β} {ws : Block} {x : R (Block × α)} (hx : Good ws x) {e : Fault ReadError}
    (h : x = .error e) : renameRead σ g (.error e) = .error e := by
  cases e with
  | err e => simp only [renameRead, bad_ren (hx.err e h)]
  | panic m => rfl
  | diverge => rfl

theorem atEnd_length {a b : Block} (h : a.length = b.length) : Block.atEnd a = Block.atEnd b := by
  simp only [Block.atEnd, h]

theorem EntryRen.lift [Renames X] {α : Type} [Renames α] {k : Nat} {read : Block → R (Block × α)} {mk : α → Core X}
    [OpGood read] [OpFollows read k] (hm : ∀ a, renameInst σ (mk a) = mk (ren σ a)) :
    EntryRen σ (k, .read (liftOp read mk)) := by
  rintro f hf ws known bound hb
  cases hf
  simp only [decodeEntry, liftOp]
  rw [OpFollows.follows (read := read) (k := k) σ ws]
  cases hr : read ws with
  | error e => exact (renameRead_good (OpGood.good ws) hr).symm
  | ok q =>
    show (if (!Block.atEnd q.1) = true then fail .InstructionHadExcessData else pure (mk (ren σ q.2), renBound σ bound) :
      R (Core X × BoundSets X)) = renameRead σ (renBoth σ) (if (!Block.atEnd q.1) = true then fail .InstructionHadExcessData
        else pure (mk q.2, bound))
    split
    · rfl
    · rw [← hm]; rfl

theorem EntryRen.unimplemented [Renames X] {k : Nat} {n : String} : EntryRen (X := X) σ (k, .unimplemented n) := by
  rintro f hf
  cases hf

theorem EntryRen.import [Renames X] (hσ : ∀ a b, σ a = σ b → a = b) :
    EntryRen (X := X) σ (11, .read OpExtInstImport.readCore) := by
  rintro f hf ws known bound hb
  cases hf
  simp only [decodeEntry, readImport_eq]
  rw [OpFollows.follows (read := readImport) (k := 11) σ ws]
  cases hr : readImport ws with
  | error e => exact (renameRead_good (ws := ws) (OpGood.good ws) hr).symm
  | ok q =>
    obtain ⟨r, op⟩ := q
    simp only [Except.map, bind, Except.bind, bindImport]
    have hn : (ren σ op).name = op.name := rfl
    rw [hn]
    cases known.find? (fun s => s.name == op.name) with
    | none => rfl
    | some s =>
      simp only [BoundSets.insert]
      have : (renBound σ bound).get ⟨(ren σ op).result_id.val⟩ = bound.get ⟨op.result_id.val⟩ :=
        get_ren hσ bound ⟨op.result_id.val⟩
      rw [this]
      cases bound.get ⟨op.result_id.val⟩ with
      | some _ => rfl
      | none =>
        simp only [pure, Except.pure]
        split <;> rfl

theorem EntryRen.extInst [Renames X] (hσ : ∀ a b, σ a = σ b → a = b) :
    EntryRen (X := X) σ (12, .read OpExtInst.readCore) := by
  rintro f hf ws known bound hb
  cases hf
  match ws with
  | [] => rfl
  | [_] => rfl
  | [_, _] => rfl
  | [_, _, _] => rfl
  | rt :: res :: id :: n :: args =>
    have he (rt res id n : UInt32) (args : List UInt32) (bound : BoundSets X) :
        OpExtInst.readCore (rt :: res :: id :: n :: args) known bound = (match bound.get ⟨id⟩ with
      | some s => do
        let (block, extinst) ← s.readInstruction n args
        return ((block, .OpExtInst { result_type := ⟨rt⟩, result_id := ⟨res⟩, set := ⟨id⟩, instruction := extinst }), bound)
      | none => fail (.UnknownInstSetId ⟨id⟩) : R ((Block × Core X) × BoundSets X)) := rfl
    have hp : renameParts σ (parts 12) (rt :: res :: id :: n :: args) = σ rt :: σ res :: σ id :: n :: args.map σ := by
      show σ rt :: σ res :: σ id :: n :: renameParts σ [.ids] args = _
      rw [renameParts_ids]
    rw [hp]
    simp only [decodeEntry, he]
    rw [show (renBound σ bound).get ⟨σ id⟩ = bound.get ⟨id⟩ from get_ren hσ bound ⟨id⟩]
    cases hg : bound.get ⟨id⟩ with
    | none => rfl
    | some s =>
      have hs : TakesIds σ s := by
        obtain ⟨q, hq, hs⟩ : ∃ q ∈ bound, q.2 = s := by
          clear hb
          unfold BoundSets.get at hg
          dsimp only at hg
          induction bound with
          | nil => cases hg
          | cons p bound ih =>
            rw [List.lookup_cons] at hg
            split at hg
            · cases hg; exact ⟨p, .head _, rfl⟩
            · obtain ⟨q, hq, h⟩ := ih hg
              exact ⟨q, .tail _ hq, h⟩
        exact hs ▸ hb q hq
      dsimp only
      rw [hs n args]
      cases hr : s.readInstruction n args with
      | error e => cases e <;> rfl
      | ok q =>
        obtain ⟨r, x⟩ := q
        simp only [renameRead, bind, Except.bind, pure, Except.pure]
        rw [show Block.atEnd (r.map σ) = Block.atEnd r from atEnd_length (List.length_map ..)]
        cases Block.atEnd r <;> rfl

theorem opTable_ren [Renames X] (hσ : ∀ a b, σ a = σ b → a = b) : ∀ p ∈ opTable X, EntryRen σ p := by
  unfold opTable
  repeat' (first
    | exact fun _ h => absurd h List.not_mem_nil
    | refine List.forall_mem_cons.mpr ⟨EntryRen.unimplemented, ?_⟩
    | refine List.forall_mem_cons.mpr ⟨EntryRen.lift (fun _ => rfl), ?_⟩
    | refine List.forall_mem_cons.mpr ⟨EntryRen.import hσ, ?_⟩
    | refine List.forall_mem_cons.mpr ⟨EntryRen.extInst hσ, ?_⟩)

theorem decode_ren [Renames X] (hσ : ∀ a b, σ a = σ b → a = b) {head : UInt32} {ops : List UInt32}
    {known : List (ExtInstSet X)} {bound : BoundSets X} (hb : ∀ q ∈ bound, TakesIds σ q.2) :
    decode head (renameParts σ (parts (head.toNat % 65536)) ops) known (renBound σ bound) =
      renameRead σ (renBoth σ) (decode head ops known bound) := by
  rw [decode, decode, opcode_word]
  cases he : (opTable X).lookup (head.toNat % 65536) with
  | none => rfl
  | some e =>
    cases e with
    | unimplemented name => rfl
    | read f =>
      exact opTable_ren hσ _ (mem_of_lookup he) f rfl ops known bound hb

theorem renameWords_length (σ : UInt32 → UInt32) (ws : List UInt32) : (renameWords σ ws).length = ws.length := by
  induction hn : ws.length using Nat.strongRecOn generalizing ws with
  | _ n ih =>
    cases ws with
    | nil => rw [renameWords]; exact hn
    | cons head ws =>
      rw [renameWords]
      simp only [List.length_cons, List.length_append, renameParts_length, List.length_take] at hn ⊢
      rw [ih _ (by rw [← hn, List.length_drop]; omega) _ rfl, List.length_drop]
      omega

theorem decode_takes [Renames X] {head : UInt32} {ops : List UInt32} {inst : Core X}
    {known : List (ExtInstSet X)} {bound bound' : BoundSets X} (hk : ∀ s ∈ known, TakesIds σ s)
    (hb : ∀ q ∈ bound, TakesIds σ q.2) (h : decode head ops known bound = .ok (inst, bound')) :
    ∀ q ∈ bound', TakesIds σ q.2 := by
  obtain ⟨-, -, h⟩ := decode_iff.mp h
  unfold OpsRel at h
  split at h
  · obtain ⟨-, s, hs, -, rfl⟩ := h
    intro q hq
    rcases List.mem_cons.mp hq with rfl | hq
    · exact hk s (List.mem_of_find?_eq_some hs)
    · exact hb q hq
  · obtain ⟨_, _, _, -, -, -, rfl⟩ := h
    exact hb
  · obtain ⟨-, rfl⟩ := h
    exact hb

theorem bodyW_ren [Renames X] (hσ : ∀ a b, σ a = σ b → a = b) {known : List (ExtInstSet X)}
    (hk : ∀ s ∈ known, TakesIds σ s) (t : List UInt8) (ws : List UInt32) (bound : BoundSets X)
    (hb : ∀ q ∈ bound, TakesIds σ q.2) :
    bodyW known (renBound σ bound) t (renameWords σ ws) =
      renameRead σ (List.map (renameInst σ)) (bodyW known bound t ws) := by
  induction hn : ws.length using Nat.strongRecOn generalizing ws bound with
  | _ n ih =>
    cases ws with
    | nil =>
      rw [renameWords, bodyW_nil, bodyW_nil]
      split <;> rfl
    | cons head ws =>
      rw [renameWords]
      have hl : (renameWords σ (List.drop (opWords head) ws)).length = ws.length - opWords head := by
        rw [renameWords_length, List.length_drop]
      by_cases hs : ws.length < opWords head
      · rw [bodyW_short hs, bodyW_short]
        · simp only [eosError]
          split <;> rfl
        · rw [List.length_append, renameParts_length, List.length_take]
          simp only [opWords] at hs hl ⊢
          omega
      · have hp : (renameParts σ (parts (head.toNat % 65536)) (ws.take (opWords head))).length = opWords head := by
          rw [renameParts_length, List.length_take]; omega
        rw [bodyW_cons, bodyW_cons (ws := ws) (by omega)]
        · change (decode head (List.take _ (renameParts σ _ (ws.take (opWords head)) ++ _)) _ _ >>= fun p =>
            bodyW known p.2 t (List.drop _ (renameParts σ _ (ws.take (opWords head)) ++ _)) >>= _) = _
          rw [List.take_left' hp, List.drop_left' hp, decode_ren hσ hb]
          cases hd : decode head (ws.take (opWords head)) known bound with
          | error e => cases e <;> rfl
          | ok q =>
            obtain ⟨inst, bound'⟩ := q
            simp only [renameRead, renBoth, ok_bind]
            have := ih (ws.drop (opWords head)).length (by rw [← hn, List.length_drop, List.length_cons]; omega)
              (ws.drop (opWords head)) bound' (decode_takes hk hb hd) rfl
            change bodyW known (renBound σ bound') t (renameWords σ (ws.drop (opWords head))) >>= _ = _
            rw [this]
            cases bodyW known bound' t (ws.drop (opWords head)) with
            | error e => cases e <;> rfl
            | ok l => rfl
        · simp only [opWords] at hp ⊢
          rw [List.length_append]
          omega

theorem headerW_ren [Renames X] (hσ : ∀ a b, σ a = σ b → a = b) {known : List (ExtInstSet X)}
    (hk : ∀ s ∈ known, TakesIds σ s) (t : List UInt8) (ver gen bound schema : UInt32) (ws : List UInt32) :
    headerW known t (ver :: gen :: bound :: schema :: renameWords σ ws) =
      renameRead σ (renameModule σ) (headerW known t (ver :: gen :: bound :: schema :: ws)) := by
  simp only [headerW]
  cases hv : readVersion ver with
  | error e =>
    have : renameRead σ (renameModule (X := X) σ) (.error e) = .error e := by
      simp only [readVersion] at hv
      split at hv
      · simp only [pure_bind'] at hv
        split at hv
        · cases hv
        · cases hv; rfl
      · cases hv; rfl
    exact this.symm
  | ok v =>
    simp only [ok_bind]
    split
    · rfl
    · have := bodyW_ren hσ hk t ws [] (fun q hq => absurd hq List.not_mem_nil)
      rw [show renBound σ ([] : BoundSets X) = [] from rfl] at this
      rw [this]
      cases bodyW known [] t ws with
      | error e => cases e <;> rfl
      | ok l => rfl

end Magma
