import Verif.Proofs.BlameInst
import Verif.Spec.FirstError
/-! Lemmas: errors about operands are about the first operand that is wrong. -/

namespace Magma
open Spec

/-- What is read does not depend on what follows, even if less follows. -/
structure Exact {α : Type} (read : Block → R (Block × α)) : Prop extends Stable read where
  less : ∀ u rest a, read (u ++ rest) = .ok (rest, a) → ∀ x, read (u ++ x) = .ok (x, a)

theorem Exact.of_law {α : Type} [MemoryBlockRead α] [Encode α] [Lawful α] (h : ∀ a : α, Operand.done ∉ enc a) :
    Exact (MemoryBlockRead.read : Block → R (Block × α)) where
  toStable := .of_law h
  less u rest a hr x := by
    rw [Lawful.iff] at hr ⊢
    exact Reads_local _ hr (fun hd => absurd hd (h a))

/-- A refused word or string is the first thing that is wrong: what stands before could have gone on in another
way, and with it the error is the same whatever follows. -/
structure First {α : Type} (read : Block → R (Block × α)) : Prop extends Short read where
  first : ∀ ws e, read ws = fail e → e ≠ .UnexpectedEndOfInstruction → ∃ p q rest, ws = p ++ q ++ rest ∧
    (∃ more a, read (p ++ more) = .ok ([], a)) ∧ (∀ more, read (p ++ q ++ more) = fail e) ∧ Refused e q

theorem First.pure {α : Type} (a : α) : First (fun block => (pure (block, a) : R (Block × α))) :=
  ⟨.pure a, fun _ _ h => by cases h⟩

theorem First.bind {α β : Type} {r1 : Block → R (Block × α)} {r2 : Block × α → R (Block × β)} (h1 : First r1)
    (s1 : Exact r1) (h2 : ∀ a, First fun block => r2 (block, a)) : First fun block => r1 block >>= r2 where
  toShort := .bind h1.toShort s1.toStable (fun a => (h2 a).toShort)
  first ws e h hn := by
    cases hr : r1 ws with
    | error e' =>
      try dsimp only at h
      rw [hr] at h
      cases h
      obtain ⟨p, q, rest, rfl, ⟨more, a, hm⟩, hf, hw⟩ := h1.first ws e hr hn
      obtain ⟨vs, b, h'⟩ := (h2 a).full
      refine ⟨p, q, rest, rfl, ⟨more ++ vs, b, ?_⟩, fun more => ?_, hw⟩
      · try dsimp only
        rw [← List.append_assoc, s1.more _ _ _ hm vs]
        exact h'
      · try dsimp only
        rw [hf more]
        rfl
    | ok x =>
      obtain ⟨left, a⟩ := x
      try dsimp only at h
      rw [hr] at h
      obtain ⟨u, rfl⟩ := s1.suffix _ _ _ hr
      obtain ⟨p, q, rest, rfl, ⟨more, b, hm⟩, hf, hw⟩ := (h2 a).first left e h hn
      refine ⟨u ++ p, q, rest, by simp only [List.append_assoc], ⟨more, b, ?_⟩, fun more => ?_, hw⟩
      · try dsimp only
        rw [List.append_assoc, s1.less _ _ _ hr]
        exact hm
      · try dsimp only
        rw [List.append_assoc, List.append_assoc, s1.less _ _ _ hr, ← List.append_assoc]
        exact hf more

/-- The last operand -/
theorem First.last {α β : Type} {r1 : Block → R (Block × α)} {r2 : Block × α → R (Block × β)} (h1 : First r1)
    (h2 : ∀ a, ∃ b, ∀ block, r2 (block, a) = .ok (block, b)) : First fun block => r1 block >>= r2 where
  toShort := .last h1.toShort h2
  first ws e h hn := by
    cases hr : r1 ws with
    | error e' =>
      try dsimp only at h
      rw [hr] at h
      cases h
      obtain ⟨p, q, rest, rfl, ⟨more, a, hm⟩, hf, hw⟩ := h1.first ws e hr hn
      obtain ⟨b, h'⟩ := h2 a
      refine ⟨p, q, rest, rfl, ⟨more, b, ?_⟩, fun more => ?_, hw⟩
      · try dsimp only
        rw [hm]
        exact h' _
      · try dsimp only
        rw [hf more]
        rfl
    | ok x =>
      obtain ⟨left, a⟩ := x
      try dsimp only at h
      rw [hr] at h
      obtain ⟨b, h'⟩ := h2 a
      have h : r2 (left, a) = _ := h
      rw [h'] at h
      cases h

class FirstRead (α : Type) [MemoryBlockRead α] : Prop where
  first : First (MemoryBlockRead.read : Block → R (Block × α))

class ExactRead (α : Type) [MemoryBlockRead α] : Prop where
  exact : Exact (MemoryBlockRead.read : Block → R (Block × α))

/-- An optional operand that only optional ones follow -/
theorem First.opt {α β : Type} [MemoryBlockRead α] [ShortRead α] [StableRead α] [FirstRead α] [ExactRead α]
    {r2 : Block × Option α → R (Block × β)} (h2 : ∀ a, First fun block => r2 (block, a)) (hn : ∃ b, r2 ([], none) = .ok ([], b)) :
    First fun block => (MemoryBlockRead.read block : R (Block × Option α)) >>= r2 where
  toShort := .opt (fun a => (h2 a).toShort) hn
  first ws e h he := by
    have hs : First fun block => (MemoryBlockRead.read block : R (Block × α)) >>= fun p => r2 (p.1, some p.2) :=
      .bind FirstRead.first ExactRead.exact (fun a => h2 (some a))
    obtain ⟨b0, hn⟩ := hn
    have e' : ∀ vs, vs ≠ [] → (MemoryBlockRead.read vs : R (Block × Option α)) >>= r2 =
        ((MemoryBlockRead.read vs : R (Block × α)) >>= fun p => r2 (p.1, some p.2)) := by
      intro vs hv
      cases vs with
      | nil => exact absurd rfl hv
      | cons w vs =>
        simp only [MemoryBlockRead.read, Block.remaining, List.length_cons, Nat.zero_lt_succ, if_true]
        cases (MemoryBlockRead.read (w :: vs) : R (Block × α)) <;> rfl
    have e0 : (MemoryBlockRead.read [] : R (Block × Option α)) >>= r2 = .ok ([], b0) := hn
    cases ws with
    | nil =>
      try dsimp only at h
      rw [e0] at h
      cases h
    | cons w ws =>
      try dsimp only at h
      rw [e' _ (by simp)] at h
      obtain ⟨p, q, rest, hw, ⟨more, b, hm⟩, hf, hq⟩ := hs.first (w :: ws) e h he
      have hne : ∀ more, p ++ q ++ more ≠ [] := by
        intro _ hx
        obtain ⟨hx, -⟩ := List.append_eq_nil_iff.mp hx
        obtain ⟨rfl, rfl⟩ := List.append_eq_nil_iff.mp hx
        clear hx
        have h1 : (MemoryBlockRead.read more : R (Block × α)) >>= (fun p => r2 (p.1, some p.2)) = .ok ([], b) := hm
        have h2 := hf more
        rw [List.nil_append, List.nil_append] at h2
        try dsimp only at h2
        rw [h1] at h2
        cases h2
      refine ⟨p, q, rest, hw, ?_, fun more => ?_, hq⟩
      · by_cases hp : p ++ more = []
        · obtain ⟨rfl, rfl⟩ := List.append_eq_nil_iff.mp hp
          exact ⟨[], b0, e0⟩
        · refine ⟨more, b, ?_⟩
          try dsimp only
          rw [e' _ hp]
          exact hm
      · try dsimp only
        rw [e' _ (hne more)]
        exact hf more

/-- A reader that refuses nothing -/
theorem First.any {α : Type} {read : Block → R (Block × α)} (h : Short read)
    (h' : ∀ ws e, read ws = fail e → e = .UnexpectedEndOfInstruction) : First read :=
  ⟨h, fun ws e he hn => absurd (h' ws e he) hn⟩

/-- A reader that refuses its first word -/
theorem First.word {α : Type} {f : Block × UInt32 → R (Block × α)} (hs : Short fun block => Block.readWord block >>= f)
    (h : ∀ w ws e, f (ws, w) = fail e → e ≠ .UnexpectedEndOfInstruction → refusedWord e = some w ∧ ∀ ws', f (ws', w) = fail e) :
    First fun block => Block.readWord block >>= f where
  toShort := hs
  first ws e he hn := by
    cases ws with
    | nil => cases he; exact absurd rfl hn
    | cons w ws =>
      obtain ⟨h1, h2⟩ := h w ws e he hn
      obtain ⟨vs, a, hv⟩ := hs.full
      exact ⟨[], [w], ws, rfl, ⟨vs, a, hv⟩, h2, .inl ⟨w, h1, rfl⟩⟩

instance : ExactRead UInt32 := ⟨.of_law fun _ => by simp [enc]⟩
instance : ExactRead OpId := ⟨.of_law fun _ => by simp [enc]⟩
instance : ExactRead ResultId := ⟨.of_law fun _ => by simp [enc]⟩
instance : ExactRead SourceVersion := ⟨.of_law fun _ => by simp [enc]⟩
instance : ExactRead MemberIndex := ⟨.of_law fun _ => by simp [enc]⟩
instance : ExactRead FunctionControl := ⟨.of_law fun _ => by simp [enc]⟩
instance : ExactRead MemoryAccess := ⟨.of_law fun _ => by simp [enc]⟩
instance : ExactRead FpFastMathMode := ⟨.of_law fun _ => by simp [enc]⟩
instance : ExactRead SelectionControl := ⟨.of_law fun _ => by simp [enc]⟩
instance : ExactRead AddressingModel := ⟨.of_law fun _ => by simp [enc]⟩
instance : ExactRead MemoryModel := ⟨.of_law fun _ => by simp [enc]⟩
instance : ExactRead ExecutionModel := ⟨.of_law fun _ => by simp [enc]⟩
instance : ExactRead Capability := ⟨.of_law fun _ => by simp [enc]⟩
instance : ExactRead BuiltIn := ⟨.of_law fun _ => by simp [enc]⟩
instance : ExactRead FpRoundingMode := ⟨.of_law fun _ => by simp [enc]⟩
instance : ExactRead LinkageType := ⟨.of_law fun _ => by simp [enc]⟩
instance : ExactRead Signedness := ⟨.of_law fun _ => by simp [enc]⟩
instance : ExactRead StorageClass := ⟨.of_law fun _ => by simp [enc]⟩
instance : ExactRead FunctionParameterAttribute := ⟨.of_law fun _ => by simp [enc]⟩
instance : ExactRead Dim := ⟨.of_law fun _ => by simp [enc]⟩
instance : ExactRead DepthStatus := ⟨.of_law fun _ => by simp [enc]⟩
instance : ExactRead Arrayed := ⟨.of_law fun _ => by simp [enc]⟩
instance : ExactRead MS := ⟨.of_law fun _ => by simp [enc]⟩
instance : ExactRead SampledStatus := ⟨.of_law fun _ => by simp [enc]⟩
instance : ExactRead ImageFormat := ⟨.of_law fun _ => by simp [enc]⟩
instance : ExactRead AccessQualifier := ⟨.of_law fun _ => by simp [enc]⟩
instance : ExactRead LoopControl := ⟨.of_law fun a => by cases h : a.dependency_length <;> simp [enc, h]⟩
instance : ExactRead SourceLanguage := by
  refine ⟨.of_law fun a => ?_⟩
  cases a with
  | Other n =>
    simp only [enc]
    split <;> simp
  | _ => simp [enc]
instance : ExactRead BranchWeights := ⟨.of_law fun _ => by simp [enc]⟩
instance : ExactRead PhiArg := ⟨.of_law fun _ => by simp [enc]⟩
instance : ExactRead String := ⟨.of_law fun _ => by simp [enc]⟩
instance : ExactRead ExecutionMode := ⟨.of_law fun a => by cases a <;> simp [enc]⟩
instance : ExactRead Decoration := ⟨.of_law fun a => by cases a <;> simp [enc]⟩

/-- A reader of one word -/
theorem readWord_first : First (fun block => Block.readWord block) := by
  refine ⟨⟨⟨[0], 0, rfl⟩, fun ws h => ?_⟩, fun ws e h hn => ?_⟩
  · cases ws with
    | nil => exact .inr ⟨[0], 0, rfl⟩
    | cons w ws => cases h
  · cases ws <;> cases h
    exact absurd rfl hn
instance : FirstRead UInt32 := ⟨readWord_first⟩
instance : FirstRead OpId := ⟨.any ShortRead.short fun ws _ h => by cases ws <;> cases h; rfl⟩
instance : FirstRead ResultId := ⟨.any ShortRead.short fun ws _ h => by cases ws <;> cases h; rfl⟩
instance : FirstRead SourceVersion := ⟨.any ShortRead.short fun ws _ h => by cases ws <;> cases h; rfl⟩
instance : FirstRead MemberIndex := ⟨.any ShortRead.short fun ws _ h => by cases ws <;> cases h; rfl⟩
instance : FirstRead FunctionControl := ⟨.any ShortRead.short fun ws _ h => by cases ws <;> cases h; rfl⟩
instance : FirstRead SourceLanguage := by
  refine ⟨.any ShortRead.short fun ws _ h => ?_⟩
  cases ws with
  | nil => cases h; rfl
  | cons w ws =>
    simp only [MemoryBlockRead.read, Block.readWord, ok_bind] at h
    split at h <;> cases h
instance : FirstRead BranchWeights :=
  ⟨.bind FirstRead.first ExactRead.exact fun _ => .bind FirstRead.first ExactRead.exact fun _ => .pure _⟩
instance : FirstRead PhiArg :=
  ⟨.bind FirstRead.first ExactRead.exact fun _ => .bind FirstRead.first ExactRead.exact fun _ => .pure _⟩

macro "guard_first" : tactic => `(tactic| (
  refine ⟨.word ShortRead.short fun w ws e h hn => ?_⟩
  dsimp only at h ⊢
  split at h
  · rename_i hc
    cases h
    exact ⟨rfl, fun _ => by rw [if_pos hc]⟩
  · cases h))

instance : FirstRead MemoryAccess := by guard_first
instance : FirstRead FpFastMathMode := by guard_first
instance : FirstRead SelectionControl := by guard_first
instance : FirstRead LoopControl := by
  refine ⟨.word ShortRead.short fun w ws e h hn => ?_⟩
  dsimp only at h ⊢
  split at h
  · rename_i hc
    cases h
    exact ⟨rfl, fun _ => by rw [if_pos hc]⟩
  · split at h
    · cases ws with
      | nil => cases h; exact absurd rfl hn
      | cons x ws => cases h
    · cases h

theorem readEnum_first {α : Type} {table : List (UInt32 × α)} {e : UInt32 → ReadError} (hs : Short (readEnum table e))
    (he : ∀ w, refusedWord (e w) = some w) : First (readEnum table e) := by
  refine .word hs fun w ws e' h hn => ?_
  dsimp only at h ⊢
  split at h
  · cases h
  · rename_i hl
    cases h
    exact ⟨he w, fun _ => rfl⟩

instance : FirstRead AddressingModel := ⟨readEnum_first ShortRead.short fun _ => rfl⟩
instance : FirstRead MemoryModel := ⟨readEnum_first ShortRead.short fun _ => rfl⟩
instance : FirstRead ExecutionModel := ⟨readEnum_first ShortRead.short fun _ => rfl⟩
instance : FirstRead Capability := ⟨readEnum_first ShortRead.short fun _ => rfl⟩
instance : FirstRead BuiltIn := ⟨readEnum_first ShortRead.short fun _ => rfl⟩
instance : FirstRead FpRoundingMode := ⟨readEnum_first ShortRead.short fun _ => rfl⟩
instance : FirstRead LinkageType := ⟨readEnum_first ShortRead.short fun _ => rfl⟩
instance : FirstRead Signedness := ⟨readEnum_first ShortRead.short fun _ => rfl⟩
instance : FirstRead StorageClass := ⟨readEnum_first ShortRead.short fun _ => rfl⟩
instance : FirstRead FunctionParameterAttribute := ⟨readEnum_first ShortRead.short fun _ => rfl⟩
instance : FirstRead Dim := ⟨readEnum_first ShortRead.short fun _ => rfl⟩
instance : FirstRead DepthStatus := ⟨readEnum_first ShortRead.short fun _ => rfl⟩
instance : FirstRead Arrayed := ⟨readEnum_first ShortRead.short fun _ => rfl⟩
instance : FirstRead MS := ⟨readEnum_first ShortRead.short fun _ => rfl⟩
instance : FirstRead SampledStatus := ⟨readEnum_first ShortRead.short fun _ => rfl⟩
instance : FirstRead ImageFormat := ⟨readEnum_first ShortRead.short fun _ => rfl⟩
instance : FirstRead AccessQualifier := ⟨readEnum_first ShortRead.short fun _ => rfl⟩

instance : FirstRead String := by
  refine ⟨ShortRead.short, fun ws e h hn => ?_⟩
  simp only [MemoryBlockRead.read] at h
  cases hr : readStringLoop ws [] with
  | error e' =>
    rw [hr] at h
    cases h
    exact absurd ((readStringLoop_good ws []).1 e hr) hn
  | ok x =>
    obtain ⟨rest, bytes⟩ := x
    rw [hr, ok_bind] at h
    dsimp only at h
    split at h
    · cases h
    · rename_i hb
      cases h
      obtain ⟨u, more, pad, rfl, hm, hu, hp, h0⟩ := (readStringLoop_good ws []).2 rest bytes hr
      refine ⟨[], u, rest, rfl, ⟨[0], "", rfl⟩, fun x => ?_, .inr ⟨rfl, more, pad, hu, hp, h0, ?_⟩⟩
      rotate_left
      · rintro s rfl
        simp only [List.reverse_nil, List.nil_append] at hm
        subst hm
        rw [fromUTF8?_bytes.mpr rfl] at hb
        cases hb
      rw [List.nil_append]
      simp only [MemoryBlockRead.read]
      have hx : readStringLoop (u ++ x) [] = .ok (x, bytes) := by
        obtain ⟨u', bs, he, hb', hs⟩ := readStringLoop_iff.mp hr
        rw [List.append_cancel_right he]
        exact readStringLoop_iff.mpr ⟨u', bs, rfl, hb', hs⟩
      rw [hx, ok_bind]
      dsimp only
      rw [hb]

theorem list_first {α : Type} [MemoryBlockRead α] [RustSize α] [ShortRead (List α)]
    (h : ∀ (ws : Block) (e : ReadError), (MemoryBlockRead.read ws : R (Block × α)) = fail e → e = .UnexpectedEndOfInstruction) :
    FirstRead (List α) := by
  refine ⟨.any ShortRead.short fun ws e he => ?_⟩
  simp only [MemoryBlockRead.read] at he
  split at he
  · cases he
  · have loop : ∀ (fuel : Nat) (ws : Block) (acc : List α), readVecLoop fuel ws acc = fail e → e = .UnexpectedEndOfInstruction := by
      intro fuel
      induction fuel with
      | zero => intro ws acc h; cases h
      | succ fuel ih =>
        intro ws acc hl
        rw [readVecLoop] at hl
        split at hl
        · cases hr : (MemoryBlockRead.read ws : R (Block × α)) with
          | error e' =>
            rw [hr] at hl
            cases hl
            exact h ws e hr
          | ok p =>
            rw [hr, ok_bind] at hl
            exact ih _ _ hl
        · cases hl
    exact loop _ _ _ he

instance : FirstRead (List OpId) := list_first fun ws _ h => by cases ws <;> cases h; rfl
instance : FirstRead (List UInt32) := list_first fun ws _ h => by cases ws <;> cases h; rfl
instance : FirstRead (List PhiArg) := list_first fun ws _ h => by
  match ws with
  | [] => cases h; rfl
  | [_] => cases h; rfl
  | _ :: _ :: _ => cases h

theorem readHandler_first {α : Type} {table : List (UInt32 × (Block → R (Block × α)))} {e : UInt32 → ReadError}
    (hs : Short (readHandler table e)) (ht : ∀ p ∈ table, First p.2) (he : ∀ w, refusedWord (e w) = some w) :
    First (readHandler table e) := by
  refine ⟨hs, fun ws e' h hn => ?_⟩
  cases ws with
  | nil => cases h; exact absurd rfl hn
  | cons w ws =>
    have step : ∀ vs, readHandler table e (w :: vs) = match table.lookup w with
        | some f => f vs
        | none => fail (e w) := fun vs => rfl
    rw [step] at h
    cases hl : table.lookup w with
    | none =>
      rw [hl] at h
      cases h
      obtain ⟨vs, a, hv⟩ := hs.full
      refine ⟨[], [w], ws, rfl, ⟨vs, a, hv⟩, fun more => ?_, .inl ⟨w, he w, rfl⟩⟩
      show readHandler table e (w :: more) = _
      rw [step, hl]
    | some f =>
      rw [hl] at h
      obtain ⟨p, q, rest, rfl, ⟨more, a, hm⟩, hf, hq⟩ := (ht _ (mem_of_lookup hl)).first ws e' h hn
      refine ⟨w :: p, q, rest, rfl, ⟨more, a, ?_⟩, fun more => ?_, hq⟩
      · rw [List.cons_append, step, hl]
        exact hm
      · rw [List.cons_append, List.cons_append, step, hl]
        exact hf more

theorem read1_first {α β : Type} [MemoryBlockRead β] [FirstRead β] (f : β → α) : First (read1 f) :=
  .last FirstRead.first fun _ => ⟨_, fun _ => rfl⟩
theorem read2_first {α β γ : Type} [MemoryBlockRead β] [FirstRead β] [ExactRead β] [MemoryBlockRead γ] [FirstRead γ]
    (f : β → γ → α) : First (read2 f) :=
  .bind FirstRead.first ExactRead.exact fun _ => .last FirstRead.first fun _ => ⟨_, fun _ => rfl⟩
theorem read3_first {α β γ δ : Type} [MemoryBlockRead β] [FirstRead β] [ExactRead β] [MemoryBlockRead γ] [FirstRead γ]
    [ExactRead γ] [MemoryBlockRead δ] [FirstRead δ] (f : β → γ → δ → α) : First (read3 f) :=
  .bind FirstRead.first ExactRead.exact fun _ =>
    .bind FirstRead.first ExactRead.exact fun _ => .last FirstRead.first fun _ => ⟨_, fun _ => rfl⟩

macro "handlers_first" : tactic => `(tactic| (
  repeat' (first
    | exact fun _ h => absurd h List.not_mem_nil
    | refine List.forall_mem_cons.mpr ⟨First.pure _, ?_⟩
    | refine List.forall_mem_cons.mpr ⟨read1_first _, ?_⟩
    | refine List.forall_mem_cons.mpr ⟨read2_first _, ?_⟩
    | refine List.forall_mem_cons.mpr ⟨read3_first _, ?_⟩)))

instance : FirstRead ExecutionMode := by
  refine ⟨readHandler_first ShortRead.short ?_ fun _ => rfl⟩
  unfold executionModeHandlers
  handlers_first

instance : FirstRead Decoration := by
  refine ⟨readHandler_first ShortRead.short ?_ fun _ => rfl⟩
  unfold decorationHandlers
  handlers_first

class OpFirst {α : Type} (read : Block → R (Block × α)) : Prop where
  first : First read

macro "op_first" r:ident : tactic => `(tactic| (
  refine ⟨?_⟩
  unfold $r:ident
  repeat' (first
    | exact First.pure _
    | refine First.bind FirstRead.first ExactRead.exact (fun _ => ?_)
    | refine First.opt (fun _ => ?_) ⟨_, rfl⟩
    | exact First.last FirstRead.first (fun _ => ⟨_, fun _ => rfl⟩))))

instance : OpFirst OpNop.read := by op_first OpNop.read
instance : OpFirst OpUndef.read := by op_first OpUndef.read
instance : OpFirst OpSourceContinued.read := by op_first OpSourceContinued.read
instance : OpFirst OpSource.read := by op_first OpSource.read
instance : OpFirst OpSourceExtension.read := by op_first OpSourceExtension.read
instance : OpFirst OpName.read := by op_first OpName.read
instance : OpFirst OpMemberName.read := by op_first OpMemberName.read
instance : OpFirst OpString.read := by op_first OpString.read
instance : OpFirst OpDecorate.read := by op_first OpDecorate.read
instance : OpFirst OpMemberDecorate.read := by op_first OpMemberDecorate.read
instance : OpFirst OpExtension.read := by op_first OpExtension.read
instance : OpFirst OpMemoryModel.read := by op_first OpMemoryModel.read
instance : OpFirst OpEntryPoint.read := by op_first OpEntryPoint.read
instance : OpFirst OpExecutionMode.read := by op_first OpExecutionMode.read
instance : OpFirst OpCapability.read := by op_first OpCapability.read
instance : OpFirst OpTypeVoid.read := by op_first OpTypeVoid.read
instance : OpFirst OpTypeBool.read := by op_first OpTypeBool.read
instance : OpFirst OpTypeInt.read := by op_first OpTypeInt.read
instance : OpFirst OpTypeFloat.read := by op_first OpTypeFloat.read
instance : OpFirst OpTypeVector.read := by op_first OpTypeVector.read
instance : OpFirst OpTypeMatrix.read := by op_first OpTypeMatrix.read
instance : OpFirst OpTypeImage.read := by op_first OpTypeImage.read
instance : OpFirst OpTypeSampler.read := by op_first OpTypeSampler.read
instance : OpFirst OpTypeSampledImage.read := by op_first OpTypeSampledImage.read
instance : OpFirst OpTypeArray.read := by op_first OpTypeArray.read
instance : OpFirst OpTypeRuntimeArray.read := by op_first OpTypeRuntimeArray.read
instance : OpFirst OpTypeStruct.read := by op_first OpTypeStruct.read
instance : OpFirst OpTypeOpaque.read := by op_first OpTypeOpaque.read
instance : OpFirst OpTypePointer.read := by op_first OpTypePointer.read
instance : OpFirst OpTypeFunction.read := by op_first OpTypeFunction.read
instance : OpFirst OpConstant.read := by op_first OpConstant.read
instance : OpFirst OpConstantComposite.read := by op_first OpConstantComposite.read
instance : OpFirst OpFunction.read := by op_first OpFunction.read
instance : OpFirst OpFunctionParameter.read := by op_first OpFunctionParameter.read
instance : OpFirst OpFunctionEnd.read := by op_first OpFunctionEnd.read
instance : OpFirst OpVariable.read := by op_first OpVariable.read
instance : OpFirst OpLoad.read := by op_first OpLoad.read
instance : OpFirst OpStore.read := by op_first OpStore.read
instance : OpFirst OpAccessChain.read := by op_first OpAccessChain.read
instance : OpFirst OpConvertUToF.read := by op_first OpConvertUToF.read
instance : OpFirst OpPhi.read := by op_first OpPhi.read
instance : OpFirst OpLoopMerge.read := by op_first OpLoopMerge.read
instance : OpFirst OpSelectionMerge.read := by op_first OpSelectionMerge.read
instance : OpFirst OpLabel.read := by op_first OpLabel.read
instance : OpFirst OpBranch.read := by op_first OpBranch.read
instance : OpFirst OpBranchConditional.read := by op_first OpBranchConditional.read
instance : OpFirst OpReturn.read := by op_first OpReturn.read
instance : OpFirst OpBitcast.read := by op_first OpBitcast.read
instance : OpFirst OpIAdd.read := by op_first OpIAdd.read
instance : OpFirst OpFAdd.read := by op_first OpFAdd.read
instance : OpFirst OpISub.read := by op_first OpISub.read
instance : OpFirst OpFSub.read := by op_first OpFSub.read
instance : OpFirst OpIMul.read := by op_first OpIMul.read
instance : OpFirst OpFMul.read := by op_first OpFMul.read
instance : OpFirst OpUDiv.read := by op_first OpUDiv.read
instance : OpFirst OpSDiv.read := by op_first OpSDiv.read
instance : OpFirst OpFDiv.read := by op_first OpFDiv.read
instance : OpFirst OpUMod.read := by op_first OpUMod.read
instance : OpFirst OpSRem.read := by op_first OpSRem.read
instance : OpFirst OpSMod.read := by op_first OpSMod.read
instance : OpFirst OpFRem.read := by op_first OpFRem.read
instance : OpFirst OpFMod.read := by op_first OpFMod.read
instance : OpFirst OpIAddCarry.read := by op_first OpIAddCarry.read
instance : OpFirst OpISubBorrow.read := by op_first OpISubBorrow.read
instance : OpFirst OpUMulExtended.read := by op_first OpUMulExtended.read
instance : OpFirst OpSMulExtended.read := by op_first OpSMulExtended.read
instance : OpFirst OpBitwiseOr.read := by op_first OpBitwiseOr.read
instance : OpFirst OpBitwiseXor.read := by op_first OpBitwiseXor.read
instance : OpFirst OpBitwiseAnd.read := by op_first OpBitwiseAnd.read
instance : OpFirst OpIEqual.read := by op_first OpIEqual.read
instance : OpFirst OpINotEqual.read := by op_first OpINotEqual.read
instance : OpFirst OpUGreaterThan.read := by op_first OpUGreaterThan.read
instance : OpFirst OpSGreaterThan.read := by op_first OpSGreaterThan.read
instance : OpFirst OpUGreaterThanEqual.read := by op_first OpUGreaterThanEqual.read
instance : OpFirst OpSGreaterThanEqual.read := by op_first OpSGreaterThanEqual.read
instance : OpFirst OpULessThan.read := by op_first OpULessThan.read
instance : OpFirst OpSLessThan.read := by op_first OpSLessThan.read
instance : OpFirst OpULessThanEqual.read := by op_first OpULessThanEqual.read
instance : OpFirst OpSLessThanEqual.read := by op_first OpSLessThanEqual.read
instance : OpFirst OpFOrdEqual.read := by op_first OpFOrdEqual.read
instance : OpFirst OpFUnordEqual.read := by op_first OpFUnordEqual.read
instance : OpFirst OpFOrdNotEqual.read := by op_first OpFOrdNotEqual.read
instance : OpFirst OpFUnordNotEqual.read := by op_first OpFUnordNotEqual.read
instance : OpFirst OpFOrdLessThan.read := by op_first OpFOrdLessThan.read
instance : OpFirst OpFUnordLessThan.read := by op_first OpFUnordLessThan.read
instance : OpFirst OpFOrdGreaterThan.read := by op_first OpFOrdGreaterThan.read
instance : OpFirst OpFUnordGreaterThan.read := by op_first OpFUnordGreaterThan.read
instance : OpFirst OpFOrdLessThanEqual.read := by op_first OpFOrdLessThanEqual.read
instance : OpFirst OpFUnordLessThanEqual.read := by op_first OpFUnordLessThanEqual.read
instance : OpFirst OpFOrdGreaterThanEqual.read := by op_first OpFOrdGreaterThanEqual.read
instance : OpFirst OpFUnordGreaterThanEqual.read := by op_first OpFUnordGreaterThanEqual.read
instance : OpFirst readImport := by op_first readImport

end Magma
