import Verif.Spec.Outline
import Verif.Model.Parser
import Mathlib.Data.List.Forall2
/-! Validation of two modules with the same roles runs in the same way. -/

namespace Magma
open Spec
variable {X Y : Type}

/-- The same group of the parser -/
inductive SameB : OpByBlock X → OpByBlock Y → Prop where
  | OpCapability (a b) : SameB (.OpCapability a) (.OpCapability b)
  | OpExtension (a b) : SameB (.OpExtension a) (.OpExtension b)
  | OpExtInstImport (a b) : SameB (.OpExtInstImport a) (.OpExtInstImport b)
  | OpMemoryModel (a b) : SameB (.OpMemoryModel a) (.OpMemoryModel b)
  | OpEntryPoint (a b) : SameB (.OpEntryPoint a) (.OpEntryPoint b)
  | OpExecutionMode (a b) : SameB (.OpExecutionMode a) (.OpExecutionMode b)
  | GroupDebug (a b) : SameB (.GroupDebug a) (.GroupDebug b)
  | GroupAnnotation (a b) : SameB (.GroupAnnotation a) (.GroupAnnotation b)
  | GroupGlobal (a b) : SameB (.GroupGlobal a) (.GroupGlobal b)
  | OpFunction (a b) : SameB (.OpFunction a) (.OpFunction b)
  | OpFunctionParameter (a b) : SameB (.OpFunctionParameter a) (.OpFunctionParameter b)
  | OpFunctionEnd (a b) : SameB (.OpFunctionEnd a) (.OpFunctionEnd b)
  | OpLabel (a b) : SameB (.OpLabel a) (.OpLabel b)
  | GroupCode (a b) : SameB (.GroupCode a) (.GroupCode b)
  | GroupMerge (a b) : SameB (.GroupMerge a) (.GroupMerge b)
  | GroupBranch (a b) : SameB (.GroupBranch a) (.GroupBranch b)

/-- The role of a group -/
def roleB : OpByBlock X → Role
  | .OpCapability _ => .capability
  | .OpExtension _ => .extension
  | .OpExtInstImport _ => .importing
  | .OpMemoryModel _ => .memoryModel
  | .OpEntryPoint _ => .entryPoint
  | .OpExecutionMode _ => .executionMode
  | .GroupDebug _ => .debug
  | .GroupAnnotation _ => .annotation
  | .GroupGlobal _ => .global
  | .OpFunction _ => .function
  | .OpFunctionParameter _ => .parameter
  | .OpFunctionEnd _ => .functionEnd
  | .OpLabel _ => .label
  | .GroupCode _ => .code
  | .GroupMerge _ => .merge
  | .GroupBranch _ => .branch

theorem roleB_ofCore (c : Core X) : roleB (OpByBlock.ofCore c) = role c := by
  cases c
  case OpVariable v =>
    simp only [OpByBlock.ofCore, OpByBlock.ofVariable, role, opcode]
    split
    · rename_i h
      rw [if_pos h]
      rfl
    · rename_i h
      rw [if_neg h]
      rfl
  all_goals rfl

theorem sameB_of_role {a : OpByBlock X} {b : OpByBlock Y} (h : roleB a = roleB b) : SameB a b := by
  cases a <;> cases b <;> first | (cases h; done) | constructor

/-- Parsers at the same point -/
structure SameSlice (s : OpSlice X) (t : OpSlice Y) : Prop where
  index : s.index = t.index
  insts : List.Forall₂ SameB s.insts t.insts

/-- Related results, or the same failure -/
inductive SameV {α β : Type} (R : α → β → Prop) : V α → V β → Prop where
  | ok {a b} : R a b → SameV R (.ok a) (.ok b)
  | error (e) : SameV R (.error e) (.error e)

theorem SameV.bind {α β γ δ : Type} {R : α → β → Prop} {S : γ → δ → Prop} {x : V α} {y : V β} {f : α → V γ}
    {g : β → V δ} (h : SameV R x y) (hf : ∀ a b, R a b → SameV S (f a) (g b)) : SameV S (x >>= f) (y >>= g) := by
  cases h with
  | ok h => exact hf _ _ h
  | error e => exact .error e

/-- The same step of `read_many` -/
inductive SamePhase {S T : Type} (R : S → T → Prop) : PhaseResult X S → PhaseResult Y T → Prop where
  | ok {a b s t} : R a b → SameSlice s t → SamePhase R (.ok a s) (.ok b t)
  | next {s t} : SameSlice s t → SamePhase R (.next s) (.next t)
  | err (e) : SamePhase R (.err e) (.err e)

/-- Related values and parsers at the same point -/
def Paired {S T : Type} (R : S → T → Prop) (a : S × OpSlice X) (b : T × OpSlice Y) : Prop :=
  R a.1 b.1 ∧ SameSlice a.2 b.2

/-- Everything is related. -/
def Any {S T : Type} (_ : S) (_ : T) : Prop := True

theorem SameSlice.first {s : OpSlice X} {t : OpSlice Y} (h : SameSlice s t) : Option.Rel SameB s.first t.first := by
  have hl := h.insts.length_eq
  unfold OpSlice.first
  by_cases hi : s.index < s.insts.length
  · rw [dif_pos hi, dif_pos (by rw [← h.index, ← hl]; exact hi)]
    have := List.Forall₂.get h.insts hi (by rw [← hl]; exact hi)
    simp only [List.get_eq_getElem] at this
    simp only [← h.index]
    exact .some this
  · rw [dif_neg hi, dif_neg (by rw [← h.index, ← hl]; exact hi)]
    exact .none

theorem SameSlice.advance {s : OpSlice X} {t : OpSlice Y} (h : SameSlice s t) :
    SameV SameSlice s.advance t.advance := by
  unfold OpSlice.advance
  rw [← h.index, ← h.insts.length_eq]
  split
  · exact .ok ⟨rfl, h.insts⟩
  · exact .error _

theorem SameSlice.remaining {s : OpSlice X} {t : OpSlice Y} (h : SameSlice s t) :
    s.getRemaining = t.getRemaining := by
  unfold OpSlice.getRemaining
  rw [← h.index, ← h.insts.length_eq]

theorem readRest_same {S T : Type} {R : S → T → Prop} {f : OpSlice X → V (PhaseResult X S)}
    {g : OpSlice Y → V (PhaseResult Y T)} (hf : ∀ s t, SameSlice s t → SameV (SamePhase R) (f s) (g t)) :
    ∀ (fuel : Nat) (s : OpSlice X) (t : OpSlice Y) (l : List S) (l' : List T), SameSlice s t → List.Forall₂ R l l' →
      SameV (Paired (List.Forall₂ R)) (readRest f fuel s l) (readRest g fuel t l') := by
  intro fuel
  induction fuel with
  | zero => intro s t l l' _ _; exact .error _
  | succ fuel ih =>
    intro s t l l' h hl
    refine SameV.bind (hf s t h) ?_
    rintro _ _ (⟨hr, hn⟩ | hn | e)
    · exact ih _ _ _ _ hn (.cons hr hl)
    · exact .ok ⟨List.rel_reverse hl, hn⟩
    · exact .error _

theorem readMany_same {S T : Type} {R : S → T → Prop} {f : OpSlice X → V (PhaseResult X S)}
    {g : OpSlice Y → V (PhaseResult Y T)} (hf : ∀ s t, SameSlice s t → SameV (SamePhase R) (f s) (g t))
    {s : OpSlice X} {t : OpSlice Y} (h : SameSlice s t) :
    SameV (Paired (List.Forall₂ R)) (readMany s f) (readMany t g) := by
  unfold readMany
  rw [h.insts.length_eq]
  exact readRest_same hf _ _ _ _ _ h .nil

/-- Readers of one instruction -/
syntax "same_reader" : tactic
macro_rules
  | `(tactic| same_reader) => `(tactic| (
    intro s t h
    have hf := h.first
    generalize s.first = a at hf
    generalize t.first = b at hf
    rcases hf with ⟨hf⟩ | _
    · cases hf <;> first
        | exact .ok (.next h)
        | exact SameV.bind h.advance (fun _ _ h => .ok (.ok trivial h))
    · exact .ok (.next h)))

theorem readCapability_same : ∀ (s : OpSlice X) (t : OpSlice Y), SameSlice s t →
    SameV (SamePhase Any) (readCapability s) (readCapability t) := by
  unfold readCapability
  same_reader

theorem readExtension_same : ∀ (s : OpSlice X) (t : OpSlice Y), SameSlice s t →
    SameV (SamePhase Any) (readExtension s) (readExtension t) := by
  unfold readExtension
  same_reader

theorem readExtInstImport_same : ∀ (s : OpSlice X) (t : OpSlice Y), SameSlice s t →
    SameV (SamePhase Any) (readExtInstImport s) (readExtInstImport t) := by
  unfold readExtInstImport
  same_reader

theorem readEntryPoint_same : ∀ (s : OpSlice X) (t : OpSlice Y), SameSlice s t →
    SameV (SamePhase Any) (readEntryPoint s) (readEntryPoint t) := by
  unfold readEntryPoint
  same_reader

theorem readExecutionMode_same : ∀ (s : OpSlice X) (t : OpSlice Y), SameSlice s t →
    SameV (SamePhase Any) (readExecutionMode s) (readExecutionMode t) := by
  unfold readExecutionMode
  same_reader

theorem readDebug_same : ∀ (s : OpSlice X) (t : OpSlice Y), SameSlice s t →
    SameV (SamePhase Any) (readDebug s) (readDebug t) := by
  unfold readDebug
  same_reader

theorem readAnnotation_same : ∀ (s : OpSlice X) (t : OpSlice Y), SameSlice s t →
    SameV (SamePhase Any) (readAnnotation s) (readAnnotation t) := by
  unfold readAnnotation
  same_reader

theorem readGlobal_same : ∀ (s : OpSlice X) (t : OpSlice Y), SameSlice s t →
    SameV (SamePhase Any) (readGlobal s) (readGlobal t) := by
  unfold readGlobal
  same_reader

theorem readFunctionParameter_same : ∀ (s : OpSlice X) (t : OpSlice Y), SameSlice s t →
    SameV (SamePhase Any) (readFunctionParameter s) (readFunctionParameter t) := by
  unfold readFunctionParameter
  same_reader

theorem readCode_same : ∀ (s : OpSlice X) (t : OpSlice Y), SameSlice s t →
    SameV (SamePhase Any) (readCode s) (readCode t) := by
  unfold readCode
  same_reader

theorem readMemoryModel_same {s : OpSlice X} {t : OpSlice Y} (h : SameSlice s t) :
    SameV (Paired Any) (readMemoryModel s) (readMemoryModel t) := by
  unfold readMemoryModel
  have hf := h.first
  generalize s.first = a at hf
  generalize t.first = b at hf
  rcases hf with ⟨hf⟩ | _
  · cases hf <;> first
      | exact .error _
      | exact SameV.bind h.advance (fun _ _ h => .ok ⟨trivial, h⟩)
  · exact .error _

theorem readBranch_same {s : OpSlice X} {t : OpSlice Y} (h : SameSlice s t) :
    SameV (Paired Any) (readBranch s) (readBranch t) := by
  unfold readBranch OpSlice.getSlot
  have hf := h.first
  rw [h.index]
  generalize s.first = a at hf
  generalize t.first = b at hf
  rcases hf with ⟨hf⟩ | _
  · cases hf <;> first
      | exact .error _
      | exact SameV.bind h.advance (fun _ _ h => .ok ⟨trivial, h⟩)
  · exact .error _

/-- Both present or both absent -/
def BothSome {S T : Type} (a : Option S) (b : Option T) : Prop := a.isSome = b.isSome

theorem readMerge_same {s : OpSlice X} {t : OpSlice Y} (h : SameSlice s t) :
    SameV (Paired BothSome) (readMerge s) (readMerge t) := by
  unfold readMerge
  have hf := h.first
  generalize s.first = a at hf
  generalize t.first = b at hf
  rcases hf with ⟨hf⟩ | _
  · cases hf <;> first
      | exact .ok ⟨rfl, h⟩
      | exact SameV.bind h.advance (fun _ _ h => .ok ⟨rfl, h⟩)
  · exact .ok ⟨rfl, h⟩

/-- Declarations with the same outline -/
def SameDeclaration (a b : FunctionDeclaration) : Prop := a.parameters.length = b.parameters.length

theorem readFunctionDeclaration_same : ∀ (s : OpSlice X) (t : OpSlice Y), SameSlice s t →
    SameV (SamePhase SameDeclaration) (readFunctionDeclaration s) (readFunctionDeclaration t) := by
  intro s t h
  unfold readFunctionDeclaration OpSlice.getSlot
  refine SameV.bind (R := Eq) ?_ ?_
  · rw [h.remaining]
    cases t.getRemaining
    · exact .error _
    · exact .ok rfl
  rintro n _ rfl
  by_cases hn : n < 2
  · rw [if_pos hn, if_pos hn]
    exact .ok (.next h)
  · rw [if_neg hn, if_neg hn]
    have hf := h.first
    rw [h.index]
    generalize s.first = a at hf
    generalize t.first = b at hf
    rcases hf with ⟨hf⟩ | _
    · cases hf <;> try exact .ok (.err _)
      refine SameV.bind h.advance (fun s' t' h' => ?_)
      refine SameV.bind (readMany_same readFunctionParameter_same h') ?_
      rintro ⟨ps, s''⟩ ⟨ps', t''⟩ ⟨hp, h''⟩
      have hf := h''.first
      dsimp only at hf ⊢
      generalize s''.first = a at hf
      generalize t''.first = b at hf
      rcases hf with ⟨hf⟩ | _
      · cases hf <;> first
          | exact .ok (.next h)
          | exact SameV.bind h''.advance (fun _ _ h => .ok (.ok hp.length_eq h))
      · exact .ok (.next h)
    · exact .ok (.err _)

/-- Blocks with the same outline -/
def SameBlock (a : BasicBlock X) (b : BasicBlock Y) : Prop :=
  (a.code.length, a.merge.isSome) = (b.code.length, b.merge.isSome)

theorem readBasicBlock_same : ∀ (s : OpSlice X) (t : OpSlice Y), SameSlice s t →
    SameV (SamePhase SameBlock) (readBasicBlock s) (readBasicBlock t) := by
  intro s t h
  unfold readBasicBlock
  have hf := h.first
  generalize s.first = a at hf
  generalize t.first = b at hf
  rcases hf with ⟨hf⟩ | _
  · cases hf <;> try exact .ok (.next h)
    refine SameV.bind h.advance (fun s' t' h' => ?_)
    refine SameV.bind (readMany_same readCode_same h') ?_
    rintro ⟨ps, s1⟩ ⟨ps', t1⟩ ⟨hp, h1⟩
    refine SameV.bind (readMerge_same h1) ?_
    rintro ⟨m, s2⟩ ⟨m', t2⟩ ⟨hm, h2⟩
    refine SameV.bind (readBranch_same h2) ?_
    rintro ⟨b, s3⟩ ⟨b', t3⟩ ⟨-, h3⟩
    exact .ok (.ok (Prod.ext hp.length_eq hm) h3)
  · exact .ok (.next h)

/-- Definitions with the same outline -/
def SameDefinition (a : FunctionDefinition X) (b : FunctionDefinition Y) : Prop :=
  outlineDefinition a = outlineDefinition b

theorem map_eq_of_forall₂ {S T U : Type} {f : S → U} {g : T → U} {l : List S} {l' : List T}
    (h : List.Forall₂ (fun a b => f a = g b) l l') : l.map f = l'.map g := by
  induction h with
  | nil => rfl
  | cons h _ ih => rw [List.map_cons, List.map_cons, h, ih]

theorem readFunctionDefinition_same : ∀ (s : OpSlice X) (t : OpSlice Y), SameSlice s t →
    SameV (SamePhase SameDefinition) (readFunctionDefinition s) (readFunctionDefinition t) := by
  intro s t h
  unfold readFunctionDefinition OpSlice.getSlot
  refine SameV.bind (R := Eq) ?_ ?_
  · rw [h.remaining]
    cases t.getRemaining
    · exact .error _
    · exact .ok rfl
  rintro n _ rfl
  by_cases hn : n < 2
  · rw [if_pos hn, if_pos hn]
    exact .ok (.next h)
  · rw [if_neg hn, if_neg hn]
    have hf := h.first
    rw [h.index]
    generalize s.first = a at hf
    generalize t.first = b at hf
    rcases hf with ⟨hf⟩ | _
    · cases hf <;> try exact .ok (.err _)
      refine SameV.bind h.advance (fun s' t' h' => ?_)
      refine SameV.bind (readMany_same readFunctionParameter_same h') ?_
      rintro ⟨ps, s1⟩ ⟨ps', t1⟩ ⟨hp, h1⟩
      refine SameV.bind (readMany_same readBasicBlock_same h1) ?_
      rintro ⟨bs, s2⟩ ⟨bs', t2⟩ ⟨hb, h2⟩
      have hf := h2.first
      dsimp only at hf h2 ⊢
      rw [h2.index]
      generalize s2.first = a at hf
      generalize t2.first = b at hf
      rcases hf with ⟨hf⟩ | _
      · cases hf <;> first
          | exact .ok (.err _)
          | exact SameV.bind h2.advance (fun _ _ h =>
              .ok (.ok (Prod.ext hp.length_eq (map_eq_of_forall₂ hb)) h))
      · exact .ok (.err _)
    · exact .ok (.err _)

theorem validate_same {raw : RawModule X} {raw' : RawModule Y}
    (h : raw.instructions.map role = raw'.instructions.map role) :
    SameV (fun m m' => outline m = outline m') (validate raw) (validate raw') := by
  have h0 : SameSlice (OpSlice.new (raw.instructions.map OpByBlock.ofCore))
      (OpSlice.new (raw'.instructions.map OpByBlock.ofCore)) := by
    refine ⟨rfl, ?_⟩
    show List.Forall₂ SameB (raw.instructions.map _) (raw'.instructions.map _)
    rw [List.forall₂_map_left_iff, List.forall₂_map_right_iff]
    rw [← List.forall₂_eq_eq_eq, List.forall₂_map_left_iff, List.forall₂_map_right_iff] at h
    exact h.imp (fun a b h => sameB_of_role (by rw [roleB_ofCore, roleB_ofCore, h]))
  unfold validate
  refine SameV.bind (readMany_same readCapability_same h0) ?_
  rintro ⟨a1, s1⟩ ⟨b1, t1⟩ ⟨e1, h1⟩
  refine SameV.bind (readMany_same readExtension_same h1) ?_
  rintro ⟨a2, s2⟩ ⟨b2, t2⟩ ⟨e2, h2⟩
  refine SameV.bind (readMany_same readExtInstImport_same h2) ?_
  rintro ⟨a3, s3⟩ ⟨b3, t3⟩ ⟨e3, h3⟩
  refine SameV.bind (readMemoryModel_same h3) ?_
  rintro ⟨a4, s4⟩ ⟨b4, t4⟩ ⟨-, h4⟩
  refine SameV.bind (readMany_same readEntryPoint_same h4) ?_
  rintro ⟨a5, s5⟩ ⟨b5, t5⟩ ⟨e5, h5⟩
  refine SameV.bind (readMany_same readExecutionMode_same h5) ?_
  rintro ⟨a6, s6⟩ ⟨b6, t6⟩ ⟨e6, h6⟩
  refine SameV.bind (readMany_same readDebug_same h6) ?_
  rintro ⟨a7, s7⟩ ⟨b7, t7⟩ ⟨e7, h7⟩
  refine SameV.bind (readMany_same readAnnotation_same h7) ?_
  rintro ⟨a8, s8⟩ ⟨b8, t8⟩ ⟨e8, h8⟩
  refine SameV.bind (readMany_same readGlobal_same h8) ?_
  rintro ⟨a9, s9⟩ ⟨b9, t9⟩ ⟨e9, h9⟩
  refine SameV.bind (readMany_same readFunctionDeclaration_same h9) ?_
  rintro ⟨a10, s10⟩ ⟨b10, t10⟩ ⟨e10, h10⟩
  refine SameV.bind (readMany_same readFunctionDefinition_same h10) ?_
  rintro ⟨a11, s11⟩ ⟨b11, t11⟩ ⟨e11, h11⟩
  dsimp only at h11 ⊢
  refine SameV.bind (R := Eq) ?_ ?_
  · rw [h11.remaining]
    cases t11.getRemaining
    · exact .error _
    · exact .ok rfl
  rintro n _ rfl
  unfold OpSlice.getSlot
  rw [h11.index]
  split
  · exact .error _
  · refine .ok ?_
    simp only [outline, Outline.mk.injEq]
    exact ⟨e1.length_eq, e2.length_eq, e3.length_eq, e5.length_eq, e6.length_eq, e7.length_eq, e8.length_eq,
      e9.length_eq, map_eq_of_forall₂ e10, map_eq_of_forall₂ e11⟩

end Magma
