import Verif.Spec.StandardLayout
import Verif.Proofs.ValidateLayout
/-! Lemmas: the layout of the standard as logical modules. -/

namespace Magma.Standard
open Spec
variable {X : Type}

theorem one_map {p : Part} {l : List (Core X)} : one p (l.map part) ↔ ∃ i, l = [i] ∧ part i = p := by
  constructor
  · intro h
    match l, h with
    | [i], h => exact ⟨i, rfl, (List.cons.inj h).1⟩
    | [], h => cases h
    | _ :: _ :: _, h => cases h
  · rintro ⟨i, rfl, rfl⟩
    rfl

theorem followed_map {a b : Lang} {l : List (Core X)} : (a ⬝ b) (l.map part) ↔
    ∃ us vs, l = us ++ vs ∧ a (us.map part) ∧ b (vs.map part) := by
  constructor
  · rintro ⟨us, vs, h, ha, hb⟩
    obtain ⟨us, vs, rfl, rfl, rfl⟩ := List.map_eq_append_iff.mp h
    exact ⟨us, vs, rfl, ha, hb⟩
  · rintro ⟨us, vs, rfl, ha, hb⟩
    exact ⟨_, _, List.map_append, ha, hb⟩

/-- Any number of things that are something -/
theorem many_map {α : Type} {a : Lang} {f : α → List (Core X)} {Q : α → Prop}
    (h : ∀ l : List (Core X), a (l.map part) ↔ ∃ d, l = f d ∧ Q d) {l : List (Core X)} :
    many a (l.map part) ↔ ∃ ds : List α, l = ds.flatMap f ∧ ∀ d ∈ ds, Q d := by
  constructor
  · rintro ⟨parts, hl, hp⟩
    induction parts generalizing l with
    | nil =>
      have : l = [] := List.map_eq_nil_iff.mp hl
      exact ⟨[], this, fun _ hd => by cases hd⟩
    | cons p parts ih =>
      rw [List.flatten_cons] at hl
      obtain ⟨us, vs, rfl, rfl, hv⟩ := List.map_eq_append_iff.mp hl
      obtain ⟨d, rfl, hq⟩ := (h us).mp (hp _ (List.mem_cons_self ..))
      obtain ⟨ds, rfl, hqs⟩ := ih hv fun p hm => hp p (List.mem_cons_of_mem _ hm)
      exact ⟨d :: ds, rfl, List.forall_mem_cons.mpr ⟨hq, hqs⟩⟩
  · rintro ⟨ds, rfl, hq⟩
    refine ⟨ds.map fun d => (f d).map part, ?_, ?_⟩
    · rw [List.map_flatMap, List.flatMap_def]
    · intro p hp
      obtain ⟨d, hd, rfl⟩ := List.mem_map.mp hp
      exact (h _).mpr ⟨d, rfl, hq d hd⟩

theorem flatMap_single {α β : Type} (f : α → β) (l : List α) : (l.flatMap fun a => [f a]) = l.map f := by
  induction l with
  | nil => rfl
  | cons a l ih => rw [List.flatMap_cons, ih]; rfl

/-- Any number of instructions -/
theorem many_one {α : Type} {a : Lang} {f : α → Core X} {Q : α → Prop}
    (h : ∀ l : List (Core X), a (l.map part) ↔ ∃ i, l = [i] ∧ ∃ d, i = f d ∧ Q d) {l : List (Core X)} :
    many a (l.map part) ↔ ∃ ds : List α, l = ds.map f ∧ ∀ d ∈ ds, Q d := by
  rw [many_map (f := fun d => [f d]) (Q := Q)]
  · simp only [flatMap_single]
  · intro l
    rw [h]
    constructor
    · rintro ⟨_, rfl, d, rfl, hq⟩
      exact ⟨d, rfl, hq⟩
    · rintro ⟨d, rfl, hq⟩
      exact ⟨_, rfl, d, rfl, hq⟩

theorem many_part {α : Type} {p : Part} {f : α → Core X} {Q : α → Prop} (h : ∀ i : Core X, part i = p ↔ ∃ d, i = f d ∧ Q d)
    {l : List (Core X)} : many (one p) (l.map part) ↔ ∃ ds : List α, l = ds.map f ∧ ∀ d ∈ ds, Q d :=
  many_one fun l => by rw [one_map]; simp only [h]

theorem many_part' {α : Type} {p : Part} {f : α → Core X} (h : ∀ i : Core X, part i = p ↔ ∃ d, i = f d)
    {l : List (Core X)} : many (one p) (l.map part) ↔ ∃ ds : List α, l = ds.map f := by
  rw [many_part (f := f) (Q := fun _ => True) (by simpa using h)]
  simp

/-- Not a variable of a function -/
def isGlobal (g : GroupGlobal) : Prop := ∀ v, g = .OpVariable v → v.storage_class ≠ .Function

/-- A variable of a function if it is a variable -/
def isLocal (g : GroupCode X) : Prop := ∀ v, g = .OpVariable v → v.storage_class = .Function

/-- The instructions of a kind -/
def Says : Part → Core X → Prop
  | .capability, i => ∃ c, i = .OpCapability { capability := c }
  | .extension, i => ∃ c, i = .OpExtension { name := c }
  | .importing, i => ∃ c, i = .OpExtInstImport c
  | .memoryModel, i => ∃ c, i = .OpMemoryModel c
  | .entryPoint, i => ∃ c, i = .OpEntryPoint c
  | .executionMode, i => ∃ c, i = .OpExecutionMode c
  | .source, i => ∃ g, i = debugInst g ∧ ¬ isName g
  | .name, i => ∃ g, i = debugInst g ∧ isName g
  | .annotation, i => ∃ g, i = annotationInst g
  | .global, i => ∃ g, i = globalInst g ∧ isGlobal g
  | .variable false, i => ∃ g, i = globalInst g ∧ isGlobal g
  | .variable true, i => ∃ g, i = codeInst g ∧ isVariable g ∧ isLocal g
  | .phi, i => ∃ g, i = codeInst g ∧ isPhi g ∧ isLocal g
  | .code, i => ∃ g, i = codeInst g ∧ ¬ isVariable g ∧ ¬ isPhi g
  | .function, i => ∃ c, i = .OpFunction c
  | .parameter, i => ∃ c, i = .OpFunctionParameter c
  | .functionEnd, i => i = .OpFunctionEnd {}
  | .label, i => ∃ c, i = .OpLabel c
  | .loopMerge, i => ∃ c, i = mergeInst (.OpLoopMerge c)
  | .selectionMerge, i => ∃ c, i = mergeInst (.OpSelectionMerge c)
  | .branch, i => ∃ c, i = branchInst (.OpBranch c)
  | .conditional, i => ∃ c, i = branchInst (.OpBranchConditional c)
  | .return_, i => ∃ c, i = branchInst (.OpReturn c)

theorem part_variable (v : OpVariable) : part (.OpVariable v : Core X) = .variable (v.storage_class = .Function) := rfl

theorem says (i : Core X) : Says (part i) i := by
  rw [← toCore_ofCore i]
  have hp := placed_ofCore i
  generalize OpByBlock.ofCore i = x at hp ⊢
  cases x with
  | OpCapability | OpExtension | OpExtInstImport | OpMemoryModel | OpEntryPoint | OpExecutionMode | OpFunction
  | OpFunctionParameter | OpLabel => exact ⟨_, rfl⟩
  | OpFunctionEnd => rfl
  | GroupDebug g =>
    cases g <;> first
      | exact ⟨.OpSourceContinued _, rfl, id⟩
      | exact ⟨.OpSource _, rfl, id⟩
      | exact ⟨.OpSourceExtension _, rfl, id⟩
      | exact ⟨.OpString _, rfl, id⟩
      | exact ⟨.OpName _, rfl, trivial⟩
      | exact ⟨.OpMemberName _, rfl, trivial⟩
  | GroupAnnotation g => cases g <;> first | exact ⟨.OpDecorate _, rfl⟩ | exact ⟨.OpMemberDecorate _, rfl⟩
  | GroupMerge g => cases g <;> exact ⟨_, rfl⟩
  | GroupBranch g => cases g <;> exact ⟨_, rfl⟩
  | GroupGlobal g =>
    cases g with
    | GroupType t =>
      have h : part (typeInst t : Core X) = .global := by cases t <;> rfl
      show Says (part (typeInst t : Core X)) _
      rw [h]
      exact ⟨.GroupType t, rfl, fun _ hv => by cases hv⟩
    | GroupConstant c =>
      have h : part (constantInst c : Core X) = .global := by cases c <;> rfl
      show Says (part (constantInst c : Core X)) _
      rw [h]
      exact ⟨.GroupConstant c, rfl, fun _ hv => by cases hv⟩
    | OpVariable v =>
      have hv : v.storage_class ≠ .Function := hp.1 v rfl
      show Says (part (.OpVariable v : Core X)) _
      rw [part_variable, decide_eq_false hv]
      exact ⟨.OpVariable v, rfl, fun _ h => by cases h; exact hv⟩
  | GroupCode g =>
    by_cases hv : isVariable g
    · cases g <;> first | exact hv.elim | skip
      rename_i v
      have hs : v.storage_class = .Function := hp.2 v rfl
      show Says (part (.OpVariable v : Core X)) _
      rw [part_variable, decide_eq_true hs]
      exact ⟨.OpVariable v, rfl, trivial, fun _ h => by cases h; exact hs⟩
    · by_cases hf : isPhi g
      · cases g <;> first | exact hf.elim | skip
        exact ⟨.OpPhi _, rfl, trivial, fun _ h => by cases h⟩
      · have h : part (codeInst g) = .code := by cases g <;> first | rfl | exact absurd trivial hv | exact absurd trivial hf
        show Says (part (codeInst g)) _
        rw [h]
        exact ⟨g, rfl, hv, hf⟩

theorem says_of {p : Part} {i : Core X} (h : part i = p) : Says p i := h ▸ says i

theorem part_of_says {p : Part} (hp : p ≠ .global) (hp' : p ≠ .variable false) {i : Core X} (h : Says p i) : part i = p := by
  cases p with
  | global => exact absurd rfl hp
  | capability | extension | importing | memoryModel | entryPoint | executionMode | function | parameter | label
  | loopMerge | selectionMerge | branch | conditional | return_ => obtain ⟨c, rfl⟩ := h; rfl
  | functionEnd => cases h; rfl
  | annotation => obtain ⟨g, rfl⟩ := h; cases g <;> rfl
  | source => obtain ⟨g, rfl, hg⟩ := h; cases g <;> first | rfl | exact absurd trivial hg
  | name => obtain ⟨g, rfl, hg⟩ := h; cases g <;> first | rfl | exact hg.elim
  | phi => obtain ⟨g, rfl, hg, _⟩ := h; cases g <;> first | exact hg.elim | rfl
  | code =>
    obtain ⟨g, rfl, hg, hg'⟩ := h
    cases g <;> first | rfl | exact absurd trivial hg | exact absurd trivial hg'
  | «variable» b =>
    cases b with
    | false => exact absurd rfl hp'
    | true =>
      obtain ⟨g, rfl, hg, hl⟩ := h
      cases g <;> first | exact hg.elim | skip
      rename_i v
      show part (.OpVariable v : Core X) = _
      rw [part_variable, decide_eq_true (hl v rfl)]

theorem part_iff {p : Part} (hp : p ≠ .global) (hp' : p ≠ .variable false) (i : Core X) : part i = p ↔ Says p i :=
  ⟨says_of, part_of_says hp hp'⟩

theorem part_global (i : Core X) : (part i = .global ∨ part i = .variable false) ↔ ∃ g, i = globalInst g ∧ isGlobal g := by
  constructor
  · rintro (h | h) <;> exact says_of h
  · rintro ⟨g, rfl, hg⟩
    cases g with
    | GroupType t => left; cases t <;> rfl
    | GroupConstant c => left; cases c <;> rfl
    | OpVariable v =>
      right
      show part (.OpVariable v : Core X) = _
      rw [part_variable, decide_eq_false (hg v rfl)]

theorem one_says {p : Part} (hp : p ≠ .global) (hp' : p ≠ .variable false) {l : List (Core X)} :
    one p (l.map part) ↔ ∃ i, l = [i] ∧ Says p i := by
  rw [one_map]
  simp only [part_iff hp hp']

/-- What ends a block -/
theorem ending_iff {l : List (Core X)} : ending (l.map part) ↔ ∃ merge branch,
    l = merge.toList.map mergeInst ++ [branchInst branch] ∧ ∀ label code, Matched (⟨label, code, merge, branch⟩ : BasicBlock X) := by
  have hb {p : Part} {mk : Type} {f : mk → GroupBranch} (hp : p ≠ .global) (hp' : p ≠ .variable false)
      (hs : ∀ i : Core X, Says p i ↔ ∃ c, i = branchInst (f c)) (l : List (Core X)) :
      one p (l.map part) ↔ ∃ c, l = [branchInst (f c)] := by
    rw [one_says hp hp']
    constructor
    · rintro ⟨i, rfl, hi⟩
      obtain ⟨c, rfl⟩ := (hs i).mp hi
      exact ⟨c, rfl⟩
    · rintro ⟨c, rfl⟩
      exact ⟨_, rfl, (hs _).mpr ⟨c, rfl⟩⟩
  have h1 := hb (p := .branch) (f := .OpBranch) (by decide) (by decide) fun _ => Iff.rfl
  have h2 := hb (p := .conditional) (f := .OpBranchConditional) (by decide) (by decide) fun _ => Iff.rfl
  have h3 := hb (p := .return_) (f := .OpReturn) (by decide) (by decide) fun _ => Iff.rfl
  have hm (l : List (Core X)) : one .loopMerge (l.map part) ↔ ∃ c, l = [mergeInst (.OpLoopMerge c)] := by
    rw [one_says (by decide) (by decide)]
    constructor
    · rintro ⟨i, rfl, c, rfl⟩; exact ⟨c, rfl⟩
    · rintro ⟨c, rfl⟩; exact ⟨_, rfl, c, rfl⟩
  have hm' (l : List (Core X)) : one .selectionMerge (l.map part) ↔ ∃ c, l = [mergeInst (.OpSelectionMerge c)] := by
    rw [one_says (by decide) (by decide)]
    constructor
    · rintro ⟨i, rfl, c, rfl⟩; exact ⟨c, rfl⟩
    · rintro ⟨c, rfl⟩; exact ⟨_, rfl, c, rfl⟩
  simp only [ending, either, followed_map, h1, h2, h3, hm, hm']
  constructor
  · rintro (⟨c, rfl⟩ | ⟨c, rfl⟩ | ⟨c, rfl⟩ | ⟨_, _, rfl, ⟨c, rfl⟩, ⟨d, rfl⟩ | ⟨d, rfl⟩⟩ | ⟨_, _, rfl, ⟨c, rfl⟩, d, rfl⟩)
    · exact ⟨none, .OpBranch c, rfl, fun _ _ => trivial⟩
    · exact ⟨none, .OpBranchConditional c, rfl, fun _ _ => trivial⟩
    · exact ⟨none, .OpReturn c, rfl, fun _ _ => trivial⟩
    · exact ⟨some (.OpLoopMerge c), .OpBranch d, rfl, fun _ _ => trivial⟩
    · exact ⟨some (.OpLoopMerge c), .OpBranchConditional d, rfl, fun _ _ => trivial⟩
    · exact ⟨some (.OpSelectionMerge c), .OpBranchConditional d, rfl, fun _ _ => trivial⟩
  · rintro ⟨merge, branch, rfl, h⟩
    have h := h ⟨⟨0⟩⟩ []
    cases merge with
    | none =>
      cases branch with
      | OpBranch c => exact .inl ⟨c, rfl⟩
      | OpBranchConditional c => exact .inr (.inl ⟨c, rfl⟩)
      | OpReturn c => exact .inr (.inr (.inl ⟨c, rfl⟩))
    | some m =>
      cases m with
      | OpLoopMerge m =>
        cases branch with
        | OpBranch c => exact .inr (.inr (.inr (.inl ⟨_, _, rfl, ⟨m, rfl⟩, .inl ⟨c, rfl⟩⟩)))
        | OpBranchConditional c => exact .inr (.inr (.inr (.inl ⟨_, _, rfl, ⟨m, rfl⟩, .inr ⟨c, rfl⟩⟩)))
        | OpReturn c => exact h.elim
      | OpSelectionMerge m =>
        cases branch with
        | OpBranch c => exact h.elim
        | OpBranchConditional c => exact .inr (.inr (.inr (.inr ⟨_, _, rfl, ⟨m, rfl⟩, c, rfl⟩)))
        | OpReturn c => exact h.elim

/-- The variables in the block are those of a function. -/
def Local (b : BasicBlock X) : Prop := ∀ v, .OpVariable v ∈ b.code → v.storage_class = .Function

theorem codes_iff {l : List (Core X)} : many (one .code) (l.map part) ↔
    ∃ gs : List (GroupCode X), l = gs.map codeInst ∧ ∀ g ∈ gs, ¬ isVariable g ∧ ¬ isPhi g :=
  many_part (part_iff (by decide) (by decide))

theorem block_iff {start : Lang} {sort : GroupCode X → Prop} (hs : ∀ l : List (Core X), start (l.map part) ↔
      ∃ gs : List (GroupCode X), l = gs.map codeInst ∧ ∀ g ∈ gs, sort g ∧ isLocal g) (l : List (Core X)) :
    (one .label ⬝ start ⬝ many (one .code) ⬝ ending) (l.map part) ↔
      ∃ b, l = blockInsts b ∧ StartsWith sort b ∧ Local b ∧ Matched b := by
  simp only [followed_map, one_says (p := .label) (by decide) (by decide), hs, codes_iff, ending_iff]
  constructor
  · rintro ⟨_, _, rfl, ⟨_, rfl, label, rfl⟩, _, _, rfl, ⟨ss, rfl, hss⟩, _, _, rfl, ⟨gs, rfl, hgs⟩, merge, branch, rfl, hm⟩
    refine ⟨⟨label, ss ++ gs, merge, branch⟩, ?_, ⟨ss, gs, rfl, fun i hi => (hss i hi).1, hgs⟩, ?_, hm _ _⟩
    · simp [blockInsts]
    · intro v hv
      rcases List.mem_append.mp hv with hv | hv
      · exact (hss _ hv).2 v rfl
      · exact absurd trivial (hgs _ hv).1
  · rintro ⟨⟨label, code, merge, branch⟩, rfl, ⟨ss, gs, hc, hss, hgs⟩, hl, hm⟩
    dsimp only at hc
    subst hc
    refine ⟨[.OpLabel label], _, rfl, ⟨_, rfl, label, rfl⟩, ss.map codeInst, gs.map codeInst ++
      (merge.toList.map mergeInst ++ [branchInst branch]), by simp, ⟨ss, rfl, fun g hg => ⟨hss g hg, ?_⟩⟩,
      _, _, rfl, ⟨gs, rfl, hgs⟩, merge, branch, rfl, fun _ _ => hm⟩
    rintro v rfl
    exact hl v (List.mem_append_left _ hg)

theorem variables_iff (l : List (Core X)) : many (one (.variable true)) (l.map part) ↔
    ∃ gs : List (GroupCode X), l = gs.map codeInst ∧ ∀ g ∈ gs, isVariable g ∧ isLocal g :=
  many_part (part_iff (by decide) (by decide))

theorem phis_iff (l : List (Core X)) : many (one .phi) (l.map part) ↔
    ∃ gs : List (GroupCode X), l = gs.map codeInst ∧ ∀ g ∈ gs, isPhi g ∧ isLocal g :=
  many_part (part_iff (by decide) (by decide))

theorem followed_either {a b c : Lang} {ps : List Part} : (a ⬝ (b ∥ c)) ps ↔ (a ⬝ b) ps ∨ (a ⬝ c) ps := by
  constructor
  · rintro ⟨us, vs, rfl, ha, hb | hc⟩
    · exact .inl ⟨us, vs, rfl, ha, hb⟩
    · exact .inr ⟨us, vs, rfl, ha, hc⟩
  · rintro (⟨us, vs, rfl, ha, h⟩ | ⟨us, vs, rfl, ha, h⟩)
    · exact ⟨us, vs, rfl, ha, .inl h⟩
    · exact ⟨us, vs, rfl, ha, .inr h⟩

theorem firstBlock_iff (l : List (Core X)) : firstBlock (l.map part) ↔
    ∃ b, l = blockInsts b ∧ (StartsWith isVariable b ∨ StartsWith isPhi b) ∧ Local b ∧ Matched b := by
  have h : firstBlock (l.map part) ↔ (one .label ⬝ many (one (.variable true)) ⬝ many (one .code) ⬝ ending) (l.map part) ∨
      (one .label ⬝ many (one .phi) ⬝ many (one .code) ⬝ ending) (l.map part) := by
    constructor
    · rintro ⟨a, b, hab, ha, c, d, rfl, hc | hc, hd⟩
      · exact .inl ⟨a, _, hab, ha, c, d, rfl, hc, hd⟩
      · exact .inr ⟨a, _, hab, ha, c, d, rfl, hc, hd⟩
    · rintro (⟨a, b, hab, ha, c, d, rfl, hc, hd⟩ | ⟨a, b, hab, ha, c, d, rfl, hc, hd⟩)
      · exact ⟨a, _, hab, ha, c, d, rfl, .inl hc, hd⟩
      · exact ⟨a, _, hab, ha, c, d, rfl, .inr hc, hd⟩
  rw [h, block_iff variables_iff, block_iff phis_iff]
  constructor
  · rintro (⟨b, rfl, hs, h⟩ | ⟨b, rfl, hs, h⟩)
    · exact ⟨b, rfl, .inl hs, h⟩
    · exact ⟨b, rfl, .inr hs, h⟩
  · rintro ⟨b, rfl, hs | hs, h⟩
    · exact .inl ⟨b, rfl, hs, h⟩
    · exact .inr ⟨b, rfl, hs, h⟩

theorem nextBlock_iff (l : List (Core X)) : nextBlock (l.map part) ↔
    ∃ b, l = blockInsts b ∧ StartsWith isPhi b ∧ Local b ∧ Matched b := block_iff phis_iff l

theorem parameters_iff {l : List (Core X)} : many (one .parameter) (l.map part) ↔
    ∃ ps : List OpFunctionParameter, l = ps.map .OpFunctionParameter :=
  many_part' (part_iff (by decide) (by decide))

theorem declaration_iff (l : List (Core X)) : declaration (l.map part) ↔ ∃ d, l = declarationInsts d := by
  simp only [declaration, followed_map, one_says (p := .function) (by decide) (by decide), parameters_iff,
    one_says (p := .functionEnd) (by decide) (by decide)]
  constructor
  · rintro ⟨_, _, rfl, ⟨_, rfl, f, rfl⟩, _, _, rfl, ⟨ps, rfl⟩, _, rfl, rfl⟩
    exact ⟨⟨f, ps⟩, rfl⟩
  · rintro ⟨⟨f, ps⟩, rfl⟩
    exact ⟨[.OpFunction f], _, rfl, ⟨_, rfl, f, rfl⟩, _, _, rfl, ⟨ps, rfl⟩, _, rfl, rfl⟩

/-- What is asked of a function -/
def TidyFunction (d : FunctionDefinition X) : Prop :=
  ∃ b bs, d.blocks = b :: bs ∧ ((StartsWith isVariable b ∨ StartsWith isPhi b) ∧ Local b ∧ Matched b) ∧
    ∀ c ∈ bs, StartsWith isPhi c ∧ Local c ∧ Matched c

theorem definition_iff (l : List (Core X)) : definition (l.map part) ↔ ∃ d, l = definitionInsts d ∧ TidyFunction d := by
  simp only [definition, followed_map, one_says (p := .function) (by decide) (by decide), parameters_iff,
    one_says (p := .functionEnd) (by decide) (by decide), firstBlock_iff, many_map nextBlock_iff]
  constructor
  · rintro ⟨_, _, rfl, ⟨_, rfl, f, rfl⟩, _, _, rfl, ⟨ps, rfl⟩, _, _, rfl, ⟨b, rfl, hb⟩, _, _, rfl, ⟨bs, rfl, hbs⟩, _, rfl, rfl⟩
    exact ⟨⟨f, ps, b :: bs⟩, by simp [definitionInsts], b, bs, rfl, hb, hbs⟩
  · rintro ⟨⟨f, ps, _⟩, rfl, b, bs, hd, hb, hbs⟩
    dsimp only at hd
    subst hd
    exact ⟨[.OpFunction f], _, rfl, ⟨_, rfl, f, rfl⟩, ps.map .OpFunctionParameter, blockInsts b ++ (bs.flatMap blockInsts ++
      [.OpFunctionEnd {}]), by simp, ⟨ps, rfl⟩, _, _, rfl, ⟨b, rfl, hb⟩, _, _, rfl, ⟨bs, rfl, hbs⟩, .OpFunctionEnd {}, rfl, rfl⟩

theorem globals_iff {l : List (Core X)} : many (one .global ∥ one (.variable false)) (l.map part) ↔
    ∃ gs : List GroupGlobal, l = gs.map globalInst ∧ ∀ g ∈ gs, isGlobal g := by
  refine many_one fun l => ?_
  simp only [either, one_map]
  constructor
  · rintro (⟨i, rfl, h⟩ | ⟨i, rfl, h⟩)
    · exact ⟨i, rfl, (part_global i).mp (.inl h)⟩
    · exact ⟨i, rfl, (part_global i).mp (.inr h)⟩
  · rintro ⟨i, rfl, h⟩
    rcases (part_global i).mpr h with h | h
    · exact .inl ⟨i, rfl, h⟩
    · exact .inr ⟨i, rfl, h⟩

theorem wholeModule_iff (l : List (Core X)) : wholeModule (l.map part) ↔ ∃ m, IsLayout l m ∧ Tidy m := by
  have hdecl {l : List (Core X)} : many declaration (l.map part) ↔
      ∃ ds : List FunctionDeclaration, l = ds.flatMap declarationInsts := by
    rw [many_map (Q := fun _ => True) (by simpa using declaration_iff)]
    simp
  simp only [wholeModule, followed_map, globals_iff, hdecl, many_map definition_iff,
    one_says (p := .memoryModel) (by decide) (by decide),
    many_part' (part_iff (p := .capability) (by decide) (by decide)),
    many_part' (part_iff (p := .extension) (by decide) (by decide)),
    many_part' (part_iff (p := .importing) (by decide) (by decide)),
    many_part' (part_iff (p := .entryPoint) (by decide) (by decide)),
    many_part' (part_iff (p := .executionMode) (by decide) (by decide)),
    many_part (part_iff (p := .source) (by decide) (by decide)),
    many_part (part_iff (p := .name) (by decide) (by decide)),
    many_part' (part_iff (p := .annotation) (by decide) (by decide))]
  constructor
  · rintro ⟨_, _, rfl, ⟨caps, rfl⟩, _, _, rfl, ⟨exts, rfl⟩, _, _, rfl, ⟨imps, rfl⟩, _, _, rfl, ⟨_, rfl, mm, rfl⟩, _, _, rfl,
      ⟨eps, rfl⟩, _, _, rfl, ⟨modes, rfl⟩, _, _, rfl, ⟨srcs, rfl, hsrc⟩, _, _, rfl, ⟨names, rfl, hnames⟩, _, _, rfl,
      ⟨anns, rfl⟩, _, _, rfl, ⟨gs, rfl, hgs⟩, _, _, rfl, ⟨decls, rfl⟩, defs, rfl, hdefs⟩
    refine ⟨⟨caps, exts, imps, mm, eps, modes, srcs ++ names, anns, gs, decls, defs⟩, ⟨?_, ⟨?_, ?_⟩, ?_⟩, ?_⟩
    · simp [layout]
    · intro v hv
      exact hgs _ hv v rfl
    · intro d hd b hb v hv
      obtain ⟨b', bs, hbs, h1, h2⟩ := hdefs d hd
      rw [hbs] at hb
      rcases List.mem_cons.mp hb with rfl | hb
      · exact h1.2.1 v hv
      · exact (h2 b hb).2.1 v hv
    · intro d ds hd
      obtain ⟨b', bs, hbs, _⟩ := hdefs d (by rw [show defs = d :: ds from hd]; exact List.mem_cons_self ..)
      rw [hbs]
      exact List.cons_ne_nil _ _
    · refine ⟨⟨srcs, names, rfl, hsrc, hnames⟩, ?_, ?_, ?_, ?_⟩
      · intro d hd
        obtain ⟨b', bs, hbs, _⟩ := hdefs d hd
        rw [hbs]
        exact List.cons_ne_nil _ _
      · intro d hd b bs hb
        obtain ⟨b', bs', hbs, h1, _⟩ := hdefs d hd
        rw [hb] at hbs
        cases hbs
        exact h1.1
      · intro d hd b bs hb c hc
        obtain ⟨b', bs', hbs, _, h2⟩ := hdefs d hd
        rw [hb] at hbs
        cases hbs
        exact (h2 c hc).1
      · intro d hd b hb
        obtain ⟨b', bs, hbs, h1, h2⟩ := hdefs d hd
        rw [hbs] at hb
        rcases List.mem_cons.mp hb with rfl | hb
        · exact h1.2.2
        · exact (h2 b hb).2.2
  · rintro ⟨⟨caps, exts, imps, mm, eps, modes, debug, anns, gs, decls, defs⟩, ⟨rfl, ⟨hg, hv⟩, _⟩, ⟨srcs, names, hd, hsrc, hnames⟩,
      hbody, hfirst, hnext, hmerge⟩
    dsimp only at hd hg hv hbody hfirst hnext hmerge
    subst hd
    refine ⟨caps.map _, exts.map _ ++ (imps.map _ ++ ([_] ++ (eps.map _ ++ (modes.map _ ++ (srcs.map debugInst ++
      (names.map debugInst ++ (anns.map _ ++ (gs.map _ ++ (decls.flatMap _ ++ defs.flatMap _))))))))), ?_, ⟨caps, rfl⟩, _, _, rfl,
      ⟨exts, rfl⟩, _, _, rfl, ⟨imps, rfl⟩, _, _, rfl, ⟨_, rfl, mm, rfl⟩, _, _, rfl, ⟨eps, rfl⟩, _, _, rfl, ⟨modes, rfl⟩, _, _,
      rfl, ⟨srcs, rfl, hsrc⟩, _, _, rfl, ⟨names, rfl, hnames⟩, _, _, rfl, ⟨anns, rfl⟩, _, _, rfl, ⟨gs, rfl, ?_⟩, _, _, rfl,
      ⟨decls, rfl⟩, defs, rfl, ?_⟩
    · simp [layout]
    · rintro g hgm v rfl
      exact hg v hgm
    · intro d hd
      cases hb : d.blocks with
      | nil => exact absurd hb (hbody d hd)
      | cons b bs =>
        refine ⟨b, bs, hb, ⟨hfirst d hd b bs hb, hv d hd b (by rw [hb]; exact List.mem_cons_self ..),
          hmerge d hd b (by rw [hb]; exact List.mem_cons_self ..)⟩, fun c hc => ⟨hnext d hd b bs hb c hc,
          hv d hd c (by rw [hb]; exact List.mem_cons_of_mem _ hc), hmerge d hd c (by rw [hb]; exact List.mem_cons_of_mem _ hc)⟩⟩

end Magma.Standard
