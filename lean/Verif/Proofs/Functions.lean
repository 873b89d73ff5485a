import Verif.Spec.Function
import Verif.Props.Validate
/-! Splitting a module into its functions. -/

namespace Magma
open Spec
variable {X : Type}

theorem role_debug (g : GroupDebug) : role (debugInst g : Core X) = .debug := by cases g <;> rfl
theorem role_annotation (g : GroupAnnotation) : role (annotationInst g : Core X) = .annotation := by cases g <;> rfl
theorem role_merge (g : GroupMerge) : role (mergeInst g : Core X) = .merge := by cases g <;> rfl
theorem role_branch (g : GroupBranch) : role (branchInst g : Core X) = .branch := by cases g <;> rfl
theorem role_variable (v : OpVariable) :
    role (.OpVariable v : Core X) = if v.storage_class = .Function then .code else .global := rfl
theorem role_global (g : GroupGlobal) (h : ∀ v, g = .OpVariable v → v.storage_class ≠ .Function) :
    role (globalInst g : Core X) = .global := by
  cases g with
  | GroupType t => cases t <;> rfl
  | GroupConstant c => cases c <;> rfl
  | OpVariable v =>
    show role (.OpVariable v : Core X) = .global
    rw [role_variable, if_neg (h v rfl)]
theorem role_code (g : GroupCode X) (h : ∀ v, g = .OpVariable v → v.storage_class = .Function) :
    role (codeInst g) = .code := by
  cases g
  case OpVariable v =>
    show role (.OpVariable v : Core X) = .code
    rw [role_variable, if_pos (h v rfl)]
  all_goals rfl

/-- Everything before the functions -/
def upper (m : LogicalModule X) : List (Core X) :=
  layout { m with function_declarations := [], function_definitions := [] }

theorem layout_eq (m : LogicalModule X) : layout m = upper m ++ (functionsOf m).flatMap definitionInsts := by
  have h : (declarationInsts : FunctionDeclaration → List (Core X)) =
      fun d => definitionInsts ⟨d.function, d.parameters, []⟩ := by
    funext d
    simp [declarationInsts, definitionInsts]
  simp only [layout, upper, functionsOf, List.flatMap_map, List.flatMap_append, List.flatMap_nil, List.append_nil,
    List.append_assoc, h]

theorem not_function_global (g : GroupGlobal) : role (globalInst g : Core X) ≠ .function ∧
    role (globalInst g : Core X) ≠ .functionEnd := by
  cases g with
  | GroupType t =>
    cases t <;> exact ⟨(by decide : Role.global ≠ .function), (by decide : Role.global ≠ .functionEnd)⟩
  | GroupConstant c =>
    cases c <;> exact ⟨(by decide : Role.global ≠ .function), (by decide : Role.global ≠ .functionEnd)⟩
  | OpVariable v =>
    show role (.OpVariable v : Core X) ≠ _ ∧ role (.OpVariable v : Core X) ≠ _
    rw [role_variable]
    split <;> exact ⟨by decide, by decide⟩

theorem not_function_code (g : GroupCode X) : role (codeInst g) ≠ .function ∧ role (codeInst g) ≠ .functionEnd := by
  cases g
  case OpVariable v =>
    show role (.OpVariable v : Core X) ≠ _ ∧ role (.OpVariable v : Core X) ≠ _
    rw [role_variable]
    split <;> exact ⟨by decide, by decide⟩
  all_goals exact ⟨(by decide : Role.code ≠ .function), (by decide : Role.code ≠ .functionEnd)⟩

theorem upper_no_function (m : LogicalModule X) : ∀ c ∈ upper m, role c ≠ .function := by
  intro c hc
  simp only [upper, layout, List.mem_append, List.mem_map, List.mem_singleton, List.flatMap_nil, List.not_mem_nil,
    or_false] at hc
  rcases hc with (((((((⟨_, -, rfl⟩ | ⟨_, -, rfl⟩) | ⟨_, -, rfl⟩) | rfl) | ⟨_, -, rfl⟩) | ⟨_, -, rfl⟩) | ⟨_, -, rfl⟩) |
    ⟨_, -, rfl⟩) | ⟨_, -, rfl⟩
  · exact (by decide : Role.capability ≠ .function)
  · exact (by decide : Role.extension ≠ .function)
  · exact (by decide : Role.importing ≠ .function)
  · exact (by decide : Role.memoryModel ≠ .function)
  · exact (by decide : Role.entryPoint ≠ .function)
  · exact (by decide : Role.executionMode ≠ .function)
  · rw [role_debug]; decide
  · rw [role_annotation]; decide
  · exact (not_function_global _).1

theorem isFunction_definition (d : FunctionDefinition X) : IsFunction (definitionInsts d) := by
  refine ⟨d.function, d.parameters.map .OpFunctionParameter ++ d.blocks.flatMap blockInsts, rfl, ?_⟩
  intro c hc
  simp only [List.mem_append, List.mem_map, List.mem_flatMap, blockInsts, List.mem_cons] at hc
  rcases hc with ⟨_, -, rfl⟩ | ⟨b, -, rfl | (⟨_, -, rfl⟩ | ⟨_, -, rfl⟩) | rfl | h⟩
  · exact ⟨(by decide : Role.parameter ≠ .function), (by decide : Role.parameter ≠ .functionEnd)⟩
  · exact ⟨(by decide : Role.label ≠ .function), (by decide : Role.label ≠ .functionEnd)⟩
  · exact not_function_code _
  · rw [role_merge]; exact ⟨by decide, by decide⟩
  · rw [role_branch]; exact ⟨by decide, by decide⟩
  · cases h

/-- Splitting at the first element with a property -/
theorem split_unique {α : Type} {P : α → Prop} : ∀ {a b r r' : List α} {e e' : α}, (∀ c ∈ a, ¬ P c) → (∀ c ∈ b, ¬ P c) →
    P e → P e' → a ++ e :: r = b ++ e' :: r' → a = b ∧ e = e' ∧ r = r' := by
  intro a
  induction a with
  | nil =>
    intro b r r' e e' _ hb he he' h
    cases b with
    | nil => cases h; exact ⟨rfl, rfl, rfl⟩
    | cons x b => cases h; exact absurd he (hb _ List.mem_cons_self)
  | cons x a ih =>
    intro b r r' e e' ha hb he he' h
    cases b with
    | nil => cases h; exact absurd he' (ha _ List.mem_cons_self)
    | cons y b =>
      simp only [List.cons_append, List.cons.injEq] at h
      obtain ⟨rfl, h⟩ := h
      obtain ⟨rfl, h'⟩ := ih (fun c hc => ha c (List.mem_cons_of_mem _ hc)) (fun c hc => hb c (List.mem_cons_of_mem _ hc))
        he he' h
      exact ⟨rfl, h'⟩

theorem functions_unique : ∀ {fs gs : List (List (Core X))}, (∀ f ∈ fs, IsFunction f) → (∀ g ∈ gs, IsFunction g) →
    fs.flatten = gs.flatten → fs = gs := by
  intro fs
  induction fs with
  | nil =>
    intro gs _ hg h
    cases gs with
    | nil => rfl
    | cons g gs =>
      obtain ⟨op, body, rfl, -⟩ := hg g List.mem_cons_self
      cases h
  | cons f fs ih =>
    intro gs hf hg h
    obtain ⟨op, body, rfl, hb⟩ := hf f List.mem_cons_self
    cases gs with
    | nil => cases h
    | cons g gs =>
      obtain ⟨op', body', rfl, hb'⟩ := hg g List.mem_cons_self
      simp only [List.flatten_cons, List.cons_append, List.append_assoc, List.nil_append, List.cons.injEq] at h
      obtain ⟨h1, h⟩ := h
      obtain ⟨rfl, -, h⟩ := split_unique (P := fun c => role c = .functionEnd) (fun c hc => (hb c hc).2)
        (fun c hc => (hb' c hc).2) rfl rfl h
      rw [h1, ih (fun f hf' => hf f (List.mem_cons_of_mem _ hf')) (fun g hg' => hg g (List.mem_cons_of_mem _ hg')) h]

theorem upper_unique {up up' : List (Core X)} {fs gs : List (List (Core X))} (hu : ∀ c ∈ up, role c ≠ .function)
    (hu' : ∀ c ∈ up', role c ≠ .function) (hf : ∀ f ∈ fs, IsFunction f) (hg : ∀ g ∈ gs, IsFunction g)
    (h : up ++ fs.flatten = up' ++ gs.flatten) : up = up' ∧ fs = gs := by
  have key : up = up' ∧ fs.flatten = gs.flatten := by
    cases fs with
    | nil =>
      cases gs with
      | nil => simpa using h
      | cons g gs =>
        obtain ⟨op, body, rfl, -⟩ := hg g List.mem_cons_self
        refine absurd rfl (hu (.OpFunction op) ?_)
        simp only [List.flatten_nil, List.append_nil] at h
        rw [h]
        simp
    | cons f fs =>
      obtain ⟨op, body, rfl, -⟩ := hf f List.mem_cons_self
      cases gs with
      | nil =>
        refine absurd rfl (hu' (.OpFunction op) ?_)
        simp only [List.flatten_nil, List.append_nil] at h
        rw [← h]
        simp
      | cons g gs =>
        obtain ⟨op', body', rfl, -⟩ := hg g List.mem_cons_self
        simp only [List.flatten_cons, List.cons_append] at h ⊢
        obtain ⟨h1, h2, h3⟩ := split_unique (P := fun c => role c = .function) hu hu' rfl rfl h
        exact ⟨h1, by rw [h2, h3]⟩
  exact ⟨key.1, functions_unique hf hg key.2⟩

/-- What it means that a module made of functions has the layout -/
theorem isLayout_functions {up : List (Core X)} {fs : List (List (Core X))} (hu : ∀ c ∈ up, role c ≠ .function)
    (hf : ∀ f ∈ fs, IsFunction f) (m : LogicalModule X) : IsLayout (up ++ fs.flatten) m ↔
      up = upper m ∧ fs = (functionsOf m).map definitionInsts ∧ VariablesPlaced m ∧
      ∀ d ds, m.function_definitions = d :: ds → d.blocks ≠ [] := by
  constructor
  · rintro ⟨h1, h2, h3⟩
    rw [layout_eq, List.flatMap_def] at h1
    obtain ⟨h4, h5⟩ := upper_unique hu (upper_no_function m) hf (by
      intro g hg
      obtain ⟨d, -, rfl⟩ := List.mem_map.mp hg
      exact isFunction_definition d) h1
    exact ⟨h4, h5, h2, h3⟩
  · rintro ⟨h1, h2, h3, h4⟩
    refine ⟨?_, h3, h4⟩
    rw [layout_eq, List.flatMap_def, h1, h2]

theorem mem_takeWhile_imp {α : Type} {p : α → Bool} {l : List α} {a : α} (h : a ∈ l.takeWhile p) : p a = true := by
  induction l with
  | nil => cases h
  | cons b l ih =>
    rw [List.takeWhile_cons] at h
    split at h
    · rcases List.mem_cons.mp h with rfl | h
      · assumption
      · exact ih h
    · cases h

/-- The functions with their declarations apart -/
def withFunctions (m : LogicalModule X) (ds : List (FunctionDefinition X)) : LogicalModule X :=
  { m with
    function_declarations := (ds.takeWhile (fun d => d.blocks.isEmpty)).map (fun d => ⟨d.function, d.parameters⟩)
    function_definitions := ds.dropWhile (fun d => d.blocks.isEmpty) }

theorem functionsOf_with (m : LogicalModule X) (ds : List (FunctionDefinition X)) :
    functionsOf (withFunctions m ds) = ds := by
  simp only [functionsOf, withFunctions, List.map_map]
  refine Eq.trans ?_ (List.takeWhile_append_dropWhile (p := fun d : FunctionDefinition X => d.blocks.isEmpty) (l := ds))
  congr 1
  rw [List.map_congr_left (g := id), List.map_id]
  rintro ⟨f, p, b⟩ hd
  have := mem_takeWhile_imp hd
  simp only [List.isEmpty_iff] at this
  subst this
  rfl

theorem upper_with (m : LogicalModule X) (ds : List (FunctionDefinition X)) : upper (withFunctions m ds) = upper m := rfl

theorem dropWhile_head {α : Type} {p : α → Bool} {l : List α} {a : α} {r : List α} (h : l.dropWhile p = a :: r) :
    p a = false := by
  have := List.head?_dropWhile_not p l
  rw [h] at this
  simpa using this

/-- Variables of a function -/
def LocalVariables (d : FunctionDefinition X) : Prop :=
  ∀ b ∈ d.blocks, ∀ v, .OpVariable v ∈ b.code → v.storage_class = .Function

theorem local_of_placed {m : LogicalModule X} (h : VariablesPlaced m) : ∀ d ∈ functionsOf m, LocalVariables d := by
  intro d hd
  simp only [functionsOf, List.mem_append, List.mem_map] at hd
  rcases hd with ⟨d', -, rfl⟩ | hd
  · intro b hb
    cases hb
  · exact h.inBlocks d hd

theorem isLayout_with {m : LogicalModule X} (h : VariablesPlaced m) {ds : List (FunctionDefinition X)}
    (hd : ∀ d ∈ ds, LocalVariables d) :
    IsLayout (upper m ++ (ds.map definitionInsts).flatten) (withFunctions m ds) := by
  refine ⟨?_, ⟨h.inGlobals, ?_⟩, ?_⟩
  · rw [layout_eq, upper_with, functionsOf_with, List.flatMap_def]
  · intro d hd'
    exact hd d ((List.dropWhile_suffix _).subset hd')
  · intro d ds' he
    have := dropWhile_head (p := fun d : FunctionDefinition X => d.blocks.isEmpty) he
    simpa using this

end Magma
