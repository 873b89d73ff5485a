import Verif.Proofs.Outline
import Verif.Proofs.Functions
/-! C55 and C56: what validation depends on. -/

namespace Magma.Props
open Spec
variable {X Y : Type}

/-! ### C55 -/

/-- C55: the outcome of validation depends on the roles of the instructions only: modules with the same roles
are accepted with the same outline, or rejected with the same error. -/
theorem C55_roles {raw : RawModule X} {raw' : RawModule Y}
    (h : raw.instructions.map role = raw'.instructions.map role) :
    (validate raw).map outline = (validate raw').map outline := by
  have := validate_same h
  generalize validate raw = v at this
  generalize validate raw' = v' at this
  cases this with
  | ok h => exact congrArg Except.ok h
  | error e => rfl

theorem map_const {α β : Type} {f : α → β} {b : β} {l : List α} (h : ∀ a ∈ l, f a = b) :
    l.map f = List.replicate l.length b := by
  rw [List.map_congr_left h, List.map_const']

/-- The roles of a block -/
def blockRoles (b : Nat × Bool) : List Role :=
  .label :: (List.replicate b.1 .code ++ (if b.2 then [.merge] else []) ++ [.branch])

/-- The roles of a function definition -/
def definitionRoles (d : Nat × List (Nat × Bool)) : List Role :=
  .function :: (List.replicate d.1 .parameter ++ d.2.flatMap blockRoles ++ [.functionEnd])

theorem roles_block {b : BasicBlock X} (h : ∀ v, .OpVariable v ∈ b.code → v.storage_class = .Function) :
    (blockInsts b).map role = blockRoles (b.code.length, b.merge.isSome) := by
  have h1 : b.code.map (role ∘ codeInst) = List.replicate b.code.length .code :=
    map_const (fun g hg => role_code g (fun v e => h v (e ▸ hg)))
  have h2 : role (branchInst b.branch : Core X) = .branch := role_branch _
  simp only [blockInsts, blockRoles, List.map_cons, List.map_append, List.map_map, h1, List.map_nil, h2]
  cases b.merge with
  | none => rfl
  | some m => simp only [Option.toList, List.map_cons, List.map_nil, Function.comp, role_merge]; rfl

theorem roles_definition {d : FunctionDefinition X}
    (h : ∀ b ∈ d.blocks, ∀ v, .OpVariable v ∈ b.code → v.storage_class = .Function) :
    (definitionInsts d).map role = definitionRoles (outlineDefinition d) := by
  have h1 : d.parameters.map (role ∘ (Core.OpFunctionParameter : _ → Core X)) =
    List.replicate d.parameters.length .parameter := map_const (fun _ _ => rfl)
  have h2 : (d.blocks.flatMap blockInsts).map role =
      (d.blocks.map (fun b => (b.code.length, b.merge.isSome))).flatMap blockRoles := by
    rw [List.map_flatMap, List.flatMap_map]
    exact List.flatMap_congr (fun b hb => roles_block (h b hb))
  simp only [definitionInsts, definitionRoles, outlineDefinition, List.map_cons, List.map_append, List.map_map, h1, h2,
    List.map_nil]
  rfl

/-- C55: the outline of an accepted module determines the roles of its instructions, so it is exactly what the
outcome depends on. -/
theorem C55_outline {raw : RawModule X} {raw' : RawModule Y} {m : LogicalModule X} {m' : LogicalModule Y}
    (h : validate raw = .ok m) (h' : validate raw' = .ok m') :
    outline m = outline m' ↔ raw.instructions.map role = raw'.instructions.map role := by
  constructor
  · intro he
    have key {Z : Type} {m : LogicalModule Z} (hp : VariablesPlaced m) : (layout m).map role =
        List.replicate (outline m).capabilities .capability ++ List.replicate (outline m).extensions .extension ++
        List.replicate (outline m).imports .importing ++ [.memoryModel] ++
        List.replicate (outline m).entryPoints .entryPoint ++ List.replicate (outline m).executionModes .executionMode ++
        List.replicate (outline m).debug .debug ++ List.replicate (outline m).annotations .annotation ++
        List.replicate (outline m).globals .global ++
        (outline m).declarations.flatMap (fun n => .function :: (List.replicate n .parameter ++ [.functionEnd])) ++
        (outline m).definitions.flatMap definitionRoles := by
      have h1 : m.capabilities.map (role ∘ (fun c => (.OpCapability { capability := c } : Core Z))) =
        List.replicate m.capabilities.length .capability := map_const (fun _ _ => rfl)
      have h2 : m.extensions.map (role ∘ (fun n => (.OpExtension { name := n } : Core Z))) =
        List.replicate m.extensions.length .extension := map_const (fun _ _ => rfl)
      have h3 : m.ext_inst_imports.map (role ∘ (Core.OpExtInstImport : _ → Core Z)) =
        List.replicate m.ext_inst_imports.length .importing := map_const (fun _ _ => rfl)
      have h4 : m.entry_points.map (role ∘ (Core.OpEntryPoint : _ → Core Z)) =
        List.replicate m.entry_points.length .entryPoint := map_const (fun _ _ => rfl)
      have h5 : m.execution_modes.map (role ∘ (Core.OpExecutionMode : _ → Core Z)) =
        List.replicate m.execution_modes.length .executionMode := map_const (fun _ _ => rfl)
      have h6 : m.debug.map (role ∘ (debugInst : _ → Core Z)) = List.replicate m.debug.length .debug :=
        map_const (fun _ _ => role_debug _)
      have h7 : m.annotations.map (role ∘ (annotationInst : _ → Core Z)) =
        List.replicate m.annotations.length .annotation := map_const (fun _ _ => role_annotation _)
      have h8 : m.globals.map (role ∘ (globalInst : _ → Core Z)) = List.replicate m.globals.length .global :=
        map_const (fun g hg => role_global g (fun v e => hp.inGlobals v (e ▸ hg)))
      have h9 : (m.function_declarations.flatMap (declarationInsts : _ → List (Core Z))).map role =
          (m.function_declarations.map (·.parameters.length)).flatMap
            (fun n => .function :: (List.replicate n .parameter ++ [.functionEnd])) := by
        rw [List.map_flatMap, List.flatMap_map]
        refine List.flatMap_congr (fun d _ => ?_)
        have : d.parameters.map (role ∘ (Core.OpFunctionParameter : _ → Core Z)) =
          List.replicate d.parameters.length .parameter := map_const (fun _ _ => rfl)
        simp only [declarationInsts, List.map_cons, List.map_append, List.map_map, this, List.map_nil]
        rfl
      have h10 : (m.function_definitions.flatMap definitionInsts).map role =
          (m.function_definitions.map outlineDefinition).flatMap definitionRoles := by
        rw [List.map_flatMap, List.flatMap_map]
        exact List.flatMap_congr (fun d hd => roles_definition (hp.inBlocks d hd))
      simp only [layout, outline, List.map_append, List.map_map, h1, h2, h3, h4, h5, h6, h7, h8, h9, h10, List.map_cons,
        List.map_nil]
      rfl
    have hl := (validate_iff raw m).mp h
    have hl' := (validate_iff raw' m').mp h'
    rw [hl.insts_eq, hl'.insts_eq, key hl.placed, key hl'.placed, he]
  · intro he
    have := C55_roles he
    rw [h, h'] at this
    exact Except.ok.inj this

/-- The sample module with other operands -/
def otherOperands : RawModule Empty :=
  { Samples.logicalRaw with
    instructions := layout { Samples.logical with
      capabilities := [.Matrix, .Kernel], memory_model := ⟨.Physical32, .OpenCL⟩
      globals := [.GroupConstant (.OpConstantComposite ⟨⟨9⟩, ⟨9⟩, []⟩), .OpVariable ⟨⟨9⟩, ⟨9⟩, .Uniform, none⟩] } }
example : Samples.logicalRaw.instructions.map role = otherOperands.instructions.map role := by decide
example : Samples.logicalRaw.instructions ≠ otherOperands.instructions := by decide
example : outline Samples.logical =
    ⟨2, 1, 1, 1, 1, 1, 1, 2, [1], [(1, [(1, true), (1, false), (0, false), (1, false)])]⟩ := by decide
/-- A function variable among the globals is a code instruction there: the storage class matters. -/
example : role (.OpVariable ⟨⟨5⟩, ⟨6⟩, .Output, none⟩ : Core Empty) ≠
    role (.OpVariable ⟨⟨5⟩, ⟨6⟩, .Function, none⟩ : Core Empty) := by decide

/-! ### C56 -/

/-- C56: a module is accepted iff it is accepted without its functions and with each of them alone. -/
theorem C56_functions (raw : RawModule X) {up : List (Core X)} {fs : List (List (Core X))}
    (hu : ∀ c ∈ up, role c ≠ .function) (hf : ∀ f ∈ fs, IsFunction f) :
    (∃ m, validate { raw with instructions := up ++ fs.flatten } = .ok m) ↔
      (∃ m, validate { raw with instructions := up } = .ok m) ∧
      ∀ f ∈ fs, ∃ m, validate { raw with instructions := up ++ f } = .ok m := by
  simp only [validate_iff]
  constructor
  · rintro ⟨m, h⟩
    obtain ⟨rfl, rfl, h3, -⟩ := (isLayout_functions hu hf m).mp h
    constructor
    · have := isLayout_with h3 (ds := []) (by simp)
      simp only [List.map_nil, List.flatten_nil, List.append_nil] at this
      exact ⟨_, this⟩
    · intro f hf
      obtain ⟨d, hd, rfl⟩ := List.mem_map.mp hf
      have := isLayout_with h3 (ds := [d]) (by
        intro d' hd'
        cases List.mem_singleton.mp hd'
        exact local_of_placed h3 d hd)
      simp only [List.map_cons, List.map_nil, List.flatten_cons, List.flatten_nil, List.append_nil] at this
      exact ⟨_, this⟩
  · rintro ⟨⟨m, h⟩, h'⟩
    have h : IsLayout (up ++ [].flatten) m := by simpa using h
    obtain ⟨rfl, -, h3, -⟩ := (isLayout_functions (fs := []) hu (by simp) m).mp h
    suffices ∃ ds : List (FunctionDefinition X), fs = ds.map definitionInsts ∧ ∀ d ∈ ds, LocalVariables d by
      obtain ⟨ds, rfl, hds⟩ := this
      exact ⟨_, isLayout_with h3 hds⟩
    clear h
    induction fs with
    | nil => exact ⟨[], rfl, by simp⟩
    | cons f fs ih =>
      obtain ⟨ds, rfl, hds⟩ := ih (fun f hf' => hf f (List.mem_cons_of_mem _ hf'))
        (fun f hf' => h' f (List.mem_cons_of_mem _ hf'))
      obtain ⟨m', hm'⟩ := h' f List.mem_cons_self
      have hm' : IsLayout (upper m ++ [f].flatten) m' := by simpa using hm'
      obtain ⟨-, h5, h6, -⟩ := (isLayout_functions (fs := [f]) hu (by
        intro g hg
        cases List.mem_singleton.mp hg
        exact hf f List.mem_cons_self) m').mp hm'
      cases hfs : functionsOf m' with
      | nil => rw [hfs] at h5; cases h5
      | cons d more =>
        rw [hfs] at h5
        cases more with
        | cons d' more => cases h5
        | nil =>
          cases h5
          refine ⟨d :: ds, rfl, ?_⟩
          intro d' hd'
          rcases List.mem_cons.mp hd' with rfl | hd'
          · exact local_of_placed h6 d' (by rw [hfs]; exact List.mem_cons_self)
          · exact hds d' hd'

/-- C56: each function of an accepted module is read as it is read alone. -/
theorem C56_alone {raw : RawModule X} {up : List (Core X)} {fs : List (List (Core X))}
    (hu : ∀ c ∈ up, role c ≠ .function) (hf : ∀ f ∈ fs, IsFunction f) {m : LogicalModule X}
    (h : validate { raw with instructions := up ++ fs.flatten } = .ok m) :
    List.Forall₂ (fun f d => ∃ m', validate { raw with instructions := up ++ f } = .ok m' ∧ functionsOf m' = [d])
      fs (functionsOf m) := by
  simp only [validate_iff] at h ⊢
  obtain ⟨rfl, rfl, h3, -⟩ := (isLayout_functions hu hf m).mp h
  rw [List.forall₂_map_left_iff, List.forall₂_same]
  intro d hd
  have := isLayout_with h3 (ds := [d]) (by
    intro d' hd'
    cases List.mem_singleton.mp hd'
    exact local_of_placed h3 d hd)
  simp only [List.map_cons, List.map_nil, List.flatten_cons, List.flatten_nil, List.append_nil] at this
  exact ⟨_, this, functionsOf_with m [d]⟩

/-- The sample module, split into what precedes the functions and the two functions -/
example : ∃ up fs, Samples.logicalRaw.instructions = up ++ List.flatten fs ∧ (∀ c ∈ up, role c ≠ .function) ∧
    (∀ f ∈ fs, IsFunction f) ∧ fs.length = 2 ∧ up.length = 11 := by
  refine ⟨upper Samples.logical, (functionsOf Samples.logical).map definitionInsts, rfl, upper_no_function _, ?_, rfl, rfl⟩
  intro f hf
  obtain ⟨d, -, rfl⟩ := List.mem_map.mp hf
  exact isFunction_definition d

end Magma.Props
