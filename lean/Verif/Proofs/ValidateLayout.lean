import Verif.Proofs.ValidateModule
/-! From the groups of instructions back to instructions. -/

namespace Magma
open Spec
variable {X : Type}

def toCore : OpByBlock X → Core X
  | .OpCapability op => .OpCapability op
  | .OpExtension op => .OpExtension op
  | .OpExtInstImport op => .OpExtInstImport op
  | .OpMemoryModel op => .OpMemoryModel op
  | .OpEntryPoint op => .OpEntryPoint op
  | .OpExecutionMode op => .OpExecutionMode op
  | .GroupDebug op => debugInst op
  | .GroupAnnotation op => annotationInst op
  | .GroupGlobal op => globalInst op
  | .OpFunction op => .OpFunction op
  | .OpFunctionParameter op => .OpFunctionParameter op
  | .OpFunctionEnd op => .OpFunctionEnd op
  | .OpLabel op => .OpLabel op
  | .GroupCode op => codeInst op
  | .GroupMerge op => mergeInst op
  | .GroupBranch op => branchInst op

/-- The variable is in the group of its storage class. -/
def Placed (x : OpByBlock X) : Prop :=
  (∀ v, x = .GroupGlobal (.OpVariable v) → v.storage_class ≠ .Function) ∧
  (∀ v, x = .GroupCode (.OpVariable v) → v.storage_class = .Function)

theorem toCore_ofCore (c : Core X) : toCore (OpByBlock.ofCore c) = c := by
  cases c with
  | OpVariable op =>
    simp only [OpByBlock.ofCore, OpByBlock.ofVariable]
    split <;> rfl
  | _ => rfl

theorem placed_ofCore (c : Core X) : Placed (OpByBlock.ofCore c) := by
  cases c with
  | OpVariable op =>
    simp only [OpByBlock.ofCore, OpByBlock.ofVariable]
    split <;> rename_i h
    · constructor
      · intro v hv; cases hv
      · intro v hv; cases hv; exact h
    · constructor
      · intro v hv; cases hv; exact h
      · intro v hv; cases hv
  | _ => constructor <;> (intro v hv; cases hv)

theorem ofCore_toCore {x : OpByBlock X} (h : Placed x) : OpByBlock.ofCore (toCore x) = x := by
  cases x with
  | GroupDebug op => cases op <;> rfl
  | GroupAnnotation op => cases op <;> rfl
  | GroupGlobal op =>
    cases op with
    | GroupType t => cases t <;> rfl
    | GroupConstant t => cases t <;> rfl
    | OpVariable v =>
      have := h.1 v rfl
      simp only [toCore, globalInst, OpByBlock.ofCore, OpByBlock.ofVariable]
  | GroupCode op =>
    cases op with
    | OpVariable v =>
      have := h.2 v rfl
      simp only [toCore, codeInst, OpByBlock.ofCore, OpByBlock.ofVariable, this]
    | _ => rfl
  | GroupMerge op => cases op <;> rfl
  | GroupBranch op => cases op <;> rfl
  | _ => rfl

theorem map_ofCore_eq_iff {l : List (Core X)} {L : List (OpByBlock X)} :
    l.map OpByBlock.ofCore = L ↔ l = L.map toCore ∧ ∀ x ∈ L, Placed x := by
  constructor
  · rintro rfl
    refine ⟨?_, ?_⟩
    · rw [List.map_map]
      have : toCore ∘ OpByBlock.ofCore = (id : Core X → Core X) := funext toCore_ofCore
      rw [this, List.map_id]
    · intro x hx
      obtain ⟨c, -, rfl⟩ := List.mem_map.mp hx
      exact placed_ofCore c
  · rintro ⟨rfl, h⟩
    rw [List.map_map]
    conv => rhs; rw [← List.map_id L]
    exact List.map_congr_left fun x hx => ofCore_toCore (h x hx)

theorem map_toCore_blockHeadB (l : OpLabel) (code : List (GroupCode X)) (merge : Option GroupMerge) :
    (blockHeadB l code merge).map toCore = .OpLabel l :: (code.map codeInst ++ merge.toList.map mergeInst) := by
  simp [blockHeadB, toCore, Function.comp_def]

theorem map_toCore_blockB (b : BasicBlock X) : (blockB b).map toCore = blockInsts b := by
  simp [blockB, blockHeadB, toCore, Function.comp_def, blockInsts]

theorem map_toCore_functionHeadB (f : OpFunction) (params : List OpFunctionParameter) :
    (functionHeadB f params : List (OpByBlock X)).map toCore =
      .OpFunction f :: params.map .OpFunctionParameter := by
  simp [functionHeadB, toCore, Function.comp_def]

theorem map_toCore_blocks (bs : List (BasicBlock X)) :
    (bs.flatMap blockB).map toCore = bs.flatMap blockInsts := by
  simp [List.map_flatMap, map_toCore_blockB]

theorem map_toCore_declarationB (d : FunctionDeclaration) :
    (declarationB d : List (OpByBlock X)).map toCore = declarationInsts d := by
  simp [declarationB, declarationInsts, map_toCore_functionHeadB, toCore]

theorem map_toCore_definitionB (d : FunctionDefinition X) :
    (definitionB d).map toCore = definitionInsts d := by
  simp [definitionB, definitionInsts, map_toCore_functionHeadB, map_toCore_blocks, toCore]

theorem map_toCore_wholeB (s1 : Sec1) (mm : OpMemoryModel) (s2 : Sec2)
    (decls : List FunctionDeclaration) (defs : List (FunctionDefinition X)) :
    (wholeB s1 mm s2 decls defs).map toCore = layout (moduleOf s1 mm s2 decls defs) := by
  simp [wholeB, upperB, topB, Sec1.insts, Sec2.insts, layout, moduleOf, List.map_flatMap,
    map_toCore_declarationB, map_toCore_definitionB, toCore, Function.comp_def]

/-! ### Which variables occur in the groups -/

theorem mem_blockB_code {b : BasicBlock X} {g : GroupCode X} : .GroupCode g ∈ blockB b ↔ g ∈ b.code := by
  simp [blockB, blockHeadB]

theorem mem_blockB_global {b : BasicBlock X} {g : GroupGlobal} : ¬ .GroupGlobal g ∈ blockB b := by
  simp [blockB, blockHeadB]

theorem placed_wholeB {s1 : Sec1} {mm : OpMemoryModel} {s2 : Sec2} {decls : List FunctionDeclaration}
    {defs : List (FunctionDefinition X)} :
    (∀ x ∈ wholeB s1 mm s2 decls defs, Placed x) ↔ VariablesPlaced (moduleOf s1 mm s2 decls defs) := by
  have hg (v : OpVariable) : .GroupGlobal (.OpVariable v) ∈ wholeB s1 mm s2 decls defs ↔
      .OpVariable v ∈ s2.globals := by
    simp [wholeB, upperB, topB, Sec1.insts, Sec2.insts, declarationB, definitionB, functionHeadB,
      mem_blockB_global]
  have hc (v : OpVariable) : .GroupCode (.OpVariable v) ∈ wholeB s1 mm s2 decls defs ↔
      ∃ d ∈ defs, ∃ b ∈ d.blocks, .OpVariable v ∈ b.code := by
    simp [wholeB, upperB, topB, Sec1.insts, Sec2.insts, declarationB, definitionB, functionHeadB,
      mem_blockB_code]
  constructor
  · intro h
    refine ⟨fun v hv => (h _ ((hg v).mpr hv)).1 v rfl, fun d hd b hb v hv => ?_⟩
    exact (h _ ((hc v).mpr ⟨d, hd, b, hb, hv⟩)).2 v rfl
  · rintro ⟨h1, h2⟩ x hx
    refine ⟨?_, ?_⟩
    · rintro v rfl
      exact h1 v ((hg v).mp hx)
    · rintro v rfl
      obtain ⟨d, hd, b, hb, hv⟩ := (hc v).mp hx
      exact h2 d hd b hb v hv

/-- Every logical module is made of its sections. -/
theorem exists_moduleOf (m : LogicalModule X) : ∃ s1 s2, m = moduleOf s1 m.memory_model s2
    m.function_declarations m.function_definitions :=
  ⟨⟨m.capabilities, m.extensions, m.ext_inst_imports⟩,
   ⟨m.entry_points, m.execution_modes, m.debug, m.annotations, m.globals⟩, rfl⟩

theorem isLayout_iff {l : List (Core X)} {s1 : Sec1} {mm : OpMemoryModel} {s2 : Sec2}
    {decls : List FunctionDeclaration} {defs : List (FunctionDefinition X)} :
    IsLayout l (moduleOf s1 mm s2 decls defs) ↔
      l.map OpByBlock.ofCore = wholeB s1 mm s2 decls defs ∧ FirstBody defs := by
  rw [map_ofCore_eq_iff, map_toCore_wholeB, placed_wholeB]
  constructor
  · rintro ⟨h1, h2, h3⟩
    exact ⟨⟨h1, h2⟩, h3⟩
  · rintro ⟨⟨h1, h2⟩, h3⟩
    exact ⟨h1, h2, h3⟩

theorem validate_iff (raw : RawModule X) (m : LogicalModule X) :
    validate raw = .ok m ↔ IsLayout raw.instructions m := by
  constructor
  · intro h
    have hs := validate_shape raw
    rw [h] at hs
    generalize hL : raw.instructions.map OpByBlock.ofCore = L at hs
    cases hs with
    | accepted s1 mm s2 decls defs hb => exact isLayout_iff.mpr ⟨hL, hb⟩
  · intro h
    obtain ⟨s1, s2, hm⟩ := exists_moduleOf m
    rw [hm] at h ⊢
    obtain ⟨h1, h2⟩ := isLayout_iff.mp h
    apply Shape.validate
    rw [h1]
    exact .accepted _ _ _ _ _ h2

end Magma
