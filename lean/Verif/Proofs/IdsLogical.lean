import Verif.Spec.RenameOps
import Verif.Proofs.ValidateModule
import Verif.Proofs.Rename
import Verif.Props.Outline
/-! Lemmas: replacing the ids of a module that is validated. -/

namespace Magma
open Spec
variable {X : Type} {σ : UInt32 → UInt32} [Renames X]

theorem role_ren (c : Core X) : role (renameInst σ c) = role c := by
  cases c <;> rfl

theorem map_ren {α : Type} [Renames α] {g : α → Core X} (h : ∀ a, g (ren σ a) = renameInst σ (g a)) (l : List α) :
    (ren σ l).map g = (l.map g).map (renameInst σ) := by
  show (l.map (ren σ)).map g = _
  rw [List.map_map, List.map_map]
  exact List.map_congr_left fun a _ => h a

theorem flatMap_ren {α : Type} [Renames α] {g : α → List (Core X)} (h : ∀ a, g (ren σ a) = (g a).map (renameInst σ))
    (l : List α) : (ren σ l).flatMap g = (l.flatMap g).map (renameInst σ) := by
  show (l.map (ren σ)).flatMap g = _
  induction l with
  | nil => rfl
  | cons a l ih => simp only [List.map_cons, List.flatMap_cons, List.map_append, h, ih]

theorem debugInst_ren (a : GroupDebug) : debugInst (ren σ a) = renameInst (X := X) σ (debugInst a) := by
  cases a <;> rfl

theorem annotationInst_ren (a : GroupAnnotation) : annotationInst (ren σ a) = renameInst (X := X) σ (annotationInst a) := by
  cases a <;> rfl

theorem globalInst_ren (a : GroupGlobal) : globalInst (ren σ a) = renameInst (X := X) σ (globalInst a) := by
  rcases a with (op | op | op)
  · cases op <;> rfl
  · cases op <;> rfl
  · rfl

theorem codeInst_ren (a : GroupCode X) : codeInst (ren σ a) = renameInst (X := X) σ (codeInst a) := by
  cases a <;> rfl

theorem mergeInst_ren (a : GroupMerge) : mergeInst (ren σ a) = renameInst (X := X) σ (mergeInst a) := by
  cases a <;> rfl

theorem branchInst_ren (a : GroupBranch) : branchInst (ren σ a) = renameInst (X := X) σ (branchInst a) := by
  cases a <;> rfl

theorem blockInsts_ren (b : BasicBlock X) : blockInsts (ren σ b) = (blockInsts b).map (renameInst σ) := by
  obtain ⟨label, code, merge, branch⟩ := b
  show .OpLabel (ren σ label) :: ((ren σ code).map codeInst ++ (ren σ merge).toList.map mergeInst ++
    [branchInst (ren σ branch)]) = _
  simp only [blockInsts, List.map_cons, List.map_append, map_ren codeInst_ren, branchInst_ren]
  cases merge with
  | none => rfl
  | some m =>
    have : (ren σ (some m)).toList = [ren σ m] := rfl
    rw [this]
    simp only [Option.toList, List.map_cons, mergeInst_ren]
    rfl

theorem declarationInsts_ren (d : FunctionDeclaration) :
    declarationInsts (ren σ d) = (declarationInsts d).map (renameInst (X := X) σ) := by
  obtain ⟨f, ps⟩ := d
  show (.OpFunction (ren σ f) :: ((ren σ ps).map .OpFunctionParameter ++ [.OpFunctionEnd {}]) : List (Core X)) = _
  rw [map_ren (fun _ => rfl)]
  simp only [declarationInsts, List.map_cons, List.map_append]
  rfl

theorem definitionInsts_ren (d : FunctionDefinition X) :
    definitionInsts (ren σ d) = (definitionInsts d).map (renameInst (X := X) σ) := by
  obtain ⟨f, ps, bs⟩ := d
  show .OpFunction (ren σ f) :: ((ren σ ps).map .OpFunctionParameter ++ (ren σ bs).flatMap blockInsts ++
    [.OpFunctionEnd {}]) = _
  rw [map_ren (fun _ => rfl), flatMap_ren blockInsts_ren]
  simp only [definitionInsts, List.map_cons, List.map_append]
  rfl

theorem layout_ren (m : LogicalModule X) : layout (ren σ m) = (layout m).map (renameInst σ) := by
  obtain ⟨cs, es, is, mm, eps, ems, ds, as, gs, decls, defs⟩ := m
  show cs.map (fun c => .OpCapability { capability := c }) ++ es.map (fun n => .OpExtension { name := n }) ++
    (ren σ is).map .OpExtInstImport ++ [.OpMemoryModel mm] ++ (ren σ eps).map .OpEntryPoint ++
    (ren σ ems).map .OpExecutionMode ++ (ren σ ds).map debugInst ++ (ren σ as).map annotationInst ++
    (ren σ gs).map globalInst ++ (ren σ decls).flatMap declarationInsts ++ (ren σ defs).flatMap definitionInsts = _
  rw [map_ren (l := is) (fun _ => rfl), map_ren (l := eps) (fun _ => rfl), map_ren (l := ems) (fun _ => rfl),
    map_ren debugInst_ren, map_ren annotationInst_ren, map_ren globalInst_ren, flatMap_ren declarationInsts_ren,
    flatMap_ren definitionInsts_ren]
  simp only [layout, List.map_append, List.map_map]
  rfl

theorem placed_ren {m : LogicalModule X} (h : VariablesPlaced m) : VariablesPlaced (ren σ m) where
  inGlobals := by
    intro v hv
    obtain ⟨g, hg, he⟩ := List.mem_map.mp (show _ ∈ m.globals.map (ren σ) from hv)
    rcases g with (op | op | op)
    · cases he
    · cases he
    · cases he; exact h.inGlobals op hg
  inBlocks := by
    intro d hd b hb v hv
    obtain ⟨d, hd', rfl⟩ := List.mem_map.mp (show _ ∈ m.function_definitions.map (ren σ) from hd)
    obtain ⟨b, hb', rfl⟩ := List.mem_map.mp (show _ ∈ d.blocks.map (ren σ) from hb)
    obtain ⟨g, hg, he⟩ := List.mem_map.mp (show _ ∈ b.code.map (ren σ) from hv)
    cases g <;> cases he
    rename_i op
    exact h.inBlocks d hd' b hb' op hg

theorem validate_ren (raw : RawModule X) : validate (renameModule σ raw) = (validate raw).map (ren σ) := by
  cases hv : validate raw with
  | ok m =>
    rw [validate_iff] at hv
    refine (validate_iff _ _).mpr ⟨?_, placed_ren hv.placed, ?_⟩
    · rw [layout_ren, ← hv.insts_eq]; rfl
    · intro d ds he
      have : m.function_definitions.map (ren σ) = d :: ds := he
      cases hd : m.function_definitions with
      | nil => rw [hd] at this; cases this
      | cons d' ds' =>
        rw [hd] at this
        cases this
        intro h0
        exact hv.declared d' ds' hd (List.map_eq_nil_iff.mp h0)
  | error e =>
    have := Props.C55_roles (raw := renameModule σ raw) (raw' := raw) (by
      show (raw.instructions.map (renameInst σ)).map role = _
      rw [List.map_map]
      exact List.map_congr_left fun c _ => role_ren c)
    rw [hv] at this
    cases hv' : validate (renameModule σ raw) with
    | ok m => rw [hv'] at this; cases this
    | error e' => rw [hv'] at this; cases this; rfl

theorem blocks_ren (f : FunctionDefinition X) : (ren σ f).blocks.map (fun b => (labelId b, endOf b)) =
    f.blocks.map (fun b => (σ (labelId b), (endOf b).rename σ)) := by
  show (f.blocks.map (ren σ)).map _ = _
  rw [List.map_map]
  refine List.map_congr_left fun b _ => ?_
  obtain ⟨label, code, merge, branch⟩ := b
  rcases merge with _ | (_ | _) <;> rcases branch with (_ | ⟨_, _, _, _ | _⟩ | _) <;> rfl

end Magma
