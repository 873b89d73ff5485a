import Verif.Spec.Edit
import Verif.Spec.Flow
import Verif.Proofs.Outline
/-! Modules with instructions in the place of others have functions with the same labels and branches. -/

namespace Magma
open Spec
variable {X : Type}

/-- What must stay of an instruction -/
def flowKey (i : Core X) : Option (Core X) := if role i ∈ [Role.label, .merge, .branch] then some i else none

theorem patches_keys {l l' : List (Core X)} (h : List.Forall₂ Patches l l') : l.map flowKey = l'.map flowKey := by
  induction h with
  | nil => rfl
  | @cons i j l l' hij _ ih =>
    rw [List.map_cons, List.map_cons, ih]
    congr 1
    unfold flowKey
    rw [← hij.1]
    split
    · rename_i hr
      rw [hij.2 hr]
    · rfl

theorem patches_roles {l l' : List (Core X)} (h : List.Forall₂ Patches l l') : l.map role = l'.map role := by
  induction h with
  | nil => rfl
  | cons hij _ ih => rw [List.map_cons, List.map_cons, ih, hij.1]

theorem key_merge (g : GroupMerge) : flowKey (mergeInst g : Core X) = some (mergeInst g) := by
  cases g <;> rfl

theorem key_branch (g : GroupBranch) : flowKey (branchInst g : Core X) = some (branchInst g) := by
  cases g <;> rfl

theorem branchInst_inj {g g' : GroupBranch} (h : (branchInst g : Core X) = branchInst g') : g = g' := by
  cases g <;> cases g' <;> cases h <;> rfl

theorem mergeInst_inj {g g' : GroupMerge} (h : (mergeInst g : Core X) = mergeInst g') : g = g' := by
  cases g <;> cases g' <;> cases h <;> rfl

theorem block_length (b : BasicBlock X) : (blockInsts b).length = b.code.length + (if b.merge.isSome then 1 else 0) + 2 := by
  simp only [blockInsts, List.length_cons, List.length_append, List.length_map, List.length_nil]
  cases b.merge <;> simp

theorem block_keys {b b' : BasicBlock X} (hc : b.code.length = b'.code.length) (hm : b.merge.isSome = b'.merge.isSome)
    (h : (blockInsts b).map flowKey = (blockInsts b').map flowKey) : labelId b = labelId b' ∧ endOf b = endOf b' := by
  obtain ⟨bl, bc, bm, bb⟩ := b
  obtain ⟨bl', bc', bm', bb'⟩ := b'
  simp only [blockInsts, List.map_cons, List.map_append, List.map_nil] at h
  obtain ⟨h0, h⟩ := List.cons.inj h
  obtain ⟨h1, h2⟩ := List.append_inj' h rfl
  obtain ⟨-, h1⟩ := List.append_inj h1 (by simpa using hc)
  have h0 : (Core.OpLabel bl : Core X) = .OpLabel bl' := Option.some.inj h0
  cases h0
  have h2 := (List.cons.inj h2).1
  rw [key_branch, key_branch] at h2
  have h2 := branchInst_inj (Option.some.inj h2)
  subst h2
  have h3 : bm = bm' := by
    cases bm with
    | none =>
      cases bm' with
      | none => rfl
      | some g => cases hm
    | some g =>
      cases bm' with
      | none => cases hm
      | some g' =>
        have h1 := (List.cons.inj h1).1
        rw [key_merge, key_merge] at h1
        rw [mergeInst_inj (Option.some.inj h1)]
  subst h3
  exact ⟨rfl, rfl⟩

theorem blocks_keys : ∀ {bs bs' : List (BasicBlock X)},
    bs.map (fun b => (b.code.length, b.merge.isSome)) = bs'.map (fun b => (b.code.length, b.merge.isSome)) →
    (bs.flatMap blockInsts).map flowKey = (bs'.flatMap blockInsts).map flowKey →
    bs.map (fun b => (labelId b, endOf b)) = bs'.map (fun b => (labelId b, endOf b))
  | [], [], _, _ => rfl
  | [], _ :: _, h, _ => by cases h
  | _ :: _, [], h, _ => by cases h
  | b :: bs, b' :: bs', h, hk => by
    obtain ⟨h0, h⟩ := List.cons.inj h
    obtain ⟨h1, h2⟩ := Prod.mk.inj h0
    rw [List.flatMap_cons, List.flatMap_cons, List.map_append, List.map_append] at hk
    obtain ⟨k1, k2⟩ := List.append_inj hk (by rw [List.length_map, List.length_map, block_length, block_length, h1, h2])
    obtain ⟨e1, e2⟩ := block_keys h1 h2 k1
    rw [List.map_cons, List.map_cons, blocks_keys h k2, e1, e2]

theorem definition_length {d d' : FunctionDefinition X} (h : outlineDefinition d = outlineDefinition d') :
    (definitionInsts d).length = (definitionInsts d').length ∧
      (d.blocks.flatMap blockInsts).length = (d'.blocks.flatMap blockInsts).length := by
  obtain ⟨h1, h2⟩ := Prod.mk.inj h
  have key : ∀ {bs bs' : List (BasicBlock X)},
      bs.map (fun b => (b.code.length, b.merge.isSome)) = bs'.map (fun b => (b.code.length, b.merge.isSome)) →
      (bs.flatMap blockInsts).length = (bs'.flatMap blockInsts).length := by
    intro bs
    induction bs with
    | nil =>
      intro bs' h
      cases bs' with
      | nil => rfl
      | cons _ _ => cases h
    | cons b bs ih =>
      intro bs' h
      cases bs' with
      | nil => cases h
      | cons b' bs' =>
        obtain ⟨h0, h⟩ := List.cons.inj h
        obtain ⟨h1, h2⟩ := Prod.mk.inj h0
        rw [List.flatMap_cons, List.flatMap_cons, List.length_append, List.length_append, ih h, block_length, block_length,
          h1, h2]
  refine ⟨?_, key h2⟩
  simp only [definitionInsts, List.length_cons, List.length_append, List.length_map, key h2, h1]

/-- Definitions with the same outlines and instructions that must stay have the same labels and branches. -/
theorem definitions_keys : ∀ {ds ds' : List (FunctionDefinition X)}, ds.map outlineDefinition = ds'.map outlineDefinition →
    (ds.flatMap definitionInsts).map flowKey = (ds'.flatMap definitionInsts).map flowKey →
    List.Forall₂ (fun d d' => d.blocks.map (fun b => (labelId b, endOf b)) = d'.blocks.map (fun b => (labelId b, endOf b)))
      ds ds'
  | [], [], _, _ => .nil
  | [], _ :: _, h, _ => by cases h
  | _ :: _, [], h, _ => by cases h
  | d :: ds, d' :: ds', h, hk => by
    obtain ⟨h0, h⟩ := List.cons.inj h
    obtain ⟨hl, hl'⟩ := definition_length h0
    rw [List.flatMap_cons, List.flatMap_cons, List.map_append, List.map_append] at hk
    obtain ⟨k1, k2⟩ := List.append_inj hk (by rw [List.length_map, List.length_map, hl])
    refine .cons ?_ (definitions_keys h k2)
    obtain ⟨h1, h2⟩ := Prod.mk.inj h0
    simp only [definitionInsts, List.map_cons, List.map_append, List.map_nil] at k1
    obtain ⟨k1, -⟩ := List.append_inj' (List.cons.inj k1).2 rfl
    obtain ⟨-, k1⟩ := List.append_inj k1 (by simpa using h1)
    exact blocks_keys h2 k1

theorem declarations_length {ds ds' : List FunctionDeclaration} (h : ds.map (·.parameters.length) = ds'.map (·.parameters.length)) :
    (ds.flatMap (declarationInsts (X := X))).length = (ds'.flatMap (declarationInsts (X := X))).length := by
  have e (ds : List FunctionDeclaration) : (ds.flatMap (declarationInsts (X := X))).length =
      ((ds.map (·.parameters.length)).map (· + 2)).sum := by
    rw [List.length_flatMap, List.map_map]
    congr 1
    refine List.map_congr_left fun d _ => ?_
    simp [declarationInsts]
  rw [e, e, h]

theorem layout_keys {m m' : LogicalModule X} (ho : outline m = outline m')
    (h : (layout m).map flowKey = (layout m').map flowKey) :
    List.Forall₂ (fun d d' => d.blocks.map (fun b => (labelId b, endOf b)) = d'.blocks.map (fun b => (labelId b, endOf b)))
      m.function_definitions m'.function_definitions := by
  have o1 := congrArg Outline.capabilities ho
  have o2 := congrArg Outline.extensions ho
  have o3 := congrArg Outline.imports ho
  have o4 := congrArg Outline.entryPoints ho
  have o5 := congrArg Outline.executionModes ho
  have o6 := congrArg Outline.debug ho
  have o7 := congrArg Outline.annotations ho
  have o8 := congrArg Outline.globals ho
  have o9 := congrArg Outline.declarations ho
  have o10 := congrArg Outline.definitions ho
  simp only [outline] at o1 o2 o3 o4 o5 o6 o7 o8 o9 o10
  refine definitions_keys o10 ?_
  unfold layout at h
  rw [List.map_append, List.map_append (l₂ := List.flatMap definitionInsts m'.function_definitions)] at h
  refine (List.append_inj h ?_).2
  simp only [List.length_map, List.length_append, List.length_cons, List.length_nil, declarations_length o9, o1, o2, o3, o4,
    o5, o6, o7, o8]

end Magma
