import Verif.Proofs.Collapse
import Verif.Spec.Assignment
import Verif.Props.Ids
import Verif.Props.Instructions
/-! C72: static single assignment. -/

namespace Magma.Props
open Spec
variable {X : Type}

/-- A type that is defined twice, and a pointer to a type that is not defined -/
def unassigned : List UInt32 := [0x3000E, 0, 1, 0x20013, 1, 0x20013, 1, 0x40020, 2, 7, 9]

/-- The same, read -/
def unassignedRaw : RawModule Empty :=
  { version := ⟨1, 0⟩, generator := { tool := .KhronosReserved, version := 0 }, bound := 3,
    instructions := [.OpMemoryModel ⟨.Logical, .Glsl450⟩, .OpTypeVoid ⟨⟨1⟩⟩, .OpTypeVoid ⟨⟨1⟩⟩,
      .OpTypePointer ⟨⟨2⟩, .Function, ⟨9⟩⟩] }

/-- C72 is false of the code: a module with an id that is defined twice and an id that is not defined is
read and validated. -/
theorem C72_violated : ∃ (bytes : List UInt8) (raw : RawModule Empty) (m : LogicalModule Empty),
    readModule bytes [] = .ok raw ∧ validate raw = .ok m ∧
    ¬ AssignedOnce raw.instructions ∧ ¬ AllAssigned raw.instructions := by
  refine ⟨bytesOf true (0x07230203 :: 0x10000 :: 0 :: 3 :: 0 :: unassigned), unassignedRaw, _, rfl, rfl, ?_, ?_⟩
  · show ¬ [(1 : UInt32), 1, 2].Nodup
    decide
  · intro h
    have := h (.OpTypePointer ⟨⟨2⟩, .Function, ⟨9⟩⟩) (by simp [unassignedRaw]) 9 ⟨0, by decide⟩
    revert this
    show ¬ (9 : UInt32) ∈ [(1 : UInt32), 1, 2]
    decide

/-- C72, partial: what is checked is that imports have ids of their own, and that the set of an extended
instruction is imported before it. -/
theorem C72_imports_partial {known : List (ExtInstSet X)} {bytes : List UInt8} {raw : RawModule X}
    (h : readModule bytes known = .ok raw) {pre post : List (Core X)} {inst : Core X}
    (hi : raw.instructions = pre ++ inst :: post) :
    (∀ op, inst = .OpExtInstImport op → ∀ op', .OpExtInstImport op' ∈ pre → op'.result_id ≠ op.result_id) ∧
    (∀ op, inst = .OpExtInst op → op.set.val ∈ pre.filterMap resultId) := by
  refine ⟨?_, ?_⟩
  · rintro op rfl op' hop
    obtain ⟨a, b, rfl⟩ := List.append_of_mem hop
    exact C14_imports_distinct h (pre := a) (mid := b) (post := post) (by rw [hi]; simp)
  · rintro op rfl
    obtain ⟨imp, s, number, args, le, head, hm, hid, -⟩ := C15_decoded_by_set h hi
    rw [← hid]
    exact List.mem_filterMap.mpr ⟨_, hm, rfl⟩

/-- C72, partial: and nothing else is. Ids of a module that is read may be replaced by others in any way
that keeps imports apart, also different ids by the same: the module is read just so, and validated just as
before. -/
theorem C72_nothing_else_partial [Renames X] {σ : UInt32 → UInt32} {known : List (ExtInstSet X)}
    (hk : ∀ s ∈ known, TakesIds σ s) {le : Bool} {ver gen bound schema : UInt32} {ws : List UInt32}
    {raw : RawModule X}
    (h : readModule (bytesOf le (0x07230203 :: ver :: gen :: bound :: schema :: ws)) known = .ok raw)
    (hi : ∀ a b, .OpExtInstImport a ∈ raw.instructions → .OpExtInstImport b ∈ raw.instructions →
      σ a.result_id.val = σ b.result_id.val → a.result_id.val = b.result_id.val) :
    readModule (bytesOf le (0x07230203 :: ver :: gen :: bound :: schema :: renameWords σ ws)) known =
      .ok (renameModule σ raw) ∧ validate (renameModule σ raw) = (validate raw).map (ren σ) := by
  refine ⟨?_, C64_validate σ raw⟩
  have ht : ([] : List UInt8).length < 4 := by decide
  rw [← List.append_nil (bytesOf _ _), readModule_bytesOf ht] at h ⊢
  refine headerW_apart hk h ?_
  rintro a b (ha | ⟨op, ho, rfl⟩) (hb | ⟨op', ho', rfl⟩) hab
  · cases ha
  · cases ha
  · cases hb
  · exact hi op op' ho ho' hab

/-- C72: so a module with one import at most that is read and validated is so still when all of its ids
are the same. -/
theorem C72_one_id [Renames X] {id : UInt32} {known : List (ExtInstSet X)}
    (hk : ∀ s ∈ known, TakesIds (fun _ => id) s) {le : Bool} {ver gen bound schema : UInt32} {ws : List UInt32}
    {raw : RawModule X} {m : LogicalModule X}
    (h : readModule (bytesOf le (0x07230203 :: ver :: gen :: bound :: schema :: ws)) known = .ok raw)
    (hv : validate raw = .ok m)
    (hi : ∀ a b, .OpExtInstImport a ∈ raw.instructions → .OpExtInstImport b ∈ raw.instructions → a = b) :
    ∃ raw' m', readModule (bytesOf le (0x07230203 :: ver :: gen :: bound :: schema ::
        renameWords (fun _ => id) ws)) known = .ok raw' ∧ validate raw' = .ok m' ∧
      raw'.instructions = raw.instructions.map (renameInst fun _ => id) := by
  obtain ⟨h1, h2⟩ := C72_nothing_else_partial hk h (fun a b ha hb _ => by rw [hi a b ha hb])
  rw [hv] at h2
  exact ⟨_, _, h1, h2, rfl⟩

/-- Non-vacuity: the sample of C64 is read, with one import. -/
example : ∃ raw, readModule (bytesOf true (0x07230203 :: 0x10000 :: 0 :: 9 :: 0 :: idWords)) [Glsl.instSet] = .ok raw ∧
    (∀ a b, .OpExtInstImport a ∈ raw.instructions → .OpExtInstImport b ∈ raw.instructions → a = b) ∧
    (∀ s ∈ [Glsl.instSet], TakesIds (fun _ => 5) s) := by
  refine ⟨_, rfl, ?_, ?_⟩
  · intro a b ha hb
    simp at ha hb
    rw [ha, hb]
  · intro s hs
    cases List.mem_singleton.mp hs
    exact C64_glsl _

/-- Non-vacuity: ids can be assigned as the standard demands. -/
example : AssignedOnce (X := Empty) [.OpTypeVoid ⟨⟨1⟩⟩, .OpTypePointer ⟨⟨2⟩, .Function, ⟨1⟩⟩] ∧
    AllAssigned (X := Empty) [.OpTypeVoid ⟨⟨1⟩⟩, .OpTypePointer ⟨⟨2⟩, .Function, ⟨1⟩⟩] := by
  refine ⟨by show [(1 : UInt32), 2].Nodup; decide, ?_⟩
  rintro inst hi id ⟨other, h⟩
  show id ∈ [(1 : UInt32), 2]
  simp only [List.mem_cons, List.not_mem_nil, or_false] at hi ⊢
  refine Classical.byContradiction fun hn => h ?_
  have h1 : ¬ (1 : UInt32) = id := fun h => hn (.inl h.symm)
  have h2 : ¬ (2 : UInt32) = id := fun h => hn (.inr h.symm)
  rcases hi with rfl | rfl
  · show Core.OpTypeVoid ⟨⟨if (1 : UInt32) = id then other else 1⟩⟩ = _
    rw [if_neg h1]
  · show Core.OpTypePointer ⟨⟨if (2 : UInt32) = id then other else 2⟩, _, ⟨if (1 : UInt32) = id then other else 1⟩⟩ = _
    rw [if_neg h1, if_neg h2]
    rfl

/-- C72 for the sample of C64 -/
example {pre post : List (Core Glsl.Inst)} {op : OpExtInst Glsl.Inst}
    (h : Samples.raw.instructions = pre ++ .OpExtInst op :: post) : op.set.val ∈ pre.filterMap resultId :=
  (C72_imports_partial Samples.read_bytes h).2 op rfl

end Magma.Props
