import Verif.Proofs.ErrorSplit
/-! Lemmas: modules one after the other. -/

namespace Magma
open Spec
variable {X : Type}

/-- Instructions can follow more instructions, as long as these import under other ids. -/
theorem SpellsInst_weaken {known : List (ExtInstSet X)} {pre before : List (Core X)} {inst : Core X} {ws : List UInt32}
    (hd : ∀ op, inst = .OpExtInstImport op → ∀ i ∈ pre, importName op.result_id.val i = none)
    (h : SpellsInst known before inst ws) : SpellsInst known (pre ++ before) inst ws := by
  obtain ⟨hs, head, ops, rfl, hh, ho⟩ := h
  refine ⟨hs, head, ops, rfl, hh, ?_⟩
  rcases core_cases inst with ⟨op, rfl⟩ | ⟨op, rfl⟩ | ⟨h1, h2⟩
  · obtain ⟨h1, h2, h3⟩ := ho
    refine ⟨h1, h2, fun i hi => ?_⟩
    rcases List.mem_append.mp hi with hi | hi
    · exact hd op rfl i hi
    · exact h3 i hi
  · obtain ⟨number, args, importer, name, s, h1, h2, h3⟩ := ho
    exact ⟨number, args, importer, name, s, h1, List.mem_append_right _ h2, h3⟩
  · cases inst <;> first | exact ho | exact absurd rfl (h1 _) | exact absurd rfl (h2 _)

theorem SpellsBody_weaken {known : List (ExtInstSet X)} {pre : List (Core X)} (insts : List (Core X)) :
    ∀ {before : List (Core X)} {ws : List UInt32},
    (∀ op, .OpExtInstImport op ∈ insts → ∀ i ∈ pre, importName op.result_id.val i = none) →
    SpellsBody known before insts ws → SpellsBody known (pre ++ before) insts ws := by
  induction insts with
  | nil => intro before ws _ h; exact h
  | cons inst insts ih =>
    intro before ws hd h
    obtain ⟨u, ws', rfl, hi, hb⟩ := h
    refine ⟨u, ws', rfl, SpellsInst_weaken (fun op ho => hd op (ho ▸ List.mem_cons_self)) hi, ?_⟩
    have := ih (fun op ho => hd op (List.mem_cons_of_mem _ ho)) hb
    rwa [← List.append_assoc] at this

/-- An accepted input is words in one of the byte orders, the first five of them the header. -/
theorem split_header {known : List (ExtInstSet X)} {header a : List UInt8} {m : RawModule X}
    (hl : header.length = 20) (h : readModule (header ++ a) known = .ok m) :
    ∃ le ver gen body, header = bytesOf le [0x07230203, ver, gen, m.bound, 0] ∧ a = bytesOf le body ∧
      IsVersionWord ver ∧ m.version = ⟨1, 0⟩ ∧ IsGeneratorWord m.generator gen ∧
      SpellsBody known [] m.instructions body := by
  obtain ⟨ws, ⟨ver, gen, body, rfl, h1, h2, h3, h4⟩, hd⟩ := (readModule_iff _ _ _).mp h
  have hd1 : ∃ le, header ++ a = bytesOf le (0x07230203 :: ver :: gen :: m.bound :: 0 :: body) := by
    rcases hd with h | h
    · exact ⟨true, h⟩
    · exact ⟨false, h⟩
  obtain ⟨le, hb⟩ := hd1
  have hs : (0x07230203 :: ver :: gen :: m.bound :: 0 :: body) = [0x07230203, ver, gen, m.bound, 0] ++ body := rfl
  rw [hs, bytesOf_append] at hb
  obtain ⟨e1, e2⟩ := List.append_inj hb (by rw [hl, bytesOf_length]; rfl)
  exact ⟨le, ver, gen, body, e1, e2, h1, h2, h3, h4⟩

theorem header_inj {le le' : Bool} {ver gen b ver' gen' b' : UInt32}
    (h : bytesOf le [0x07230203, ver, gen, b, 0] = bytesOf le' [0x07230203, ver', gen', b', 0]) : le = le' := by
  cases le <;> cases le' <;> first | rfl | (exfalso; simp [bytesOf, wordBytes] at h)

end Magma
