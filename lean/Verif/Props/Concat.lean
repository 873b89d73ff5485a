import Verif.Proofs.Concat
import Verif.Props.Instructions
/-! C52: modules one after the other. -/

namespace Magma.Props
open Spec
variable {X : Type}

/-! ### C52 -/

/-- The ids that instructions import sets under -/
def importIds (insts : List (Core X)) : List UInt32 := insts.filterMap fun
  | .OpExtInstImport op => some op.result_id.val
  | _ => none

theorem importIds_mem {insts : List (Core X)} {id : UInt32} :
    id ∈ importIds insts ↔ ∃ op, .OpExtInstImport op ∈ insts ∧ op.result_id.val = id := by
  simp only [importIds, List.mem_filterMap]
  constructor
  · rintro ⟨i, hi, h⟩
    split at h
    · cases h; exact ⟨_, hi, rfl⟩
    · cases h
  · rintro ⟨op, hi, rfl⟩
    exact ⟨_, hi, rfl⟩

theorem importName_none {insts : List (Core X)} {id : UInt32} (h : id ∉ importIds insts) :
    ∀ i ∈ insts, importName id i = none := by
  intro i hi
  unfold importName
  split
  · rename_i op
    split
    · rename_i he
      exact absurd (importIds_mem.mpr ⟨op, hi, he⟩) h
    · rfl
  · rfl

/-- C52: the instructions of two modules with the same header, one after the other, are read as the
instructions of both, exactly if no id is used for an import by both -/
theorem C52_concatenate {known : List (ExtInstSet X)} {header a b : List UInt8} {m n : RawModule X}
    (hl : header.length = 20) (ha : readModule (header ++ a) known = .ok m) (hb : readModule (header ++ b) known = .ok n) :
    readModule (header ++ a ++ b) known = .ok { m with instructions := m.instructions ++ n.instructions } ↔
      ∀ id, ¬ (id ∈ importIds m.instructions ∧ id ∈ importIds n.instructions) := by
  constructor
  · rintro h id ⟨h1, h2⟩
    obtain ⟨op, h1, e1⟩ := importIds_mem.mp h1
    obtain ⟨op', h2, e2⟩ := importIds_mem.mp h2
    obtain ⟨p, q, hm⟩ := List.append_of_mem h1
    obtain ⟨r, s, hn⟩ := List.append_of_mem h2
    refine C14_imports_distinct h (a := op) (b := op') (pre := p) (mid := q ++ r) (post := s) ?_ ?_
    · simp [hm, hn]
    · obtain ⟨⟨x⟩, _⟩ := op
      obtain ⟨⟨y⟩, _⟩ := op'
      exact congrArg ResultId.mk (e1.trans e2.symm)
  · intro hd
    obtain ⟨le, ver, gen, body, hh, rfl, h1, h2, h3, h4⟩ := split_header hl ha
    obtain ⟨le', ver', gen', body', hh', rfl, h1', h2', h3', h4'⟩ := split_header hl hb
    obtain rfl : le = le' := header_inj (hh.symm.trans hh')
    subst hh
    rw [readModule_iff]
    refine ⟨0x07230203 :: ver :: gen :: m.bound :: 0 :: (body ++ body'), ⟨ver, gen, body ++ body', rfl, h1, h2, h3, ?_⟩, ?_⟩
    · refine SpellsBody_append.mpr ⟨body, body', rfl, h4, ?_⟩
      have := SpellsBody_weaken (pre := m.instructions) n.instructions (fun op ho => importName_none fun hm =>
        hd _ ⟨hm, importIds_mem.mpr ⟨op, ho, rfl⟩⟩) h4'
      simpa using this
    · rw [← bytesOf_append, ← bytesOf_append]
      cases le
      · exact .inr rfl
      · exact .inl rfl

/-- C52: if an id is used by both, the first such import of the second module is reported -/
theorem C52_clash {known : List (ExtInstSet X)} {header a b : List UInt8} {m n : RawModule X}
    (hl : header.length = 20) (ha : readModule (header ++ a) known = .ok m) (hb : readModule (header ++ b) known = .ok n)
    {op : OpExtInstImport} {pre post : List (Core X)} (hn : n.instructions = pre ++ .OpExtInstImport op :: post)
    (hop : op.result_id.val ∈ importIds m.instructions)
    (hpre : ∀ id ∈ importIds pre, id ∉ importIds m.instructions) :
    readModule (header ++ a ++ b) known = .error (.err (.DuplicateResultId op.result_id)) := by
  obtain ⟨le, ver, gen, body, hh, rfl, h1, h2, h3, h4⟩ := split_header hl ha
  obtain ⟨le', ver', gen', body', hh', rfl, h1', h2', h3', h4'⟩ := split_header hl hb
  obtain rfl : le = le' := header_inj (hh.symm.trans hh')
  subst hh
  rw [hn, SpellsBody_append] at h4'
  obtain ⟨u, v, rfl, hu, w, rest, rfl, ⟨-, head, ops, rfl, hw, ho⟩, -⟩ := h4'
  obtain ⟨⟨ws', rfl, u', rest', rfl, hs, rfl⟩, hk, -⟩ := ho
  obtain ⟨op', hm, he⟩ := importIds_mem.mp hop
  have hc : Continues known (m.instructions ++ pre) (head :: (op.result_id.val :: (u' ++ []) ++ rest)) []
      (bytesOf le [0x07230203, ver, gen, m.bound, 0] ++ bytesOf le body ++
        bytesOf le (u ++ ((head :: op.result_id.val :: (u' ++ [])) ++ rest))) := by
    refine ⟨le, ver, gen, m.bound, body ++ u, h1, SpellsBody_append.mpr ⟨body, u, rfl, h4, ?_⟩, by simp, ?_⟩
    · have := SpellsBody_weaken (pre := m.instructions) pre (fun o ho => importName_none fun hm =>
        hpre _ (importIds_mem.mpr ⟨o, ho, rfl⟩) hm) hu
      simpa using this
    · rw [← bytesOf_append, ← bytesOf_append]
      simp
  refine C14_duplicate (a := op') (b := op) hc hw rfl hs ?_ (List.mem_append_left _ hm) ?_
  · cases hf : setNamed known op.name with
    | none => exact absurd hf hk
    | some s => exact ⟨s, List.mem_of_find?_eq_some hf, by simpa using List.find?_some hf⟩
  · obtain ⟨⟨x⟩, _⟩ := op
    obtain ⟨⟨y⟩, _⟩ := op'
    exact congrArg ResultId.mk he

example : readModule (Samples.header ++ Samples.importWords ++ (Samples.voidWords ++ Samples.modelWords)) Samples.sets =
    .ok { version := ⟨1, 0⟩, generator := ⟨.KhronosGlslang, 1⟩, bound := 20,
          instructions := [.OpExtInstImport ⟨⟨1⟩, "GLSL.std.450"⟩] ++
            [.OpTypeVoid ⟨⟨2⟩⟩, .OpMemoryModel ⟨.Logical, .Glsl450⟩] } :=
  (C52_concatenate (by rfl) (m := ⟨⟨1, 0⟩, ⟨.KhronosGlslang, 1⟩, 20, [.OpExtInstImport ⟨⟨1⟩, "GLSL.std.450"⟩]⟩)
    (n := ⟨⟨1, 0⟩, ⟨.KhronosGlslang, 1⟩, 20, [.OpTypeVoid ⟨⟨2⟩⟩, .OpMemoryModel ⟨.Logical, .Glsl450⟩]⟩)
    (by rfl) (by rfl)).mpr (by rintro id ⟨-, h⟩; cases h)
example : readModule (Samples.header ++ Samples.importWords ++ Samples.importWords) Samples.sets =
    .error (.err (.DuplicateResultId ⟨1⟩)) := by rfl

example : readModule (Samples.header ++ Samples.importWords ++ (Samples.voidWords ++ Samples.importWords)) Samples.sets =
    .error (.err (.DuplicateResultId ⟨1⟩)) :=
  C52_clash (a := Samples.importWords) (b := Samples.voidWords ++ Samples.importWords)
    (m := { Samples.raw with instructions := [.OpExtInstImport ⟨⟨1⟩, "GLSL.std.450"⟩] })
    (n := { Samples.raw with instructions := [.OpTypeVoid ⟨⟨2⟩⟩, .OpExtInstImport ⟨⟨1⟩, "GLSL.std.450"⟩] })
    (op := ⟨⟨1⟩, "GLSL.std.450"⟩) (pre := [.OpTypeVoid ⟨⟨2⟩⟩]) (post := [])
    (by decide) (by rfl) (by rfl) rfl (by decide) (by decide)

end Magma.Props
