import Verif.Props.Instructions
/-! C60: the GLSL.std.450 set. -/

namespace Magma.Props
open Spec

/-! ### C60 -/

/-- An import of GLSL.std.450 under an id -/
def glslImport (id : UInt32) : Core Glsl.Inst := .OpExtInstImport ⟨⟨id⟩, "GLSL.std.450"⟩

theorem setNamed_glsl {name : String} {s : ExtInstSet Glsl.Inst} (h : setNamed [Glsl.instSet] name = some s) :
    name = "GLSL.std.450" ∧ s = Glsl.instSet := by
  rw [setNamed, List.find?_cons] at h
  split at h
  · rename_i e
    cases h
    exact ⟨(eq_of_beq e).symm, rfl⟩
  · cases h

theorem bound_glsl {before : List (Core Glsl.Inst)} {bd : BoundSets Glsl.Inst} (hinv : Inv [Glsl.instSet] bd before)
    {set : UInt32} (hi : glslImport set ∈ before) : bd.lookup set = some Glsl.instSet :=
  (hinv.some_iff set Glsl.instSet).mpr ⟨glslImport set, "GLSL.std.450", hi, if_pos rfl, by rfl⟩

theorem decode_glsl {before : List (Core Glsl.Inst)} {head rt id set number : UInt32} {args : List UInt32}
    (hh : IsHead 12 (args.length + 5) head) {bd : BoundSets Glsl.Inst} (hinv : Inv [Glsl.instSet] bd before)
    (hi : glslImport set ∈ before) :
    decode head (rt :: id :: set :: number :: args) [Glsl.instSet] bd = (Glsl.readInst number args).bind (fun p =>
      if !p.1.atEnd then fail .InstructionHadExcessData
      else .ok (.OpExtInst ⟨⟨rt⟩, ⟨id⟩, ⟨set⟩, p.2⟩, bd)) := by
  have hf : (opTable Glsl.Inst).lookup 12 = some (.read OpExtInst.readCore) := by rfl
  rw [decode_eq (isHead_opWords hh).2 hf]
  simp only [OpExtInst.readCore, MemoryBlockRead.read, Block.readWord, BoundSets.get, bind, Except.bind, pure, Except.pure,
    bound_glsl hinv hi]
  rw [show Glsl.instSet.readInstruction number args = Glsl.readInst number args from rfl]
  cases Glsl.readInst number args with
  | error e => rfl
  | ok p => rfl

/-- C60: with GLSL.std.450 as the only known set, imports are of that name. -/
theorem C60_imports {bytes : List UInt8} {m : RawModule Glsl.Inst} (h : readModule bytes [Glsl.instSet] = .ok m)
    {op : OpExtInstImport} (ho : .OpExtInstImport op ∈ m.instructions) : op.name = "GLSL.std.450" := by
  obtain ⟨pre, post, hm⟩ := List.append_of_mem ho
  obtain ⟨le, u, w, v, rfl, hs, head, ops, rfl, hh, hr, hn, -⟩ := accepted_inst h hm
  obtain ⟨s, hs⟩ := Option.ne_none_iff_exists'.mp hn
  exact (setNamed_glsl hs).1

/-- C60: an instruction of the set is `Sin`, with number 13, or `Cos`, with number 14, with one operand word, and
comes after an import of GLSL.std.450 under the id it names. -/
theorem C60_instructions {bytes : List UInt8} {m : RawModule Glsl.Inst} (h : readModule bytes [Glsl.instSet] = .ok m)
    {op : OpExtInst Glsl.Inst} {pre post : List (Core Glsl.Inst)} (hm : m.instructions = pre ++ .OpExtInst op :: post) :
    glslImport op.set.val ∈ pre ∧ ∃ le head number x,
      bytesOf le [head, op.result_type.val, op.result_id.val, op.set.val, number, x] <:+: bytes ∧
      (number = 13 ∧ op.instruction = .Sin ⟨⟨x⟩⟩ ∨ number = 14 ∧ op.instruction = .Cos ⟨⟨x⟩⟩) := by
  obtain ⟨imp, s, number, args, le, head, hi, he, hf, hx, hb⟩ := C15_decoded_by_set h hm
  obtain ⟨hn, rfl⟩ := setNamed_glsl hf
  obtain ⟨x, rfl, hv⟩ := Glsl.readInst_ok.mp hx
  refine ⟨?_, le, head, number, x, hb, hv⟩
  obtain ⟨⟨i⟩, name⟩ := imp
  cases he
  cases hn
  exact hi

/-- C60: `Sin` and `Cos` are read from numbers 13 and 14 and a single word. -/
theorem C60_read {before : List (Core Glsl.Inst)} {head rt id set number x : UInt32} {rest : List UInt32}
    {tail bytes : List UInt8} {inst : Glsl.Inst}
    (h : Continues [Glsl.instSet] before (head :: rt :: id :: set :: number :: x :: rest) tail bytes)
    (hh : IsHead 12 6 head) (hi : glslImport set ∈ before)
    (hx : number = 13 ∧ inst = .Sin ⟨⟨x⟩⟩ ∨ number = 14 ∧ inst = .Cos ⟨⟨x⟩⟩) :
    Continues [Glsl.instSet] (before ++ [.OpExtInst ⟨⟨rt⟩, ⟨id⟩, ⟨set⟩, inst⟩]) rest tail bytes := by
  obtain ⟨le, ver, gen, bound, body, h1, h2, h3, rfl⟩ := h
  refine ⟨le, ver, gen, bound, body ++ [head, rt, id, set, number, x], h1, ?_, h3, by simp⟩
  refine SpellsBody_append.mpr ⟨body, _, rfl, h2, [head, rt, id, set, number, x], [], rfl,
    ⟨rfl, head, _, rfl, hh, number, [x], glslImport set, "GLSL.std.450", Glsl.instSet, ⟨_, rfl, _, rfl, _, rfl, rfl⟩, hi,
      if_pos rfl, rfl, ?_⟩, rfl⟩
  exact Glsl.readInst_ok.mpr ⟨x, rfl, hx⟩

/-- C60: with another number of words they are rejected. -/
theorem C60_operands {before : List (Core Glsl.Inst)} {head rt id set number : UInt32} {args rest : List UInt32}
    {tail bytes : List UInt8}
    (h : Continues [Glsl.instSet] before (head :: (rt :: id :: set :: number :: args ++ rest)) tail bytes)
    (hh : IsHead 12 (args.length + 5) head) (hi : glslImport set ∈ before) (hn : number = 13 ∨ number = 14) :
    (args = [] → readModule bytes [Glsl.instSet] = .error (.err .UnexpectedEndOfInstruction)) ∧
      (2 ≤ args.length → readModule bytes [Glsl.instSet] = .error (.err .InstructionHadExcessData)) := by
  constructor
  · rintro rfl
    refine Continues_error h (isHead_opWords hh).1.symm fun bd hinv => ?_
    rw [decode_glsl hh hinv hi]
    rcases hn with rfl | rfl <;> rfl
  · intro hl
    refine Continues_error h (isHead_opWords hh).1.symm fun bd hinv => ?_
    rw [decode_glsl hh hinv hi]
    match args with
    | x :: y :: l => rcases hn with rfl | rfl <;> rfl

/-- C60: every other number is unknown in the set. -/
theorem C60_unknown {before : List (Core Glsl.Inst)} {head rt id set number : UInt32} {args rest : List UInt32}
    {tail bytes : List UInt8}
    (h : Continues [Glsl.instSet] before (head :: (rt :: id :: set :: number :: args ++ rest)) tail bytes)
    (hh : IsHead 12 (args.length + 5) head) (hi : glslImport set ∈ before) (h1 : number ≠ 13) (h2 : number ≠ 14) :
    readModule bytes [Glsl.instSet] = .error (.err (.UnknownExtInstOp "GLSL.std.450" number)) := by
  refine Continues_error h (isHead_opWords hh).1.symm fun bd hinv => ?_
  rw [decode_glsl hh hinv hi, Glsl.readInst, if_neg h1, if_neg h2]
  rfl

/-- An import of the set, and nothing else -/
theorem continues_import (ws : List UInt32) : Continues [Glsl.instSet] [glslImport 1] ws []
    (Samples.header ++ Samples.importWords ++ bytesOf true ws) := by
  refine ⟨true, 0x00010000, 0x00080001, 20, [0x0006000B, 1, 0x4C534C47, 0x6474732E, 0x3035342E, 0],
    by simp [IsVersionWord], ?_, by simp, ?_⟩
  · refine ⟨[0x0006000B, 1, 0x4C534C47, 0x6474732E, 0x3035342E, 0], [], rfl,
      ⟨rfl, 0x0006000B, [1, 0x4C534C47, 0x6474732E, 0x3035342E, 0], rfl,
        ⟨6, rfl, by decide, .inl rfl⟩, ⟨[0x4C534C47, 0x6474732E, 0x3035342E, 0], rfl,
          [0x4C534C47, 0x6474732E, 0x3035342E, 0], [], rfl, ⟨[0, 0, 0], by rfl, by simp, ?_⟩, rfl⟩,
        ?_, by simp⟩, rfl⟩
    · decide
    · intro h; cases h
  · rw [List.append_nil]
    rfl

example : Continues [Glsl.instSet] [glslImport 1, .OpExtInst ⟨⟨2⟩, ⟨9⟩, ⟨1⟩, .Cos ⟨⟨7⟩⟩⟩] [] []
    (Samples.header ++ Samples.importWords ++ bytesOf true [0x0006000C, 2, 9, 1, 14, 7]) :=
  C60_read (continues_import _) ⟨6, rfl, by decide, .inl rfl⟩ (List.mem_singleton.mpr rfl) (.inr ⟨rfl, rfl⟩)
example : readModule (Samples.header ++ Samples.importWords ++ bytesOf true [0x0005000C, 2, 9, 1, 13]) [Glsl.instSet] =
    .error (.err .UnexpectedEndOfInstruction) :=
  (C60_operands (args := []) (rest := []) (continues_import _) ⟨5, rfl, by decide, .inl rfl⟩ (List.mem_singleton.mpr rfl)
    (.inl rfl)).1 rfl
example : readModule (Samples.header ++ Samples.importWords ++ bytesOf true [0x0006000C, 2, 9, 1, 15, 7]) [Glsl.instSet] =
    .error (.err (.UnknownExtInstOp "GLSL.std.450" 15)) :=
  C60_unknown (args := [7]) (rest := []) (continues_import _) ⟨6, rfl, by decide, .inl rfl⟩ (List.mem_singleton.mpr rfl)
    (by decide) (by decide)
example : .OpExtInstImport ⟨⟨1⟩, "GLSL.std.450"⟩ ∈ Samples.raw.instructions ∧
    Samples.raw.instructions = Samples.raw.instructions.take 3 ++ .OpExtInst ⟨⟨2⟩, ⟨9⟩, ⟨1⟩, .Sin ⟨⟨7⟩⟩⟩ :: [] := by decide

/-- C60 for the sample: what it imports, and the words of its instruction -/
example {op : OpExtInstImport} (ho : .OpExtInstImport op ∈ Samples.raw.instructions) : op.name = "GLSL.std.450" :=
  C60_imports Samples.read_bytes ho

end Magma.Props
