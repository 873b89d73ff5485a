import Verif.Proofs.Standard
import Verif.Props.Samples
/-! C87: where reading departs from the grammar of the standard. -/

namespace Magma.Props
open Standard Spec
variable {X : Type}

/-- C87: the reader accepts exactly the modules of the grammar of the standard, where `byCrate` says what is taken
instead of what the standard says. -/
theorem C87_exact (known : List (ExtInstSet X)) (bytes : List UInt8) : (∃ m, readModule bytes known = .ok m) ↔
    ∃ le words insts, bytes = bytesOf le words ∧ Conforms byCrate known words insts :=
  readModule_conforms known bytes

/-- C87: a module by the standard is accepted exactly if no load or store has an alignment … -/
theorem C87_standard {known : List (ExtInstSet X)} {words : List UInt32} {insts : List (UInt32 × List UInt32)}
    (h : Conforms byStandard known words insts) (le : Bool) : (∃ m, readModule (bytesOf le words) known = .ok m) ↔
      ∀ i ∈ insts, ¬ Aligned (i.1.toNat % 65536) i.2 := by
  obtain ⟨h1, h2⟩ := readModule_standard h le
  refine ⟨?_, h2⟩
  rintro ⟨m, hm⟩ i hi ha
  rw [h1 ⟨i, hi, ha⟩] at hm
  cases hm

/-- … and if one has, this is the error. -/
theorem C87_aligned {known : List (ExtInstSet X)} {words : List UInt32} {insts : List (UInt32 × List UInt32)}
    (h : Conforms byStandard known words insts) (le : Bool) (ha : ∃ i ∈ insts, Aligned (i.1.toNat % 65536) i.2) :
    readModule (bytesOf le words) known = .error (.err .InstructionHadExcessData) :=
  (readModule_standard h le).1 ha

/-- The kinds of operands where the crate departs from the standard -/
def departs : List Kind :=
  [.value, .string, .sourceLanguage, .functionControl, .memoryAccess, .fastMath, .loopControl, .selectionControl]

/-- C87: in the operands of all other kinds the crate takes what the standard says, and in these it does not. -/
theorem C87_kinds (k : Kind) : (∀ ws, crate k ws ↔ standard k ws) ↔ k ∉ departs := by
  constructor
  · intro h hk
    have key (ws : List UInt32) (hc : crate k ws) (hs : ¬ standard k ws) : False := hs ((h ws).mp hc)
    cases k <;> first | (exact absurd hk (by decide)) | skip
    · exact key [] trivial fun h => h rfl
    · refine key [0x01000000] ⟨"", [0, 0, 1], by decide, by decide, by decide, fun _ _ => trivial⟩ ?_
      rintro ⟨s, pad, hp, _, h0, hz⟩
      have hw : [(0x01000000 : UInt32)].flatMap wordBytes = [0, 0, 0, 1] := by decide
      rw [hw] at hp
      cases hb : stringBytes s with
      | nil =>
        rw [hb] at hp
        cases hp
        exact absurd (hz 1 (by decide)) (by decide)
      | cons b bs =>
        rw [hb] at hp h0
        have h1 : (0 : UInt8) = b := (List.cons.inj hp).1
        exact h0 (h1 ▸ List.mem_cons_self ..)
    · refine key [5] ⟨5, rfl⟩ ?_
      rintro ⟨w, hw, hv⟩
      cases hw
      exact absurd hv (by decide)
    · refine key [16] ⟨16, rfl⟩ ?_
      rintro ⟨w, hw, hv⟩
      cases hw
      exact absurd hv (by decide)
    · refine key [2] ⟨2, rfl, by decide⟩ ?_
      rintro ⟨w, _, hv⟩
      by_cases hb : w.toNat.testBit 1 = true
      · rw [if_pos hb] at hv
        obtain ⟨_, hv⟩ := hv
        cases hv
      · rw [if_neg hb] at hv
        cases hv
        exact absurd rfl hb
    · refine key [32] ⟨32, rfl, by decide⟩ ?_
      rintro ⟨w, hw, hv⟩
      cases hw
      exact absurd hv (by decide)
    · refine key [8, 1] ⟨8, by decide, 1, rfl⟩ ?_
      rintro ⟨w, hw, _⟩
      cases hw
    · refine key [65536] ⟨65536, rfl, by decide⟩ ?_
      rintro ⟨w, hw, hv⟩
      cases hw
      exact absurd hv (by decide)
  · intro hk ws
    cases k <;> first | exact Iff.rfl | exact absurd (by decide) hk

/-- C87: and only with the alignment of memory accesses it takes less than the standard says. -/
theorem C87_wider (k : Kind) : (∀ ws, standard k ws → crate k ws) ↔ k ≠ .memoryAccess := by
  constructor
  · rintro h rfl
    obtain ⟨w, hw, _⟩ := h [2, 4] ⟨2, by decide, 4, rfl⟩
    cases hw
  · exact fun hk ws => crate_of_standard hk

/-- C87: so what the standard says of a module without alignments is what the crate takes, with the same
instructions. -/
theorem C87_same {known : List (ExtInstSet X)} {words : List UInt32} {insts : List (UInt32 × List UInt32)}
    (h : Conforms byStandard known words insts) (ha : ∀ i ∈ insts, ¬ Aligned (i.1.toNat % 65536) i.2) :
    Conforms byCrate known words insts := by
  obtain ⟨v, g, b, rfl, hv, hb⟩ := h
  have : v = 0x00010000 := hv
  subst this
  exact ⟨_, g, b, rfl, ⟨by decide, by decide, by decide, by decide⟩, body_same .nil hb ha⟩

/-- C87: the words of a module are the words of one list of instructions only, whatever the rules. -/
theorem C87_unique {r r' : Rules} {known known' : List (ExtInstSet X)} {words : List UInt32}
    {insts insts' : List (UInt32 × List UInt32)} (h : Conforms r known words insts) (h' : Conforms r' known' words insts') :
    insts = insts' := by
  obtain ⟨_, _, _, rfl, _, hb⟩ := h
  obtain ⟨_, _, _, hw, _, hb'⟩ := h'
  simp only [List.cons.injEq, true_and] at hw
  exact body_unique hb hb' hw.2.2.2

/-- An import, a string, an extended instruction, a variable and a volatile load -/
def standardInsts : List (UInt32 × List UInt32) :=
  [(0x00020011, [1]), (0x0006000B, [1, 0x4C534C47, 0x6474732E, 0x3035342E, 0]), (0x0003000E, [0, 1]),
   (0x00030005, [5, 0x0000006D]), (0x0006000C, [2, 9, 1, 13, 7]), (0x0004003B, [3, 5, 7]), (0x0005003D, [2, 6, 5, 1])]

/-- The same and an aligned load -/
def alignedInsts : List (UInt32 × List UInt32) := standardInsts ++ [(0x0006003D, [2, 8, 5, 2, 4])]

theorem inGrammar {n : Nat} {items : List Item} (i : Nat) (h : grammar[i]? = some (n, items)) : (n, items) ∈ grammar :=
  List.mem_of_getElem? h

theorem body_last {insts : List (UInt32 × List UInt32)}
    (h : Body byStandard Samples.sets [(1, Glsl.instSet)] insts) :
    Body byStandard Samples.sets [] (standardInsts ++ insts) := by
  refine ⟨.inl rfl, ⟨_, inGrammar 12 rfl, [1], [], rfl, ⟨1, rfl, by decide⟩, rfl⟩, ?_⟩
  refine ⟨.inl rfl, 1, _, "GLSL.std.450", Glsl.instSet, rfl,
    ⟨[0, 0, 0], by decide +kernel, by decide, by decide +kernel, fun b hb => show b = 0 by simpa using hb⟩, rfl, by simp, ?_⟩
  refine ⟨.inl rfl, ⟨_, inGrammar 9 rfl, [0], [1], rfl, ⟨0, rfl, by decide⟩, [1], [], rfl, ⟨1, rfl, by decide⟩, rfl⟩, ?_⟩
  refine ⟨.inl rfl, ⟨_, inGrammar 5 rfl, [5], _, rfl, ⟨5, rfl⟩, [0x0000006D], [], rfl, ⟨"m", [0, 0], by decide +kernel,
    by decide, by decide +kernel, by decide⟩, rfl⟩, ?_⟩
  refine ⟨.inl rfl, ⟨2, 9, 1, 13, [7], Glsl.instSet, .Sin ⟨⟨7⟩⟩, rfl, by simp, rfl⟩, ?_⟩
  refine ⟨.inl rfl, ⟨_, inGrammar 33 rfl, [3], _, rfl, ⟨3, rfl⟩, [5], _, rfl, ⟨5, rfl⟩, [7], [], rfl,
    ⟨7, rfl, by decide⟩, .inl rfl⟩, ?_⟩
  exact ⟨.inl rfl, ⟨_, inGrammar 34 rfl, [2], _, rfl, ⟨2, rfl⟩, [6], _, rfl, ⟨6, rfl⟩, [5], _, rfl, ⟨5, rfl⟩,
    .inr ⟨[1], [], rfl, ⟨1, by decide, rfl⟩, rfl⟩⟩, h⟩

/-- Both are modules by the standard … -/
theorem standardInsts_conforms : Conforms byStandard Samples.sets
    (0x07230203 :: 0x00010000 :: 0 :: 20 :: 0 :: Standard.wordsOf standardInsts) standardInsts :=
  ⟨_, _, _, rfl, rfl, body_last (insts := []) trivial⟩

theorem alignedInsts_conforms : Conforms byStandard Samples.sets
    (0x07230203 :: 0x00010000 :: 0 :: 20 :: 0 :: Standard.wordsOf alignedInsts) alignedInsts :=
  ⟨_, _, _, rfl, rfl, body_last ⟨.inl rfl, ⟨_, inGrammar 34 rfl, [2], _, rfl, ⟨2, rfl⟩, [8], _, rfl, ⟨8, rfl⟩, [5], _, rfl,
    ⟨5, rfl⟩, .inr ⟨[2, 4], [], rfl, ⟨2, by decide, 4, rfl⟩, rfl⟩⟩, trivial⟩⟩

/-- … the first is read, in either byte order, … -/
example (le : Bool) : ∃ m, readModule
    (bytesOf le (0x07230203 :: 0x00010000 :: 0 :: 20 :: 0 :: Standard.wordsOf standardInsts)) Samples.sets = .ok m := by
  refine (C87_standard standardInsts_conforms le).mpr ?_
  rintro i hi ⟨w, hw, ho, hb⟩
  simp only [standardInsts, List.mem_cons, List.not_mem_nil, or_false] at hi
  rcases hi with rfl | rfl | rfl | rfl | rfl | rfl | rfl <;> first | exact absurd ho (by decide) | skip
  cases hw
  exact absurd hb (by decide)

/-- … and the second is not. -/
example (le : Bool) : readModule (bytesOf le (0x07230203 :: 0x00010000 :: 0 :: 20 :: 0 :: Standard.wordsOf alignedInsts))
    Samples.sets = .error (.err .InstructionHadExcessData) :=
  C87_aligned alignedInsts_conforms le ⟨(0x0006003D, [2, 8, 5, 2, 4]), by simp [alignedInsts], 2, rfl, by decide, by decide⟩

/-- A constant without a value, and a word count of 0 -/
def looseInsts : List (UInt32 × List UInt32) := [(0x0003002B, [2, 3]), (0x00000038, [])]

theorem looseInsts_conforms : Conforms byCrate Samples.sets
    (0x07230203 :: 0x00F1F0F0 :: 0 :: 20 :: 0 :: Standard.wordsOf looseInsts) looseInsts :=
  ⟨_, _, _, rfl, ⟨by decide, by decide, by decide, by decide⟩,
    ⟨.inl rfl, ⟨_, inGrammar 28 rfl, [2], _, rfl, ⟨2, rfl⟩, [3], _, rfl, ⟨3, rfl⟩, [], [], rfl, trivial, rfl⟩,
      .inr ⟨trivial, rfl, rfl⟩, ⟨_, inGrammar 32 rfl, rfl⟩, trivial⟩⟩

/-- This is read, though it is no module by the standard. -/
example : (∃ m, readModule (bytesOf true (0x07230203 :: 0x00F1F0F0 :: 0 :: 20 :: 0 :: Standard.wordsOf looseInsts))
      Samples.sets = .ok m) ∧
    ¬ ∃ insts, Conforms byStandard Samples.sets
      (0x07230203 :: 0x00F1F0F0 :: 0 :: 20 :: 0 :: Standard.wordsOf looseInsts) insts := by
  refine ⟨(C87_exact _ _).mpr ⟨true, _, _, rfl, looseInsts_conforms⟩, ?_⟩
  rintro ⟨insts, h⟩
  have := C87_unique h looseInsts_conforms
  subst this
  obtain ⟨_, _, _, _, _, _, ⟨items, hm, hf⟩, hb⟩ := h
  obtain ⟨h | ⟨h, _⟩, _⟩ := hb
  · exact absurd h (by decide)
  · exact h

end Magma.Props
