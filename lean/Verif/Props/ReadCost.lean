import Verif.Proofs.ReadCost
import Verif.Proofs.Listing
import Verif.Props.Reference
/-! C71: the time of reading, and the memory it sets aside on the word of the input. -/

namespace Magma.Props
open Spec
variable {X : Type}

/-- C71: the metered reader has the outcome of the reader, and it costs what the specification says of
the words of the input. There are no hypotheses: the bytes and the sets may be anything. -/
theorem C71_exact (known : List (ExtInstSet X)) (bytes : List UInt8) :
    readModuleM bytes known =
      (readModule bytes known, ⟨(readCost known bytes).1, (readCost known bytes).2⟩) :=
  Prod.ext (readModuleM_fst bytes known) (readModuleM_snd bytes known)

/-- C71: an accepted input is read word by word, each once, and the memory set aside are the sizes that
the instructions give themselves. -/
theorem C71_accepted {known : List (ExtInstSet X)} {bytes : List UInt8} {raw : RawModule X}
    (h : readModule bytes known = .ok raw) :
    (readModuleM bytes known).2.reads = bytes.length / 4 ∧
      (readModuleM bytes known).2.asked =
        declared ((wordsOf (bytes.head? = some 3) (bytes.drop 4)).1.drop 4) := by
  rw [C71_exact]
  have ha := (C65_accepted known bytes).mp ⟨raw, h⟩
  rcases readCost_cases known bytes with ⟨_, _, hn⟩ | ⟨le, t, ver, gen, bound, body, hw, hle, hr, hc, hl, ht⟩
  · exact (hn ha).elim
  · obtain ⟨hb, rfl⟩ := bodyCost_accepted known t [] body (hr.mp ha)
    rw [hc, hb]
    have hle' : decide (bytes.head? = some 3) = le := by
      cases le
      · exact decide_eq_false fun h => (by cases hle.mpr h)
      · exact decide_eq_true (hle.mp rfl)
    rw [hle', hw]
    refine ⟨?_, rfl⟩
    simp only [List.length_nil] at hl
    dsimp only
    omega

/-- C71: of any input no word is read twice, and at most one word is asked for in vain. -/
theorem C71_reads (known : List (ExtInstSet X)) (bytes : List UInt8) :
    (readModuleM bytes known).2.reads ≤ bytes.length / 4 + 1 := by
  rw [C71_exact]
  rcases readCost_cases known bytes with ⟨_, h, _⟩ | ⟨le, t, ver, gen, bound, body, hw, hle, hr, hc, hl, ht⟩
  · exact h
  · rw [hc]
    have := bodyCost_reads known t [] body
    dsimp only
    omega

/-- C71: all that is set aside but for the last instruction has been filled with words of the input, and
the last is at most 65535 words. -/
theorem C71_asked (known : List (ExtInstSet X)) (bytes : List UInt8) {init : List Nat} {last : Nat}
    (h : (readModuleM bytes known).2.asked = init ++ [last]) :
    init.sum + 6 ≤ bytes.length / 4 ∧ last ≤ 65535 := by
  rw [C71_exact] at h
  rcases readCost_cases known bytes with ⟨hn, _, _⟩ | ⟨le, t, ver, gen, bound, body, hw, hle, hr, hc, hl, ht⟩
  · dsimp only at h
    rw [hn] at h
    cases init <;> cases h
  · rw [hc] at h
    obtain ⟨l, hd⟩ := bodyCost_declared known t [] body
    dsimp only at h
    rw [h, List.append_assoc] at hd
    obtain ⟨h1, h2⟩ := declared_init _ (Nat.le_refl _) hd.symm
    exact ⟨by omega, h2⟩

/-- C71: so an input makes the reader set aside no more than its own length and 65535 words. -/
theorem C71_bound (known : List (ExtInstSet X)) (bytes : List UInt8) :
    (readModuleM bytes known).2.asked.sum ≤ bytes.length / 4 + 65535 := by
  rcases List.eq_nil_or_concat (readModuleM bytes known).2.asked with h | ⟨init, last, h⟩
  · rw [h]; exact Nat.zero_le _
  · rw [List.concat_eq_append] at h
    obtain ⟨h1, h2⟩ := C71_asked known bytes h
    rw [h, List.sum_append]
    simp only [List.sum_cons, List.sum_nil]
    omega

/-- C71: and an accepted input no more than its own length. -/
theorem C71_accepted_bound {known : List (ExtInstSet X)} {bytes : List UInt8} {raw : RawModule X}
    (h : readModule bytes known = .ok raw) :
    (readModuleM bytes known).2.asked.sum + 5 ≤ bytes.length / 4 := by
  rw [C71_exact]
  have ha := (C65_accepted known bytes).mp ⟨raw, h⟩
  rcases readCost_cases known bytes with ⟨_, _, hn⟩ | ⟨le, t, ver, gen, bound, body, hw, hle, hr, hc, hl, ht⟩
  · exact (hn ha).elim
  · obtain ⟨hb, rfl⟩ := bodyCost_accepted known t [] body (hr.mp ha)
    rw [hc, hb]
    have := declared_sum (known := known) [] [] (hr.mp ha)
    dsimp only
    omega

/-- C71: an input of 24 bytes does make it set aside 65535 words, and is refused. -/
theorem C71_greedy : (readModuleM (Samples.header ++ [0, 0, 0xFF, 0xFF]) ([] : List (ExtInstSet Empty))) =
    (fail .UnexpectedEndOfStream, ⟨7, [65535]⟩) := by
  rfl

/-- C71: a list of ids or of numbers fills the capacity it asks for, and a list of pairs half of it; none
outgrows it. -/
theorem C71_lists (block rest : Block) :
    (∀ ids : List OpId, MemoryBlockRead.read block = .ok (rest, ids) → ids.length = vecCapacity OpId block) ∧
    (∀ ns : List UInt32, MemoryBlockRead.read block = .ok (rest, ns) → ns.length = vecCapacity UInt32 block) ∧
    (∀ ps : List PhiArg, MemoryBlockRead.read block = .ok (rest, ps) →
      2 * ps.length = vecCapacity PhiArg block) := by
  refine ⟨fun ids h => ?_, fun ns h => ?_, fun ps h => ?_⟩
  · have := readVecLoop_list (fun w => OpId.mk w) (fun _ _ => rfl) (block.length + 1) block [] (Nat.lt_succ_self _)
    cases h.symm.trans this
    show _ = block.length / 1
    simp
  · have := readVecLoop_list (fun w => w) (fun _ _ => rfl) (block.length + 1) block [] (Nat.lt_succ_self _)
    cases h.symm.trans this
    show _ = block.length / 1
    simp
  · have := readVecLoop_pairs_length (block.length + 1) block rest [] ps h
    show _ = block.length / 1
    simpa using this

/-- Non-vacuity: the sample is accepted; it has 22 words and four instructions. -/
example : readModuleM Samples.bytes Samples.sets = (.ok Samples.raw, ⟨22, [6, 3, 2, 6]⟩) := by
  rfl

/-- C71 for the sample -/
example : (readModuleM Samples.bytes Samples.sets).2.reads = Samples.bytes.length / 4 ∧
    (readModuleM Samples.bytes Samples.sets).2.asked.sum + 5 ≤ Samples.bytes.length / 4 :=
  ⟨(C71_accepted Samples.read_bytes).1, C71_accepted_bound Samples.read_bytes⟩

end Magma.Props
