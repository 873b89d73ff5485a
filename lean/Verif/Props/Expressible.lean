import Verif.Proofs.Ends
/-! C57: the structured programs that are recovered from functions. -/

namespace Magma.Props
open Spec
variable {X : Type}

theorem ids_nodup_vals {l : List BlockId} : (l.map BlockId.val).Nodup ↔ l.Nodup := by
  rw [List.Nodup, List.pairwise_map]
  refine ⟨List.Pairwise.imp (fun h e => h (by rw [e])), List.Pairwise.imp (fun {a b} h e => h ?_)⟩
  cases a; cases b; cases e; rfl

/-- C57: every well-formed program in which no block occurs twice is the control flow of some function. -/
theorem C57_expressible {s : Program} (hw : s.WellFormed false false) (hd : s.ids.Nodup) :
    ∃ (f : FunctionDefinition X) (fuel : Nat), ∀ fuel', fuel ≤ fuel' → findControlFlow fuel' f = .ok s.toChain := by
  have hn : ((s.blocks (X := X) none none).map labelId).Nodup := by
    rw [Program.blocks_labels]
    exact ids_nodup_vals.mpr hd
  have hs := Program.spelled_blocks (all := s.blocks (X := X) none none) s false none none hw (by simp)
    (fun b hb => blockOf_mem hn hb)
  obtain ⟨e, he⟩ := Program.entry_some s (k := none) hw
  cases hb : s.blocks (X := X) none none with
  | nil =>
    have hl := Program.blocks_labels (X := X) s none none
    rw [hb] at hl
    cases s <;> first | (cases hl; done) | cases he
  | cons first more =>
    have hf : s.entry none = some ⟨labelId first⟩ := by
      cases s <;> cases hb <;> rfl
    let f : FunctionDefinition X :=
      { function := ⟨⟨0⟩, ⟨0⟩, ⟨false, false, false, false⟩, ⟨0⟩⟩, parameters := [], blocks := s.blocks none none }
    exact ⟨f, C30_complete (f := f) hb hn hs hf hd⟩

/-- C57: whatever is recovered from a function is a well-formed program. -/
theorem C57_only {f : FunctionDefinition X} {fuel : Nat} {chain : ControlFlowChain}
    (h : findControlFlow fuel f = .ok chain) : ∃ s : Program, s.WellFormed false false ∧ chain = s.toChain := by
  obtain ⟨s, first, more, -, -, hs, -, hn, rfl⟩ := C30_accepted_iff.mp ⟨fuel, h⟩
  exact ⟨s, Program.wellFormed_of_spelled s false none none [] hs hn (fun p hp => by cases hp), rfl⟩

/-- C57: among the chains that mention no block twice, exactly those of well-formed programs are recovered. -/
theorem C57_image {chain : ControlFlowChain} (hd : (chainIds chain).Nodup) :
    (∃ (f : FunctionDefinition X) (fuel : Nat), findControlFlow fuel f = .ok chain) ↔
      ∃ s : Program, s.WellFormed false false ∧ chain = s.toChain := by
  constructor
  · rintro ⟨f, fuel, h⟩
    exact C57_only h
  · rintro ⟨s, hw, rfl⟩
    rw [(Program.chainIds_toChain s).1, ids_nodup_vals] at hd
    obtain ⟨f, fuel, h⟩ := C57_expressible (X := X) hw hd
    exact ⟨f, fuel, h fuel (Nat.le_refl _)⟩

/-- C57: exactly which chains are recovered, also if blocks occur more than once: those of well-formed programs
in which a block ends in the same way wherever it occurs, and does not occur inside the construct that it starts
(as a loop header) or ends (as the merge block of a selection). -/
theorem C57_image_all {chain : ControlFlowChain} :
    (∃ (f : FunctionDefinition X) (fuel : Nat), findControlFlow fuel f = .ok chain) ↔
      ∃ s : Program, s.WellFormed false false ∧ s.Consistent ∧ s.Nested [] none ∧ chain = s.toChain := by
  constructor
  · rintro ⟨f, fuel, h⟩
    obtain ⟨s, first, more, -, -, hs, -, hn, rfl⟩ := C30_accepted_iff.mp ⟨fuel, h⟩
    refine ⟨s, Program.wellFormed_of_spelled s false none none [] hs hn (fun p hp => by cases hp), ?_, hn, rfl⟩
    intro p hp q hq he
    obtain ⟨b, hb, hp⟩ := Program.ends_spelled s _ _ hs p hp
    obtain ⟨b', hb', hq⟩ := Program.ends_spelled s _ _ hs q hq
    rw [he, hb'] at hb
    cases hb
    rw [← hp, hq]
  · rintro ⟨s, hw, hc, hn, rfl⟩
    obtain ⟨e, he⟩ := Program.entry_some s (k := none) hw
    have hmem : e ∈ s.ids := by
      cases s <;> first | (cases he; done) | (cases he; exact List.mem_cons_self)
    let endFor : BlockId → BlockEnd := fun id =>
      (((s.ends none none).find? (fun p => decide (p.1 = id))).map Prod.snd).getD .returns
    have hend : ∀ p ∈ s.ends none none, endFor p.1 = p.2 := by
      intro p hp
      cases hq : (s.ends none none).find? (fun q => decide (q.1 = p.1)) with
      | none =>
        have := List.find?_eq_none.mp hq p hp
        simp at this
      | some q =>
        have h1 := List.find?_some hq
        have h2 := List.mem_of_find?_eq_some hq
        simp only [decide_eq_true_eq] at h1
        simp only [endFor, hq, Option.map_some, Option.getD_some]
        exact hc q h2 p hp h1
    let all : List BlockId := e :: s.ids.dedup.erase e
    have hall : all.Nodup := by
      refine List.nodup_cons.mpr ⟨?_, (List.nodup_dedup _).erase _⟩
      rw [(List.nodup_dedup _).mem_erase_iff]
      exact fun h => h.1 rfl
    have hin : ∀ id ∈ s.ids, id ∈ all := by
      intro id hid
      by_cases h : id = e
      · rw [h]; exact List.mem_cons_self
      · exact List.mem_cons_of_mem _ ((List.nodup_dedup _).mem_erase_iff.mpr ⟨h, List.mem_dedup.mpr hid⟩)
    let blocks : List (BasicBlock X) := all.map (fun id => blockFor id (endFor id))
    have hlab : blocks.map labelId = all.map BlockId.val := by
      rw [List.map_map]
      exact List.map_congr_left (fun id _ => blockFor_label id _)
    have hnd : (blocks.map labelId).Nodup := by rw [hlab]; exact ids_nodup_vals.mpr hall
    have hs : s.SpelledBy blocks none none := by
      refine Program.spelled_blocks s false none none hw (by simp) (fun b hb => blockOf_mem hnd ?_)
      rw [Program.blocks_ends] at hb
      obtain ⟨p, hp, rfl⟩ := List.mem_map.mp hb
      refine List.mem_map.mpr ⟨p.1, hin _ ?_, by rw [hend p hp]⟩
      rw [← Program.ends_ids s none none]
      exact List.mem_map_of_mem hp
    let f : FunctionDefinition X :=
      { function := ⟨⟨0⟩, ⟨0⟩, ⟨false, false, false, false⟩, ⟨0⟩⟩, parameters := [], blocks := blocks }
    obtain ⟨fuel, h⟩ := C30_accepted_iff (f := f).mpr ⟨s, _, _, rfl, hnd, hs,
      by rw [blockFor_label]; exact he, hn, rfl⟩
    exact ⟨f, fuel, h⟩

/-- A loop with a break and a selection whose branches go on with the next round -/
def loopProgram : Program :=
  .loop ⟨1⟩ (.exit ⟨2⟩ true none (.sel ⟨3⟩ (.atom ⟨4⟩ .done) (.exit ⟨5⟩ false none .done) ⟨false, false⟩ none .done))
    ⟨true, false, false, none⟩ (.ret ⟨6⟩)
example : loopProgram.WellFormed false false ∧ loopProgram.ids.Nodup :=
  ⟨⟨⟨rfl, ⟨rfl, ⟨rfl, rfl⟩, rfl⟩⟩, rfl⟩, by decide⟩
/-- A break outside of a loop is not well-formed. -/
example : ¬ (Program.exit ⟨1⟩ true none (.ret ⟨2⟩)).WellFormed false false := fun h => by cases h.1
/-- A selection with a continue in it has to end the body of the loop. -/
example : ¬ (Program.loop ⟨1⟩ (.sel ⟨3⟩ (.exit ⟨5⟩ false none .done) .done ⟨false, false⟩ none (.atom ⟨4⟩ .done))
    ⟨true, false, false, none⟩ (.ret ⟨6⟩)).WellFormed false false := fun h => by cases h.1.1.1

/-- A program in which block `last` occurs twice if it is 3 or 4. Block 4 goes to block 6 in both places. -/
def sharedProgram (last : UInt32) : Program :=
  .sel ⟨1⟩ (.sel ⟨2⟩ (.atom ⟨3⟩ .done) .done ⟨false, false⟩ none (.atom ⟨4⟩ .done)) (.atom ⟨5⟩ (.atom ⟨last⟩ .done))
    ⟨false, false⟩ none (.ret ⟨6⟩)
example : (sharedProgram 4).WellFormed false false ∧ (sharedProgram 4).Consistent ∧ (sharedProgram 4).Nested [] none ∧
    ¬ (sharedProgram 4).ids.Nodup := by
  refine ⟨⟨⟨rfl, rfl, rfl⟩, rfl, rfl⟩, ?_, ?_, by decide⟩
  · intro p hp q hq h
    simp only [sharedProgram, Program.ends, Program.entry, List.cons_append, List.nil_append, List.mem_cons, List.not_mem_nil,
      or_false] at hp hq
    rcases hp with rfl | rfl | rfl | rfl | rfl | rfl | rfl <;> rcases hq with rfl | rfl | rfl | rfl | rfl | rfl | rfl <;>
      first | rfl | exact absurd h (by decide)
  · simp [sharedProgram, Program.Nested, Program.entry]
/-- Block 3 would have to go to block 4 and to block 6. -/
example : ¬ (sharedProgram 3).Consistent := by
  intro h
  have := h (⟨3⟩, .goto 4) (by simp [sharedProgram, Program.ends, Program.entry, Program.target])
    (⟨3⟩, .goto 6) (by simp [sharedProgram, Program.ends, Program.entry, Program.target]) rfl
  cases this

/-- C57 for the sample, in both directions -/
example : ∃ (f : FunctionDefinition Empty) (fuel : Nat), ∀ fuel', fuel ≤ fuel' →
    findControlFlow fuel' f = .ok sampleProgram.toChain :=
  C57_expressible (by simp [sampleProgram, Program.WellFormed]) (by decide)
example : ∃ s : Program, s.WellFormed false false ∧ sampleChain = s.toChain := C57_only sample_found
/-- A break outside of a loop is not recovered from any function. -/
example : ¬ ∃ (f : FunctionDefinition Empty) (fuel : Nat), findControlFlow fuel f = .ok .Break := by
  rw [C57_image (by decide)]
  rintro ⟨s, -, h⟩
  cases s <;> cases h

end Magma.Props
