import Verif.Proofs.Insert
import Verif.Props.Split
import Verif.Props.Sequence
/-! C86: a function in the middle of another. -/

namespace Magma.Props
open Spec
variable {X : Type}

/-- C86: if `f` has control flow `c`, then whatever the search finds for `g` it finds with `f` inserted, with `c`
after the block where `f` is done. -/
theorem C86_forth {f g h : FunctionDefinition X} {b : BasicBlock X} {t : UInt32} (hi : IsInserted f g h b t)
    {fuel : Nat} {c : ControlFlowChain} (hf : findControlFlow fuel f = .ok c) {k : Nat}
    (hk : findControlFlow k g ≠ .error .diverge) :
    findControlFlow (k * (fuel + 1)) h = insertOutcome (labelId b) c (findControlFlow k g) :=
  (Insert.find_insert hi hf k).1 hk

/-- C86: and whatever it finds with `f` inserted comes from what it finds for `g`. -/
theorem C86_back {f g h : FunctionDefinition X} {b : BasicBlock X} {t : UInt32} (hi : IsInserted f g h b t)
    {fuel : Nat} {c : ControlFlowChain} (hf : findControlFlow fuel f = .ok c) {k : Nat}
    (hk : findControlFlow k h ≠ .error .diverge) :
    findControlFlow k h = insertOutcome (labelId b) c (findControlFlow k g) :=
  (Insert.find_insert hi hf k).2 hk

theorem insertOutcome_diverges {x : UInt32} {c : ControlFlowChain} {r : CF ControlFlowChain} :
    insertOutcome x c r = .error .diverge ↔ r = .error .diverge := by
  cases r with
  | ok r => exact ⟨nofun, nofun⟩
  | error e => exact .rfl

/-- C86: so the outcomes correspond: chains, errors and panics, and that there is no outcome. -/
theorem C86_outcome {f g h : FunctionDefinition X} {b : BasicBlock X} {t : UInt32} (hi : IsInserted f g h b t)
    {fuel : Nat} {c : ControlFlowChain} (hf : findControlFlow fuel f = .ok c) :
    (∀ r', r' ≠ .error .diverge → ((∃ k, findControlFlow k h = r') ↔
      ∃ r, r' = insertOutcome (labelId b) c r ∧ ∃ k, findControlFlow k g = r)) ∧
    ((∀ k, findControlFlow k h = .error .diverge) ↔ ∀ k, findControlFlow k g = .error .diverge) := by
  refine ⟨fun r' hr => ⟨?_, ?_⟩, ⟨fun hh k => ?_, fun hg k => ?_⟩⟩
  · rintro ⟨k, rfl⟩
    exact ⟨_, C86_back hi hf hr, k, rfl⟩
  · rintro ⟨r, rfl, k, rfl⟩
    exact ⟨_, C86_forth hi hf fun hd => hr (insertOutcome_diverges.mpr hd)⟩
  · by_cases hd : findControlFlow k g = .error .diverge
    · exact hd
    · have := C86_forth hi hf hd
      rw [hh] at this
      exact absurd (insertOutcome_diverges.mp this.symm) hd
  · by_cases hd : findControlFlow k h = .error .diverge
    · exact hd
    · have := C86_back hi hf hd
      rw [hg] at this
      exact this

/-- The function `h` is the function `g` with `f` done in block `b` after `k` instructions; what is left of `b` is
block `n`. -/
structure IsInlined (f g h : FunctionDefinition X) (b : BasicBlock X) (k : Nat) (n : UInt32) : Prop where
  blocks : ∃ pre post first more, g.blocks = pre ++ b :: post ∧ f.blocks = first :: more ∧
    h.blocks = (pre ++ goTo (firstHalf b k n) (labelId first) :: secondHalf b k n :: post) ++ f.blocks.map (goOn n)
  fresh : ∀ c ∈ g.blocks, labelId c ≠ n ∧ n ∉ (endOf c).names
  fresh' : ∀ c ∈ f.blocks, labelId c ≠ n
  separate : Separate f.blocks g.blocks

/-- C86: with C84, a function can be done anywhere in a block that is not the header of a loop. -/
theorem C86_inline {f g h : FunctionDefinition X} {b : BasicBlock X} {k : Nat} {n : UInt32} (hi : IsInlined f g h b k n)
    (hl : ∀ t m hint, endOf b ≠ .gotoLoop t m hint) {fuel : Nat} {c : ControlFlowChain}
    (hf : findControlFlow fuel f = .ok c) :
    (∀ r', r' ≠ .error .diverge → ((∃ fuel, findControlFlow fuel h = r') ↔
      ∃ r, r' = insertOutcome (labelId b) c (splitOutcome (labelId b) n r) ∧ ∃ fuel, findControlFlow fuel g = r)) ∧
    ((∀ fuel, findControlFlow fuel h = .error .diverge) ↔ ∀ fuel, findControlFlow fuel g = .error .diverge) := by
  obtain ⟨⟨pre, post, first, more, hg, hfb, hh⟩, h1, h2, h3⟩ := hi
  let g' : FunctionDefinition X := { g with blocks := pre ++ firstHalf b k n :: secondHalf b k n :: post }
  have hs : IsSplit g g' b k n := ⟨⟨pre, post, hg, rfl⟩, h1⟩
  have hbg : b ∈ g.blocks := by rw [hg]; simp
  have hsep : Separate f.blocks g'.blocks := by
    constructor
    · intro a ha a' ha'
      rcases List.mem_append.mp ha' with hm | hm
      · exact h3.labels a ha a' (by rw [hg]; simp [hm])
      · rcases List.mem_cons.mp hm with rfl | hm
        · exact h3.labels a ha b hbg
        · rcases List.mem_cons.mp hm with rfl | hm
          · exact h2 a ha
          · exact h3.labels a ha a' (by rw [hg]; simp [hm])
    · intro a ha a' ha'
      rcases List.mem_append.mp ha' with hm | hm
      · exact h3.names a ha a' (by rw [hg]; simp [hm])
      · rcases List.mem_cons.mp hm with rfl | hm
        · exact fun hn => h2 a ha (by
            simpa [firstHalf, endOf, BlockEnd.names] using hn)
        · rcases List.mem_cons.mp hm with rfl | hm
          · exact h3.names a ha b hbg
          · exact h3.names a ha a' (by rw [hg]; simp [hm])
  have hins : IsInserted f g' h (firstHalf b k n) n := ⟨rfl, ⟨pre, _, first, more, rfl, hfb, hh⟩, hsep⟩
  obtain ⟨a1, a2⟩ := C86_outcome hins hf
  obtain ⟨b1, b2⟩ := C84_outcome hs hl
  refine ⟨fun r' hr => ⟨fun hx => ?_, ?_⟩, a2.trans b2⟩
  · obtain ⟨r, rfl, hr2⟩ := (a1 r' hr).mp hx
    obtain ⟨r0, rfl, hr3⟩ := (b1 r fun he => hr (insertOutcome_diverges.mpr he)).mp hr2
    exact ⟨r0, rfl, hr3⟩
  · rintro ⟨r, rfl, hr3⟩
    exact (a1 _ hr).mpr ⟨_, rfl, (b1 _ fun he => hr (insertOutcome_diverges.mpr he)).mpr ⟨r, rfl, hr3⟩⟩

/-- A loop with a block in it, and the same with the selection of the samples for C85 done in that block -/
def loopAround : List (BasicBlock Empty) :=
  [ emptyBlock 1 (some (.OpLoopMerge ⟨⟨4⟩, ⟨3⟩, ⟨false, false, false, none⟩⟩)) (.OpBranch ⟨⟨2⟩⟩),
    emptyBlock 2 none (.OpBranch ⟨⟨3⟩⟩),
    emptyBlock 3 none (.OpBranchConditional ⟨⟨5⟩, ⟨1⟩, ⟨4⟩, none⟩),
    emptyBlock 4 none (.OpReturn {}) ]
def selectionInLoop : FunctionDefinition Empty := functionOf
  [ emptyBlock 1 (some (.OpLoopMerge ⟨⟨4⟩, ⟨3⟩, ⟨false, false, false, none⟩⟩)) (.OpBranch ⟨⟨2⟩⟩),
    emptyBlock 2 none (.OpBranch ⟨⟨11⟩⟩),
    emptyBlock 3 none (.OpBranchConditional ⟨⟨5⟩, ⟨1⟩, ⟨4⟩, none⟩),
    emptyBlock 4 none (.OpReturn {}),
    emptyBlock 11 (some (.OpSelectionMerge ⟨⟨13⟩, ⟨true, false⟩⟩)) (.OpBranchConditional ⟨⟨5⟩, ⟨12⟩, ⟨13⟩, none⟩),
    emptyBlock 12 none (.OpBranch ⟨⟨13⟩⟩),
    emptyBlock 13 none (.OpBranch ⟨⟨3⟩⟩) ]

theorem selectionInLoop_inserted :
    IsInserted selectionThen (functionOf loopAround) selectionInLoop (emptyBlock 2 none (.OpBranch ⟨⟨3⟩⟩)) 3 := by
  refine ⟨rfl, ⟨loopAround.take 1, loopAround.drop 2, _, _, rfl, rfl, rfl⟩, ?_⟩
  constructor <;> simp [loopAround, selectionThen, functionOf, emptyBlock, labelId, endOf, BlockEnd.names]

example : findControlFlow 36 selectionInLoop =
    .ok (.Block [.Loop ⟨1⟩ (.Block [.Atom ⟨2⟩, .Selection ⟨11⟩ (.Block [.Atom ⟨12⟩]) (.Block []) ⟨true, false⟩ none,
        .Atom ⟨13⟩, .Selection ⟨3⟩ (.Block []) .Break ⟨false, false⟩ none]) ⟨false, false, false, none⟩ none,
      .Atom ⟨4⟩]) :=
  C86_forth (fuel := 5) (k := 6) selectionInLoop_inserted rfl nofun

/-- Done in the block that ends the loop instead -/
def selectionAtEnd : FunctionDefinition Empty := functionOf
  [ emptyBlock 1 (some (.OpLoopMerge ⟨⟨4⟩, ⟨3⟩, ⟨false, false, false, none⟩⟩)) (.OpBranch ⟨⟨2⟩⟩),
    emptyBlock 2 none (.OpBranch ⟨⟨3⟩⟩),
    emptyBlock 3 none (.OpBranch ⟨⟨11⟩⟩),
    emptyBlock 9 none (.OpBranchConditional ⟨⟨5⟩, ⟨1⟩, ⟨4⟩, none⟩),
    emptyBlock 4 none (.OpReturn {}),
    emptyBlock 11 (some (.OpSelectionMerge ⟨⟨13⟩, ⟨true, false⟩⟩)) (.OpBranchConditional ⟨⟨5⟩, ⟨12⟩, ⟨13⟩, none⟩),
    emptyBlock 12 none (.OpBranch ⟨⟨13⟩⟩),
    emptyBlock 13 none (.OpBranch ⟨⟨9⟩⟩) ]

theorem selectionAtEnd_inlined : IsInlined selectionThen (functionOf loopAround) selectionAtEnd
    (emptyBlock 3 none (.OpBranchConditional ⟨⟨5⟩, ⟨1⟩, ⟨4⟩, none⟩)) 0 9 := by
  refine ⟨⟨loopAround.take 2, loopAround.drop 3, _, _, rfl, rfl, rfl⟩, ?_, ?_, ?_⟩
  · simp [loopAround, functionOf, emptyBlock, labelId, endOf, BlockEnd.names]
  · simp [selectionThen, functionOf, emptyBlock, labelId]
  · constructor <;> simp [loopAround, selectionThen, functionOf, emptyBlock, labelId, endOf, BlockEnd.names]

example : ∃ fuel, findControlFlow fuel selectionAtEnd =
    .ok (.Block [.Loop ⟨1⟩ (.Block [.Atom ⟨2⟩, .Atom ⟨3⟩, .Selection ⟨11⟩ (.Block [.Atom ⟨12⟩]) (.Block []) ⟨true, false⟩ none,
        .Atom ⟨13⟩, .Selection ⟨9⟩ (.Block []) .Break ⟨false, false⟩ none]) ⟨false, false, false, none⟩ none,
      .Atom ⟨4⟩]) := by
  refine ((C86_inline selectionAtEnd_inlined (fun _ _ _ h => by cases h) (fuel := 5) rfl).1 _ ?_).mpr
    ⟨_, ?_, 6, rfl⟩
  · nofun
  · rfl

end Magma.Props
