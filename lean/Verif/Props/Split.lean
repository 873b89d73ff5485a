import Verif.Proofs.Split
import Verif.Props.ControlFlow
/-! C84: splitting a block. -/

namespace Magma.Props
open Spec
variable {X : Type}

theorem blocks_of_split {f g : FunctionDefinition X} {b : BasicBlock X} {k : Nat} {n : UInt32} (h : IsSplit f g b k n)
    (hl : ∀ t m hint, endOf b ≠ .gotoLoop t m hint) :
    ∃ pre post, Split.Blocks f.blocks g.blocks pre post b (firstHalf b k n) (secondHalf b k n) := by
  obtain ⟨⟨pre, post, h1, h2⟩, h3⟩ := h
  exact ⟨pre, post, h1, h2, rfl, rfl, rfl, hl, h3⟩

/-- C84: when a block that is not the header of a loop is split, whatever the search found it still finds, with
the two halves in place of the block, in at most twice the depth. -/
theorem C84_forth {f g : FunctionDefinition X} {b : BasicBlock X} {k : Nat} {n : UInt32} (h : IsSplit f g b k n)
    (hl : ∀ t m hint, endOf b ≠ .gotoLoop t m hint) {fuel : Nat}
    (hd : findControlFlow fuel f ≠ .error .diverge) :
    findControlFlow (2 * fuel) g = splitOutcome (labelId b) n (findControlFlow fuel f) := by
  obtain ⟨pre, post, hb⟩ := blocks_of_split h hl
  exact (Split.find_split hb fuel).1 hd

/-- C84: and whatever it finds afterwards comes from what it found before. -/
theorem C84_back {f g : FunctionDefinition X} {b : BasicBlock X} {k : Nat} {n : UInt32} (h : IsSplit f g b k n)
    (hl : ∀ t m hint, endOf b ≠ .gotoLoop t m hint) {fuel : Nat}
    (hd : findControlFlow fuel g ≠ .error .diverge) :
    findControlFlow fuel g = splitOutcome (labelId b) n (findControlFlow fuel f) := by
  obtain ⟨pre, post, hb⟩ := blocks_of_split h hl
  exact (Split.find_split hb fuel).2 hd

theorem splitOutcome_diverges {x n : UInt32} {r : CF ControlFlowChain} :
    splitOutcome x n r = .error .diverge ↔ r = .error .diverge := by
  cases r with
  | ok r => exact ⟨nofun, nofun⟩
  | error e => cases e with
    | diverge => exact ⟨fun _ => rfl, fun _ => rfl⟩
    | err e => exact ⟨nofun, nofun⟩
    | panic m => exact ⟨nofun, nofun⟩

/-- C84: so the outcomes correspond: chains, errors and panics, and that there is no outcome. -/
theorem C84_outcome {f g : FunctionDefinition X} {b : BasicBlock X} {k : Nat} {n : UInt32} (h : IsSplit f g b k n)
    (hl : ∀ t m hint, endOf b ≠ .gotoLoop t m hint) :
    (∀ r', r' ≠ .error .diverge → ((∃ fuel, findControlFlow fuel g = r') ↔
      ∃ r, r' = splitOutcome (labelId b) n r ∧ ∃ fuel, findControlFlow fuel f = r)) ∧
    ((∀ fuel, findControlFlow fuel g = .error .diverge) ↔ ∀ fuel, findControlFlow fuel f = .error .diverge) := by
  refine ⟨fun r' hr => ⟨?_, ?_⟩, ⟨fun hg fuel => ?_, fun hf fuel => ?_⟩⟩
  · rintro ⟨fuel, rfl⟩
    exact ⟨_, C84_back h hl hr, fuel, rfl⟩
  · rintro ⟨r, rfl, fuel, rfl⟩
    exact ⟨2 * fuel, C84_forth h hl fun hd => hr (splitOutcome_diverges.mpr hd)⟩
  · by_cases hd : findControlFlow fuel f = .error .diverge
    · exact hd
    · have := C84_forth h hl hd
      rw [hg] at this
      exact absurd (splitOutcome_diverges.mp this.symm) hd
  · by_cases hd : findControlFlow fuel g = .error .diverge
    · exact hd
    · have := C84_back h hl hd
      rw [hf] at this
      exact this

/-- A loop whose second block may start the next round early -/
def loopWithContinue : List (BasicBlock Empty) :=
  [ emptyBlock 1 (some (.OpLoopMerge ⟨⟨9⟩, ⟨3⟩, ⟨false, false, false, none⟩⟩)) (.OpBranch ⟨⟨2⟩⟩),
    emptyBlock 2 none (.OpBranchConditional ⟨⟨5⟩, ⟨3⟩, ⟨1⟩, none⟩),
    emptyBlock 3 none (.OpBranch ⟨⟨1⟩⟩),
    emptyBlock 9 none (.OpReturn {}) ]

/-- The function, and the same with the `i`th block split -/
def splitAt (blocks : List (BasicBlock Empty)) (i : Nat) (b : BasicBlock Empty) (n : UInt32) : FunctionDefinition Empty :=
  functionOf (blocks.take i ++ firstHalf b 0 n :: secondHalf b 0 n :: blocks.drop (i + 1))

/-- C84: the header of a loop must not be split: its other half becomes the header, and blocks that go to the
first half do not go to the header any more. -/
theorem C84_loop_header : ∃ (f g : FunctionDefinition Empty) (b : BasicBlock Empty) (k : Nat) (n : UInt32),
    IsSplit f g b k n ∧ (∃ t m hint, endOf b = .gotoLoop t m hint) ∧
    (∃ fuel chain, findControlFlow fuel f = .ok chain) ∧
    ∃ fuel, findControlFlow fuel g = .error (.err (.CouldNotPredictConverge ⟨2⟩)) :=
  ⟨functionOf loopWithContinue, splitAt loopWithContinue 0 _ 7, _, 0, 7,
    ⟨⟨[], _, rfl, rfl⟩, by simp [functionOf, loopWithContinue, emptyBlock, labelId, endOf, BlockEnd.names]⟩,
    ⟨_, _, _, rfl⟩, ⟨9, _, rfl⟩, ⟨9, rfl⟩⟩

/-- The block that may start the next round early is split. -/
example : IsSplit (functionOf loopWithContinue)
      (splitAt loopWithContinue 1 (emptyBlock 2 none (.OpBranchConditional ⟨⟨5⟩, ⟨3⟩, ⟨1⟩, none⟩)) 7)
      (emptyBlock 2 none (.OpBranchConditional ⟨⟨5⟩, ⟨3⟩, ⟨1⟩, none⟩)) 0 7 :=
  ⟨⟨[_], _, rfl, rfl⟩, by simp [functionOf, loopWithContinue, emptyBlock, labelId, endOf, BlockEnd.names]⟩
example : findControlFlow 9 (functionOf loopWithContinue) = .ok (.Block [.Loop ⟨1⟩
    (.Selection ⟨2⟩ (.Block [.Atom ⟨3⟩]) .Continue ⟨false, false⟩ none) ⟨false, false, false, none⟩ none, .Atom ⟨9⟩]) := by
  rfl
example : findControlFlow 18
      (splitAt loopWithContinue 1 (emptyBlock 2 none (.OpBranchConditional ⟨⟨5⟩, ⟨3⟩, ⟨1⟩, none⟩)) 7) =
    .ok (.Block [.Loop ⟨1⟩ (.Block [.Atom ⟨2⟩, .Selection ⟨7⟩ (.Block [.Atom ⟨3⟩]) .Continue ⟨false, false⟩ none])
      ⟨false, false, false, none⟩ none, .Atom ⟨9⟩]) :=
  C84_forth (fuel := 9) (f := functionOf loopWithContinue)
    ⟨⟨[_], _, rfl, rfl⟩, by simp [functionOf, loopWithContinue, emptyBlock, labelId, endOf, BlockEnd.names]⟩
    nofun nofun

end Magma.Props
