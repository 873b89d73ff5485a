import Verif.Proofs.Sequence
import Verif.Model.Printer
import Verif.Props.ControlFlow
/-! C85: one function after another. -/

namespace Magma.Props
open Spec
variable {X : Type}

/-- C85: if `f` has control flow `c`, the outcome for `f` and then `g` is the outcome for `g` with `c` in front. -/
theorem C85_forth {f g h : FunctionDefinition X} {first : BasicBlock X} {more : List (BasicBlock X)} {fuel : Nat}
    {c : ControlFlowChain} (hf : findControlFlow fuel f = .ok c) (hg : g.blocks = first :: more)
    (ha : Separate f.blocks g.blocks) (hh : h.blocks = inSequence (labelId first) f.blocks g.blocks) {k : Nat}
    (hk : findControlFlow k g ≠ .error .diverge) : findControlFlow (k + fuel) h = afterChain c (findControlFlow k g) :=
  (Sequence.find_sequence hf hg ha hh k).1 hk

/-- C85: and whatever the outcome for both is, it comes from the outcome for `g`. -/
theorem C85_back {f g h : FunctionDefinition X} {first : BasicBlock X} {more : List (BasicBlock X)} {fuel : Nat}
    {c : ControlFlowChain} (hf : findControlFlow fuel f = .ok c) (hg : g.blocks = first :: more)
    (ha : Separate f.blocks g.blocks) (hh : h.blocks = inSequence (labelId first) f.blocks g.blocks) {k : Nat}
    (hk : findControlFlow k h ≠ .error .diverge) : findControlFlow k h = afterChain c (findControlFlow k g) := by
  rw [← C85_forth hf hg ha hh ((Sequence.find_sequence hf hg ha hh k).2 hk),
    findControlFlow_mono (Nat.le_add_right k fuel) hk]

theorem afterChain_diverges {c : ControlFlowChain} {r : CF ControlFlowChain} :
    afterChain c r = .error .diverge ↔ r = .error .diverge := by
  cases r with
  | ok r => exact ⟨nofun, nofun⟩
  | error e => exact .rfl

/-- C85: so the outcomes correspond: chains, errors and panics, and that there is no outcome. -/
theorem C85_outcome {f g h : FunctionDefinition X} {first : BasicBlock X} {more : List (BasicBlock X)} {fuel : Nat}
    {c : ControlFlowChain} (hf : findControlFlow fuel f = .ok c) (hg : g.blocks = first :: more)
    (ha : Separate f.blocks g.blocks) (hh : h.blocks = inSequence (labelId first) f.blocks g.blocks) :
    (∀ r', r' ≠ .error .diverge → ((∃ fuel, findControlFlow fuel h = r') ↔
      ∃ r, r' = afterChain c r ∧ ∃ fuel, findControlFlow fuel g = r)) ∧
    ((∀ fuel, findControlFlow fuel h = .error .diverge) ↔ ∀ fuel, findControlFlow fuel g = .error .diverge) := by
  refine ⟨fun r' hr => ⟨?_, ?_⟩, ⟨fun hh' k => ?_, fun hg' k => ?_⟩⟩
  · rintro ⟨k, rfl⟩
    exact ⟨_, C85_back hf hg ha hh hr, k, rfl⟩
  · rintro ⟨r, rfl, k, rfl⟩
    exact ⟨_, C85_forth hf hg ha hh fun hd => hr (afterChain_diverges.mpr hd)⟩
  · by_cases hd : findControlFlow k g = .error .diverge
    · exact hd
    · have := C85_forth hf hg ha hh hd
      rw [hh'] at this
      exact absurd (afterChain_diverges.mp this.symm) hd
  · by_cases hd : findControlFlow k h = .error .diverge
    · exact hd
    · have := C85_back hf hg ha hh hd
      rw [hg'] at this
      exact this

theorem fmtIndentAll_append (as bs : List ControlFlowChain) (indent : Nat) :
    ControlFlowChain.fmtIndentAll (as ++ bs) indent =
      ControlFlowChain.fmtIndentAll as indent ++ ControlFlowChain.fmtIndentAll bs indent := by
  induction as with
  | nil => rfl
  | cons a as ih => rw [List.cons_append, ControlFlowChain.fmtIndentAll, ControlFlowChain.fmtIndentAll, ih, List.append_assoc]

theorem fmtIndentAll_items (c : ControlFlowChain) (indent : Nat) :
    ControlFlowChain.fmtIndentAll (itemsOf c) indent = c.fmtIndent indent := by
  cases c with
  | Block cs => rw [itemsOf, ControlFlowChain.fmtIndent]
  | _ => exact List.append_nil _

/-- C85: the control flow of both is printed as that of `f`, and then that of `g`. -/
theorem C85_text {f g h : FunctionDefinition X} {first : BasicBlock X} {more : List (BasicBlock X)} {fuel k : Nat}
    {c c' : ControlFlowChain} (hf : findControlFlow fuel f = .ok c) (hg : g.blocks = first :: more)
    (hg' : findControlFlow k g = .ok c') (ha : Separate f.blocks g.blocks)
    (hh : h.blocks = inSequence (labelId first) f.blocks g.blocks) :
    ∃ both, findControlFlow (k + fuel) h = .ok both ∧
      ∀ indent, both.fmtIndent indent = c.fmtIndent indent ++ c'.fmtIndent indent := by
  have := C85_forth hf hg ha hh (k := k) (by rw [hg']; nofun)
  rw [hg'] at this
  refine ⟨_, this, fun indent => ?_⟩
  rw [ControlFlowChain.fmtIndent, fmtIndentAll_append, fmtIndentAll_items, fmtIndentAll_items]

/-- A loop, and then a selection -/
def loopFirst : FunctionDefinition Empty := functionOf
  [ emptyBlock 1 (some (.OpLoopMerge ⟨⟨3⟩, ⟨2⟩, ⟨false, false, false, none⟩⟩)) (.OpBranch ⟨⟨2⟩⟩),
    emptyBlock 2 none (.OpBranchConditional ⟨⟨5⟩, ⟨1⟩, ⟨3⟩, none⟩),
    emptyBlock 3 none (.OpReturn {}) ]
def selectionThen : FunctionDefinition Empty := functionOf
  [ emptyBlock 11 (some (.OpSelectionMerge ⟨⟨13⟩, ⟨true, false⟩⟩)) (.OpBranchConditional ⟨⟨5⟩, ⟨12⟩, ⟨13⟩, none⟩),
    emptyBlock 12 none (.OpBranch ⟨⟨13⟩⟩),
    emptyBlock 13 none (.OpReturn {}) ]

theorem separate_samples : Separate loopFirst.blocks selectionThen.blocks := by
  constructor <;> simp [loopFirst, selectionThen, functionOf, emptyBlock, labelId, endOf, BlockEnd.names]

example : findControlFlow 10 (functionOf (inSequence 11 loopFirst.blocks selectionThen.blocks)) =
    .ok (.Block [.Loop ⟨1⟩ (.Selection ⟨2⟩ (.Block []) .Break ⟨false, false⟩ none) ⟨false, false, false, none⟩ none,
      .Atom ⟨3⟩, .Selection ⟨11⟩ (.Block [.Atom ⟨12⟩]) (.Block []) ⟨true, false⟩ none, .Atom ⟨13⟩]) :=
  C85_forth (f := loopFirst) (g := selectionThen) (fuel := 5) (k := 5) rfl rfl separate_samples rfl nofun

/-- Without a second function that returns there is no outcome. -/
example : ∀ k, findControlFlow k (functionOf (inSequence 11 loopFirst.blocks [emptyBlock 11 none (.OpBranch ⟨⟨11⟩⟩)])) =
    .error .diverge := by
  refine (C85_outcome (f := loopFirst) (g := functionOf [emptyBlock 11 none (.OpBranch ⟨⟨11⟩⟩)]) (fuel := 5) rfl rfl
    ?_ rfl).2.mpr fun k => ?_
  · constructor <;> simp [loopFirst, functionOf, emptyBlock, labelId, endOf, BlockEnd.names]
  · have : ∀ k, searchBlock [((⟨11⟩ : BlockId), emptyBlock 11 none (.OpBranch ⟨⟨11⟩⟩))] k ⟨11⟩ [] = .error .diverge := by
      intro k
      induction k with
      | zero => rfl
      | succ k ih =>
        rw [searchBlock_succ, searchStep_eq]
        show (searchBlock _ k ⟨11⟩ [] >>= _) = _
        rw [ih]
        rfl
    show (searchBlock _ k ⟨11⟩ [] >>= _) = _
    erw [this]
    rfl

end Magma.Props
