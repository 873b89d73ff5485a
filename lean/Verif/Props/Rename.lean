import Verif.Proofs.Rename
import Verif.Props.ControlFlow
/-! C51: the ids of blocks are only names. -/

namespace Magma.Props
open Spec
variable {X Y : Type}

/-! ### C51 -/

/-- C51: if the blocks of `g` are those of `f` with other ids, different where they were different, the
outcome for `g` is the outcome for `f` with the same change of ids, whether a chain or an error -/
theorem C51_renamed {σ : UInt32 → UInt32} (hσ : ∀ a b, σ a = σ b → a = b) {f : FunctionDefinition X}
    {g : FunctionDefinition Y}
    (h : g.blocks.map (fun b => (labelId b, endOf b)) =
      f.blocks.map (fun b => (σ (labelId b), (endOf b).rename σ))) (fuel : Nat) :
    findControlFlow fuel g = renameOutcome σ (findControlFlow fuel f) :=
  find_rename hσ h fuel

/-- C51: different ids have to stay different. -/
theorem C51_injective : ∃ (σ : UInt32 → UInt32) (f g : FunctionDefinition Empty) (fuel : Nat),
    g.blocks.map (fun b => (labelId b, endOf b)) = f.blocks.map (fun b => (σ (labelId b), (endOf b).rename σ)) ∧
    (∃ chain, findControlFlow fuel f = .ok chain) ∧
    findControlFlow fuel g ≠ renameOutcome σ (findControlFlow fuel f) :=
  ⟨fun _ => 1, functionOf [emptyBlock 1 none (.OpBranch ⟨⟨2⟩⟩), emptyBlock 2 none (.OpReturn {})],
    functionOf [emptyBlock 1 none (.OpBranch ⟨⟨1⟩⟩), emptyBlock 1 none (.OpReturn {})], 9, by rfl, ⟨_, rfl⟩,
    (fun h => by cases h)⟩

example : (∀ a b : UInt32, a + 7 = b + 7 → a = b) ∧
    (functionOf [emptyBlock 17 (some (.OpLoopMerge ⟨⟨19⟩, ⟨18⟩, ⟨true, false, false, none⟩⟩)) (.OpBranch ⟨⟨18⟩⟩),
      emptyBlock 18 none (.OpBranch ⟨⟨17⟩⟩), emptyBlock 19 none (.OpReturn {})] :
        FunctionDefinition Empty).blocks.map (fun b => (labelId b, endOf b)) =
    (functionOf [emptyBlock 10 (some (.OpLoopMerge ⟨⟨12⟩, ⟨11⟩, ⟨true, false, false, none⟩⟩)) (.OpBranch ⟨⟨11⟩⟩),
      emptyBlock 11 none (.OpBranch ⟨⟨10⟩⟩), emptyBlock 12 none (.OpReturn {})] :
        FunctionDefinition Empty).blocks.map (fun b => (labelId b + 7, (endOf b).rename (· + 7))) :=
  ⟨fun _ _ h => UInt32.add_right_inj 7 |>.mp (by rw [UInt32.add_comm 7, UInt32.add_comm 7, h]), by rfl⟩
example : findControlFlow 9 (functionOf
      [emptyBlock 17 (some (.OpLoopMerge ⟨⟨19⟩, ⟨18⟩, ⟨true, false, false, none⟩⟩)) (.OpBranch ⟨⟨18⟩⟩),
        emptyBlock 18 none (.OpBranch ⟨⟨17⟩⟩), emptyBlock 19 none (.OpReturn {})] : FunctionDefinition Empty) =
    .ok (.Block [.Loop ⟨17⟩ (.Block [.Atom ⟨18⟩]) ⟨true, false, false, none⟩ none, .Atom ⟨19⟩]) := by rfl

end Magma.Props
