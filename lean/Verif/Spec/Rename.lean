import Verif.Spec.Flow
/-! Renaming of block ids. -/

namespace Magma.Spec

/-- Rename the blocks that the end of a block names. -/
def BlockEnd.rename (σ : UInt32 → UInt32) : BlockEnd → BlockEnd
  | goto t => goto (σ t)
  | gotoLoop t m h => gotoLoop (σ t) (σ m) h
  | gotoSelection t m h => gotoSelection (σ t) (σ m) h
  | choose t f w => choose (σ t) (σ f) w
  | chooseLoop t f w m h => chooseLoop (σ t) (σ f) w (σ m) h
  | chooseSelection t f w m h => chooseSelection (σ t) (σ f) w (σ m) h
  | returns => returns

mutual
/-- Rename the blocks of a chain. -/
def renameChain (σ : UInt32 → UInt32) : ControlFlowChain → ControlFlowChain
  | .Atom id => .Atom ⟨σ id.val⟩
  | .Block chains => .Block (renameChains σ chains)
  | .Selection id left right hint weights =>
    .Selection ⟨σ id.val⟩ (renameChain σ left) (renameChain σ right) hint weights
  | .Loop id inner hint weights => .Loop ⟨σ id.val⟩ (renameChain σ inner) hint weights
  | .Break => .Break
  | .Continue => .Continue
/-- Rename the blocks of chains. -/
def renameChains (σ : UInt32 → UInt32) : List ControlFlowChain → List ControlFlowChain
  | [] => []
  | chain :: chains => renameChain σ chain :: renameChains σ chains
end

/-- Rename the block that an error is about. -/
def renameError (σ : UInt32 → UInt32) : ControlFlowError → ControlFlowError
  | .DuplicateBlockId id => .DuplicateBlockId ⟨σ id.val⟩
  | .NoBlocks => .NoBlocks
  | .UnknownBlockId id => .UnknownBlockId ⟨σ id.val⟩
  | .CouldNotPredictConverge id => .CouldNotPredictConverge ⟨σ id.val⟩
  | .InvalidConvergePrediction ty id => .InvalidConvergePrediction ty ⟨σ id.val⟩
  | .Failed => .Failed

/-- Rename the blocks of an outcome. -/
def renameOutcome (σ : UInt32 → UInt32) : CF ControlFlowChain → CF ControlFlowChain
  | .ok chain => .ok (renameChain σ chain)
  | .error (.err e) => .error (.err (renameError σ e))
  | .error (.panic s) => .error (.panic s)
  | .error .diverge => .error .diverge

end Magma.Spec
