import Verif.Spec.Split
/-! One function after another. -/

namespace Magma.Spec
variable {X : Type}

/-- A block goes on with block `start` where it would return. -/
def goOn (start : UInt32) (b : BasicBlock X) : BasicBlock X :=
  match b.branch with
  | .OpReturn _ => { b with merge := none, branch := .OpBranch ⟨⟨start⟩⟩ }
  | _ => b

/-- The blocks of a function, and then those of another one: where the first would return it goes on with block
`start` -/
def inSequence (start : UInt32) (fs gs : List (BasicBlock X)) : List (BasicBlock X) := fs.map (goOn start) ++ gs

/-- What becomes of an outcome for the second function when control flow `chain` comes first -/
def afterChain (chain : ControlFlowChain) : CF ControlFlowChain → CF ControlFlowChain
  | .ok chain' => .ok (.Block (itemsOf chain ++ itemsOf chain'))
  | .error e => .error e

/-- No block of the first function has the label of a block of the second, or is named by one. -/
structure Separate (fs gs : List (BasicBlock X)) : Prop where
  labels : ∀ b ∈ fs, ∀ b' ∈ gs, labelId b ≠ labelId b'
  names : ∀ b ∈ fs, ∀ b' ∈ gs, labelId b ∉ (endOf b').names

end Magma.Spec
