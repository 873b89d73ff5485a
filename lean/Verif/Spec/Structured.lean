import Verif.Spec.Execution
/-! Structured programs, and what it means that the basic blocks of a function spell one. -/

namespace Magma.Spec

/-- A structured program -/
inductive Program where
  /-- The end of a branch of a selection, or of the body of a loop -/
  | done
  /-- A block that returns -/
  | ret (id : BlockId)
  /-- A block, followed by more -/
  | atom (id : BlockId) (rest : Program)
  /-- A block that chooses between two programs, followed by more -/
  | sel (id : BlockId) (left right : Program) (hint : SelectionControl)
      (weights : Option BranchWeights) (rest : Program)
  /-- A block that starts a loop, followed by more -/
  | loop (id : BlockId) (body : Program) (hint : LoopControl) (rest : Program)
  /-- A block that either goes on with the rest or leaves the innermost loop (`brk`), or starts its
  next round. -/
  | exit (id : BlockId) (brk : Bool) (weights : Option BranchWeights) (rest : Program)

namespace Program

/-- The blocks of a program -/
def ids : Program → List BlockId
  | done => []
  | ret id => [id]
  | atom id rest => id :: rest.ids
  | sel id left right _ _ rest => id :: (left.ids ++ right.ids ++ rest.ids)
  | loop id body _ rest => id :: (body.ids ++ rest.ids)
  | exit id _ _ rest => id :: rest.ids

/-- Where a program starts, if control goes to `k` after it -/
def entry (k : Option BlockId) : Program → Option BlockId
  | done => k
  | ret id | atom id _ | sel id _ _ _ _ _ | loop id _ _ _ | exit id _ _ _ => some id

/-- The basic blocks spell a program. Control goes to block `k` at its end; if there is no such block
the program has to return. `lp` are the header and the merge block of the innermost loop around it. -/
def SpelledBy {X : Type} (blocks : List (BasicBlock X)) :
    Option (BlockId × BlockId) → Option BlockId → Program → Prop
  | _, k, done => k ≠ none
  | _, k, ret id => k = none ∧ ∃ b r, blockOf blocks id = some b ∧ b.branch = .OpReturn r
  | lp, k, atom id rest =>
    (∃ b op, blockOf blocks id = some b ∧ b.merge = none ∧ b.branch = .OpBranch op ∧
      rest.entry k = some ⟨op.target_label.val⟩) ∧
    SpelledBy blocks lp k rest
  | lp, k, sel id left right hint weights rest =>
    ∃ b op sm, blockOf blocks id = some b ∧ b.merge = some (.OpSelectionMerge sm) ∧
      b.branch = .OpBranchConditional op ∧ sm.selection_control = hint ∧ op.weights = weights ∧
      rest.entry k = some ⟨sm.merge_block.val⟩ ∧
      left.entry (some ⟨sm.merge_block.val⟩) = some ⟨op.true_label.val⟩ ∧
      right.entry (some ⟨sm.merge_block.val⟩) = some ⟨op.false_label.val⟩ ∧
      SpelledBy blocks lp (some ⟨sm.merge_block.val⟩) left ∧
      SpelledBy blocks lp (some ⟨sm.merge_block.val⟩) right ∧
      SpelledBy blocks lp k rest
  | lp, k, loop id body hint rest =>
    ∃ b op lm, blockOf blocks id = some b ∧ b.merge = some (.OpLoopMerge lm) ∧
      b.branch = .OpBranch op ∧ lm.loop_control = hint ∧
      rest.entry k = some ⟨lm.merge_block.val⟩ ∧
      body.entry (some id) = some ⟨op.target_label.val⟩ ∧
      SpelledBy blocks (some (id, ⟨lm.merge_block.val⟩)) (some id) body ∧
      SpelledBy blocks lp k rest
  | lp, k, exit id brk weights rest =>
    ∃ head merge b op, lp = some (head, merge) ∧ k = some head ∧ blockOf blocks id = some b ∧
      b.merge = none ∧ b.branch = .OpBranchConditional op ∧ op.weights = weights ∧
      (⟨op.false_label.val⟩ : BlockId) = (if brk then merge else head) ∧
      rest.entry k = some ⟨op.true_label.val⟩ ∧
      SpelledBy blocks lp k rest

/-- No block of a program is a loop header around it or a block where a selection around it merges.
`avoid` are those blocks for the program as a whole, `k` is where control goes after it. -/
def Nested (avoid : List BlockId) (k : Option BlockId) : Program → Prop
  | done => True
  | ret id => id ∉ avoid
  | atom id rest => id ∉ avoid ∧ Nested avoid k rest
  | sel id left right _ _ rest => id ∉ avoid ∧
      Nested ((rest.entry k).toList ++ avoid) (rest.entry k) left ∧
      Nested ((rest.entry k).toList ++ avoid) (rest.entry k) right ∧ Nested avoid k rest
  | loop id body _ rest => id ∉ avoid ∧ Nested (id :: avoid) (some id) body ∧ Nested avoid k rest
  | exit id _ _ rest => id ∉ avoid ∧ Nested avoid k rest

mutual
/-- The chain for a program. A single return or exit stands alone. -/
def toChain : Program → ControlFlowChain
  | ret id => .Atom id
  | exit id brk weights rest =>
    .Selection id (toChain rest) (if brk then .Break else .Continue)
      { flatten := false, dont_flatten := false } weights
  | done => .Block []
  | atom id rest => .Block (.Atom id :: toChains rest)
  | sel id left right hint weights rest =>
    .Block (.Selection id (toChain left) (toChain right) hint weights :: toChains rest)
  | loop id body hint rest => .Block (.Loop id (toChain body) hint none :: toChains rest)
/-- The items of the chain for a program -/
def toChains : Program → List ControlFlowChain
  | done => []
  | ret id => [.Atom id]
  | atom id rest => .Atom id :: toChains rest
  | sel id left right hint weights rest =>
    .Selection id (toChain left) (toChain right) hint weights :: toChains rest
  | loop id body hint rest => .Loop id (toChain body) hint none :: toChains rest
  | exit id brk weights rest =>
    [.Selection id (toChain rest) (if brk then .Break else .Continue)
      { flatten := false, dont_flatten := false } weights]
end

end Program
end Magma.Spec
