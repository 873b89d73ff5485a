import Verif.Spec.Place
import Verif.Spec.Rename
/-! A function in which some blocks are copies of others. -/

namespace Magma.Spec
variable {X Y : Type}

/-- Read from its first block on, `f` is `g` with copies of blocks: `σ` says of which block of `g` a block of
`f` is a copy. A copy of the block where a body ends may not take its place inside the body. -/
structure Copies (σ : UInt32 → UInt32) (f : List (BasicBlock X)) (first : UInt32) (g : List (BasicBlock Y)) :
    Prop where
  /-- A copy ends as the block does, but may name copies. -/
  same : ∀ p b, Path f (first, []) p → At f p b →
    ∃ b' ∈ g, labelId b' = σ p.1 ∧ endOf b' = (endOf b).rename σ
  /-- What is missing is missing in both. -/
  missing : ∀ p, Path f (first, []) p → ¬ Stops p → (∀ b ∈ f, labelId b ≠ p.1) → ∀ b' ∈ g, labelId b' ≠ σ p.1
  /-- Only the block where a body ends itself, and no copy, is met inside the body. -/
  stops : ∀ p, Path f (first, []) p → ∀ s ∈ p.2.map Construct.stop, σ p.1 = σ s → p.1 = s
  /-- Breaks and continues go to the blocks themselves. -/
  exits : ∀ p b t e w head merge, Path f (first, []) p → At f p b → endOf b = .choose t e w →
    innermost p.2 = some (head, merge) → (σ e = σ merge → e = merge) ∧ (σ e = σ head → e = head)

/-- The blocks at which bodies end, and those to which one breaks out -/
def Anchor (blocks : List (BasicBlock X)) (a : UInt32) : Prop :=
  ∃ b ∈ blocks, (∃ t m h, endOf b = .gotoLoop t m h ∧ (a = labelId b ∨ a = m)) ∨
    ∃ t e w m h, endOf b = .chooseSelection t e w m h ∧ a = m

/-- All of `f` consists of copies of blocks of `g`, and there is one copy only of the blocks at which bodies end
and of those to which one breaks out. -/
structure CopiesAll (σ : UInt32 → UInt32) (f : List (BasicBlock X)) (g : List (BasicBlock Y)) : Prop where
  same : ∀ b ∈ f, ∃ b' ∈ g, labelId b' = σ (labelId b) ∧ endOf b' = (endOf b).rename σ
  missing : ∀ x, (∀ b ∈ f, labelId b ≠ x) → ∀ b' ∈ g, labelId b' ≠ σ x
  single : ∀ a x, Anchor f a → σ x = σ a → x = a

end Magma.Spec
