import Verif.Spec.Split
/-! A part of a construct replaced by a function. -/

namespace Magma.Spec

/-- Which part of a construct -/
inductive Spot where
  /-- The first arm of a selection -/
  | left
  /-- The second arm of a selection -/
  | right
  /-- The body of a loop -/
  | inner
  deriving DecidableEq

mutual
/-- The chain, with another part in the construct that starts with block `x` -/
def replaceAt (spot : Spot) (x : UInt32) (new : ControlFlowChain) : ControlFlowChain → ControlFlowChain
  | .Atom id => .Atom id
  | .Block chains => .Block (replaceItems spot x new chains)
  | .Selection id left right hint w =>
    .Selection id (if id.val = x ∧ spot = .left then new else replaceAt spot x new left)
      (if id.val = x ∧ spot = .right then new else replaceAt spot x new right) hint w
  | .Loop id inner hint w =>
    .Loop id (if id.val = x ∧ spot = .inner then new else replaceAt spot x new inner) hint w
  | .Break => .Break
  | .Continue => .Continue
/-- The same for chains one after the other -/
def replaceItems (spot : Spot) (x : UInt32) (new : ControlFlowChain) : List ControlFlowChain → List ControlFlowChain
  | [] => []
  | chain :: chains => replaceAt spot x new chain :: replaceItems spot x new chains
end

/-- The end of the block that starts a construct, if the part starts with block `n` -/
def turned (spot : Spot) (n : UInt32) : BlockEnd → BlockEnd
  | .chooseSelection t e w m hint =>
    match spot with
    | .left => .chooseSelection n e w m hint
    | .right => .chooseSelection t n w m hint
    | .inner => .chooseSelection t e w m hint
  | .gotoLoop t m hint => if spot = .inner then .gotoLoop n m hint else .gotoLoop t m hint
  | e => e

/-- The block that comes after a part of the construct that starts with block `x`: where a selection merges, or the first
block of a loop -/
def afterPart (spot : Spot) (x : UInt32) : BlockEnd → Option UInt32
  | .chooseSelection _ _ _ m _ => if spot = .inner then none else some m
  | .gotoLoop _ _ _ => if spot = .inner then some x else none
  | _ => none

/-- The end of a block, if it goes on with block `k` where it returned -/
def goingOn (k : UInt32) : BlockEnd → BlockEnd
  | .returns => .goto k
  | e => e

variable {X Y Z : Type}

/-- The function `g` is `f`, but with the function `h` for a part of the construct that starts with block `x`: where `h`
returns, `g` goes to the block that comes after the part. What the blocks of the part were may still be there. -/
structure Replaced (spot : Spot) (x : UInt32) (f : FunctionDefinition X) (h : FunctionDefinition Y)
    (g : FunctionDefinition Z) : Prop where
  first : (g.blocks.map labelId).head? = (f.blocks.map labelId).head?
  labels : (g.blocks.map labelId).Nodup
  apart : ∀ b ∈ f.blocks, ∀ c ∈ h.blocks, labelId b ≠ labelId c
  others : ∀ b ∈ f.blocks, labelId b ≠ x → ∃ b' ∈ g.blocks, labelId b' = labelId b ∧ endOf b' = endOf b
  here : ∃ b ∈ f.blocks, labelId b = x ∧ ∃ n k, (h.blocks.map labelId).head? = some n ∧ afterPart spot x (endOf b) = some k ∧
    (∃ b' ∈ g.blocks, labelId b' = x ∧ endOf b' = turned spot n (endOf b)) ∧
    ∀ c ∈ h.blocks, ∃ c' ∈ g.blocks, labelId c' = labelId c ∧
      endOf c' = goingOn k (endOf c)

/-- The function `g` is `f`, but with nothing for a part of the construct that starts with block `x`: it goes at once to the
block that comes after the part. -/
structure Emptied (spot : Spot) (x : UInt32) (f : FunctionDefinition X) (g : FunctionDefinition Z) : Prop where
  first : (g.blocks.map labelId).head? = (f.blocks.map labelId).head?
  labels : (g.blocks.map labelId).Nodup
  others : ∀ b ∈ f.blocks, labelId b ≠ x → ∃ b' ∈ g.blocks, labelId b' = labelId b ∧ endOf b' = endOf b
  here : ∃ b ∈ f.blocks, labelId b = x ∧ ∃ k, afterPart spot x (endOf b) = some k ∧
    ∃ b' ∈ g.blocks, labelId b' = x ∧ endOf b' = turned spot k (endOf b)

end Magma.Spec
