import Verif.Spec.Flow
/-! The control flow graph of a function and the rules for structured control flow, after section 2.11 of the SPIR-V
standard. Walks follow branches and go from a header to its merge block and continue target as well, which is what the
later versions of the standard call the structural control flow graph; that way blocks which merge, but which no branch
leads to, count as reached. -/

namespace Magma.Standard
open Magma.Spec
variable {X : Type}

/-- The targets of the branch at the end of a block -/
def targets : BlockEnd → List UInt32
  | .goto t => [t]
  | .gotoLoop t _ _ => [t]
  | .gotoSelection t _ _ => [t]
  | .choose t f _ => [t, f]
  | .chooseLoop t f _ _ _ => [t, f]
  | .chooseSelection t f _ _ _ => [t, f]
  | .returns => []

/-- The merge block that a header declares -/
def mergeOf : BlockEnd → Option UInt32
  | .gotoLoop _ m _ => some m
  | .gotoSelection _ m _ => some m
  | .chooseLoop _ _ _ m _ => some m
  | .chooseSelection _ _ _ m _ => some m
  | _ => none

/-- The block is the header of a loop. -/
def isLoop : BlockEnd → Bool
  | .gotoLoop .. => true
  | .chooseLoop .. => true
  | _ => false

/-- The continue target that the header of a loop declares -/
def continueOf (b : BasicBlock X) : Option UInt32 :=
  match b.merge with
  | some (.OpLoopMerge m) => if isLoop (endOf b) then some m.continue_target.val else none
  | _ => none

/-- There is a branch from one block to another. -/
def Branch (blocks : List (BasicBlock X)) (u v : UInt32) : Prop :=
  ∃ b ∈ blocks, labelId b = u ∧ v ∈ targets (endOf b)

/-- There is a branch from one block to another, or the one declares the other as its merge block or continue target. -/
def Edge (blocks : List (BasicBlock X)) (u v : UInt32) : Prop :=
  ∃ b ∈ blocks, labelId b = u ∧ (v ∈ targets (endOf b) ∨ mergeOf (endOf b) = some v ∨ continueOf b = some v)

/-- A way through the function from its first block, last block first -/
inductive Walk (blocks : List (BasicBlock X)) (first : UInt32) : List UInt32 → Prop where
  | start : Walk blocks first [first]
  | step {u v l} : Walk blocks first (u :: l) → Edge blocks u v → Walk blocks first (v :: u :: l)

/-- Every way to `v` comes through `h`. -/
def Dominates (blocks : List (BasicBlock X)) (first h v : UInt32) : Prop :=
  ∀ l, Walk blocks first (v :: l) → h ∈ v :: l

/-- An edge from `u` to `v` where some depth-first traversal comes to `u` by way of `v`: one that starts with a way to
`u` through `v` on which no block comes twice. -/
def BackEdge (blocks : List (BasicBlock X)) (first u v : UInt32) : Prop :=
  Edge blocks u v ∧ ∃ l, Walk blocks first (u :: l) ∧ (u :: l).Nodup ∧ v ∈ u :: l

/-- `x` is a header, and `m` is its merge block. -/
def Header (blocks : List (BasicBlock X)) (x m : UInt32) : Prop :=
  ∃ b ∈ blocks, labelId b = x ∧ mergeOf (endOf b) = some m

/-- `x` is the header of a loop. -/
def LoopHeader (blocks : List (BasicBlock X)) (x : UInt32) : Prop :=
  ∃ b ∈ blocks, labelId b = x ∧ isLoop (endOf b) = true

/-- The construct of the header `x` with the merge block `m`: the blocks that `x` dominates, without the ones that `m`
dominates. For a loop that is both what the standard calls the loop construct and the continue construct. -/
def Inside (blocks : List (BasicBlock X)) (first x m v : UInt32) : Prop :=
  Dominates blocks first x v ∧ ¬ Dominates blocks first m v

/-- The rules of the standard for structured control flow, as far as they matter here. The standard has further rules for
continue targets and for the blocks where a construct may be left; functions that break only those are not excluded. -/
structure Structured (blocks : List (BasicBlock X)) (first : UInt32) : Prop where
  /-- The labels are distinct. -/
  labels : (blocks.map labelId).Nodup
  /-- All blocks named are blocks of the function. -/
  known : ∀ u v, Edge blocks u v → ∃ b ∈ blocks, labelId b = v
  /-- A header strictly dominates its merge block. -/
  merges : ∀ x m, Header blocks x m → x ≠ m ∧ Dominates blocks first x m
  /-- A merge block is declared by one header only. -/
  own : ∀ x x' m, Header blocks x m → Header blocks x' m → x = x'
  /-- The header of a loop dominates its continue target. -/
  continues : ∀ b ∈ blocks, ∀ c, continueOf b = some c → Dominates blocks first (labelId b) c
  /-- All back edges go to the header of a loop. -/
  back : ∀ u v, BackEdge blocks first u v → LoopHeader blocks v
  /-- The block where a back edge starts is part of the loop. -/
  part : ∀ u x m, BackEdge blocks first u x → Header blocks x m → Inside blocks first x m u
  /-- Branches into a construct go to its header. -/
  entry : ∀ u v x m, Branch blocks u v → Header blocks x m → Inside blocks first x m v → v ≠ x →
    (∃ l, Walk blocks first (u :: l)) → Inside blocks first x m u

/-- Where the code goes on reading after a block: at the targets of its branch and its merge block, but of a conditional
branch without merge block only at the first target -/
def next : BlockEnd → List UInt32
  | .goto t => [t]
  | .gotoLoop t m _ => [t, m]
  | .chooseSelection t f _ m _ => [t, f, m]
  | .choose t _ _ => [t]
  | _ => []

/-- A block that is read -/
inductive Reached (blocks : List (BasicBlock X)) (first : UInt32) : UInt32 → Prop where
  | start : Reached blocks first first
  | step {b v} : Reached blocks first (labelId b) → b ∈ blocks → v ∈ next (endOf b) → Reached blocks first v

/-- The block where the inside of the construct of a header is left: a selection at its merge block, a loop at the header
itself -/
def leftAt (e : BlockEnd) (x m : UInt32) : UInt32 := if isLoop e then x else m

/-- A header with its merge block and the block where its inside is left -/
def Opens (blocks : List (BasicBlock X)) (x m s : UInt32) : Prop :=
  ∃ b ∈ blocks, labelId b = x ∧ mergeOf (endOf b) = some m ∧ s = leftAt (endOf b) x m

/-- What the code can cope with at a block -/
structure Tame (blocks : List (BasicBlock X)) (first : UInt32) (b : BasicBlock X) : Prop where
  /-- Loops start with an unconditional branch. -/
  loop : ∀ t f w m h, endOf b ≠ .chooseLoop t f w m h
  /-- Selections start with a conditional branch. -/
  selection : ∀ t m h, endOf b ≠ .gotoSelection t m h
  /-- There is no return inside of a construct. -/
  returns : endOf b = .returns → ∀ x m, Header blocks x m → ¬ Inside blocks first x m (labelId b)
  /-- A construct is left only at the block where it should be; its own merge block is of no concern here. -/
  stays : ∀ x m s, Opens blocks x m s → Inside blocks first x m (labelId b) → ∀ v ∈ next (endOf b),
    ¬ (labelId b = x ∧ v = m ∧ v ∉ targets (endOf b)) → Inside blocks first x m v ∨ v = s
  /-- A conditional branch without merge block is inside of a loop and inside of no further construct in the loop; its
  second target is the merge block of that loop or its header. -/
  exit : ∀ t f w, endOf b = .choose t f w → ∃ x m, LoopHeader blocks x ∧ Header blocks x m ∧
    Inside blocks first x m (labelId b) ∧ (f = m ∨ f = x) ∧
    ∀ x' m', Header blocks x' m' → Inside blocks first x' m' (labelId b) → x' = x ∨ Inside blocks first x' m' x

end Magma.Standard
