import Verif.Spec.Passing
import Verif.Spec.Course
import Verif.Spec.Printing
import Verif.Spec.Layout
import Verif.Spec.GlslEncoding
import Verif.Spec.Serialise
import Verif.Model.Reader
import Verif.Model.Parser
import Verif.Model.ControlFlow
/-! The rule of the SPIR-V standard (section 2.16.1) that blocks appear before all blocks they dominate, and a tool made of
the crate that puts the blocks of functions in such an order. -/

namespace Magma.Spec
open Magma.Standard
variable {X : Type}

/-- A block that some way along branches from the first block leads to comes after all blocks that are on all ways to it. -/
def DominatorsFirst (blocks : List (BasicBlock X)) (first : UInt32) : Prop :=
  ∀ pre b post, blocks = pre ++ b :: post → (∃ l, Course blocks first (l ++ [labelId b])) →
    ∀ a, (∀ l, Course blocks first (l ++ [labelId b]) → a ∈ l) → a ∈ pre.map labelId

/-- The same with ways that go from a header to its merge block and continue target as well (the structural control flow
graph of later versions of the standard), for some of the blocks -/
def HeadersFirst (blocks : List (BasicBlock X)) (first : UInt32) (these : List UInt32) : Prop :=
  ∀ pre b post, blocks = pre ++ b :: post → labelId b ∈ these →
    ∀ a, Dominates blocks first a (labelId b) → a ≠ labelId b → a ∈ pre.map labelId

/-- Everything at the first place where it stands only -/
def firsts : List UInt32 → List UInt32
  | [] => []
  | a :: l => a :: (firsts l).filter (· != a)

/-- The labels in the order of the recovered control flow, first of the blocks that control can come to -/
def chainOrder (chain : ControlFlowChain) : List UInt32 := firsts ((reached chain).map (·.val) ++ chainIds chain)

/-- The blocks in the order of the recovered control flow, and then those that are not in it -/
def arrangeBlocks (chain : ControlFlowChain) (blocks : List (BasicBlock X)) : List (BasicBlock X) :=
  (chainOrder chain).filterMap (fun id => blockOf blocks ⟨id⟩) ++
    blocks.filter fun b => !(chainOrder chain).contains (labelId b)

/-- Are the blocks in order, as far as the recovered control flow tells, if those labelled `before` come before them? -/
def arrangedAfter (chain : ControlFlowChain) (before : List UInt32) : List (BasicBlock X) → Bool
  | [] => true
  | b :: blocks =>
    ((reached chain).all fun a =>
      !(reached chain).contains ⟨labelId b⟩ || comes a ⟨labelId b⟩ chain || before.contains a.val) &&
    arrangedAfter chain (labelId b :: before) blocks

/-- A function with its blocks in order, if control flow is recovered -/
def arrange (fuel : Nat) (d : FunctionDefinition X) : FunctionDefinition X :=
  match findControlFlow fuel d with
  | .ok chain => { d with blocks := arrangeBlocks chain d.blocks }
  | .error _ => d

/-- The same for all functions of a module -/
def arrangeModule (fuel : Nat) (m : LogicalModule X) : LogicalModule X :=
  { m with function_definitions := m.function_definitions.map (arrange fuel) }

/-- The same for binaries -/
def arrangeBinary (fuel : Nat) (littleEndian : Bool) (bytes : List UInt8) : Option (List UInt8) :=
  match readModule bytes [Glsl.instSet] with
  | .error _ => none
  | .ok raw =>
    match validate raw with
    | .error _ => none
    | .ok m => some (encodeModule glslWords littleEndian { raw with instructions := layout (arrangeModule fuel m) })

end Magma.Spec
