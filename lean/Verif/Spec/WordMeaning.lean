import Verif.Spec.WordMachine
import Verif.Spec.Meaning
import Verif.Spec.Encoding
import Verif.Spec.Layout
/-! What the words of a function compute, for any meaning of the words. Of the words of an instruction only those of
labels, branches and returns are looked at; which words are the code of a block is told by the opcodes 246
(OpLoopMerge) and 247 (OpSelectionMerge) and those that end a block. -/

namespace Magma.Spec
variable {X S : Type}

/-- A meaning of the words of instructions over states `S`: what an opcode with its operand words does to the state,
given the label of the block from which control came, and whether the condition with an id holds -/
structure WordMeaning (S : Type) where
  run : Option UInt32 → Nat × List UInt32 → S → S
  holds : UInt32 → S → Bool

/-- The instruction is neither a merge instruction nor the end of a block. -/
def isCode (f : Nat × List UInt32) : Bool := !(f.1 == 246 || f.1 == 247 || endsBlock f)

/-- The instructions between the label `id` and the merge instruction or end of its block -/
def blockCode (fs : List (Nat × List UInt32)) (id : UInt32) : List (Nat × List UInt32) :=
  ((fs.dropWhile (fun f => !isLabel id f)).drop 1).takeWhile isCode

/-- Where an instruction that ends a block leads in a state: `some none` is to return -/
def WordMeaning.leadsTo (W : WordMeaning S) (s : S) : Nat × List UInt32 → Option (Option UInt32)
  | (249, target :: _) => some (some target)
  | (250, condition :: onTrue :: onFalse :: _) => some (some (if W.holds condition s then onTrue else onFalse))
  | (253, _) => some none
  | _ => none

/-- Execution from the label `id` for at most `n` visits, like `runMachine` -/
def WordMeaning.runFrames (W : WordMeaning S) (fs : List (Nat × List UInt32)) :
    Nat → UInt32 → Config S → List BlockId × Config S × Outcome
  | 0, _, c => ([], c, .running)
  | n + 1, id, c =>
    match blockEnd fs id with
    | none => ([], c, .stuck)
    | some last =>
      let c' : Config S := ⟨some id, (blockCode fs id).foldl (fun s f => W.run c.last f s) c.state⟩
      match W.leadsTo c'.state last with
      | none => ([], c, .stuck)
      | some none => ([⟨id⟩], c', .returned)
      | some (some target) =>
        let (trace, c'', outcome) := W.runFrames fs n target c'
        (⟨id⟩ :: trace, c'', outcome)

/-- Execution of the words of a function from its first label -/
def WordMeaning.runWords (W : WordMeaning S) (ws : List UInt32) (n : Nat) (c : Config S) :
    Option (List BlockId × Config S × Outcome) :=
  let fs := frames ws.length ws
  match fs.find? (fun f => f.1 == 248) with
  | some (_, label :: _) => some (W.runFrames fs n label c)
  | _ => none

/-- The words mean what the instructions mean that they spell in a module with the instructions `all`. -/
structure SameMeaning (known : List (ExtInstSet X)) (all : List (Core X)) (W : WordMeaning S) (M : Machine X S) :
    Prop where
  run : ∀ i head ops, SpellsInst known all (codeInst i) (head :: ops) →
    ∀ p s, W.run p (head.toNat % 65536, ops) s = M.run p i s
  holds : ∀ id s, W.holds id s = M.holds ⟨id⟩ s

end Magma.Spec
