import Verif.Spec.Execution
import Verif.Spec.Flow
/-! What a function computes, and what a structured program made of its blocks computes, for any meaning of the
instructions in the blocks. -/

namespace Magma.Spec
variable {X S : Type}

/-- A meaning of instructions over states `S`: what an instruction does to the state, given the block from which
control came (which `OpPhi` asks for), and whether a condition holds in a state. Nothing is assumed about it. -/
structure Machine (X S : Type) where
  run : Option UInt32 → GroupCode X → S → S
  holds : OpId → S → Bool

/-- The block visited last, and the state -/
structure Config (S : Type) where
  last : Option UInt32
  state : S
  deriving DecidableEq

/-- The code of a block, instruction by instruction -/
def Machine.enter (M : Machine X S) (b : BasicBlock X) (c : Config S) : Config S :=
  ⟨some (labelId b), b.code.foldl (fun s i => M.run c.last i s) c.state⟩

/-- Execution of basic blocks from block `id` for at most `n` visits: the blocks visited, where it got, and the outcome -/
def runMachine (M : Machine X S) (blocks : List (BasicBlock X)) :
    Nat → BlockId → Config S → List BlockId × Config S × Outcome
  | 0, _, c => ([], c, .running)
  | n + 1, id, c =>
    match blockOf blocks id with
    | none => ([], c, .stuck)
    | some b =>
      let c := M.enter b c
      match b.branch with
      | .OpReturn _ => ([id], c, .returned)
      | .OpBranch op =>
        let (trace, c, outcome) := runMachine M blocks n ⟨op.target_label.val⟩ c
        (id :: trace, c, outcome)
      | .OpBranchConditional op =>
        let (trace, c, outcome) := runMachine M blocks n
          ⟨if M.holds op.condition c.state then op.true_label.val else op.false_label.val⟩ c
        (id :: trace, c, outcome)

/-- The effect of a structured statement: blocks visited, how it ended, visits left, and where it got -/
structure Effect.On (S : Type) where
  trace : List BlockId
  signal : Signal
  rest : Nat
  config : Config S

/-- The code of the block with a label -/
def Machine.arrive (M : Machine X S) (blocks : List (BasicBlock X)) (id : BlockId) (c : Config S) : Config S :=
  match blockOf blocks id with
  | none => c
  | some b => M.enter b c

/-- Does the condition hold that the block with a label ends with? -/
def Machine.decides (M : Machine X S) (blocks : List (BasicBlock X)) (id : BlockId) (c : Config S) : Bool :=
  match blockOf blocks id with
  | none => false
  | some b =>
    match b.branch with
    | .OpBranchConditional op => M.holds op.condition c.state
    | _ => false

/-- Visit one block, with at most `n` visits left. -/
def Machine.visit (M : Machine X S) (blocks : List (BasicBlock X)) (id : BlockId) : Nat → Config S → Effect.On S
  | 0, c => ⟨[], .running, 0, c⟩
  | n + 1, c => ⟨[id], .next, n, M.arrive blocks id c⟩

/-- `first`, and if it ends normally, `second` from where it got -/
def Effect.On.andThen (first : Effect.On S) (second : Nat → Config S → Effect.On S) : Effect.On S :=
  match first.signal with
  | .next =>
    let e := second first.rest first.config
    ⟨first.trace ++ e.trace, e.signal, e.rest, e.config⟩
  | _ => first

/-- Repeat `body` until it breaks. Every round visits a block, so `n + 1` rounds are enough for `n` visits. -/
def repeatOn (body : Nat → Config S → Effect.On S) : Nat → Nat → Config S → Effect.On S
  | 0, n, c => ⟨[], .running, n, c⟩
  | k + 1, n, c =>
    let e := body n c
    match e.signal with
    | .next | .continues =>
      let e' := repeatOn body k e.rest e.config
      ⟨e.trace ++ e'.trace, e'.signal, e'.rest, e'.config⟩
    | .breaks => ⟨e.trace, .next, e.rest, e.config⟩
    | .running => e

mutual
/-- Execution of a structured program: the code of a block where the block is mentioned; a selection is decided by the
condition in the block it starts with. -/
def execOn (M : Machine X S) (blocks : List (BasicBlock X)) : ControlFlowChain → Nat → Config S → Effect.On S
  | .Atom id, n, c => M.visit blocks id n c
  | .Block chains, n, c => execAllOn M blocks chains n c
  | .Selection id left right _ _, n, c =>
    (M.visit blocks id n c).andThen (fun n c =>
      if M.decides blocks id c then execOn M blocks left n c else execOn M blocks right n c)
  | .Loop id inner _ _, n, c =>
    repeatOn (fun n c => (M.visit blocks id n c).andThen (fun n c => execOn M blocks inner n c)) (n + 1) n c
  | .Break, n, c => ⟨[], .breaks, n, c⟩
  | .Continue, n, c => ⟨[], .continues, n, c⟩
/-- Execution of structured programs one after the other -/
def execAllOn (M : Machine X S) (blocks : List (BasicBlock X)) : List ControlFlowChain → Nat → Config S → Effect.On S
  | [], n, c => ⟨[], .next, n, c⟩
  | chain :: chains, n, c =>
    (execOn M blocks chain n c).andThen (fun n c => execAllOn M blocks chains n c)
end

/-- Execution of a whole structured program for at most `n` visits -/
def runChain (M : Machine X S) (blocks : List (BasicBlock X)) (chain : ControlFlowChain) (n : Nat) (c : Config S) :
    List BlockId × Config S × Outcome :=
  let e := execOn M blocks chain n c
  (e.trace, e.config, match e.signal with
    | .next => .returned
    | .running => .running
    | _ => .stuck)

end Magma.Spec
