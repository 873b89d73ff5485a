import Verif.Model.ControlFlow
/-! What it means to execute the basic blocks of a function, and what it means to execute a structured
program. Both are driven by a sequence of decisions, one for every block visited; a block that does
not branch on a condition ignores its decision. -/

namespace Magma.Spec

/-- How an execution ended: the function returned, the decisions are used up, or control went to a
block that does not exist. -/
inductive Outcome where
  | returned
  | running
  | stuck
  deriving DecidableEq, Repr

/-- The block with a label -/
def blockOf {X : Type} (blocks : List (BasicBlock X)) (id : BlockId) : Option (BasicBlock X) :=
  blocks.find? (fun b => b.label.result_id.val == id.val)

/-- Execution of basic blocks from block `id`: the blocks visited and the outcome -/
def runBlocks {X : Type} (blocks : List (BasicBlock X)) : List Bool → BlockId → List BlockId × Outcome
  | [], _ => ([], .running)
  | d :: ds, id =>
    match blockOf blocks id with
    | none => ([], .stuck)
    | some b =>
      match b.branch with
      | .OpReturn _ => ([id], .returned)
      | .OpBranch op =>
        let (trace, outcome) := runBlocks blocks ds ⟨op.target_label.val⟩
        (id :: trace, outcome)
      | .OpBranchConditional op =>
        let (trace, outcome) := runBlocks blocks ds ⟨if d then op.true_label.val else op.false_label.val⟩
        (id :: trace, outcome)

/-- How a structured statement ended -/
inductive Signal where
  | next
  | breaks
  | continues
  | running
  deriving DecidableEq, Repr

/-- The effect of a structured statement: blocks visited, how it ended, decisions left -/
structure Effect where
  trace : List BlockId
  signal : Signal
  rest : List Bool
  deriving DecidableEq, Repr

/-- Visit one block. -/
def visit (id : BlockId) : List Bool → Effect
  | [] => ⟨[], .running, []⟩
  | _ :: ds => ⟨[id], .next, ds⟩

/-- `first`, and if it ends normally, `second` with the decisions left -/
def andThen (first : Effect) (second : List Bool → Effect) : Effect :=
  match first.signal with
  | .next =>
    let e := second first.rest
    ⟨first.trace ++ e.trace, e.signal, e.rest⟩
  | _ => first

/-- Repeat `body` until it breaks. Every round visits a block, so `decisions + 1` rounds are never
used up before the decisions are. -/
def repeatUntilBreak (body : List Bool → Effect) : Nat → List Bool → Effect
  | 0, ds => ⟨[], .running, ds⟩
  | n + 1, ds =>
    let e := body ds
    match e.signal with
    | .next | .continues =>
      let e' := repeatUntilBreak body n e.rest
      ⟨e.trace ++ e'.trace, e'.signal, e'.rest⟩
    | .breaks => ⟨e.trace, .next, e.rest⟩
    | .running => e

mutual
/-- Execution of a structured program -/
def exec : ControlFlowChain → List Bool → Effect
  | .Atom id, ds => visit id ds
  | .Block chains, ds => execAll chains ds
  | .Selection id left right _ _, ds =>
    match ds with
    | [] => ⟨[], .running, []⟩
    | d :: ds => andThen ⟨[id], .next, ds⟩ (fun ds => if d then exec left ds else exec right ds)
  | .Loop id inner _ _, ds =>
    repeatUntilBreak (fun ds => andThen (visit id ds) (fun ds => exec inner ds)) (ds.length + 1) ds
  | .Break, ds => ⟨[], .breaks, ds⟩
  | .Continue, ds => ⟨[], .continues, ds⟩
/-- Execution of structured programs one after the other -/
def execAll : List ControlFlowChain → List Bool → Effect
  | [], ds => ⟨[], .next, ds⟩
  | chain :: chains, ds => andThen (exec chain ds) (fun ds => execAll chains ds)
end

/-- Execution of a whole function: the blocks visited, and whether it returned. A break or continue
outside of a loop is meaningless. -/
def runProgram (chain : ControlFlowChain) (ds : List Bool) : List BlockId × Outcome :=
  let e := exec chain ds
  (e.trace, match e.signal with
    | .next => .returned
    | .running => .running
    | _ => .stuck)

end Magma.Spec
