import Verif.Spec.Outline
import Verif.Model.Parser
/-! A finite automaton that reads the roles of instructions from left to right, and what is wrong with a module
by where and in which state the automaton stops. -/

namespace Magma.Spec

/-- The sections of a module in which each instruction stands for itself, in the order of the layout -/
def Role.section : Role → Option Nat
  | .capability => some 0
  | .extension => some 1
  | .importing => some 2
  | .entryPoint => some 4
  | .executionMode => some 5
  | .debug => some 6
  | .annotation => some 7
  | .global => some 8
  | _ => none

/-- Where in the layout one is -/
inductive Reading where
  /-- before the memory model, in the section with that number -/
  | before (section_ : Nat)
  /-- after the memory model, in the section with that number; 9 is between functions -/
  | after (section_ : Nat)
  /-- behind `OpFunction` -/
  | opened
  /-- behind a parameter -/
  | parameters
  /-- in a block -/
  | block
  /-- behind a merge instruction -/
  | merged
  /-- behind a block -/
  | between

/-- Read one instruction, if that is possible. -/
def Reading.step : Reading → Role → Option Reading
  | .before k, r =>
    match r, r.section with
    | .memoryModel, _ => some (.after 4)
    | _, some n => if k ≤ n ∧ n ≤ 2 then some (.before n) else none
    | _, none => none
  | .after k, r =>
    match r, r.section with
    | .function, _ => some .opened
    | _, some n => if k ≤ n then some (.after n) else none
    | _, none => none
  | .opened, .parameter => some .parameters
  | .opened, .label => some .block
  | .opened, .functionEnd => some (.after 9)
  | .parameters, .parameter => some .parameters
  | .parameters, .label => some .block
  | .parameters, .functionEnd => some (.after 9)
  | .block, .code => some .block
  | .block, .merge => some .merged
  | .block, .branch => some .between
  | .merged, .branch => some .between
  | .between, .label => some .block
  | .between, .functionEnd => some (.after 9)
  | _, _ => none

/-- Read as far as possible, from an index on: the state, the index reached, and what is left -/
def Reading.scan : Reading → Nat → List Role → Reading × Nat × List Role
  | s, i, [] => (s, i, [])
  | s, i, r :: rs =>
    match s.step r with
    | some s' => s'.scan (i + 1) rs
    | none => (s, i, r :: rs)

/-- What is wrong with a module -/
def verdict (roles : List Role) : Option ValidationError :=
  match Reading.scan (.before 0) 0 roles with
  | (.before _, _, _) => some .MemoryModelMissing
  | (.after _, _, []) => none
  | (.after _, i, [_]) => some (.UnexpectedInstruction i)
  | (.after _, i, _ :: _ :: _) => some (.ExpectedOpFunction i)
  | (.opened, i, []) => some (.UnexpectedInstruction (i - 1))
  | (.opened, i, _ :: _) => some (.ExpectedOpFunctionEnd i)
  | (.parameters, i, _) => some (.ExpectedOpFunctionEnd i)
  | (.between, i, _) => some (.ExpectedOpFunctionEnd i)
  | (.block, i, _) => some (.ExpectedBranch i)
  | (.merged, i, _) => some (.ExpectedBranch i)

/-- The index an error carries -/
def errorIndex : ValidationError → Option Nat
  | .MemoryModelMissing => none
  | .ExpectedOpFunction i => some i
  | .ExpectedBranch i => some i
  | .ExpectedOpFunctionEnd i => some i
  | .UnexpectedInstruction i => some i

/-- The first `n` instructions of a module are the first of some module that is accepted. -/
def Viable {X : Type} (raw : RawModule X) (n : Nat) : Prop :=
  ∃ more m, validate { raw with instructions := raw.instructions.take n ++ more } = .ok m

end Magma.Spec
