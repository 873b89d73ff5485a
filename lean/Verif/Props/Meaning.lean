import Verif.Proofs.Meaning
import Verif.Props.ControlFlow
/-! C92: recovered control flow computes what the function computes. -/

namespace Magma.Props
open Spec
variable {X S : Type}

/-- C92: for every meaning of the instructions, every initial configuration and every number of visits, the recovered
control flow visits the same blocks as the function, gets to the same state, and has the same outcome. -/
theorem C92_meaning {f : FunctionDefinition X} {fuel : Nat} {chain : ControlFlowChain}
    (h : findControlFlow fuel f = .ok chain) {first : BasicBlock X} {more : List (BasicBlock X)}
    (hb : f.blocks = first :: more) (M : Machine X S) (n : Nat) (c : Config S) :
    runChain M f.blocks chain n c = runMachine M f.blocks n ⟨labelId first⟩ c := by
  obtain ⟨first', more', hb', he⟩ := C27_executions h
  rw [hb] at hb'
  cases hb'
  obtain ⟨ds, rfl, ht, hr⟩ := machine_run M f.blocks n ⟨labelId first⟩ c
  rw [hr]
  have he := he ds
  rw [← he] at ht ⊢
  rw [runChain, exec_on M f.blocks chain ds c ht]
  rfl

/-- C92: so the function returns, and does so in a certain state, exactly if the recovered control flow does. -/
theorem C92_returns {f : FunctionDefinition X} {fuel : Nat} {chain : ControlFlowChain}
    (h : findControlFlow fuel f = .ok chain) {first : BasicBlock X} {more : List (BasicBlock X)}
    (hb : f.blocks = first :: more) (M : Machine X S) (c c' : Config S) :
    (∃ n trace, runMachine M f.blocks n ⟨labelId first⟩ c = (trace, c', .returned)) ↔
      ∃ n trace, runChain M f.blocks chain n c = (trace, c', .returned) := by
  constructor
  · rintro ⟨n, trace, hr⟩
    exact ⟨n, trace, by rw [C92_meaning h hb]; exact hr⟩
  · rintro ⟨n, trace, hr⟩
    exact ⟨n, trace, by rw [← C92_meaning h hb]; exact hr⟩

/-- A loop that adds one to a number, as long as it is less than three: the addition is the code of block 13. -/
def counting : List (BasicBlock Empty) :=
  [ emptyBlock 10 none (.OpBranch ⟨⟨11⟩⟩),
    emptyBlock 11 (some (.OpLoopMerge ⟨⟨14⟩, ⟨13⟩, ⟨false, false, false, none⟩⟩)) (.OpBranch ⟨⟨12⟩⟩),
    emptyBlock 12 none (.OpBranchConditional ⟨⟨7⟩, ⟨13⟩, ⟨14⟩, none⟩),
    { emptyBlock 13 none (.OpBranch ⟨⟨11⟩⟩) with code := [.OpIAdd ⟨⟨2⟩, ⟨6⟩, ⟨6⟩, ⟨3⟩⟩] },
    emptyBlock 14 none (.OpReturn {}) ]

def adding : Machine Empty Nat where
  run _ i s := match i with | .OpIAdd _ => s + 1 | _ => s
  holds id s := id == ⟨7⟩ && s < 3

example : findControlFlow 9 (functionOf counting) = .ok (.Block [.Atom ⟨10⟩,
    .Loop ⟨11⟩ (.Selection ⟨12⟩ (.Block [.Atom ⟨13⟩]) .Break ⟨false, false⟩ none) ⟨false, false, false, none⟩ none,
    .Atom ⟨14⟩]) := by rfl
example : runMachine adding counting 20 ⟨10⟩ ⟨none, 1⟩ =
    ([10, 11, 12, 13, 11, 12, 13, 11, 12, 14].map BlockId.mk, ⟨some 14, 3⟩, .returned) := by rfl
example : (runChain adding counting (.Block [.Atom ⟨10⟩,
    .Loop ⟨11⟩ (.Selection ⟨12⟩ (.Block [.Atom ⟨13⟩]) .Break ⟨false, false⟩ none) ⟨false, false, false, none⟩ none,
    .Atom ⟨14⟩]) 20 ⟨none, 0⟩).2 = (⟨some 14, 3⟩, .returned) := by rfl

example {S : Type} (M : Machine Empty S) (n : Nat) (c : Config S) :
    runChain M sampleBlocks sampleChain n c = runMachine M sampleBlocks n ⟨10⟩ c :=
  C92_meaning sample_found rfl M n c

end Magma.Props
