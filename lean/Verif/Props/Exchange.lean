import Verif.Proofs.Exchange
import Verif.Props.ControlFlow
/-! C90: exchanging the targets of conditional branches. -/

namespace Magma.Props
open Spec
variable {X Y : Type}

/-! ### C90 -/

/-- C90: let the blocks of `g` be those of `f` with the targets, and the weights, of the selections `S`
exchanged. Then `g` is recovered exactly if `f` is, with the same depth of recursion, and what is recovered
has the branches of these selections, and their weights, exchanged and is otherwise the same. -/
theorem C90_exchanged {S : UInt32 → Bool} {f : FunctionDefinition X} {g : FunctionDefinition Y}
    (h : g.blocks.map (fun b => (labelId b, endOf b)) =
      f.blocks.map (fun b => (labelId b, turnAt S (labelId b) (endOf b))))
    (hS : ∀ b ∈ f.blocks, S (labelId b) = true → IsSelection (endOf b)) (fuel : Nat) (chain : ControlFlowChain) :
    findControlFlow fuel f = .ok chain ↔ findControlFlow fuel g = .ok (turnChain S chain) := by
  constructor
  · exact find_turn h hS
  · intro hg
    have h' : f.blocks.map (fun b => (labelId b, endOf b)) =
        g.blocks.map (fun b => (labelId b, turnAt S (labelId b) (endOf b))) := by
      have := congrArg (List.map fun p : UInt32 × BlockEnd => (p.1, turnAt S p.1 p.2)) h
      simp only [List.map_map, Function.comp_def, turnAt_twice] at this
      exact this.symm
    have hS' : ∀ b ∈ g.blocks, S (labelId b) = true → IsSelection (endOf b) := by
      intro b hb hs
      have hm := List.mem_map_of_mem (f := fun b : BasicBlock Y => (labelId b, endOf b)) hb
      rw [h] at hm
      obtain ⟨a, ha, he⟩ := List.mem_map.mp hm
      simp only [Prod.mk.injEq] at he
      obtain ⟨t, e, w, m, hint, hx⟩ := hS a ha (he.1 ▸ hs)
      rw [← he.2, turnAt, if_pos (he.1 ▸ hs), hx]
      exact ⟨_, _, _, _, _, rfl⟩
    have := find_turn h' hS' hg
    rwa [turnChain_twice] at this

/-- C90: exchanging the targets of any conditional branches and taking the decisions there the other way
round leads to the same execution. -/
theorem C90_executions {S : UInt32 → Bool} {bs : List (BasicBlock X)} {cs : List (BasicBlock Y)}
    (h : cs.map (fun b => (labelId b, endOf b)) = bs.map (fun b => (labelId b, turnAt S (labelId b) (endOf b))))
    (ds : List Bool) (id : BlockId) :
    runBlocks cs (turnDecisions S (runBlocks bs ds id).1 ds) id = runBlocks bs ds id :=
  runBlocks_turn h ds id

/-- C90: so the recovered control flow with the branches exchanged runs like the control flow recovered
before, with the decisions at these selections taken the other way round. -/
theorem C90_program {S : UInt32 → Bool} {f : FunctionDefinition X}
    (hS : ∀ b ∈ f.blocks, S (labelId b) = true → IsSelection (endOf b)) {fuel : Nat} {chain : ControlFlowChain}
    (hf : findControlFlow fuel f = .ok chain) (ds : List Bool) :
    runProgram (turnChain S chain) (turnDecisions S (runProgram chain ds).1 ds) = runProgram chain ds := by
  have hg := (C90_exchanged (turnFunction_blocks S f) hS fuel chain).mp hf
  obtain ⟨first, more, hb, hr⟩ := C27_executions hf
  obtain ⟨first', more', hb', hr'⟩ := C27_executions hg
  have hl : labelId first' = labelId first := by
    have := turnFunction_blocks S f
    rw [hb, hb'] at this
    simp only [List.map_cons, List.cons.injEq, Prod.mk.injEq] at this
    exact this.1.1
  rw [hr, hr', hl]
  exact C90_executions (turnFunction_blocks S f) ds _

/-- A loop whose body is a selection; the loop is left from the first branch of the selection -/
def turning : FunctionDefinition Empty := functionOf
  [emptyBlock 10 (some (.OpLoopMerge ⟨⟨16⟩, ⟨15⟩, ⟨false, false, false, none⟩⟩)) (.OpBranch ⟨⟨11⟩⟩),
    emptyBlock 11 (some (.OpSelectionMerge ⟨⟨15⟩, ⟨false, false⟩⟩)) (.OpBranchConditional ⟨⟨1⟩, ⟨12⟩, ⟨13⟩, some ⟨3, 1⟩⟩),
    emptyBlock 12 none (.OpBranch ⟨⟨15⟩⟩), emptyBlock 13 none (.OpBranch ⟨⟨15⟩⟩),
    emptyBlock 15 none (.OpBranchConditional ⟨⟨2⟩, ⟨10⟩, ⟨16⟩, none⟩), emptyBlock 16 none (.OpReturn {})]

example : (∀ b ∈ turning.blocks, (labelId b == 11) = true → IsSelection (endOf b)) ∧
    findControlFlow 9 turning = .ok (.Block [.Loop ⟨10⟩ (.Block
      [.Selection ⟨11⟩ (.Block [.Atom ⟨12⟩]) (.Block [.Atom ⟨13⟩]) ⟨false, false⟩ (some ⟨3, 1⟩),
        .Selection ⟨15⟩ (.Block []) .Break ⟨false, false⟩ none]) ⟨false, false, false, none⟩ none, .Atom ⟨16⟩]) ∧
    findControlFlow 9 (turnFunction (· == 11) turning) = .ok (.Block [.Loop ⟨10⟩ (.Block
      [.Selection ⟨11⟩ (.Block [.Atom ⟨13⟩]) (.Block [.Atom ⟨12⟩]) ⟨false, false⟩ (some ⟨1, 3⟩),
        .Selection ⟨15⟩ (.Block []) .Break ⟨false, false⟩ none]) ⟨false, false, false, none⟩ none, .Atom ⟨16⟩]) := by
  refine ⟨?_, by rfl, by rfl⟩
  simp only [turning, functionOf, List.mem_cons, List.not_mem_nil, or_false]
  rintro b (rfl | rfl | rfl | rfl | rfl | rfl) h
  · cases h
  · exact ⟨_, _, _, _, _, rfl⟩
  all_goals cases h

/-- C90: the targets of a block that leaves a loop, or goes on with its next round, can not be exchanged:
`find_control_flow` looks for the exit at the second target only. -/
theorem C90_exits : (∃ chain, findControlFlow 9 turning = .ok chain) ∧
    ∀ fuel, 9 ≤ fuel → ∃ e, findControlFlow fuel (turnFunction (· == 15) turning) = .error (.err e) := by
  refine ⟨⟨_, rfl⟩, fun fuel h => ?_⟩
  obtain ⟨k, rfl⟩ := Nat.exists_eq_add_of_le h
  rw [Nat.add_comm]
  exact ⟨_, rfl⟩

/-- A selection between two blocks -/
def between (a b : UInt32) (more : List (BasicBlock Empty)) : FunctionDefinition Empty := functionOf
  (emptyBlock 10 (some (.OpSelectionMerge ⟨⟨11⟩, ⟨false, false⟩⟩)) (.OpBranchConditional ⟨⟨1⟩, ⟨a⟩, ⟨b⟩, none⟩) ::
    emptyBlock 11 none (.OpReturn {}) :: more)

/-- C90: if `f` is not recovered, neither is `g`, but the error can be another one, and even a function for
which the search does not end can be one that gives an error. -/
theorem C90_errors :
    ((∀ fuel, findControlFlow (fuel + 2) (between 12 13 []) = .error (.err (.UnknownBlockId ⟨12⟩))) ∧
      ∀ fuel, findControlFlow (fuel + 2) (turnFunction (· == 10) (between 12 13 [])) =
        .error (.err (.UnknownBlockId ⟨13⟩))) ∧
    ((∀ fuel, findControlFlow fuel (between 12 13 [emptyBlock 12 none (.OpBranch ⟨⟨12⟩⟩)]) = .error .diverge) ∧
      ∀ fuel, findControlFlow (fuel + 2)
        (turnFunction (· == 10) (between 12 13 [emptyBlock 12 none (.OpBranch ⟨⟨12⟩⟩)])) =
          .error (.err (.UnknownBlockId ⟨13⟩))) := by
  refine ⟨⟨fun fuel => by rfl, fun fuel => by rfl⟩, fun fuel => ?_, fun fuel => by rfl⟩
  have key : ∀ (map : BlockMap Empty) (fl : FlowList), FlowList.merges fl ⟨12⟩ = false →
      map.get ⟨12⟩ = some (emptyBlock 12 none (.OpBranch ⟨⟨12⟩⟩)) →
      ∀ fuel, searchBlock map fuel ⟨12⟩ fl = .error .diverge := by
    intro map fl hm hb fuel
    induction fuel with
    | zero => rfl
    | succ fuel ih =>
      rw [searchBlock_succ, searchStep_eq, hm, hb]
      show (searchBlock _ fuel ⟨12⟩ fl >>= _) = _
      rw [ih]
      rfl
  cases fuel with
  | zero => rfl
  | succ fuel =>
    show ((searchBlock _ fuel ⟨12⟩ [.If ⟨11⟩ ⟨false, false⟩] >>= _) >>= _) = _
    rw [key _ _ rfl rfl]
    rfl

/-- C90 for the function above: the branches of block 11 are exchanged. -/
example (chain : ControlFlowChain) : findControlFlow 9 turning = .ok chain ↔
    findControlFlow 9 (turnFunction (· == 11) turning) = .ok (turnChain (· == 11) chain) :=
  C90_exchanged rfl (by
    simp only [turning, functionOf, List.mem_cons, List.not_mem_nil, or_false]
    rintro b (rfl | rfl | rfl | rfl | rfl | rfl) h
    · cases h
    · exact ⟨_, _, _, _, _, rfl⟩
    all_goals cases h) 9 chain
example (ds : List Bool) : runBlocks (turnFunction (· == 11) turning).blocks
    (turnDecisions (· == 11) (runBlocks turning.blocks ds ⟨10⟩).1 ds) ⟨10⟩ = runBlocks turning.blocks ds ⟨10⟩ :=
  C90_executions rfl ds ⟨10⟩

end Magma.Props
