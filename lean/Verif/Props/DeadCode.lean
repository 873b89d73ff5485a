import Verif.Proofs.DeadCode
import Verif.Props.Dataflow
import Verif.Props.Liveness
/-! C114: instructions whose results are not needed are found on the recovered control flow, and can be removed. -/

namespace Magma.Props
open Spec
variable {V W X : Type}

/-! ### C114 -/

section
variable {f : FunctionDefinition X} {fuel : Nat} {chain : ControlFlowChain} (h : findControlFlow fuel f = .ok chain)
include h

/-- C114: what the recovered control flow says is needed after a block is what is needed in the blocks to which control can
go from it, or asked for if it returns. -/
theorem C114_after (U : Usage V) (asked brk cont : V → Bool) {id : BlockId} {needed : V → Bool}
    (hm : (id, needed) ∈ needsOut U chain asked brk cont) (v : V) :
    needed v = true ↔ NeededAfter f.blocks U asked id v := by
  obtain ⟨s, first', more', hb', -, hs, he, -, rfl⟩ := C30_accepted_iff.mp ⟨fuel, h⟩
  rw [DeadCode.needsOut_toChain] at hm
  exact DeadCode.out_iff s none none hs asked brk cont ⟨fun _ e => by (cases e), fun _ => Iff.rfl, fun _ _ e => by (cases e),
    fun _ _ e => by (cases e)⟩ _ hm

/-- Control comes only to blocks the chain mentions. -/
theorem arrives_mem {first : BasicBlock X} {more : List (BasicBlock X)} (hb : f.blocks = first :: more) {id : BlockId}
    {v : Set Unit} (hv : Arrives f.blocks ⟨fun _ x => x, fun _ _ x => x⟩ ⟨labelId first⟩ Set.univ id v) :
    id.val ∈ chainIds chain := by
  have hu : v = Set.univ := by
    induction hv with
    | here => rfl
    | goto _ _ _ ih => exact ih
    | choose _ _ _ _ ih => exact ih
  have hle := (C112_safe h hb ⟨fun _ _ _ h => h, fun _ _ _ _ h => h⟩ hv).1
  obtain ⟨s, first', more', hb', -, hs, he, -, rfl⟩ := C30_accepted_iff.mp ⟨fuel, h⟩
  rw [(Program.chainIds_toChain s).1]
  by_contra hn
  have hid : id ∉ s.ids := fun hm => hn (List.mem_map_of_mem hm)
  rw [Dataflow.flowAt_toChain, Dataflow.flowAtAll_out _ s id _ hid, hu] at hle
  exact hle (Set.mem_univ ())

end

mutual
/-- C114: the list has all blocks of the chain, in order. -/
theorem C114_blocks (U : Usage V) : ∀ (chain : ControlFlowChain) (next brk cont : V → Bool),
    (needsOut U chain next brk cont).map (fun p => p.1.val) = chainIds chain
  | .Atom _, _, _, _ => rfl
  | .Block chains, next, brk, cont => by
    rw [needsOut, chainIds]
    exact C114_blocksAll U chains next brk cont
  | .Selection id l r _ _, next, brk, cont => by
    rw [needsOut, chainIds, List.map_cons, List.map_append, C114_blocks U l, C114_blocks U r]
  | .Loop id inner _ _, next, _, _ => by
    rw [needsOut, chainIds, List.map_cons, C114_blocks U inner]
  | .Break, _, _, _ => rfl
  | .Continue, _, _, _ => rfl
/-- C114: the same for chains one after the other -/
theorem C114_blocksAll (U : Usage V) : ∀ (chains : List ControlFlowChain) (next brk cont : V → Bool),
    (needsOutAll U chains next brk cont).map (fun p => p.1.val) = chainIdsAll chains
  | [], _, _, _ => rfl
  | chain :: chains, next, brk, cont => by
    rw [needsOutAll, chainIdsAll, List.map_append, C114_blocks U chain, C114_blocksAll U chains]
end

section
variable [DecidableEq V]

/-- C114: what a block reads by its code is what one of its instructions reads that no earlier one writes, or its condition
if no instruction does. -/
theorem C114_reads (A : Access X V) (code : List (GroupCode X)) (after : V → Bool) (v : V) :
    A.exposed code after v = true ↔
      (∃ before i rest, code = before ++ i :: rest ∧ v ∈ A.reads i ∧ ∀ j ∈ before, v ∉ A.writes j) ∨
      ((∀ i ∈ code, v ∉ A.writes i) ∧ after v = true) := by
  rw [DeadCode.exposed_iff]
  refine or_congr_left ?_
  induction code with
  | nil => simp [Access.exposed]
  | cons i code ih =>
    simp only [Access.exposed, Bool.or_eq_true, Bool.and_eq_true, Bool.not_eq_true', decide_eq_true_eq,
      decide_eq_false_iff_not]
    rw [ih]
    constructor
    · rintro (hr | ⟨hw, before, j, rest, rfl, hr, hn⟩)
      · exact ⟨[], i, code, rfl, hr, fun _ h => by cases h⟩
      · exact ⟨i :: before, j, rest, rfl, hr, List.forall_mem_cons.mpr ⟨hw, hn⟩⟩
    · rintro ⟨before, j, rest, e, hr, hn⟩
      cases before with
      | nil =>
        cases e
        exact .inl hr
      | cons k before =>
        cases e
        obtain ⟨hw, hn⟩ := List.forall_mem_cons.mp hn
        exact .inr ⟨hw, before, j, rest, rfl, hr, hn⟩

/-- C114: a machine whose instructions read and write as said has blocks that do. So C113 is about its blocks. -/
theorem C114_usage {A : Access X V} {M : Machine X (V → W)} (hA : A.Right M) (blocks : List (BasicBlock X)) :
    (A.usage blocks).Right M blocks := DeadCode.usage_right hA blocks

/-- C114: removing code from blocks does not change the recovered control flow. -/
theorem C114_same (A : Access X V) (out : BlockId → V → Bool) (f : FunctionDefinition X) (fuel : Nat) :
    findControlFlow fuel { f with blocks := A.pruneBlocks out f.blocks } = findControlFlow fuel f := by
  refine C32_contents ?_ fuel
  simp only [Access.pruneBlocks, List.map_map]
  rfl

/-- C114: the instructions that write nothing that is needed after them, by the recovered control flow, can all be removed:
executions visit the same blocks, have the same outcome, and return with the same values of what is asked for. -/
theorem C114_dead {f : FunctionDefinition X} {fuel : Nat} {chain : ControlFlowChain} (h : findControlFlow fuel f = .ok chain)
    {first : BasicBlock X} {more : List (BasicBlock X)} (hb : f.blocks = first :: more) {A : Access X V}
    {M : Machine X (V → W)} (hA : A.Right M) (asked brk cont : V → Bool) (n : Nat) (c : Config (V → W)) :
    let pruned := A.pruneBlocks (outOf (needsOut (A.usage f.blocks) chain asked brk cont)) f.blocks
    (runMachine M f.blocks n ⟨labelId first⟩ c).1 = (runMachine M pruned n ⟨labelId first⟩ c).1 ∧
    (runMachine M f.blocks n ⟨labelId first⟩ c).2.2 = (runMachine M pruned n ⟨labelId first⟩ c).2.2 ∧
    ((runMachine M f.blocks n ⟨labelId first⟩ c).2.2 = .returned → ∀ v, asked v = true →
      (runMachine M f.blocks n ⟨labelId first⟩ c).2.1.state v = (runMachine M pruned n ⟨labelId first⟩ c).2.1.state v) := by
  refine DeadCode.run_prune hA
    (D := fun id => ∃ v, Arrives f.blocks (L := Set Unit) ⟨fun _ x => x, fun _ _ x => x⟩ ⟨labelId first⟩ Set.univ id v)
    ?_ ?_ ?_ n _ c c ⟨_, .here⟩ rfl fun _ _ => rfl
  · rintro id b op ⟨v, hv⟩ hb ho
    exact ⟨_, .goto hv hb ho⟩
  · rintro id b op d ⟨v, hv⟩ hb ho
    exact ⟨_, .choose d hv hb ho⟩
  · rintro id ⟨w, hw⟩ v
    have hm := arrives_mem h hb hw
    rw [← C114_blocks (A.usage f.blocks) chain asked brk cont] at hm
    obtain ⟨⟨⟨i⟩, needed⟩, hp, e⟩ := List.mem_map.mp hm
    have e : i = id.val := e
    subst e
    have hl : ∀ q ∈ needsOut (A.usage f.blocks) chain asked brk cont, q.1.val = id.val →
        (q.2 v = true ↔ NeededAfter f.blocks (A.usage f.blocks) asked id v) := by
      rintro ⟨⟨j⟩, x⟩ hq e
      have e : j = id.val := e
      subst e
      exact C114_after h _ asked brk cont hq v
    simp only [outOf, List.any_eq_true, Bool.and_eq_true, beq_iff_eq]
    constructor
    · rintro ⟨q, hq, e, hv⟩
      exact (hl q hq e).mp hv
    · intro hv
      exact ⟨_, hp, rfl, (hl _ hp rfl).mpr hv⟩

end

/-! ### Examples -/

/-- What additions and multiplications read and write -/
def arithmetic : Access Empty UInt32 where
  reads i := match i with
    | .OpIAdd op => [op.operand1.val, op.operand2.val]
    | .OpIMul op => [op.operand1.val, op.operand2.val]
    | _ => []
  writes i := match i with
    | .OpIAdd op => [op.result_id.val]
    | .OpIMul op => [op.result_id.val]
    | _ => []
  tests id := [id.val]

/-- A machine with a number for each id, which adds and multiplies, and has a condition hold if its number is not too large -/
def calculator : Machine Empty (UInt32 → Nat) where
  run _ i st := match i with
    | .OpIAdd op => fun v => if v = op.result_id.val then st op.operand1.val + st op.operand2.val else st v
    | .OpIMul op => fun v => if v = op.result_id.val then st op.operand1.val * st op.operand2.val else st v
    | _ => st
  holds id st := decide (st id.val < 50)

theorem arithmetic_right : arithmetic.Right calculator := by
  refine ⟨fun last i st v hv => ?_, fun last i st st' hr v hv => ?_, fun cond st st' hr => ?_⟩
  · cases i with
    | OpIAdd op => exact if_neg (by simpa [arithmetic] using hv)
    | OpIMul op => exact if_neg (by simpa [arithmetic] using hv)
    | _ => rfl
  · cases i with
    | OpIAdd op =>
      simp only [arithmetic, List.forall_mem_cons, List.mem_singleton] at hr hv
      simp only [calculator, hv, if_true, hr.1, hr.2 _ rfl]
    | OpIMul op =>
      simp only [arithmetic, List.forall_mem_cons, List.mem_singleton] at hr hv
      simp only [calculator, hv, if_true, hr.1, hr.2 _ rfl]
    | _ => cases hv
  · simp only [calculator, hr cond.val (by simp [arithmetic])]

/-- A loop that adds 3 to 6 as long as the square of 6, which is 7, is not too large. It has also sums 30 and 31. -/
def squares : FunctionDefinition Empty :=
  functionOf [{ emptyBlock 10 none (.OpBranch ⟨⟨11⟩⟩) with
      code := [.OpIAdd ⟨⟨2⟩, ⟨30⟩, ⟨3⟩, ⟨3⟩⟩, .OpIMul ⟨⟨2⟩, ⟨6⟩, ⟨3⟩, ⟨3⟩⟩] },
    emptyBlock 11 (some (.OpLoopMerge ⟨⟨14⟩, ⟨13⟩, ⟨false, false, false, none⟩⟩)) (.OpBranch ⟨⟨12⟩⟩),
    { emptyBlock 12 none (.OpBranchConditional ⟨⟨7⟩, ⟨13⟩, ⟨14⟩, none⟩) with code := [.OpIMul ⟨⟨2⟩, ⟨7⟩, ⟨6⟩, ⟨6⟩⟩] },
    { emptyBlock 13 none (.OpBranch ⟨⟨11⟩⟩) with
      code := [.OpIAdd ⟨⟨2⟩, ⟨31⟩, ⟨6⟩, ⟨30⟩⟩, .OpIAdd ⟨⟨2⟩, ⟨6⟩, ⟨6⟩, ⟨3⟩⟩] },
    emptyBlock 14 none (.OpReturn {})]

theorem squares_found : findControlFlow 9 squares = .ok countingChain := by rfl

/-- What is left of it, by what is asked for -/
def squaresPruned (asked : UInt32 → Bool) : List (BasicBlock Empty) :=
  arithmetic.pruneBlocks (outOf (needsOut (arithmetic.usage squares.blocks) countingChain asked (fun _ => false)
    (fun _ => false))) squares.blocks

/-- If 6 is asked for, sum 31 is removed; 30 stays, as 31 is made from it. -/
example : (squaresPruned (· == 6)).map (·.code) = [[.OpIAdd ⟨⟨2⟩, ⟨30⟩, ⟨3⟩, ⟨3⟩⟩, .OpIMul ⟨⟨2⟩, ⟨6⟩, ⟨3⟩, ⟨3⟩⟩], [],
    [.OpIMul ⟨⟨2⟩, ⟨7⟩, ⟨6⟩, ⟨6⟩⟩], [.OpIAdd ⟨⟨2⟩, ⟨6⟩, ⟨6⟩, ⟨3⟩⟩], []] := by rfl
/-- If 31 is asked for, nothing is removed. -/
example : squaresPruned (· == 31) = squares.blocks := by rfl
/-- What is computed is the same for all start values. -/
example (n : Nat) (c : Config (UInt32 → Nat)) (hr : (runMachine calculator squares.blocks n ⟨10⟩ c).2.2 = .returned) :
    (runMachine calculator squares.blocks n ⟨10⟩ c).2.1.state 6 =
      (runMachine calculator (squaresPruned (· == 6)) n ⟨10⟩ c).2.1.state 6 :=
  (C114_dead squares_found rfl arithmetic_right (· == 6) (fun _ => false) (fun _ => false) n c).2.2 hr 6 rfl
/-- And it does return, from where 3 has number two. -/
example : (runMachine calculator squares.blocks 20 ⟨10⟩ ⟨none, fun v => if v = 3 then 2 else 0⟩).2.2 = .returned ∧
    (runMachine calculator (squaresPruned (· == 6)) 20 ⟨10⟩ ⟨none, fun v => if v = 3 then 2 else 0⟩).2.1.state 6 = 8 := by
  exact ⟨rfl, rfl⟩

end Magma.Props
