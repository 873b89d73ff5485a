import Verif.Proofs.Course
import Verif.Proofs.Passing
import Verif.Props.Dominance
/-! C91: dominators and postdominators of the blocks of a function, read off the recovered control flow. -/

namespace Magma.Props
open Spec Standard
variable {X : Type}

/-- C91: one block is visited before every visit of another, in all executions of the function, exactly if the
recovered control flow does not come to the other block without the one. -/
theorem C91_before {f : FunctionDefinition X} {fuel : Nat} {chain : ControlFlowChain}
    (h : findControlFlow fuel f = .ok chain) {first : BasicBlock X} {more : List (BasicBlock X)}
    (hb : f.blocks = first :: more) (a b : BlockId) :
    (∀ ds, Preceded a b (runBlocks f.blocks ds ⟨labelId first⟩).1) ↔ comes a b chain = false := by
  obtain ⟨first', more', hb', he⟩ := C27_executions h
  rw [hb] at hb'
  cases hb'
  constructor
  · intro hp
    rw [← Bool.not_eq_true]
    intro hc
    obtain ⟨ds, hd⟩ := comes_exec chain hc
    have hp := hp ds
    rw [← he ds] at hp
    exact not_preceded.mpr hd hp
  · intro hc ds
    apply Classical.byContradiction
    intro hn
    rw [← he ds] at hn
    rw [exec_comes chain ds (not_preceded.mp hn)] at hc
    cases hc

/-- C91: one block is visited after every visit of another, in all executions of the function that return, exactly if
the recovered control flow does not end without it after the other block. -/
theorem C91_after {f : FunctionDefinition X} {fuel : Nat} {chain : ControlFlowChain}
    (h : findControlFlow fuel f = .ok chain) {first : BasicBlock X} {more : List (BasicBlock X)}
    (hb : f.blocks = first :: more) (a b : BlockId) :
    (∀ ds, (runBlocks f.blocks ds ⟨labelId first⟩).2 = .returned → Followed a b (runBlocks f.blocks ds ⟨labelId first⟩).1) ↔
      leaves a b .next chain = false := by
  obtain ⟨first', more', hb', he⟩ := C27_executions h
  rw [hb] at hb'
  cases hb'
  constructor
  · intro hp
    rw [← Bool.not_eq_true]
    intro hc
    obtain ⟨ds, tr, hl, hd⟩ := leaves_exec chain (fun h => by cases h) hc
    have hp := hp (ds ++ [])
    rw [← he, runProgram, hd []] at hp
    exact not_followed.mpr hl (hp rfl)
  · intro hc ds hr
    apply Classical.byContradiction
    intro hn
    rw [← he ds] at hn hr
    have hs : (exec chain ds).signal = .next := by
      simp only [runProgram] at hr
      generalize (exec chain ds).signal = s at hr
      cases s <;> first | rfl | cases hr
    rw [exec_leaves chain (fun h => by cases h) ds hs (not_followed.mp hn)] at hc
    cases hc

/-- C91: a block is visited by all executions of the function that return exactly if the recovered control flow does not
pass by it. -/
theorem C91_always {f : FunctionDefinition X} {fuel : Nat} {chain : ControlFlowChain}
    (h : findControlFlow fuel f = .ok chain) {first : BasicBlock X} {more : List (BasicBlock X)}
    (hb : f.blocks = first :: more) (a : BlockId) :
    (∀ ds, (runBlocks f.blocks ds ⟨labelId first⟩).2 = .returned → a ∈ (runBlocks f.blocks ds ⟨labelId first⟩).1) ↔
      passes a .next chain = false := by
  obtain ⟨first', more', hb', he⟩ := C27_executions h
  rw [hb] at hb'
  cases hb'
  constructor
  · intro hp
    rw [← Bool.not_eq_true]
    intro hc
    obtain ⟨ds, tr, hl, hd⟩ := passes_exec chain (fun h => by cases h) hc
    have hp := hp (ds ++ [])
    rw [← he, runProgram, hd []] at hp
    exact hl (hp rfl)
  · intro hc ds hr
    apply Classical.byContradiction
    intro hn
    rw [← he ds] at hn hr
    have hs : (exec chain ds).signal = .next := by
      simp only [runProgram] at hr
      generalize (exec chain ds).signal = s at hr
      cases s <;> first | rfl | cases hr
    rw [exec_passes chain (fun h => by cases h) ds hs hn] at hc
    cases hc

/-- A function from which control flow is recovered has distinct labels. -/
theorem labels_distinct {f : FunctionDefinition X} {fuel : Nat} {chain : ControlFlowChain}
    (h : findControlFlow fuel f = .ok chain) : (f.blocks.map labelId).Nodup := by
  obtain ⟨_, _, _, -, hn, -⟩ := C30_accepted_iff.mp ⟨fuel, h⟩
  exact hn

theorem mem_map_val {a : BlockId} {l : List BlockId} (h : a.val ∈ l.map (·.val)) : a ∈ l := by
  obtain ⟨c, hc, hv⟩ := List.mem_map.mp h
  obtain ⟨v⟩ := a
  obtain ⟨w⟩ := c
  cases hv
  exact hc

/-- C91: one block strictly dominates another, that is comes before it on all ways along branches from the first block to
it, exactly if the recovered control flow does not come to the other block without the one. -/
theorem C91_dominates {f : FunctionDefinition X} {fuel : Nat} {chain : ControlFlowChain}
    (h : findControlFlow fuel f = .ok chain) {first : BasicBlock X} {more : List (BasicBlock X)}
    (hb : f.blocks = first :: more) (a b : BlockId) :
    (∀ l, Course f.blocks (labelId first) (l ++ [b.val]) → a.val ∈ l) ↔ comes a b chain = false := by
  rw [← C91_before h hb]
  constructor
  · intro hc ds pre post he
    have := run_course ds ⟨labelId first⟩ pre b post he
    rw [List.map_append] at this
    exact mem_map_val (hc _ this)
  · intro hp l hl
    obtain ⟨ds, hd⟩ := course_run (labels_distinct h) hl
    obtain ⟨x, y, hxy, rfl, hy⟩ := List.map_eq_append_iff.mp hd
    obtain ⟨c, z, rfl, hc, hz⟩ := List.map_eq_cons_iff.mp hy
    obtain ⟨b⟩ := b
    obtain ⟨c⟩ := c
    cases hc
    exact List.mem_map.mpr ⟨a, hp ds x z hxy, rfl⟩

/-- C91: one block strictly postdominates another, that is comes after it on all ways along branches from the first block
to a block that returns, exactly if the recovered control flow does not end without it after the other block. -/
theorem C91_postdominates {f : FunctionDefinition X} {fuel : Nat} {chain : ControlFlowChain}
    (h : findControlFlow fuel f = .ok chain) {first : BasicBlock X} {more : List (BasicBlock X)}
    (hb : f.blocks = first :: more) (a b : BlockId) :
    (∀ l l', Journey f.blocks (labelId first) (l ++ b.val :: l') → a.val ∈ l') ↔ leaves a b .next chain = false := by
  rw [← C91_after h hb]
  constructor
  · intro hc ds hr pre post he
    have := run_journey ds ⟨labelId first⟩ hr
    rw [he, List.map_append, List.map_cons] at this
    exact mem_map_val (hc _ _ this)
  · intro hp l l' hl
    obtain ⟨ds, hd, hr⟩ := journey_run (labels_distinct h) hl
    obtain ⟨x, y, hxy, rfl, hy⟩ := List.map_eq_append_iff.mp hd
    obtain ⟨c, z, rfl, hc, rfl⟩ := List.map_eq_cons_iff.mp hy
    obtain ⟨b⟩ := b
    obtain ⟨c⟩ := c
    cases hc
    exact List.mem_map.mpr ⟨a, hp ds hr x z hxy, rfl⟩

/-- C91: what the nesting and the order of the constructs promise according to C58 is among it. -/
theorem C91_nesting {f : FunctionDefinition X} {fuel : Nat} {chain : ControlFlowChain}
    (h : findControlFlow fuel f = .ok chain) (hd : (chainIds chain).Nodup) {a b : BlockId} :
    (Guards a b chain → comes a b chain = false) ∧ (Awaits a b chain → leaves a b .next chain = false) := by
  obtain ⟨first, more, hb, -⟩ := C27_executions h
  exact ⟨fun hg => (C91_before h hb a b).mp (C58_before h hd hb hg),
    fun hg => (C91_after h hb a b).mp (C58_after h hd hb hg)⟩

/-- The header of the loop and the block with the only break come before the block after the loop; the block with the
continue does not. -/
example : comes ⟨12⟩ ⟨16⟩ sampleChain = false ∧ comes ⟨13⟩ ⟨16⟩ sampleChain = false ∧ comes ⟨14⟩ ⟨16⟩ sampleChain = true := by
  decide
/-- That the break comes before what follows the loop is not a matter of nesting and order. -/
example : ¬ Guards ⟨13⟩ ⟨16⟩ sampleChain := by
  simp [sampleChain, Guards, GuardsAny, spine, chainIds, chainIdsAll]
/-- After the block with the continue, control comes to the break, and to what follows the loop, but need not finish
the body. No block of the body comes after the break. -/
example : leaves ⟨13⟩ ⟨14⟩ .next sampleChain = false ∧ leaves ⟨16⟩ ⟨14⟩ .next sampleChain = false ∧
    leaves ⟨15⟩ ⟨14⟩ .next sampleChain = true ∧ leaves ⟨14⟩ ⟨13⟩ .next sampleChain = true := by decide
/-- The first and the last block are always visited, the loop is not. -/
example : passes ⟨10⟩ .next sampleChain = false ∧ passes ⟨19⟩ .next sampleChain = false ∧
    passes ⟨12⟩ .next sampleChain = true := by decide
/-- A way through the loop -/
example : Journey sampleBlocks 10 ([10, 12, 13] ++ 14 :: [12, 13, 16, 19]) :=
  .step ⟨_, .head _, rfl, by decide⟩ <| .step ⟨_, .tail _ (.tail _ (.head _)), rfl, by decide⟩ <|
  .step ⟨_, .tail _ (.tail _ (.tail _ (.head _))), rfl, by decide⟩ <|
  .step ⟨_, .tail _ (.tail _ (.tail _ (.tail _ (.head _)))), rfl, by decide⟩ <|
  .step ⟨_, .tail _ (.tail _ (.head _)), rfl, by decide⟩ <|
  .step ⟨_, .tail _ (.tail _ (.tail _ (.head _))), rfl, by decide⟩ <|
  .step ⟨_, .tail _ (.tail _ (.tail _ (.tail _ (.tail _ (.tail _ (.head _)))))), rfl, by decide⟩ <|
  .stop (b := emptyBlock 19 none (.OpReturn {}))
    (.tail _ (.tail _ (.tail _ (.tail _ (.tail _ (.tail _ (.tail _ (.head _)))))))) rfl

/-- C91 for the sample: block 13 comes before block 16, block 14 need not. -/
example : (∀ ds, Preceded ⟨13⟩ ⟨16⟩ (runBlocks sampleBlocks ds ⟨10⟩).1) ∧
    ¬ ∀ ds, Preceded ⟨14⟩ ⟨16⟩ (runBlocks sampleBlocks ds ⟨10⟩).1 :=
  ⟨(C91_before sample_found rfl ⟨13⟩ ⟨16⟩).mpr (by decide),
    fun h => absurd ((C91_before sample_found rfl ⟨14⟩ ⟨16⟩).mp h) (by decide)⟩
example : ∀ l, Course sampleBlocks 10 (l ++ [16]) → 13 ∈ l :=
  (C91_dominates sample_found rfl ⟨13⟩ ⟨16⟩).mpr (by decide)
example : (∀ ds, (runBlocks sampleBlocks ds ⟨10⟩).2 = .returned → Followed ⟨16⟩ ⟨14⟩ (runBlocks sampleBlocks ds ⟨10⟩).1) ∧
    ∀ l l', Journey sampleBlocks 10 (l ++ 14 :: l') → 16 ∈ l' :=
  ⟨(C91_after sample_found rfl ⟨16⟩ ⟨14⟩).mpr (by decide), (C91_postdominates sample_found rfl ⟨16⟩ ⟨14⟩).mpr (by decide)⟩
example : (∀ ds, (runBlocks sampleBlocks ds ⟨10⟩).2 = .returned → ⟨19⟩ ∈ (runBlocks sampleBlocks ds ⟨10⟩).1) ∧
    ¬ ∀ ds, (runBlocks sampleBlocks ds ⟨10⟩).2 = .returned → ⟨16⟩ ∈ (runBlocks sampleBlocks ds ⟨10⟩).1 :=
  ⟨(C91_always sample_found rfl ⟨19⟩).mpr (by decide),
    fun h => absurd ((C91_always sample_found rfl ⟨16⟩).mp h) (by decide)⟩

end Magma.Props
