import Verif.Proofs.Liveness
import Verif.Proofs.Live
import Verif.Props.Hoare
/-! C113: which variables are needed before each block is read off the recovered control flow, in one pass. -/

namespace Magma.Props
open Spec
variable {V W X : Type}

/-! ### C113 -/

section
variable {f : FunctionDefinition X} {fuel : Nat} {chain : ControlFlowChain} (h : findControlFlow fuel f = .ok chain)
  {first : BasicBlock X} {more : List (BasicBlock X)} (hb : f.blocks = first :: more) (U : Usage V) (asked : V → Bool)
include h

include hb in
/-- C113: what one pass over the recovered control flow says is needed is what is read on some way along the branches of
the basic blocks before it is written, or asked for at the end of one. -/
theorem C113_start (brk cont : V → Bool) (v : V) :
    needs U chain asked brk cont v = true ↔ Needed f.blocks U asked ⟨labelId first⟩ v := by
  obtain ⟨s, first', more', hb', -, hs, he, -, rfl⟩ := C30_accepted_iff.mp ⟨fuel, h⟩
  cases hb.symm.trans hb'
  rw [Liveness.needs_toChain]
  exact Liveness.start_iff s hs he ⟨fun _ e => by (cases e), fun _ => Iff.rfl, fun _ _ e => by (cases e),
    fun _ _ e => by (cases e)⟩

/-- C113: the same for every block the recovered control flow mentions, wherever it does. -/
theorem C113_at (brk cont : V → Bool) {id : BlockId} {needed : V → Bool}
    (hm : (id, needed) ∈ needsAt U chain asked brk cont) (v : V) : needed v = true ↔ Needed f.blocks U asked id v := by
  obtain ⟨s, first', more', hb', -, hs, he, -, rfl⟩ := C30_accepted_iff.mp ⟨fuel, h⟩
  rw [Liveness.needsAt_toChain] at hm
  exact Liveness.at_iff s none none hs asked brk cont ⟨fun _ e => by (cases e), fun _ => Iff.rfl, fun _ _ e => by (cases e),
    fun _ _ e => by (cases e)⟩ _ hm

include hb in
/-- C113: so if a machine reads and writes what `U` says, executions from values that differ only in what the recovered
control flow does not need visit the same blocks, and return with the same values of what is asked for. -/
theorem C113_irrelevant (brk cont : V → Bool) {M : Machine X (V → W)} (hU : U.Right M f.blocks) (n : Nat)
    (last : Option UInt32) (st st' : V → W) (hst : ∀ v, needs U chain asked brk cont v = true → st v = st' v) :
    (runMachine M f.blocks n ⟨labelId first⟩ ⟨last, st⟩).1 = (runMachine M f.blocks n ⟨labelId first⟩ ⟨last, st'⟩).1 ∧
    (runMachine M f.blocks n ⟨labelId first⟩ ⟨last, st⟩).2.2 = (runMachine M f.blocks n ⟨labelId first⟩ ⟨last, st'⟩).2.2 ∧
    ((runMachine M f.blocks n ⟨labelId first⟩ ⟨last, st⟩).2.2 = .returned → ∀ v, asked v = true →
      (runMachine M f.blocks n ⟨labelId first⟩ ⟨last, st⟩).2.1.state v =
        (runMachine M f.blocks n ⟨labelId first⟩ ⟨last, st'⟩).2.1.state v) :=
  Liveness.run_agree hU n _ ⟨last, st⟩ ⟨last, st'⟩ rfl fun v hv => hst v ((C113_start h hb U asked brk cont v).mpr hv)

end

mutual
/-- C113: the list has all blocks of the chain, in order. -/
theorem C113_blocks (U : Usage V) : ∀ (chain : ControlFlowChain) (next brk cont : V → Bool),
    (needsAt U chain next brk cont).map (fun p => p.1.val) = chainIds chain
  | .Atom _, _, _, _ => rfl
  | .Block chains, next, brk, cont => by
    rw [needsAt, chainIds]
    exact C113_blocksAll U chains next brk cont
  | .Selection id l r _ _, next, brk, cont => by
    rw [needsAt, chainIds, List.map_cons, List.map_append, C113_blocks U l, C113_blocks U r]
  | .Loop id inner _ _, next, _, _ => by
    rw [needsAt, chainIds, List.map_cons, C113_blocks U inner]
  | .Break, _, _, _ => rfl
  | .Continue, _, _, _ => rfl
/-- C113: the same for chains one after the other -/
theorem C113_blocksAll (U : Usage V) : ∀ (chains : List ControlFlowChain) (next brk cont : V → Bool),
    (needsAtAll U chains next brk cont).map (fun p => p.1.val) = chainIdsAll chains
  | [], _, _, _ => rfl
  | chain :: chains, next, brk, cont => by
    rw [needsAtAll, chainIdsAll, List.map_append, C113_blocks U chain, C113_blocksAll U chains]
end

/-- C113: one look at the body of a loop is enough, for any chain: what is needed for a round by what is needed for another
round is the same, and no set that is so has less. -/
theorem C113_once (U : Usage V) (id : BlockId) (inner : ControlFlowChain) (hint : LoopControl)
    (weights : Option BranchWeights) (next brk cont : V → Bool) :
    let x := needs U (.Loop id inner hint weights) next brk cont
    U.before id (needs U inner x next x) = x ∧
      ∀ y, U.before id (needs U inner y next y) = y → ∀ v, x v = true → y v = true := by
  refine ⟨funext fun v => Bool.eq_iff_iff.mpr (Liveness.again (by rw [needs])), fun y hy v hv => ?_⟩
  rw [needs] at hv
  rw [← hy]
  refine Liveness.before_mono (fun h => ?_) hv
  exact (Liveness.needs_split inner (P := False) (fun h => by cases h) .inl (fun h => by cases h) h).elim (fun h => h)
    False.elim

/-! ### Examples -/

/-- Variable 0 is counted up in block 13 while it is less than three, and variable 1 has its value before. -/
def marking : Machine Empty (Fin 2 → Nat) where
  run _ _ st := fun v => if v = 0 then st 0 + 1 else st 0
  holds _ st := decide (st 0 < 3)

/-- What its blocks read and write -/
def marks : Usage (Fin 2) where
  reads id v := (id == ⟨12⟩ || id == ⟨13⟩) && v == 0
  writes id _ := id == ⟨13⟩

/-- If variable 0 is asked for, variable 1 is needed nowhere. -/
example : (needsAt marks countingChain (fun v => v == 0) (fun _ => false) (fun _ => false)).map
    (fun p => (p.1.val, p.2 0, p.2 1)) =
      [(10, true, false), (11, true, false), (12, true, false), (13, true, false), (14, true, false)] := by decide
/-- If variable 1 is asked for, both are needed at first, as the loop need not have a round, and only 0 before block 13. -/
example : (needsAt marks countingChain (fun v => v == 1) (fun _ => false) (fun _ => false)).map
    (fun p => (p.1.val, p.2 0, p.2 1)) =
      [(10, true, true), (11, true, true), (12, true, true), (13, true, false), (14, false, true)] := by decide

theorem marks_right : marks.Right marking counting := by
  have cases_of : ∀ {id b}, blockOf counting id = some b →
      ((id = ⟨13⟩ ∧ ∀ c, (marking.enter b c).state = fun v => if v = 0 then c.state 0 + 1 else c.state 0) ∨
        (id ≠ ⟨13⟩ ∧ ∀ c, (marking.enter b c).state = c.state)) ∧
      ∀ op, b.branch = .OpBranchConditional op → id = ⟨12⟩ := by
    rintro ⟨i⟩ b hb
    have hi : b.label.result_id.val = i := by simpa [blockOf] using List.find?_some hb
    have hm : b ∈ counting := List.mem_of_find?_eq_some hb
    subst hi
    simp only [counting, List.mem_cons, List.not_mem_nil, or_false] at hm
    rcases hm with rfl | rfl | rfl | rfl | rfl
    · exact ⟨.inr ⟨by decide, fun _ => rfl⟩, fun _ h => by cases h⟩
    · exact ⟨.inr ⟨by decide, fun _ => rfl⟩, fun _ h => by cases h⟩
    · exact ⟨.inr ⟨by decide, fun _ => rfl⟩, fun _ _ => rfl⟩
    · exact ⟨.inl ⟨rfl, fun _ => rfl⟩, fun _ h => by cases h⟩
    · exact ⟨.inr ⟨by decide, fun _ => rfl⟩, fun _ h => by cases h⟩
  refine ⟨fun hb c v hw => ?_, fun hb c c' _ hr v hw => ?_, fun hb ho c c' _ hr => ?_⟩
  · rcases (cases_of hb).1 with ⟨rfl, -⟩ | ⟨-, e⟩
    · cases hw
    · rw [e]
  · rcases (cases_of hb).1 with ⟨rfl, e⟩ | ⟨hn, -⟩
    · rw [e, e, hr 0 rfl]
    · exact absurd (by simpa [marks] using hw) hn
  · obtain rfl := (cases_of hb).2 _ ho
    rcases (cases_of hb).1 with ⟨h, -⟩ | ⟨-, e⟩
    · cases h
    · rw [e, e]
      simp only [marking, hr 0 rfl]

/-- So the start value of variable 1 does not matter for variable 0. -/
example (n : Nat) (last : Option UInt32) (a b b' : Nat) :
    (runMachine marking counting n ⟨10⟩ ⟨last, fun v => if v = 0 then a else b⟩).1 =
      (runMachine marking counting n ⟨10⟩ ⟨last, fun v => if v = 0 then a else b'⟩).1 := by
  refine (C113_irrelevant counting_found rfl marks (fun v => v == 0) (fun _ => false) (fun _ => false) marks_right n last _ _ ?_).1
  intro v hv
  have : v = 0 := by
    revert hv
    revert v
    decide
  simp [this]

end Magma.Props
