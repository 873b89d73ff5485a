import Verif.Proofs.Phi
import Verif.Props.Scope
import Verif.Props.Forgets
/-! C122: whether `OpPhi` is told where control came from is read off the recovered control flow. -/

namespace Magma.Props
open Spec Standard Scope PhiProofs
variable {W : Type}

/-! ### C122 -/

/-- C122: control can come from one block to another just if the recovered control flow says so. -/
theorem C122_comes {f : FunctionDefinition Glsl.Inst} {fuel : Nat} {chain : ControlFlowChain}
    (h : findControlFlow fuel f = .ok chain) {first : BasicBlock Glsl.Inst} {more : List (BasicBlock Glsl.Inst)}
    (hb : f.blocks = first :: more) {b : BasicBlock Glsl.Inst} (hbm : b ∈ f.blocks) (p : UInt32) :
    comesFrom f.blocks chain p (labelId b) = true ↔ ∃ way, Course f.blocks (labelId first) (way ++ [p] ++ [labelId b]) := by
  have hn := labels_distinct h
  simp only [comesFrom, Bool.and_eq_true, List.contains_iff_mem, ← C49_visited h hb, Option.any_eq_true]
  constructor
  · rintro ⟨⟨ds, hds⟩, q, hq, ht⟩
    obtain ⟨pre, post, he⟩ := List.append_of_mem hds
    have hco := run_course ds _ _ _ _ he
    obtain ⟨hqm, hql⟩ := Standard.blockOf_mem hq
    rw [List.map_append, List.map_cons, List.map_nil] at hco
    exact ⟨_, extend hco hbm ⟨q, hqm, hql, ht⟩⟩
  · rintro ⟨way, hco⟩
    obtain ⟨hco', q, hqm, rfl, ht⟩ := branch_last hco
    obtain ⟨ds, hds⟩ := course_run hn hco'
    refine ⟨⟨ds, ?_⟩, q, Standard.blockOf_label hn hqm, ht⟩
    have : labelId q ∈ (runBlocks f.blocks ds ⟨labelId first⟩).1.map (·.val) := by rw [hds]; simp
    obtain ⟨x, hx, hxq⟩ := List.mem_map.mp this
    have : x = ⟨labelId q⟩ := by
      cases x
      simpa using hxq
    exact this ▸ hx

/-- C122: one pass over the recovered control flow tells whether on every way along the branches each `OpPhi` has exactly one
operand for the block that control came from. -/
theorem C122_check {f : FunctionDefinition Glsl.Inst} {fuel : Nat} {chain : ControlFlowChain}
    (h : findControlFlow fuel f = .ok chain) {first : BasicBlock Glsl.Inst} {more : List (BasicBlock Glsl.Inst)}
    (hb : f.blocks = first :: more) : checkPhis f.blocks chain = true ↔ PhisTell f.blocks (labelId first) := by
  have hn := labels_distinct h
  have free : ∀ b : BasicBlock Glsl.Inst, phiFree b = true ↔ ∀ op, .OpPhi op ∉ b.code := by
    intro b
    simp only [phiFree, List.all_eq_true]
    constructor
    · intro hh op hop
      exact absurd (hh _ hop) (by simp)
    · intro hh i hi
      split
      · next op => exact absurd hi (hh op)
      · rfl
  have tell : ∀ (b : BasicBlock Glsl.Inst) (p : UInt32), phisTell b p = true ↔
      ∀ op, .OpPhi op ∈ b.code → (op.variables.map (·.parent.val)).count p = 1 := by
    intro b p
    simp only [phisTell, List.all_eq_true]
    constructor
    · intro hh op hop
      simpa using hh _ hop
    · intro hh i hi
      split
      · next op => simpa using hh op hi
      · rfl
  rw [checkPhis, Bool.and_eq_true]
  constructor
  · rintro ⟨h1, h2⟩
    refine ⟨?_, ?_⟩
    · intro b hbm hl
      have : b = first := by
        have h3 := Standard.blockOf_label hn hbm
        rw [hl, Standard.blockOf_label hn (by rw [hb]; simp)] at h3
        cases h3
        rfl
      rw [this, ← free]
      simpa [hb] using h1
    · intro way p b hbm hco
      have hcf := (C122_comes h hb hbm p).mpr ⟨way, hco⟩
      simp only [comesFrom, Bool.and_eq_true, List.contains_iff_mem, Option.any_eq_true] at hcf
      obtain ⟨hr, q, hq, ht⟩ := hcf
      rw [← tell]
      have h3 := List.all_eq_true.mp h2 _ hr
      rw [hq, Option.all_some, List.all_eq_true] at h3
      have h4 := h3 _ ht
      rw [Standard.blockOf_label hn hbm, Option.all_some, (Standard.blockOf_mem hq).2] at h4
      exact h4
  · intro hs
    refine ⟨?_, ?_⟩
    · rw [hb, List.head?_cons, Option.all_some, free]
      exact hs.start first (by rw [hb]; simp) rfl
    · rw [List.all_eq_true]
      intro id hid
      rw [Option.all_eq_true]
      intro p hp
      rw [List.all_eq_true]
      intro t ht
      rw [Option.all_eq_true]
      intro b hbo
      obtain ⟨hbm, hbl⟩ := Standard.blockOf_mem hbo
      obtain ⟨hpm, hpl⟩ := Standard.blockOf_mem hp
      rw [tell]
      have hcf : comesFrom f.blocks chain (labelId p) (labelId b) = true := by
        simp only [comesFrom, Bool.and_eq_true, List.contains_iff_mem, Option.any_eq_true]
        refine ⟨?_, p, Standard.blockOf_label hn hpm, ?_⟩
        · have : (⟨labelId p⟩ : BlockId) = id := by
            cases id
            exact congrArg _ hpl
          rwa [this]
        · rw [hbl]
          exact ht
      obtain ⟨way, hco⟩ := (C122_comes h hb hbm (labelId p)).mp hcf
      exact hs.told way _ b hbm hco

theorem values_count (last : Option UInt32) (op : OpPhi) :
    (valuesAt last (.OpPhi op)).length = match last with
      | none => 0
      | some p => (op.variables.map (·.parent.val)).count p := by
  cases last with
  | none => simp [valuesAt]
  | some p =>
    simp only [valuesAt, List.length_map]
    rw [List.count, List.countP_map, List.countP_eq_length_filter]
    refine congrArg List.length (List.filter_congr fun a _ => ?_)
    simp only [Function.comp_apply, Option.some_beq_some]
    exact BEq.comm

/-- C122: then executions do not depend on what an `OpPhi` does that is not told: for two meanings of the instructions that differ
in this only, they are the same. -/
theorem C122_told {f : FunctionDefinition Glsl.Inst} {fuel : Nat} {chain : ControlFlowChain}
    (h : findControlFlow fuel f = .ok chain) {first : BasicBlock Glsl.Inst} {more : List (BasicBlock Glsl.Inst)}
    (hb : f.blocks = first :: more) (hc : checkPhis f.blocks chain = true) {D D' : Denotation W} (hD : D.LikeOnTold D')
    (n : Nat) (st : Option UInt32 → W) :
    runMachine D.chosen f.blocks n ⟨labelId first⟩ ⟨none, st⟩ = runMachine D'.chosen f.blocks n ⟨labelId first⟩ ⟨none, st⟩ := by
  have hs := (C122_check h hb).mp hc
  have := run_alike (blocks := f.blocks) (first := labelId first) (M := D.chosen) (M' := D'.chosen) (g := fun b => b)
    (fun _ => rfl) (fun _ => rfl) (by funext id st; simp only [Denotation.chosen, hD.truth]) (fun way b hbm hco c hl => ?_)
    n ⟨labelId first⟩ [] ⟨none, st⟩ (fun b hbo => by
      obtain ⟨hm, hbl⟩ := Standard.blockOf_mem hbo
      have := Course.stop hm
      rwa [hbl] at this) rfl
  · simpa using this
  · rw [Machine.enter, Machine.enter]
    congr 1
    have := fold_alike (M := D.chosen) (M' := D'.chosen) (g := id) (last := c.last) b.code c.state ?_
    · simpa using this
    · intro i hi st
      have key : ∀ op, i = .OpPhi op → ((valuesAt c.last i).map fun o => st (some o)).length = 1 := by
        rintro op rfl
        rw [List.length_map, values_count, hl]
        rcases List.eq_nil_or_concat way with rfl | ⟨way', p, rfl⟩
        · have hfl : labelId b = labelId first := by
            obtain ⟨_, he⟩ := Course.head hco
            exact (List.cons.inj he).1
          exact absurd hi (hs.start b hbm hfl op)
        · simp only [List.concat_eq_append] at hco ⊢
          simp only [List.getLast?_append, List.getLast?_singleton, Option.some_or]
          exact hs.told way' p b hbm hco op hi
      funext v
      cases v with
      | none => simp only [Denotation.chosen, id_eq, hD.memory _ _ _ _ key]
      | some v => simp only [Denotation.chosen, id_eq, hD.value _ _ _ _ key]

/-- C122: operands of `OpPhi` for blocks that control does not come from can be removed: control flow is recovered as before, and
executions are the same. -/
theorem C122_pruned {f : FunctionDefinition Glsl.Inst} {fuel : Nat} {chain : ControlFlowChain}
    (h : findControlFlow fuel f = .ok chain) {first : BasicBlock Glsl.Inst} {more : List (BasicBlock Glsl.Inst)}
    (hb : f.blocks = first :: more) :
    (∃ fuel, findControlFlow fuel { f with blocks := f.blocks.map (prunePhis f.blocks chain) } = .ok chain) ∧
    ∀ (D : Denotation W), D.PhiByValue → ∀ (n : Nat) (st : Option UInt32 → W),
      runMachine D.chosen f.blocks n ⟨labelId first⟩ ⟨none, st⟩ =
        runMachine D.chosen (f.blocks.map (prunePhis f.blocks chain)) n ⟨labelId first⟩ ⟨none, st⟩ := by
  refine ⟨?_, fun D hD n st => ?_⟩
  · refine (C81_exact h hb _).mpr ⟨⟨prunePhis f.blocks chain first, more.map (prunePhis f.blocks chain), by simp [hb], rfl⟩, ?_, ?_⟩
    · have : ((f.blocks.map (prunePhis f.blocks chain)).map labelId) = f.blocks.map labelId := by
        rw [List.map_map]
        rfl
      rw [this]
      exact labels_distinct h
    · intro id _
      have hof : blockOf (f.blocks.map (prunePhis f.blocks chain)) ⟨id⟩ = (blockOf f.blocks ⟨id⟩).map (prunePhis f.blocks chain) := by
        rw [blockOf, blockOf, List.find?_map]
        rfl
      rw [hof]
      cases blockOf f.blocks ⟨id⟩ <;> rfl
  · refine run_alike (g := prunePhis f.blocks chain) (fun _ => rfl) (fun _ => rfl) rfl (fun way b hbm hco c hl => ?_) n ⟨labelId first⟩ [] ⟨none, st⟩
      (fun b hbo => by
        obtain ⟨hm, hbl⟩ := Standard.blockOf_mem hbo
        have := Course.stop hm
        rwa [hbl] at this) rfl
    rw [Machine.enter, Machine.enter]
    refine congrArg (Config.mk _) (fold_alike (g := prunePhi fun p => comesFrom f.blocks chain p (labelId b)) b.code c.state ?_)
    intro i hi st
    cases i
    case OpPhi op =>
      have hv : valuesAt c.last (prunePhi (fun p => comesFrom f.blocks chain p (labelId b)) (.OpPhi op)) =
          valuesAt c.last (.OpPhi op) := by
        simp only [prunePhi, valuesAt, List.filter_filter]
        refine congrArg _ (List.filter_congr fun a _ => ?_)
        cases hp : (c.last == some a.parent.val) with
        | false => rfl
        | true =>
          have hp := eq_of_beq hp
          rw [hl] at hp
          rcases List.eq_nil_or_concat way with rfl | ⟨way', p, rfl⟩
          · cases hp
          · simp only [List.concat_eq_append] at hco hp
            simp only [List.getLast?_append, List.getLast?_singleton, Option.some_or, Option.some.injEq] at hp
            subst hp
            simp only [Bool.true_and]
            exact (C122_comes h hb hbm _).mpr ⟨way', hco⟩
      funext v
      cases v with
      | none => rfl
      | some v =>
        simp only [Denotation.chosen, hv]
        rw [prunePhi, hD c.last _ _ op (op.variables.filter fun a => comesFrom f.blocks chain a.parent.val (labelId b))]
        rfl
    all_goals rfl

/-- C122: where the check passes, this leaves the operands that the standard demands: exactly one for each block that control
comes from. -/
theorem C122_exact {f : FunctionDefinition Glsl.Inst} {fuel : Nat} {chain : ControlFlowChain}
    (h : findControlFlow fuel f = .ok chain) {first : BasicBlock Glsl.Inst} {more : List (BasicBlock Glsl.Inst)}
    (hb : f.blocks = first :: more) (hc : checkPhis f.blocks chain = true) {b : BasicBlock Glsl.Inst} (hbm : b ∈ f.blocks) {op : OpPhi}
    (hop : .OpPhi op ∈ (prunePhis f.blocks chain b).code) : (op.variables.map (·.parent.val)).Nodup ∧
      ∀ p, p ∈ op.variables.map (·.parent.val) ↔ ∃ way, Course f.blocks (labelId first) (way ++ [p] ++ [labelId b]) := by
  have hs := (C122_check h hb).mp hc
  obtain ⟨i, hi, he⟩ := List.mem_map.mp hop
  obtain ⟨op', rfl⟩ : ∃ op', i = .OpPhi op' := by
    cases i <;> first | exact ⟨_, rfl⟩ | cases he
  simp only [prunePhi, GroupCode.OpPhi.injEq] at he
  subst he
  have hcount : ∀ p, comesFrom f.blocks chain p (labelId b) = true → (op'.variables.map (·.parent.val)).count p = 1 := by
    intro p hp
    obtain ⟨way, hco⟩ := (C122_comes h hb hbm p).mp hp
    exact hs.told way p b hbm hco op' hi
  have hfil : (op'.variables.filter fun a => comesFrom f.blocks chain a.parent.val (labelId b)).map (·.parent.val) =
      (op'.variables.map (·.parent.val)).filter fun p => comesFrom f.blocks chain p (labelId b) := by
    rw [List.filter_map]
    rfl
  simp only [hfil]
  constructor
  · rw [List.nodup_iff_count_le_one]
    intro p
    by_cases hp : comesFrom f.blocks chain p (labelId b) = true
    · rw [List.count_filter (p := fun p => comesFrom f.blocks chain p (labelId b)) hp, hcount p hp]
    · rw [List.count_eq_zero.mpr]
      · omega
      · simp [hp]
  · intro p
    rw [← C122_comes h hb hbm, List.mem_filter]
    constructor
    · exact fun hh => hh.2
    · intro hp
      refine ⟨?_, hp⟩
      have := hcount p hp
      exact List.count_pos_iff.mp (by omega)

/-! ### Examples -/

/-- A loop that counts 6 up from 3 to 4 in steps of 5, with the operands of the `OpPhi`, and a block 15 that nothing branches to -/
def phiArgs (args : List PhiArg) : FunctionDefinition Glsl.Inst where
  function := ⟨⟨2⟩, ⟨12⟩, ⟨false, false, false, false⟩, ⟨3⟩⟩
  parameters := []
  blocks := [codeBlock 10 none (.OpBranch ⟨⟨11⟩⟩) [],
    codeBlock 11 (some (.OpLoopMerge ⟨⟨14⟩, ⟨13⟩, ⟨false, false, false, none⟩⟩)) (.OpBranch ⟨⟨12⟩⟩) [.OpPhi ⟨⟨2⟩, ⟨6⟩, args⟩],
    codeBlock 12 none (.OpBranchConditional ⟨⟨7⟩, ⟨13⟩, ⟨14⟩, none⟩) [.OpSLessThan ⟨⟨1⟩, ⟨7⟩, ⟨6⟩, ⟨4⟩⟩],
    codeBlock 13 none (.OpBranch ⟨⟨11⟩⟩) [.OpIAdd ⟨⟨2⟩, ⟨8⟩, ⟨6⟩, ⟨5⟩⟩],
    codeBlock 15 none (.OpBranch ⟨⟨11⟩⟩) [],
    codeBlock 14 none (.OpReturn {}) [.OpStore ⟨⟨9⟩, ⟨6⟩, none⟩]]

theorem phiArgs_found (args : List PhiArg) : findControlFlow 9 (phiArgs args) = .ok countingChain := by rfl

/-- An operand for the block before the loop, and one for the end of its rounds -/
theorem phiArgs_tell : PhisTell (phiArgs [⟨⟨3⟩, ⟨10⟩⟩, ⟨⟨8⟩, ⟨13⟩⟩, ⟨⟨5⟩, ⟨15⟩⟩]).blocks 10 :=
  (C122_check (phiArgs_found _) rfl).mp (by rfl)
/-- One is missing, or there are two for the same block. -/
example : checkPhis (phiArgs [⟨⟨3⟩, ⟨10⟩⟩, ⟨⟨5⟩, ⟨15⟩⟩]).blocks countingChain = false := by rfl
example : checkPhis (phiArgs [⟨⟨3⟩, ⟨10⟩⟩, ⟨⟨8⟩, ⟨13⟩⟩, ⟨⟨5⟩, ⟨10⟩⟩]).blocks countingChain = false := by rfl
/-- Control does not come from block 15; so the operand for it is removed. -/
example : (phiArgs [⟨⟨3⟩, ⟨10⟩⟩, ⟨⟨5⟩, ⟨15⟩⟩, ⟨⟨8⟩, ⟨13⟩⟩]).blocks.map
      (prunePhis (phiArgs [⟨⟨3⟩, ⟨10⟩⟩, ⟨⟨5⟩, ⟨15⟩⟩, ⟨⟨8⟩, ⟨13⟩⟩]).blocks countingChain) =
    (phiArgs [⟨⟨3⟩, ⟨10⟩⟩, ⟨⟨8⟩, ⟨13⟩⟩]).blocks := by rfl
/-- A meaning of instructions that looks at the value of an `OpPhi` only, and one that differs where there is none -/
def phiFirst (other : Nat) : Denotation Nat where
  value _ i args _ := match i with
    | .OpPhi _ => args.headD other
    | .OpSLessThan _ => if args.headD 0 < args.tail.headD 0 then 1 else 0
    | _ => args.sum
  memory _ _ args _ := args.sum
  truth n := n != 0

theorem phiFirst_alike (x y : Nat) : (phiFirst x).LikeOnTold (phiFirst y) where
  value last i args mem h := by
    cases i <;> first
      | rfl
      | (have := h _ rfl
         match args, this with
         | [a], _ => rfl)
  memory _ _ _ _ _ := rfl
  truth := rfl
theorem phiFirst_by (x : Nat) : (phiFirst x).PhiByValue := fun _ _ _ _ _ => rfl

example (x y n : Nat) (st : Option UInt32 → Nat) :
    runMachine (phiFirst x).chosen (phiArgs [⟨⟨3⟩, ⟨10⟩⟩, ⟨⟨8⟩, ⟨13⟩⟩]).blocks n ⟨10⟩ ⟨none, st⟩ =
      runMachine (phiFirst y).chosen (phiArgs [⟨⟨3⟩, ⟨10⟩⟩, ⟨⟨8⟩, ⟨13⟩⟩]).blocks n ⟨10⟩ ⟨none, st⟩ :=
  C122_told (phiArgs_found _) rfl (by rfl) (phiFirst_alike x y) n st
example (x n : Nat) (st : Option UInt32 → Nat) :
    runMachine (phiFirst x).chosen (phiArgs [⟨⟨3⟩, ⟨10⟩⟩, ⟨⟨5⟩, ⟨15⟩⟩, ⟨⟨8⟩, ⟨13⟩⟩]).blocks n ⟨10⟩ ⟨none, st⟩ =
      runMachine (phiFirst x).chosen (phiArgs [⟨⟨3⟩, ⟨10⟩⟩, ⟨⟨8⟩, ⟨13⟩⟩]).blocks n ⟨10⟩ ⟨none, st⟩ :=
  (C122_pruned (phiArgs_found _) rfl).2 (phiFirst x) (phiFirst_by x) n st

/-- C122: the code does not look at this: control flow is recovered for functions where an `OpPhi` has no operand for a block that
control comes from; and executions then depend on what it does. -/
theorem C122_unchecked : ∃ (f : FunctionDefinition Glsl.Inst) (fuel : Nat) (chain : ControlFlowChain)
    (first : BasicBlock Glsl.Inst) (more : List (BasicBlock Glsl.Inst)) (D D' : Denotation Nat) (st : Option UInt32 → Nat) (n : Nat),
    findControlFlow fuel f = .ok chain ∧ f.blocks = first :: more ∧ ¬ PhisTell f.blocks (labelId first) ∧ D.LikeOnTold D' ∧
    (runMachine D.chosen f.blocks n ⟨labelId first⟩ ⟨none, st⟩).1 ≠ (runMachine D'.chosen f.blocks n ⟨labelId first⟩ ⟨none, st⟩).1 := by
  refine ⟨phiArgs [⟨⟨3⟩, ⟨10⟩⟩], 9, countingChain, _, _, phiFirst 0, phiFirst 9, fun | some 4 => 2 | some 5 => 1 | _ => 0, 20,
    phiArgs_found _, rfl, (C122_check (phiArgs_found _) rfl).not.mp (by decide), phiFirst_alike 0 9, ?_⟩
  decide +kernel

end Magma.Props
