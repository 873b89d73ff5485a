import Verif.Proofs.SimtFull
import Verif.Props.Uniform
/-! C121: many invocations execute the recovered control flow in lockstep, with masks, and each does what it would do by
itself. -/

namespace Magma.Props
open Spec Lockstep Simt
variable {V W X S : Type} {k : Nat}

/-! ### C121 -/

theorem returned_next {M : Machine X S} {blocks : List (BasicBlock X)} {chain : ControlFlowChain} {n : Nat} {c d : Config S}
    {t : List BlockId} (h : runChain M blocks chain n c = (t, d, .returned)) :
    (execOn M blocks chain n c).signal = .next ∧ (execOn M blocks chain n c).trace = t ∧ (execOn M blocks chain n c).config = d := by
  simp only [runChain, Prod.mk.injEq] at h
  refine ⟨?_, h.1, h.2.1⟩
  have := h.2.2
  cases hs : (execOn M blocks chain n c).signal <;> simp_all

/-- C121: if invocations execute the function by itself and return, then in lockstep too, with enough rounds for loops: each of
them ends, the blocks issued for it are the ones it visits by itself, and it ends in the same state, whatever the others do. -/
theorem C121_returns {f : FunctionDefinition X} {fuel : Nat} {chain : ControlFlowChain} (h : findControlFlow fuel f = .ok chain)
    {first : BasicBlock X} {more : List (BasicBlock X)} (hb : f.blocks = first :: more) {M : Machine X S} {x d : Config S}
    {t : List BlockId} {n : Nat} (hr : runMachine M f.blocks n ⟨labelId first⟩ x = (t, d, .returned)) {i : Fin k} :
    ∃ R, ∀ R' ≥ R, ∀ (mask : Fin k → Bool) (c : Fin k → Config S), mask i = true → c i = x →
      (simt M f.blocks R' chain mask c).signal i = .next ∧ (simt M f.blocks R' chain mask c).laneLog i = t ∧
        (simt M f.blocks R' chain mask c).config i = d := by
  rw [← C92_meaning h hb] at hr
  obtain ⟨h1, rfl, rfl⟩ := returned_next hr
  obtain ⟨R, h2⟩ := simt_lane (i := i) chain n x (by rw [h1]; simp)
  refine ⟨R, fun R' hR mask c hm hc => ?_⟩
  have h3 := h2 R' hR mask c hm hc
  exact ⟨h3.signal.trans h1, h3.log, h3.config⟩

/-- C121: one number of rounds is enough for all. -/
theorem C121_all {f : FunctionDefinition X} {fuel : Nat} {chain : ControlFlowChain} (h : findControlFlow fuel f = .ok chain)
    {first : BasicBlock X} {more : List (BasicBlock X)} (hb : f.blocks = first :: more) {M : Machine X S}
    {mask : Fin k → Bool} {c d : Fin k → Config S} {t : Fin k → List BlockId}
    (hr : ∀ i, mask i = true → ∃ n, runMachine M f.blocks n ⟨labelId first⟩ (c i) = (t i, d i, .returned)) :
    ∃ R, ∀ R' ≥ R, ∀ i, mask i = true → (simt M f.blocks R' chain mask c).signal i = .next ∧
      (simt M f.blocks R' chain mask c).laneLog i = t i ∧ (simt M f.blocks R' chain mask c).config i = d i := by
  have key : ∀ l : List (Fin k), ∃ R, ∀ R' ≥ R, ∀ i ∈ l, mask i = true → (simt M f.blocks R' chain mask c).signal i = .next ∧
      (simt M f.blocks R' chain mask c).laneLog i = t i ∧ (simt M f.blocks R' chain mask c).config i = d i := by
    intro l
    induction l with
    | nil => exact ⟨0, by simp⟩
    | cons i l ih =>
      obtain ⟨R, h1⟩ := ih
      by_cases hm : mask i = true
      · obtain ⟨n, h2⟩ := hr i hm
        obtain ⟨R₂, h3⟩ := C121_returns h hb h2 (i := i)
        refine ⟨max R R₂, fun R' hR j hj hmj => ?_⟩
        rcases List.mem_cons.mp hj with rfl | hj
        · exact h3 R' (Nat.le_trans (Nat.le_max_right ..) hR) mask c hmj rfl
        · exact h1 R' (Nat.le_trans (Nat.le_max_left ..) hR) j hj hmj
      · refine ⟨R, fun R' hR j hj hmj => ?_⟩
        rcases List.mem_cons.mp hj with rfl | hj
        · exact absurd hmj hm
        · exact h1 R' hR j hj hmj
  obtain ⟨R, h1⟩ := key (List.finRange k)
  exact ⟨R, fun R' hR i hm => h1 R' hR i (List.mem_finRange i) hm⟩

/-- C121: and the other way round: if an invocation ends in lockstep with others, it returns by itself, having visited the blocks
issued for it, in the state it has. -/
theorem C121_alone {f : FunctionDefinition X} {fuel : Nat} {chain : ControlFlowChain} (h : findControlFlow fuel f = .ok chain)
    {first : BasicBlock X} {more : List (BasicBlock X)} (hb : f.blocks = first :: more) {M : Machine X S} {R : Nat}
    {mask : Fin k → Bool} {c : Fin k → Config S} {i : Fin k} (hm : mask i = true)
    (hs : (simt M f.blocks R chain mask c).signal i = .next) :
    ∃ n, runMachine M f.blocks n ⟨labelId first⟩ (c i) =
      ((simt M f.blocks R chain mask c).laneLog i, (simt M f.blocks R chain mask c).config i, .returned) := by
  obtain ⟨N, h1⟩ := simt_alone R chain mask c hm (by rw [hs]; simp)
  refine ⟨0 + N, ?_⟩
  rw [← C92_meaning h hb, runChain, h1 0, hs]

/-- C121: nothing happens to lanes that are not in the mask. -/
theorem C121_idle (M : Machine X S) (blocks : List (BasicBlock X)) (R : Nat) (chain : ControlFlowChain) (mask : Fin k → Bool)
    (c : Fin k → Config S) {i : Fin k} (hm : mask i = false) :
    (simt M blocks R chain mask c).laneLog i = [] ∧ (simt M blocks R chain mask c).config i = c i :=
  simt_idle R chain mask c hm

/-- C121: no block is issued for nobody. -/
theorem C121_some (M : Machine X S) (blocks : List (BasicBlock X)) (R : Nat) (chain : ControlFlowChain) (mask : Fin k → Bool)
    (c : Fin k → Config S) : ∀ p ∈ (simt M blocks R chain mask c).log, p.1.val ∈ chainIds chain ∧
      (∃ i, p.2 i = true) ∧ ∀ i, p.2 i = true → mask i = true := by
  intro p hp
  have h := simt_issued (M := M) (blocks := blocks) R chain mask c
  obtain ⟨i, -, hi⟩ := List.any_eq_true.mp (h.some p hp)
  exact ⟨h.ids p hp, ⟨i, hi⟩, h.within p hp⟩

/-- C121: so lockstep issues at most as many blocks as the invocations visit by themselves, one after the other. -/
theorem C121_issues (M : Machine X S) (blocks : List (BasicBlock X)) (R : Nat) (chain : ControlFlowChain) (mask : Fin k → Bool)
    (c : Fin k → Config S) : (simt M blocks R chain mask c).log.length ≤
      ((List.finRange k).map fun i => ((simt M blocks R chain mask c).laneLog i).length).sum := by
  have h := (simt_issued (M := M) (blocks := blocks) R chain mask c).some
  generalize simt M blocks R chain mask c = g at h
  obtain ⟨log, s, d⟩ := g
  simp only [laneLog_mk, List.length_map] at h ⊢
  induction log with
  | nil => simp
  | cons p log ih =>
    have ih := ih fun q hq => h q (List.mem_cons_of_mem _ hq)
    obtain ⟨i, hi, hp⟩ := List.any_eq_true.mp (h p (List.mem_cons_self ..))
    have step : ∀ l : List (Fin k), (l.map fun i => (log.filter fun q => q.2 i).length).sum ≤
        (l.map fun i => ((p :: log).filter fun q => q.2 i).length).sum := by
      intro l
      induction l with
      | nil => simp
      | cons j l ihl =>
        simp only [List.map_cons, List.sum_cons]
        have h2 : (log.filter fun q => q.2 j).length ≤ ((p :: log).filter fun q => q.2 j).length := by
          rw [List.filter_cons]
          split <;> simp
        omega
    have more : ∀ l : List (Fin k), i ∈ l → (l.map fun i => (log.filter fun q => q.2 i).length).sum + 1 ≤
        (l.map fun i => ((p :: log).filter fun q => q.2 i).length).sum := by
      intro l hl
      induction l with
      | nil => cases hl
      | cons j l ihl =>
        simp only [List.map_cons, List.sum_cons]
        rcases List.mem_cons.mp hl with rfl | hl
        · have := step l
          have h2 : ((p :: log).filter fun q => q.2 i).length = (log.filter fun q => q.2 i).length + 1 := by
            rw [List.filter_cons, if_pos hp, List.length_cons]
          omega
        · have := ihl hl
          have h2 : (log.filter fun q => q.2 j).length ≤ ((p :: log).filter fun q => q.2 j).length := by
            rw [List.filter_cons]
            split <;> simp
          omega
    have := more _ hi
    simp only [List.length_cons]
    omega

/-- C121: where the check of C119 passes, a block outside the ones that may be visited apart is only ever issued for all
invocations at once: those that were apart are together again. -/
theorem C121_full {f : FunctionDefinition X} {fuel : Nat} {chain : ControlFlowChain} (h : findControlFlow fuel f = .ok chain)
    {A : Access X V} {M : Machine X (V → W)} (hA : A.Right M) {asks : GroupCode X → Bool} (hL : M.AsksLast asks) {same : V → Bool}
    (hu : A.uniform asks same chain f.blocks = true) {R : Nat} {mask : Fin k → Bool} {c : Fin k → Config (V → W)}
    (hc : ∀ i j, mask i = true → mask j = true → (c i).last = (c j).last ∧ ∀ v, same v = true → (c i).state v = (c j).state v)
    (hr : ∀ i, mask i = true → (simt M f.blocks R chain mask c).signal i = .next) :
    ∀ p ∈ (simt M f.blocks R chain mask c).log, p.1.val ∉ A.apartIn same chain f.blocks → p.2 = mask := by
  simp only [Access.uniform, Bool.and_eq_true, List.all_eq_true] at hu
  exact simt_full hA hL (apart := A.apartIn same chain f.blocks) R chain false
    ⟨fun id hid => by
      obtain ⟨b, hbm, rfl⟩ := List.mem_map.mp (C81_needed h id hid)
      rw [Standard.blockOf_label (labels_distinct h) hbm]
      rfl, fun _ hx => hx, hu.1, hu.2⟩ (stays _ chain (shaped_can chain (C34_shape h))) mask c
    (fun i j hi hj => ⟨fun _ => (hc i j hi hj).1, (hc i j hi hj).2⟩) (fun i hi => by rw [hr i hi]; simp)

/-- C121: so such a block is issued as often as each of the invocations visits it by itself. -/
theorem C121_count {f : FunctionDefinition X} {fuel : Nat} {chain : ControlFlowChain} (h : findControlFlow fuel f = .ok chain)
    {first : BasicBlock X} {more : List (BasicBlock X)} (hb : f.blocks = first :: more)
    {A : Access X V} {M : Machine X (V → W)} (hA : A.Right M) {asks : GroupCode X → Bool} (hL : M.AsksLast asks) {same : V → Bool}
    (hu : A.uniform asks same chain f.blocks = true) {R : Nat} {mask : Fin k → Bool} {c : Fin k → Config (V → W)}
    (hc : ∀ i j, mask i = true → mask j = true → (c i).last = (c j).last ∧ ∀ v, same v = true → (c i).state v = (c j).state v)
    (hr : ∀ i, mask i = true → (simt M f.blocks R chain mask c).signal i = .next) {i : Fin k} (hi : mask i = true) {id : BlockId}
    (hid : id.val ∉ A.apartIn same chain f.blocks) :
    ∃ n t d, runMachine M f.blocks n ⟨labelId first⟩ (c i) = (t, d, .returned) ∧
      ((simt M f.blocks R chain mask c).log.map (·.1)).count id = t.count id := by
  obtain ⟨n, hn⟩ := C121_alone h hb hi (hr i hi)
  refine ⟨n, _, _, hn, ?_⟩
  have hf := C121_full h hA hL hu hc hr
  rw [Group.laneLog]
  generalize (simt M f.blocks R chain mask c).log = log at hf
  induction log with
  | nil => rfl
  | cons p log ih =>
    have ih := ih fun q hq => hf q (List.mem_cons_of_mem _ hq)
    rw [List.filter_cons]
    split
    · simp only [List.map_cons, List.count_cons, ih]
    · next hp =>
      have hne : p.1 ≠ id := by
        intro he
        have := hf p (List.mem_cons_self ..) (by rw [he]; exact hid)
        rw [this] at hp
        exact hp hi
      simp only [List.map_cons, List.count_cons, ih, beq_iff_eq, hne, if_false, Nat.add_zero]

/-- C121: if moreover no condition reads other variables, all blocks are issued for all invocations, and the blocks issued are the
ones that each of them visits by itself: lockstep costs no more than one invocation. -/
theorem C121_lockstep {f : FunctionDefinition X} {fuel : Nat} {chain : ControlFlowChain} (h : findControlFlow fuel f = .ok chain)
    {first : BasicBlock X} {more : List (BasicBlock X)} (hb : f.blocks = first :: more)
    {A : Access X V} {M : Machine X (V → W)} (hA : A.Right M) {asks : GroupCode X → Bool} (hL : M.AsksLast asks) {same : V → Bool}
    (hu : A.uniform asks same chain f.blocks = true)
    (hcond : ∀ b ∈ f.blocks, ∀ op, b.branch = .OpBranchConditional op → ∀ v ∈ A.tests op.condition, same v = true)
    {R : Nat} {mask : Fin k → Bool} {c : Fin k → Config (V → W)}
    (hc : ∀ i j, mask i = true → mask j = true → (c i).last = (c j).last ∧ ∀ v, same v = true → (c i).state v = (c j).state v)
    (hr : ∀ i, mask i = true → (simt M f.blocks R chain mask c).signal i = .next) {i : Fin k} (hi : mask i = true) :
    ∃ n t d, runMachine M f.blocks n ⟨labelId first⟩ (c i) = (t, d, .returned) ∧
      (simt M f.blocks R chain mask c).log = t.map fun id => (id, mask) := by
  obtain ⟨n, hn⟩ := C121_alone h hb hi (hr i hi)
  refine ⟨n, _, _, hn, ?_⟩
  have hf := C121_full h hA hL hu hc hr
  have hv : ∀ id, A.varies same f.blocks id = false := by
    intro id
    unfold Access.varies
    split
    · rfl
    · next b hbo =>
      split
      · next op hop =>
        rw [List.any_eq_false]
        intro v hv
        simp [hcond b (Standard.blockOf_mem hbo).1 op hop v hv]
      · rfl
  have he : A.apartIn same chain f.blocks = [] := (apart_none hv chain).1
  rw [he] at hf
  rw [Group.laneLog]
  generalize (simt M f.blocks R chain mask c).log = log at hf
  induction log with
  | nil => rfl
  | cons p log ih =>
    have ih := ih fun q hq => hf q (List.mem_cons_of_mem _ hq)
    have hp := hf p (List.mem_cons_self ..) (by simp)
    obtain ⟨id, m⟩ := p
    simp only at hp
    subst hp
    simp only [List.filter_cons, hi, if_true, List.map_cons]
    rw [← ih]

/-! ### Examples -/

/-- Two invocations: 4 is 0 for one and 1 for the other. -/
def twoLanes : Fin 2 → Config (Option UInt32 → Nat) := fun i => started i.val

/-- What is issued, with a list of the lanes -/
def issuedTo {S : Type} (g : Group 2 S) : List (UInt32 × List Nat) :=
  g.log.map fun p => (p.1.val, ((List.finRange 2).filter p.2).map (·.val))

/-- Block 13 is issued for the second only, everything else for both at once: 14 blocks for two invocations that visit 12 and 14
blocks by themselves. -/
example : issuedTo (simt numbers.machine roundsBlocks 5 roundsChain (fun _ => true) twoLanes) =
    [(9, [0, 1]), (10, [0, 1]), (11, [0, 1]), (12, [0, 1]), (13, [1]), (14, [0, 1]), (10, [0, 1]), (11, [0, 1]), (12, [0, 1]),
     (13, [1]), (14, [0, 1]), (10, [0, 1]), (11, [0, 1]), (20, [0, 1])] := by decide +kernel

/-- The hypotheses of `C121_full` hold. -/
example : ∀ p ∈ (simt numbers.machine (shader roundsBlocks).blocks 5 roundsChain (fun _ => true) twoLanes).log,
    p.1.val ∉ valueAccess.apartIn roundsSame roundsChain (shader roundsBlocks).blocks → p.2 = fun _ => true := by
  refine C121_full rounds_found (C115_right numbers) (asks := asksLast) ?_ rounds_uniform ?_ ?_
  · intro i hi last last' st
    have := numbers_plain i (fun op he => by rw [he] at hi; exact Bool.noConfusion hi) last last'
    funext v
    cases v with
    | none => simp only [Denotation.machine, this.2]
    | some id => simp only [Denotation.machine, this.1]
  · intro i j _ _
    refine ⟨rfl, fun v hv => ?_⟩
    unfold roundsSame at hv
    split at hv
    · next id =>
      simp only [List.contains_eq_mem, List.mem_cons, List.not_mem_nil, or_false, decide_eq_true_eq] at hv
      rcases hv with rfl | rfl | rfl | rfl <;> rfl
    · cases hv
  · intro i _
    match i with
    | 0 => decide +kernel
    | 1 => decide +kernel

/-- Both end as by themselves. -/
example : ∀ i : Fin 2, (simt numbers.machine roundsBlocks 5 roundsChain (fun _ => true) twoLanes).signal i = .next ∧
    (simt numbers.machine roundsBlocks 5 roundsChain (fun _ => true) twoLanes).laneLog i =
      (runMachine numbers.machine roundsBlocks 40 ⟨9⟩ (started i.val)).1 := by
  intro i
  match i with
  | 0 => decide +kernel
  | 1 => decide +kernel

/-- With two rounds for loops they do not end: three are needed, the last to leave. -/
example : (simt numbers.machine roundsBlocks 2 roundsChain (fun _ => true) twoLanes).signal 0 = .running := by decide +kernel

/-- A loop that counts 5 down from 4 by 2 -/
def countBlocks : List (BasicBlock Glsl.Inst) :=
  [{ label := ⟨⟨9⟩⟩, merge := none, branch := .OpBranch ⟨⟨10⟩⟩, code := [] },
   { label := ⟨⟨10⟩⟩, merge := some (.OpLoopMerge ⟨⟨20⟩, ⟨12⟩, LoopControl.default⟩), branch := .OpBranch ⟨⟨11⟩⟩,
     code := [.OpPhi ⟨⟨1⟩, ⟨5⟩, [⟨⟨4⟩, ⟨9⟩⟩, ⟨⟨8⟩, ⟨12⟩⟩]⟩] },
   { label := ⟨⟨11⟩⟩, merge := none, branch := .OpBranchConditional ⟨⟨5⟩, ⟨12⟩, ⟨20⟩, none⟩, code := [] },
   { label := ⟨⟨12⟩⟩, merge := none, branch := .OpBranch ⟨⟨10⟩⟩, code := [.OpISub ⟨⟨1⟩, ⟨8⟩, ⟨5⟩, ⟨2⟩⟩] },
   { label := ⟨⟨20⟩⟩, merge := none, branch := .OpReturn {}, code := [] }]

def countChain : ControlFlowChain :=
  .Block [.Atom ⟨9⟩, .Loop ⟨10⟩ (.Selection ⟨11⟩ (.Block [.Atom ⟨12⟩]) .Break SelectionControl.default none) LoopControl.default none,
    .Atom ⟨20⟩]

example : findControlFlow 20 (shader countBlocks) = .ok countChain := by rfl

/-- The rounds differ: the first lane leaves the loop and waits for the second. -/
example : issuedTo (simt numbers.machine countBlocks 5 countChain (fun _ => true) twoLanes) =
    [(9, [0, 1]), (10, [0, 1]), (11, [0, 1]), (12, [1]), (10, [1]), (11, [1]), (20, [0, 1])] := by decide +kernel

end Magma.Props
