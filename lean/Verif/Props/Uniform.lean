import Verif.Proofs.UniformPrefix
import Verif.Proofs.Course
import Verif.Props.Dominators
import Verif.Props.Meaning
import Verif.Props.Forgets
import Verif.Props.Values
/-! C119: what all invocations of a shader do together is read off the recovered control flow. -/

namespace Magma.Props
open Spec Lockstep
variable {V W X : Type}

/-! ### C119 -/

/-- C119: if the check passes for a set of variables, any two executions that return, from starts that agree on these
variables, visit the blocks outside the ones that may be visited apart in the same order, however long they were apart in
between; and they agree on the variables again. -/
theorem C119_uniform {f : FunctionDefinition X} {fuel : Nat} {chain : ControlFlowChain} (h : findControlFlow fuel f = .ok chain)
    {first : BasicBlock X} {more : List (BasicBlock X)} (hb : f.blocks = first :: more) {A : Access X V}
    {M : Machine X (V → W)} (hA : A.Right M) {asks : GroupCode X → Bool} (hL : M.AsksLast asks) {same : V → Bool}
    (hu : A.uniform asks same chain f.blocks = true) {n n' : Nat} {c c' d d' : Config (V → W)} {t t' : List BlockId}
    (hl : c.last = c'.last) (hs : ∀ v, same v = true → c.state v = c'.state v)
    (hr : runMachine M f.blocks n ⟨labelId first⟩ c = (t, d, .returned))
    (hr' : runMachine M f.blocks n' ⟨labelId first⟩ c' = (t', d', .returned)) :
    visitsBut (A.apartIn same chain f.blocks) t = visitsBut (A.apartIn same chain f.blocks) t' ∧
      ∀ v, same v = true → d.state v = d'.state v := by
  have hsig : ∀ (n : Nat) (c d : Config (V → W)) (t : List BlockId), runChain M f.blocks chain n c = (t, d, .returned) →
      (execOn M f.blocks chain n c).signal ≠ .running ∧ (execOn M f.blocks chain n c).trace = t ∧
        (execOn M f.blocks chain n c).config = d := by
    intro n c d t he
    simp only [runChain, Prod.mk.injEq] at he
    refine ⟨fun hx => ?_, he.1, he.2.1⟩
    rw [hx] at he
    simp at he
  rw [← C92_meaning h hb] at hr hr'
  obtain ⟨h1, rfl, rfl⟩ := hsig _ _ _ _ hr
  obtain ⟨h2, rfl, rfl⟩ := hsig _ _ _ _ hr'
  simp only [Access.uniform, Bool.and_eq_true, List.all_eq_true] at hu
  have := exec_together hA hL (apart := A.apartIn same chain f.blocks) chain false
    ⟨fun id hid => by
      obtain ⟨b, hbm, rfl⟩ := List.mem_map.mp (C81_needed h id hid)
      rw [Standard.blockOf_label (labels_distinct h) hbm]
      rfl, fun _ hx => hx, hu.1, hu.2⟩ (stays _ chain (shaped_can chain (C34_shape h))) n n' c c' ⟨fun _ => hl, hs⟩ h1 h2
  exact ⟨this.trace, this.config.agree⟩

/-- C119: executions of any length, whether they return or not: of their visits of blocks outside the ones that may be visited
apart, those of one are the first visits of the other; and one that has returned is not behind. -/
theorem C119_prefix {f : FunctionDefinition X} {fuel : Nat} {chain : ControlFlowChain} (h : findControlFlow fuel f = .ok chain)
    {first : BasicBlock X} {more : List (BasicBlock X)} (hb : f.blocks = first :: more) {A : Access X V}
    {M : Machine X (V → W)} (hA : A.Right M) {asks : GroupCode X → Bool} (hL : M.AsksLast asks) {same : V → Bool}
    (hu : A.uniform asks same chain f.blocks = true) {n n' : Nat} {c c' d d' : Config (V → W)} {t t' : List BlockId}
    {o o' : Outcome} (hl : c.last = c'.last) (hs : ∀ v, same v = true → c.state v = c'.state v)
    (hr : runMachine M f.blocks n ⟨labelId first⟩ c = (t, d, o))
    (hr' : runMachine M f.blocks n' ⟨labelId first⟩ c' = (t', d', o')) :
    (visitsBut (A.apartIn same chain f.blocks) t <+: visitsBut (A.apartIn same chain f.blocks) t' ∨
      visitsBut (A.apartIn same chain f.blocks) t' <+: visitsBut (A.apartIn same chain f.blocks) t) ∧
    (o = .returned → visitsBut (A.apartIn same chain f.blocks) t' <+: visitsBut (A.apartIn same chain f.blocks) t) := by
  rw [← C92_meaning h hb] at hr hr'
  simp only [runChain, Prod.mk.injEq] at hr hr'
  simp only [Access.uniform, Bool.and_eq_true, List.all_eq_true] at hu
  have := exec_ahead hA hL (apart := A.apartIn same chain f.blocks) chain false
    ⟨fun id hid => by
      obtain ⟨b, hbm, rfl⟩ := List.mem_map.mp (C81_needed h id hid)
      rw [Standard.blockOf_label (labels_distinct h) hbm]
      rfl, fun _ hx => hx, hu.1, hu.2⟩ (stays _ chain (shaped_can chain (C34_shape h))) n n' c c' ⟨fun _ => hl, hs⟩
  obtain ⟨rfl, -, ho⟩ := hr
  obtain ⟨rfl, -, -⟩ := hr'
  refine ⟨this.comparable, fun hx => this.left fun he => ?_⟩
  rw [he] at ho
  rw [← ho] at hx
  cases hx

/-- C119: in the middle of executions too: whenever two executions have visited equally many blocks outside the ones that may be
visited apart, they agree on the variables. -/
theorem C119_meanwhile {f : FunctionDefinition X} {fuel : Nat} {chain : ControlFlowChain} (h : findControlFlow fuel f = .ok chain)
    {first : BasicBlock X} {more : List (BasicBlock X)} (hb : f.blocks = first :: more) {A : Access X V}
    {M : Machine X (V → W)} (hA : A.Right M) {asks : GroupCode X → Bool} (hL : M.AsksLast asks) {same : V → Bool}
    (hu : A.uniform asks same chain f.blocks = true) {n n' : Nat} {c c' d d' : Config (V → W)} {t t' : List BlockId}
    {o o' : Outcome} (hl : c.last = c'.last) (hs : ∀ v, same v = true → c.state v = c'.state v)
    (hr : runMachine M f.blocks n ⟨labelId first⟩ c = (t, d, o))
    (hr' : runMachine M f.blocks n' ⟨labelId first⟩ c' = (t', d', o'))
    (he : (visitsBut (A.apartIn same chain f.blocks) t).length = (visitsBut (A.apartIn same chain f.blocks) t').length) :
    ∀ v, same v = true → d.state v = d'.state v := by
  rw [← C92_meaning h hb] at hr hr'
  simp only [runChain, Prod.mk.injEq] at hr hr'
  simp only [Access.uniform, Bool.and_eq_true, List.all_eq_true] at hu
  have := exec_ahead hA hL (apart := A.apartIn same chain f.blocks) chain false
    ⟨fun id hid => by
      obtain ⟨b, hbm, rfl⟩ := List.mem_map.mp (C81_needed h id hid)
      rw [Standard.blockOf_label (labels_distinct h) hbm]
      rfl, fun _ hx => hx, hu.1, hu.2⟩ (stays _ chain (shaped_can chain (C34_shape h))) n n' c c' ⟨fun _ => hl, hs⟩
  obtain ⟨rfl, rfl, -⟩ := hr
  obtain ⟨rfl, rfl, -⟩ := hr'
  refine this.agree ?_
  rcases this.comparable with hp | hp
  · exact hp.eq_of_length he
  · exact (hp.eq_of_length he.symm).symm

/-- C119: a block outside is visited equally often. -/
theorem C119_count {f : FunctionDefinition X} {fuel : Nat} {chain : ControlFlowChain} (h : findControlFlow fuel f = .ok chain)
    {first : BasicBlock X} {more : List (BasicBlock X)} (hb : f.blocks = first :: more) {A : Access X V}
    {M : Machine X (V → W)} (hA : A.Right M) {asks : GroupCode X → Bool} (hL : M.AsksLast asks) {same : V → Bool}
    (hu : A.uniform asks same chain f.blocks = true) {n n' : Nat} {c c' d d' : Config (V → W)} {t t' : List BlockId}
    (hl : c.last = c'.last) (hs : ∀ v, same v = true → c.state v = c'.state v)
    (hr : runMachine M f.blocks n ⟨labelId first⟩ c = (t, d, .returned))
    (hr' : runMachine M f.blocks n' ⟨labelId first⟩ c' = (t', d', .returned)) {id : BlockId}
    (hid : id.val ∉ A.apartIn same chain f.blocks) : t.count id = t'.count id := by
  have ht := (C119_uniform h hb hA hL hu hl hs hr hr').1
  have key : ∀ u : List BlockId, (visitsBut (A.apartIn same chain f.blocks) u).count id = u.count id := by
    intro u
    exact List.count_filter (by simpa using hid)
  rw [← key t, ← key t', ht]

mutual
theorem apart_none {varies : BlockId → Bool} (hv : ∀ id, varies id = false) : ∀ chain : ControlFlowChain,
    visitedApart varies chain = [] ∧ mayLeave varies chain = false ∧ mayPart varies chain = false
  | .Atom _ => by simp [visitedApart, mayLeave, mayPart]
  | .Block chains => by simpa [visitedApart, mayLeave, mayPart] using apart_none_all hv chains
  | .Selection id left right _ _ => by
    simp [visitedApart, mayLeave, mayPart, hv, apart_none hv left, apart_none hv right]
  | .Loop id inner _ _ => by simp [visitedApart, mayLeave, mayPart, apart_none hv inner]
  | .Break => by simp [visitedApart, mayLeave, mayPart]
  | .Continue => by simp [visitedApart, mayLeave, mayPart]
theorem apart_none_all {varies : BlockId → Bool} (hv : ∀ id, varies id = false) : ∀ chains : List ControlFlowChain,
    visitedApartAll varies chains = [] ∧ mayLeaveAny varies chains = false ∧ mayPartAny varies chains = false
  | [] => by simp [visitedApartAll, mayLeaveAny, mayPartAny]
  | chain :: chains => by simp [visitedApartAll, mayLeaveAny, mayPartAny, apart_none hv chain, apart_none_all hv chains]
end

/-- C119: if moreover no condition reads other variables, the executions visit the same blocks throughout. -/
theorem C119_lockstep {f : FunctionDefinition X} {fuel : Nat} {chain : ControlFlowChain} (h : findControlFlow fuel f = .ok chain)
    {first : BasicBlock X} {more : List (BasicBlock X)} (hb : f.blocks = first :: more) {A : Access X V}
    {M : Machine X (V → W)} (hA : A.Right M) {asks : GroupCode X → Bool} (hL : M.AsksLast asks) {same : V → Bool}
    (hu : A.uniform asks same chain f.blocks = true)
    (hc : ∀ b ∈ f.blocks, ∀ op, b.branch = .OpBranchConditional op → ∀ v ∈ A.tests op.condition, same v = true)
    {n n' : Nat} {c c' d d' : Config (V → W)} {t t' : List BlockId}
    (hl : c.last = c'.last) (hs : ∀ v, same v = true → c.state v = c'.state v)
    (hr : runMachine M f.blocks n ⟨labelId first⟩ c = (t, d, .returned))
    (hr' : runMachine M f.blocks n' ⟨labelId first⟩ c' = (t', d', .returned)) : t = t' := by
  have ht := (C119_uniform h hb hA hL hu hl hs hr hr').1
  have hv : ∀ id, A.varies same f.blocks id = false := by
    intro id
    unfold Access.varies
    split
    · rfl
    · next b hbo =>
      split
      · next op hop =>
        rw [List.any_eq_false]
        intro v hv
        simp [hc b (Standard.blockOf_mem hbo).1 op hop v hv]
      · rfl
  have he : A.apartIn same chain f.blocks = [] := (apart_none hv chain).1
  simpa [he, visitsBut] using ht

/-- C119: for the values of SPIR-V, whatever the instructions compute, as long as only `OpPhi` asks for the block from
which control came -/
theorem C119_values {f : FunctionDefinition Glsl.Inst} {fuel : Nat} {chain : ControlFlowChain}
    (h : findControlFlow fuel f = .ok chain) {first : BasicBlock Glsl.Inst} {more : List (BasicBlock Glsl.Inst)}
    (hb : f.blocks = first :: more) (D : Denotation W)
    (hD : ∀ i, (∀ op, i ≠ .OpPhi op) → ∀ last last', D.value last i = D.value last' i ∧ D.memory last i = D.memory last' i)
    {same : Option UInt32 → Bool} (hu : valueAccess.uniform asksLast same chain f.blocks = true)
    {n n' : Nat} {c c' d d' : Config (Option UInt32 → W)} {t t' : List BlockId}
    (hl : c.last = c'.last) (hs : ∀ v, same v = true → c.state v = c'.state v)
    (hr : runMachine D.machine f.blocks n ⟨labelId first⟩ c = (t, d, .returned))
    (hr' : runMachine D.machine f.blocks n' ⟨labelId first⟩ c' = (t', d', .returned)) :
    visitsBut (valueAccess.apartIn same chain f.blocks) t = visitsBut (valueAccess.apartIn same chain f.blocks) t' ∧
      ∀ v, same v = true → d.state v = d'.state v := by
  refine C119_uniform h hb (C115_right D) (asks := asksLast) ?_ hu hl hs hr hr'
  intro i hi last last' st
  have := hD i (fun op he => by rw [he] at hi; exact Bool.noConfusion hi) last last'
  funext v
  cases v with
  | none => simp only [Denotation.machine, this.2]
  | some id => simp only [Denotation.machine, this.1]

/-! ### Examples -/

/-- Some blocks as a function -/
def shader (blocks : List (BasicBlock Glsl.Inst)) : FunctionDefinition Glsl.Inst where
  function := ⟨⟨1⟩, ⟨99⟩, ⟨false, false, false, false⟩, ⟨98⟩⟩
  parameters := []
  blocks := blocks

/-- A loop that counts 5 down from 3 by 2; in each round, if 4 is true, block 13 is visited. -/
def roundsBlocks : List (BasicBlock Glsl.Inst) :=
  [{ label := ⟨⟨9⟩⟩, merge := none, branch := .OpBranch ⟨⟨10⟩⟩, code := [] },
   { label := ⟨⟨10⟩⟩, merge := some (.OpLoopMerge ⟨⟨20⟩, ⟨14⟩, LoopControl.default⟩), branch := .OpBranch ⟨⟨11⟩⟩,
     code := [.OpPhi ⟨⟨1⟩, ⟨5⟩, [⟨⟨3⟩, ⟨9⟩⟩, ⟨⟨8⟩, ⟨14⟩⟩]⟩] },
   { label := ⟨⟨11⟩⟩, merge := none, branch := .OpBranchConditional ⟨⟨5⟩, ⟨12⟩, ⟨20⟩, none⟩, code := [] },
   { label := ⟨⟨12⟩⟩, merge := some (.OpSelectionMerge ⟨⟨14⟩, SelectionControl.default⟩),
     branch := .OpBranchConditional ⟨⟨4⟩, ⟨13⟩, ⟨14⟩, none⟩, code := [] },
   { label := ⟨⟨13⟩⟩, merge := none, branch := .OpBranch ⟨⟨14⟩⟩, code := [.OpIAdd ⟨⟨1⟩, ⟨7⟩, ⟨4⟩, ⟨5⟩⟩] },
   { label := ⟨⟨14⟩⟩, merge := none, branch := .OpBranch ⟨⟨10⟩⟩, code := [.OpISub ⟨⟨1⟩, ⟨8⟩, ⟨5⟩, ⟨2⟩⟩] },
   { label := ⟨⟨20⟩⟩, merge := none, branch := .OpReturn {}, code := [] }]

def roundsChain : ControlFlowChain :=
  .Block [.Atom ⟨9⟩,
    .Loop ⟨10⟩ (.Selection ⟨11⟩ (.Block [.Selection ⟨12⟩ (.Block [.Atom ⟨13⟩]) (.Block []) SelectionControl.default none, .Atom ⟨14⟩])
      .Break SelectionControl.default none) LoopControl.default none, .Atom ⟨20⟩]

theorem rounds_found : findControlFlow 20 (shader roundsBlocks) = .ok roundsChain := by rfl

/-- What is the same for all invocations -/
def roundsSame : Option UInt32 → Bool
  | some id => [2, 3, 5, 8].contains id
  | none => false

theorem rounds_uniform : valueAccess.uniform asksLast roundsSame roundsChain (shader roundsBlocks).blocks = true := by decide
theorem rounds_apart : valueAccess.apartIn roundsSame roundsChain (shader roundsBlocks).blocks = [13] := by decide

/-- Numbers, with differences, sums, and `OpPhi` -/
def numbers : Denotation Nat where
  value last i args _ := match i with
    | .OpPhi op => ((op.variables.zip args).find? fun p => some p.1.parent.val == last).elim 0 (·.2)
    | .OpISub _ => args.headD 0 - args.tail.headD 0
    | _ => args.sum
  memory _ _ _ mem := mem
  truth n := n != 0

theorem numbers_plain : ∀ i, (∀ op, i ≠ .OpPhi op) → ∀ last last', numbers.value last i = numbers.value last' i ∧
    numbers.memory last i = numbers.memory last' i := by
  intro i hi last last'
  refine ⟨?_, rfl⟩
  cases i <;> first | rfl | exact absurd rfl (hi _)

/-- The start of an invocation: 2 is 1, 3 is 2, 4 is given -/
def started (four : Nat) : Config (Option UInt32 → Nat) := ⟨none, fun | some 2 => 1 | some 3 => 2 | some 4 => four | _ => 0⟩

/-- One invocation visits block 13, the other does not. -/
example : (runMachine numbers.machine roundsBlocks 40 ⟨9⟩ (started 0)).1.map (·.val) = [9, 10, 11, 12, 14, 10, 11, 12, 14, 10, 11, 20] ∧
    (runMachine numbers.machine roundsBlocks 40 ⟨9⟩ (started 1)).1.map (·.val) =
      [9, 10, 11, 12, 13, 14, 10, 11, 12, 13, 14, 10, 11, 20] := by decide +kernel
/-- Apart from that they agree. -/
example : visitsBut [13] (runMachine numbers.machine roundsBlocks 40 ⟨9⟩ (started 0)).1 =
    visitsBut [13] (runMachine numbers.machine roundsBlocks 50 ⟨9⟩ (started 1)).1 := by
  have := (C119_values rounds_found rfl numbers numbers_plain rounds_uniform (n := 40) (n' := 50) (c := started 0)
    (c' := started 1) (d := (runMachine numbers.machine roundsBlocks 40 ⟨9⟩ (started 0)).2.1)
    (d' := (runMachine numbers.machine roundsBlocks 50 ⟨9⟩ (started 1)).2.1)
    (t := (runMachine numbers.machine roundsBlocks 40 ⟨9⟩ (started 0)).1)
    (t' := (runMachine numbers.machine roundsBlocks 50 ⟨9⟩ (started 1)).1) rfl ?_ rfl rfl).1
  · rwa [rounds_apart] at this
  · intro v hv
    unfold roundsSame at hv
    split at hv
    · next id =>
      simp only [List.contains_eq_mem, List.mem_cons, List.not_mem_nil, or_false, decide_eq_true_eq] at hv
      rcases hv with rfl | rfl | rfl | rfl <;> rfl
    · cases hv

/-- One that stops after seven visits is behind. -/
example : visitsBut [13] (runMachine numbers.machine roundsBlocks 7 ⟨9⟩ (started 1)).1 <+:
    visitsBut [13] (runMachine numbers.machine roundsBlocks 40 ⟨9⟩ (started 0)).1 := by decide +kernel

/-- After seven visits the one has come as far as the other after eight, and the loop counter is 1. -/
example : (visitsBut [13] (runMachine numbers.machine roundsBlocks 7 ⟨9⟩ (started 0)).1).length =
      (visitsBut [13] (runMachine numbers.machine roundsBlocks 8 ⟨9⟩ (started 1)).1).length ∧
    (runMachine numbers.machine roundsBlocks 7 ⟨9⟩ (started 0)).2.1.state (some 5) = 1 ∧
    (runMachine numbers.machine roundsBlocks 8 ⟨9⟩ (started 1)).2.1.state (some 5) = 1 := by decide +kernel

/-- If the loop is left by the condition that differs, all of it is visited apart. -/
example : visitedApart (· == ⟨11⟩) roundsChain = [10, 11, 12, 13, 14] := by decide
/-- A continue in a selection whose condition differs makes nobody leave the loop. -/
example : visitedApart (· == ⟨12⟩) (.Loop ⟨10⟩ (.Selection ⟨11⟩
    (.Selection ⟨12⟩ (.Atom ⟨13⟩) .Continue SelectionControl.default none) .Break SelectionControl.default none)
      LoopControl.default none) = [13] := by decide

/-- A selection by 4, and an `OpPhi` where its branches join -/
def joinBlocks : List (BasicBlock Glsl.Inst) :=
  [{ label := ⟨⟨10⟩⟩, merge := some (.OpSelectionMerge ⟨⟨13⟩, SelectionControl.default⟩),
     branch := .OpBranchConditional ⟨⟨4⟩, ⟨11⟩, ⟨12⟩, none⟩, code := [] },
   { label := ⟨⟨11⟩⟩, merge := none, branch := .OpBranch ⟨⟨13⟩⟩, code := [] },
   { label := ⟨⟨12⟩⟩, merge := none, branch := .OpBranch ⟨⟨13⟩⟩, code := [] },
   { label := ⟨⟨13⟩⟩, merge := none, branch := .OpReturn {}, code := [.OpPhi ⟨⟨1⟩, ⟨5⟩, [⟨⟨2⟩, ⟨11⟩⟩, ⟨⟨3⟩, ⟨12⟩⟩]⟩] }]

/-- C119: the check must look at where control comes from: there is a function where 5 is computed by an `OpPhi` from values
that all invocations share, in a block all visit, and still differs. The check sees this; without asking where control
came from it would not. -/
theorem C119_phi : ∃ (chain : ControlFlowChain) (same : Option UInt32 → Bool) (c c' : Config (Option UInt32 → Nat)),
    findControlFlow 9 (shader joinBlocks) = .ok chain ∧ c.last = c'.last ∧ (∀ v, same v = true → c.state v = c'.state v) ∧
    valueAccess.uniform asksLast same chain joinBlocks = false ∧
    valueAccess.uniform (fun _ => false) same chain joinBlocks = true ∧ same (some 5) = true ∧
    (runMachine numbers.machine joinBlocks 9 ⟨10⟩ c).2.2 = .returned ∧
    (runMachine numbers.machine joinBlocks 9 ⟨10⟩ c').2.2 = .returned ∧
    (runMachine numbers.machine joinBlocks 9 ⟨10⟩ c).2.1.state (some 5) ≠
      (runMachine numbers.machine joinBlocks 9 ⟨10⟩ c').2.1.state (some 5) := by
  refine ⟨_, fun | some id => [2, 3, 5].contains id | none => false, started 0, started 1, rfl, rfl, ?_, by decide, by decide, rfl,
    rfl, rfl, by decide⟩
  intro v hv
  cases v with
  | none => cases hv
  | some id =>
    simp only [List.contains_eq_mem, List.mem_cons, List.not_mem_nil, or_false, decide_eq_true_eq] at hv
    rcases hv with rfl | rfl | rfl <;> rfl

end Magma.Props
