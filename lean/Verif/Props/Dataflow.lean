import Verif.Proofs.Dataflow
import Verif.Proofs.Live
import Verif.Props.Odds
/-! C112: data flow analysis of the basic blocks is read off the recovered control flow. -/

namespace Magma.Props
open Spec
variable {L X : Type}

/-! ### C112 -/

section
variable [CompleteLattice L] {f : FunctionDefinition X} {fuel : Nat} {chain : ControlFlowChain}
  (h : findControlFlow fuel f = .ok chain) {first : BasicBlock X} {more : List (BasicBlock X)}
  (hb : f.blocks = first :: more)
include h hb

/-- C112: the analysis of the recovered control flow is right: on whatever way control comes to a block, what is known on
that way is covered, also when the function returns. -/
theorem C112_safe {T : Transfer L} (hT : T.Monotone) {start v : L} {b : BlockId}
    (hv : Arrives f.blocks T ⟨labelId first⟩ start b v) :
    v ≤ flowAt T b chain start ∧ (Returns f.blocks b → T.block b v ≤ flow T chain .next start) := by
  obtain ⟨s, first', more', hb', -, hs, he, -, rfl⟩ := C30_accepted_iff.mp ⟨fuel, h⟩
  cases hb.symm.trans hb'
  obtain ⟨n, hw⟩ := Dataflow.Way.of_arrives hv
  rw [Dataflow.flowAt_toChain, Dataflow.flow_toChain]
  constructor
  · rcases Dataflow.safe hT s none none hs n _ _ _ _ _ he (le_refl _) hw with ⟨c, hc, hle⟩ | ⟨hn, -⟩ | ⟨_, _, hl, -⟩ | ⟨_, _, hl, -⟩
    · cases hc
      exact hle
    · cases hn
    · cases hl
    · cases hl
  · intro hr
    rcases Dataflow.safe hT s none none hs _ _ _ _ _ _ he (le_refl _) (hw.trans_ret hr) with
      ⟨c, hc, -⟩ | ⟨-, hle⟩ | ⟨_, _, hl, -⟩ | ⟨_, _, hl, -⟩
    · cases hc
    · exact hle
    · cases hl
    · cases hl

/-- C112: it is at least as good as any solution of the data flow equations of the basic blocks. -/
theorem C112_tight {T : Transfer L} (hT : T.Monotone) {start : L} {F : BlockId → L}
    (hF : Solves f.blocks T ⟨labelId first⟩ start F) :
    (∀ b, flowAt T b chain start ≤ F b) ∧
      ∀ R, (∀ id, Returns f.blocks id → T.block id (F id) ≤ R) → flow T chain .next start ≤ R := by
  obtain ⟨s, first', more', hb', -, hs, he, -, rfl⟩ := C30_accepted_iff.mp ⟨fuel, h⟩
  cases hb.symm.trans hb'
  constructor
  · intro b
    rw [Dataflow.flowAt_toChain]
    exact (Dataflow.tight hT hF (R := ⊤) (fun _ _ => le_top) s none none hs _ _ he hF.here).1 b
  · intro R hR
    rw [Dataflow.flow_toChain]
    exact (Dataflow.tight hT hF hR s none none hs _ _ he hF.here).2.1

/-- C112: if nothing is lost where ways come together, it is exactly what is known on some way. -/
theorem C112_exact {T : Transfer L} (hT : T.Distributive) (start : L) :
    (∀ b, flowAt T b chain start = sSup {v | Arrives f.blocks T ⟨labelId first⟩ start b v}) ∧
      flow T chain .next start =
        sSup {w | ∃ id v, Returns f.blocks id ∧ Arrives f.blocks T ⟨labelId first⟩ start id v ∧ w = T.block id v} := by
  have hM : T.Monotone := by
    constructor
    · intro id x y hxy
      have := hT.block id {x, y}
      rw [sSup_pair, sup_eq_right.mpr hxy, Set.image_pair, sSup_pair] at this
      exact this ▸ le_sup_left
    · intro id d x y hxy
      have := hT.decide id d {x, y}
      rw [sSup_pair, sup_eq_right.mpr hxy, Set.image_pair, sSup_pair] at this
      exact this ▸ le_sup_left
  have hF : Solves f.blocks T ⟨labelId first⟩ start
      (fun b => sSup {v | Arrives f.blocks T ⟨labelId first⟩ start b v}) := by
    refine ⟨le_sSup .here, fun hb ho => ?_, fun d hb ho => ?_⟩
    · rw [hT.block]
      refine sSup_le ?_
      rintro _ ⟨v, hv, rfl⟩
      exact le_sSup (.goto hv hb ho)
    · rw [hT.block, hT.decide]
      refine sSup_le ?_
      rintro _ ⟨_, ⟨v, hv, rfl⟩, rfl⟩
      exact le_sSup (.choose d hv hb ho)
  obtain ⟨h1, h2⟩ := C112_tight h hb hM hF
  refine ⟨fun b => le_antisymm (h1 b) (sSup_le fun v hv => (C112_safe h hb hM hv).1), le_antisymm (h2 _ ?_) (sSup_le ?_)⟩
  · intro id hr
    rw [hT.block]
    refine sSup_le ?_
    rintro _ ⟨v, hv, rfl⟩
    exact le_sSup ⟨id, v, hr, hv, rfl⟩
  · rintro _ ⟨id, v, hr, hv, rfl⟩
    exact (C112_safe h hb hM hv).2 hr

/-- C112: if the recovered control flow mentions no block twice and nothing comes from a block that is not come to, it is the
least solution of the data flow equations of the basic blocks. -/
theorem C112_least (hd : (chainIds chain).Nodup) {T : Transfer L} (hT : T.Monotone) (hz : ∀ id, T.block id ⊥ = ⊥)
    (hz' : ∀ id d, T.decide id d ⊥ = ⊥) (start : L) :
    IsLeast {F | Solves f.blocks T ⟨labelId first⟩ start F} fun b => flowAt T b chain start := by
  refine ⟨?_, fun F hF b => (C112_tight h hb hT hF).1 b⟩
  obtain ⟨s, first', more', hb', -, hs, he, -, rfl⟩ := C30_accepted_iff.mp ⟨fuel, h⟩
  cases hb.symm.trans hb'
  rw [(Program.chainIds_toChain s).1] at hd
  have hd := List.Nodup.of_map _ hd
  obtain ⟨h1, h2⟩ := Dataflow.solves hT s none none hs hd _ start (fun b => flowAt T b s.toChain start) he
    (fun b => (Dataflow.flowAt_toChain T b s start).ge) (fun _ h => by cases h) (fun _ _ h => by cases h)
  have h3 : ∀ {id φ t}, φ ⊥ = ⊥ → Dataflow.Edge f.blocks T id φ t → φ (flowAt T id s.toChain start) ≤ flowAt T t s.toChain start := by
    intro id φ t hφ hed
    rw [Dataflow.flowAt_toChain T id]
    by_cases hid : id ∈ s.ids
    · exact h2 id hid φ t hed
    · rw [Dataflow.flowAtAll_out T s id _ hid, hφ]
      exact bot_le
  refine ⟨h1, fun hb ho => h3 (hz _) (.goto hb ho), fun d hb ho => h3 ?_ (.choose d hb ho)⟩
  rw [hz, hz']

end

/-! ### States -/

/-- C112: so the states in which control comes to a block are read off the recovered control flow, whatever the blocks and
the conditions do with states: those at the head of a loop are the least set that has the states before the loop and
the states after a round. -/
theorem C112_states {σ : Type} (M : Rules σ) {f : FunctionDefinition X} {fuel : Nat} {chain : ControlFlowChain}
    (h : findControlFlow fuel f = .ok chain) {first : BasicBlock X} {more : List (BasicBlock X)}
    (hb : f.blocks = first :: more) (start : Set σ) (b : BlockId) (st : σ) :
    Comes f.blocks M ⟨labelId first⟩ start b st ↔ st ∈ flowAt M.collect b chain start := by
  rw [(C112_exact h hb (Dataflow.collect_distributive M) start).1 b]
  exact Dataflow.comes_iff M f.blocks ⟨labelId first⟩ start b st

/-! ### Examples -/

/-- A selection -/
def forkJoin : FunctionDefinition Empty :=
  functionOf [emptyBlock 1 (some (.OpSelectionMerge ⟨⟨9⟩, ⟨false, false⟩⟩)) (.OpBranchConditional ⟨⟨20⟩, ⟨5⟩, ⟨6⟩, none⟩),
    emptyBlock 5 none (.OpBranch ⟨⟨9⟩⟩), emptyBlock 6 none (.OpBranch ⟨⟨9⟩⟩), emptyBlock 9 none (.OpBranch ⟨⟨10⟩⟩),
    emptyBlock 10 none (.OpReturn {})]

/-- What is found for it -/
def forkJoinChain : ControlFlowChain :=
  .Block [.Selection ⟨1⟩ (.Block [.Atom ⟨5⟩]) (.Block [.Atom ⟨6⟩]) ⟨false, false⟩ none, .Atom ⟨9⟩, .Atom ⟨10⟩]

theorem forkJoin_found : findControlFlow 40 forkJoin = .ok forkJoinChain := by rfl

/-- Blocks 5 and 6 give a number each, and block 9 makes everything of both together. -/
def together : Transfer (Set Nat) where
  block id x := {n | id = ⟨5⟩ ∧ n = 1 ∨ id = ⟨6⟩ ∧ n = 2 ∨ id = ⟨9⟩ ∧ 1 ∈ x ∧ 2 ∈ x}
  decide _ _ x := x

theorem together_monotone : together.Monotone := by
  constructor
  · rintro id x y hxy n (h | h | ⟨h, h1, h2⟩)
    · exact .inl h
    · exact .inr (.inl h)
    · exact .inr (.inr ⟨h, hxy h1, hxy h2⟩)
  · exact fun _ _ _ _ h => h

/-- C112: where something is lost when ways come together, what is known on every way need not be all that is covered. -/
theorem C112_gap : ∃ (T : Transfer (Set Nat)) (chain : ControlFlowChain), T.Monotone ∧
    findControlFlow 40 forkJoin = .ok chain ∧ (chainIds chain).Nodup ∧ 7 ∈ flowAt T ⟨10⟩ chain ∅ ∧
    ∀ v, Arrives forkJoin.blocks T ⟨1⟩ ∅ ⟨10⟩ v → 7 ∉ v := by
  refine ⟨together, forkJoinChain, together_monotone, forkJoin_found, by decide, ?_, ?_⟩
  · simp [forkJoinChain, flowAt, flowAtAll, flow, flowAll, together]
  · have inv : ∀ b v, Arrives forkJoin.blocks together ⟨1⟩ ∅ b v →
        (b = ⟨1⟩ ∨ b = ⟨5⟩ ∨ b = ⟨6⟩) ∨ (b = ⟨9⟩ ∧ ¬ (1 ∈ v ∧ 2 ∈ v)) ∨ (b = ⟨10⟩ ∧ 7 ∉ v) := by
      intro b v hv
      induction hv with
      | here => exact .inl (.inl rfl)
      | goto _ hb ho ih =>
        rcases ih with (rfl | rfl | rfl) | ⟨rfl, hn⟩ | ⟨rfl, hn⟩ <;> cases hb <;> cases ho
        · exact .inr (.inl ⟨rfl, by simp [together]⟩)
        · exact .inr (.inl ⟨rfl, by simp [together]⟩)
        · refine .inr (.inr ⟨rfl, ?_⟩)
          rintro (h | h | h)
          · cases h.2
          · cases h.2
          · exact hn h.2
      | choose d _ hb ho ih =>
        rcases ih with (rfl | rfl | rfl) | ⟨rfl, hn⟩ | ⟨rfl, hn⟩ <;> cases hb <;> cases ho
        cases d
        · exact .inl (.inr (.inr rfl))
        · exact .inl (.inr (.inl rfl))
    intro v hv
    rcases inv _ _ hv with (h | h | h) | ⟨h, -⟩ | ⟨-, h⟩
    · cases h
    · cases h
    · cases h
    · cases h
    · exact h

/-- A selection with the same block on both sides -/
def sameArms : FunctionDefinition Empty :=
  functionOf [emptyBlock 1 (some (.OpSelectionMerge ⟨⟨9⟩, ⟨false, false⟩⟩)) (.OpBranchConditional ⟨⟨20⟩, ⟨5⟩, ⟨5⟩, none⟩),
    emptyBlock 5 none (.OpBranch ⟨⟨9⟩⟩), emptyBlock 9 none (.OpReturn {})]

/-- What is found for it -/
def sameArmsChain : ControlFlowChain :=
  .Block [.Selection ⟨1⟩ (.Block [.Atom ⟨5⟩]) (.Block [.Atom ⟨5⟩]) ⟨false, false⟩ none, .Atom ⟨9⟩]

theorem sameArms_found : findControlFlow 40 sameArms = .ok sameArmsChain := by rfl

/-- The condition gives a number each, and block 5 makes everything of both together. -/
def decided : Transfer (Set Nat) where
  block id x := {_n | id = ⟨1⟩ ∧ x ≠ ∅ ∨ id = ⟨5⟩ ∧ 1 ∈ x ∧ 2 ∈ x}
  decide _ d x := {n | x ≠ ∅ ∧ n = if d then 1 else 2}

/-- C112: if the chain mentions a block twice, the analysis of the chain can be better than every solution of the equations,
which have only one set for the block. -/
theorem C112_twice : ∃ (T : Transfer (Set Nat)) (chain : ControlFlowChain), T.Monotone ∧ (∀ id, T.block id ∅ = ∅) ∧
    (∀ id d, T.decide id d ∅ = ∅) ∧ findControlFlow 40 sameArms = .ok chain ∧
    flowAt T ⟨9⟩ chain Set.univ = ∅ ∧ ∀ F, Solves sameArms.blocks T ⟨1⟩ Set.univ F → F ⟨9⟩ = Set.univ := by
  have ne : ∀ {x y : Set Nat}, x ⊆ y → x ≠ ∅ → y ≠ ∅ := fun hxy hx hy => hx (Set.subset_empty_iff.mp (hy ▸ hxy))
  refine ⟨decided, sameArmsChain, ⟨?_, ?_⟩, ?_, ?_, sameArms_found, ?_, ?_⟩
  · rintro id x y hxy n (⟨h, hx⟩ | ⟨h, h1, h2⟩)
    · exact .inl ⟨h, ne hxy hx⟩
    · exact .inr ⟨h, hxy h1, hxy h2⟩
  · rintro id d x y hxy n ⟨hx, hn⟩
    exact ⟨ne hxy hx, hn⟩
  · intro id
    simp [decided]
  · intro id d
    simp [decided]
  · simp [sameArmsChain, flowAt, flowAtAll, flow, flowAll, decided]
  · intro F hF
    have h1 : F ⟨1⟩ ≠ ∅ := ne (x := Set.univ) hF.here (by simp)
    have hne : decided.block ⟨1⟩ (F ⟨1⟩) ≠ ∅ := fun e => by
      have : (0 : Nat) ∈ decided.block ⟨1⟩ (F ⟨1⟩) := .inl ⟨rfl, h1⟩
      rw [e] at this
      exact this
    have h5 : 1 ∈ F ⟨5⟩ := hF.choose (id := ⟨1⟩) true rfl rfl ⟨hne, rfl⟩
    have h5' : 2 ∈ F ⟨5⟩ := hF.choose (id := ⟨1⟩) false rfl rfl ⟨hne, rfl⟩
    refine Set.eq_univ_of_forall fun n => ?_
    exact hF.goto (id := ⟨5⟩) rfl rfl (.inr ⟨rfl, h5, h5'⟩)

/-- A loop that counts: block 1 is its head, block 2 leaves it, block 3 counts. -/
def counter : FunctionDefinition Empty :=
  functionOf [emptyBlock 1 (some (.OpLoopMerge ⟨⟨9⟩, ⟨3⟩, ⟨false, false, false, none⟩⟩)) (.OpBranch ⟨⟨2⟩⟩),
    emptyBlock 2 none (.OpBranchConditional ⟨⟨20⟩, ⟨3⟩, ⟨9⟩, none⟩), emptyBlock 3 none (.OpBranch ⟨⟨1⟩⟩),
    emptyBlock 9 none (.OpReturn {})]

/-- What is found for it -/
def counterChain : ControlFlowChain :=
  .Block [.Loop ⟨1⟩ (.Selection ⟨2⟩ (.Block [.Atom ⟨3⟩]) .Break ⟨false, false⟩ none) ⟨false, false, false, none⟩ none,
    .Atom ⟨9⟩]

theorem counter_found : findControlFlow 40 counter = .ok counterChain := by rfl

/-- It counts to ten. -/
def toTen : Rules Nat where
  run id n n' := n' = if id = ⟨3⟩ then n + 1 else n
  holds id d n := id = ⟨2⟩ ∧ (d = true ↔ n < 10)

/-- Control comes to the last block with ten only: what is known at the head of the loop has to cover what comes to it. -/
example : flowAt toTen.collect ⟨9⟩ counterChain {0} = {10} := by
  have key : ∀ n, (∀ t : Set Nat, insert 0 {st' | ∃ st, (st ∈ t ∧ st < 10) ∧ st' = st + 1} ⊆ t → n ∈ t) ↔ n ≤ 10 := by
    intro n
    constructor
    · intro h
      refine h {n | n ≤ 10} ?_
      rintro m (rfl | ⟨m, ⟨-, hlt⟩, rfl⟩)
      · exact Nat.zero_le _
      · exact hlt
    · intro hn t ht
      induction n with
      | zero => exact ht (.inl rfl)
      | succ n ih => exact ht (.inr ⟨n, ⟨ih (Nat.le_of_succ_le hn), hn⟩, rfl⟩)
  simp [counterChain, flowAt, flowAtAll, flow, flowAll, toTen, Rules.collect, key]
  ext n
  constructor
  · rintro ⟨h1, h2, h3⟩
    exact Nat.le_antisymm h1 h3
  · rintro rfl
    simp
/-- Control does come there with ten. -/
example : Comes counter.blocks toTen ⟨1⟩ {0} ⟨9⟩ 10 := by
  have up : ∀ n, n ≤ 10 → Comes counter.blocks toTen ⟨1⟩ {0} ⟨1⟩ n := by
    intro n
    induction n with
    | zero => exact fun _ => .here rfl
    | succ n ih =>
      intro hn
      have h2 : Comes counter.blocks toTen ⟨1⟩ {0} ⟨2⟩ n := .goto (ih (Nat.le_of_succ_le hn)) rfl rfl rfl
      have h3 : Comes counter.blocks toTen ⟨1⟩ {0} ⟨3⟩ n := .choose true h2 rfl ⟨rfl, by simpa using hn⟩ rfl rfl
      exact .goto h3 rfl rfl rfl
  have h2 : Comes counter.blocks toTen ⟨1⟩ {0} ⟨2⟩ 10 := .goto (up 10 (le_refl _)) rfl rfl rfl
  exact .choose false h2 rfl ⟨rfl, by simp⟩ rfl rfl
/-- Sets of states meet what `C112_least` asks for. -/
example (M : Rules Nat) (start : Set Nat) :
    IsLeast {F | Solves counter.blocks M.collect ⟨1⟩ start F} fun b => flowAt M.collect b counterChain start := by
  have hM : M.collect.Monotone := by
    constructor
    · rintro id x y h st ⟨st', hs, hr⟩
      exact ⟨st', h hs, hr⟩
    · rintro id d x y h st ⟨hs, hr⟩
      exact ⟨h hs, hr⟩
  exact C112_least counter_found rfl (by decide) hM (fun _ => by simp [Rules.collect])
    (fun _ _ => by simp [Rules.collect]) start

end Magma.Props
