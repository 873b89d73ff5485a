import Verif.Proofs.Simulation
import Verif.Proofs.Depth
import Verif.Props.Samples
/-! C27 to C35: control flow recovery. -/

namespace Magma.Props
open Spec
variable {X : Type}

/-! ### A function for the examples

A selection whose else branch contains a loop with a break and a continue. -/

/-- A block without code -/
def emptyBlock (id : UInt32) (merge : Option GroupMerge) (branch : GroupBranch) : BasicBlock Empty :=
  { label := ⟨⟨id⟩⟩, code := [], merge := merge, branch := branch }

/-- A function with the given blocks -/
def functionOf (blocks : List (BasicBlock Empty)) : FunctionDefinition Empty :=
  { function := ⟨⟨2⟩, ⟨12⟩, ⟨false, false, false, false⟩, ⟨3⟩⟩, parameters := [], blocks := blocks }

def sampleBlocks : List (BasicBlock Empty) :=
  [ emptyBlock 10 (some (.OpSelectionMerge ⟨⟨19⟩, ⟨true, false⟩⟩)) (.OpBranchConditional ⟨⟨5⟩, ⟨11⟩, ⟨12⟩, some ⟨3, 4⟩⟩),
    emptyBlock 11 none (.OpBranch ⟨⟨19⟩⟩),
    emptyBlock 12 (some (.OpLoopMerge ⟨⟨16⟩, ⟨15⟩, ⟨true, false, false, none⟩⟩)) (.OpBranch ⟨⟨13⟩⟩),
    emptyBlock 13 none (.OpBranchConditional ⟨⟨6⟩, ⟨14⟩, ⟨16⟩, none⟩),
    emptyBlock 14 none (.OpBranchConditional ⟨⟨7⟩, ⟨15⟩, ⟨12⟩, none⟩),
    emptyBlock 15 none (.OpBranch ⟨⟨12⟩⟩),
    emptyBlock 16 none (.OpBranch ⟨⟨19⟩⟩),
    emptyBlock 19 none (.OpReturn {}) ]

def sampleProgram : Program :=
  .sel ⟨10⟩ (.atom ⟨11⟩ .done)
    (.loop ⟨12⟩ (.exit ⟨13⟩ true none (.exit ⟨14⟩ false none (.atom ⟨15⟩ .done))) ⟨true, false, false, none⟩
      (.atom ⟨16⟩ .done))
    ⟨true, false⟩ (some ⟨3, 4⟩) (.ret ⟨19⟩)

def sampleChain : ControlFlowChain :=
  .Block [.Selection ⟨10⟩ (.Block [.Atom ⟨11⟩])
    (.Block [.Loop ⟨12⟩ (.Selection ⟨13⟩ (.Selection ⟨14⟩ (.Block [.Atom ⟨15⟩]) .Continue ⟨false, false⟩ none)
        .Break ⟨false, false⟩ none) ⟨true, false, false, none⟩ none,
      .Atom ⟨16⟩]) ⟨true, false⟩ (some ⟨3, 4⟩),
    .Atom ⟨19⟩]

theorem sample_found : findControlFlow 9 (functionOf sampleBlocks) = .ok sampleChain := by rfl

/-! ### C27 -/

/-- C27: for every sequence of decisions, executing the recovered chain visits the same blocks with the
same outcome as executing the blocks of the function from its first block. -/
theorem C27_executions {f : FunctionDefinition X} {fuel : Nat} {chain : ControlFlowChain}
    (h : findControlFlow fuel f = .ok chain) :
    ∃ first more, f.blocks = first :: more ∧
      ∀ ds : List Bool, runProgram chain ds = runBlocks f.blocks ds ⟨labelId first⟩ := by
  obtain ⟨first, more, hb, -, hf⟩ := find_ok h
  refine ⟨first, more, hb, fun ds => ?_⟩
  obtain ⟨-, hs⟩ := sim (fun _ => rfl) hf ds
  simp only [runProgram]
  cases hsig : (exec chain ds).signal with
  | running => simp only [hsig] at hs ⊢; rw [hs]
  | next => simp only [hsig] at hs ⊢; rw [hs]
  | breaks =>
    simp only [hsig] at hs
    obtain ⟨_, _, hi, -⟩ := hs
    cases hi
  | continues =>
    simp only [hsig] at hs
    obtain ⟨_, _, hi, -⟩ := hs
    cases hi

/-- C27: in particular no execution of an accepted function goes to a block that does not exist. -/
theorem C27_never_stuck {f : FunctionDefinition X} {fuel : Nat} {chain : ControlFlowChain}
    (h : findControlFlow fuel f = .ok chain) :
    ∃ first more, f.blocks = first :: more ∧
      ∀ ds : List Bool, (runBlocks f.blocks ds ⟨labelId first⟩).2 ≠ .stuck := by
  obtain ⟨first, more, hb, -, hf⟩ := find_ok h
  refine ⟨first, more, hb, fun ds => ?_⟩
  obtain ⟨-, hs⟩ := sim (fun _ => rfl) hf ds
  cases hsig : (exec chain ds).signal with
  | running => simp only [hsig] at hs; rw [hs]; exact Outcome.noConfusion
  | next => simp only [hsig] at hs; rw [hs]; exact Outcome.noConfusion
  | breaks =>
    simp only [hsig] at hs
    obtain ⟨_, _, hi, -⟩ := hs
    cases hi
  | continues =>
    simp only [hsig] at hs
    obtain ⟨_, _, hi, -⟩ := hs
    cases hi

example : findControlFlow 9 (functionOf sampleBlocks) = .ok sampleChain := sample_found
example : runBlocks sampleBlocks [false, true, true, false, true, false, true, true] ⟨10⟩ =
    ([⟨10⟩, ⟨12⟩, ⟨13⟩, ⟨14⟩, ⟨12⟩, ⟨13⟩, ⟨16⟩, ⟨19⟩], .returned) := by rfl
example : runProgram sampleChain [false, true, true, false, true, false, true, true] =
    ([⟨10⟩, ⟨12⟩, ⟨13⟩, ⟨14⟩, ⟨12⟩, ⟨13⟩, ⟨16⟩, ⟨19⟩], .returned) := by rfl

/-! ### C28 -/

/-- A block that branches to itself without a loop merge -/
def selfLoop : FunctionDefinition Empty := functionOf [emptyBlock 10 none (.OpBranch ⟨⟨10⟩⟩)]

/-- C28 is false of the code: the search for this function does not end, whatever the depth of
recursion. -/
theorem C28_violated (fuel : Nat) : findControlFlow fuel selfLoop = .error .diverge := by
  have key : ∀ fuel, searchBlock [(⟨10⟩, emptyBlock 10 none (.OpBranch ⟨⟨10⟩⟩))] fuel ⟨10⟩ [] = .error .diverge := by
    intro fuel
    induction fuel with
    | zero => rfl
    | succ fuel ih =>
      rw [searchBlock_succ, searchStep_eq]
      show (searchBlock _ fuel ⟨10⟩ [] >>= _) = _
      rw [ih]
      rfl
  show (searchBlock [(⟨10⟩, emptyBlock 10 none (.OpBranch ⟨⟨10⟩⟩))] fuel ⟨10⟩ [] >>= _) = _
  rw [key]
  rfl

/-- C28, for functions that are properly nested: the search ends, and the depth of its recursion is at
most the rank of the first block plus two. The full claim, for every function, is false
(`C28_violated`). -/
theorem C28_nested_partial {f : FunctionDefinition X} {rank : UInt32 → Nat} {scope : UInt32 → List UInt32}
    (hp : ProperlyNested f.blocks rank scope) {first : BasicBlock X} {more : List (BasicBlock X)}
    (hb : f.blocks = first :: more) (hs : scope (labelId first) = []) :
    ∃ r, r ≠ .error .diverge ∧
      ∀ fuel, rank (labelId first) + 2 ≤ fuel → findControlFlow fuel f = r := by
  have hd : ¬ Diverges (findControlFlow (rank (labelId first) + 2) f) := by
    intro h
    rcases find_error h with h | ⟨-, ⟨-, h⟩ | ⟨first', more', map, hb', hg, h⟩⟩
    · obtain ⟨_, _, _, _, he, _⟩ := build_error h
      cases he
    · cases h
    · rw [hb] at hb'
      cases hb'
      exact endStep_total hg hp _ ⟨labelId first⟩ [] (by simp only; omega) (by rw [hs]; simp) h
  exact ⟨_, hd, fun fuel hf => findControlFlow_mono hf hd⟩

/-- The nesting of the example: the ranks count down, the loop is inside the selection. -/
theorem sample_nested : ProperlyNested sampleBlocks (fun id => 30 - id.toNat)
    (fun id => if id = 13 ∨ id = 14 ∨ id = 15 then [12, 19]
      else if id = 11 ∨ id = 12 ∨ id = 16 then [19] else []) := by
  constructor <;> intro b hb <;>
    simp only [sampleBlocks, List.mem_cons, List.not_mem_nil, or_false] at hb <;>
    rcases hb with rfl | rfl | rfl | rfl | rfl | rfl | rfl | rfl <;> intros <;>
    rename_i h <;> cases h <;> simp [Forward, labelId, emptyBlock]

example : sampleBlocks.head?.map labelId = some 10 ∧
    (fun id : UInt32 => if id = 13 ∨ id = 14 ∨ id = 15 then [12, 19]
      else if id = 11 ∨ id = 12 ∨ id = 16 then [19] else ([] : List UInt32)) 10 = [] := ⟨rfl, by decide⟩

/-- The depth of recursion within which the search ends if it ends at all -/
def depthBound (f : FunctionDefinition X) : Nat := f.blocks.length * (constructs f.blocks + 1) + 1

theorem find_deep {f : FunctionDefinition X} {fuel : Nat} (hf : depthBound f ≤ fuel)
    (h : findControlFlow fuel f = .error .diverge) :
    (∀ j, findControlFlow j f = .error .diverge) ∧ ∃ v, Relation.TransGen (Leads f.blocks) v v := by
  have hmono : ∀ j, (∀ k, fuel ≤ k → findControlFlow k f = .error .diverge) →
      findControlFlow j f = .error .diverge := by
    intro j hk
    by_cases hj : findControlFlow j f = .error .diverge
    · exact hj
    · have := findControlFlow_mono (Nat.le_max_right fuel j) hj
      rw [hk _ (Nat.le_max_left _ _)] at this
      exact this.symm
  rcases find_error h with h | ⟨hnd, ⟨-, h⟩ | ⟨first, more, map, hb, hg, h⟩⟩
  · obtain ⟨_, _, _, _, he, _⟩ := build_error h
    cases he
  · cases h
  · obtain ⟨hall, hc⟩ := search_deep_start hg hf h
    refine ⟨fun j => hmono j fun k _ => ?_, hc⟩
    obtain ⟨m, hm, hmg⟩ := build_iff _ hnd
    rw [findControlFlow, hm, cok_bind]
    simp only [hb]
    have hs : searchBlock m k ⟨labelId first⟩ [] = searchBlock map k ⟨labelId first⟩ [] :=
      searchBlock_congr (fun _ => True) (fun id _ => by rw [hmg, hg]) (fun _ _ _ _ _ _ => trivial) k _ _ trivial
    simp only [labelId] at hs
    rw [hs, show searchBlock map k ⟨first.label.result_id.val⟩ [] = _ from hall k]
    rfl

/-- C28: for every function the outcome is settled at a depth of recursion that is computed from the
number of blocks and constructs: the search either ends within that depth, or never. -/
theorem C28_depth (f : FunctionDefinition X) (fuel : Nat)
    (hf : f.blocks.length * (constructs f.blocks + 1) + 1 ≤ fuel) :
    findControlFlow fuel f = findControlFlow (f.blocks.length * (constructs f.blocks + 1) + 1) f := by
  by_cases h : findControlFlow (depthBound f) f = .error .diverge
  · rw [show findControlFlow (f.blocks.length * (constructs f.blocks + 1) + 1) f = _ from h]
    exact (find_deep (Nat.le_refl _) h).1 fuel
  · exact findControlFlow_mono hf h

/-- C28, for functions in which every cycle of blocks enters a loop through its header, or is made by
a break or continue: the search ends, at a depth computed from the number of blocks and constructs.
The full claim, for every function, is false (`C28_violated`). -/
theorem C28_cycles_partial (f : FunctionDefinition X)
    (hc : ∀ v, ¬ Relation.TransGen (Leads f.blocks) v v) (fuel : Nat)
    (hf : f.blocks.length * (constructs f.blocks + 1) + 1 ≤ fuel) :
    findControlFlow fuel f ≠ .error .diverge := by
  intro h
  obtain ⟨-, v, hv⟩ := find_deep hf h
  exact hc v hv

/-- No cycle if every step goes down -/
theorem no_cycle {blocks : List (BasicBlock X)} (rank : UInt32 → Nat)
    (h : ∀ a b, Leads blocks a b → rank b < rank a) (v : UInt32) : ¬ Relation.TransGen (Leads blocks) v v := by
  have key : ∀ a b, Relation.TransGen (Leads blocks) a b → rank b < rank a := by
    intro a b hab
    induction hab with
    | single h' => exact h _ _ h'
    | tail _ h' ih => exact Nat.lt_trans (h _ _ h') ih
  exact fun hv => Nat.lt_irrefl _ (key v v hv)

theorem sample_no_cycle (v : UInt32) : ¬ Relation.TransGen (Leads sampleBlocks) v v := by
  refine no_cycle (fun id => if id = 15 then 40 else if id = 14 then 41 else if id = 13 then 42 else 30 - id.toNat) ?_ v
  intro a b hab
  cases hab <;> rename_i c hb he <;>
    simp only [sampleBlocks, List.mem_cons, List.not_mem_nil, or_false] at hb <;>
    rcases hb with rfl | rfl | rfl | rfl | rfl | rfl | rfl | rfl <;> cases he <;> decide

example : (∀ v, ¬ Relation.TransGen (Leads (functionOf sampleBlocks).blocks) v v) ∧
    (functionOf sampleBlocks).blocks.length * (constructs (functionOf sampleBlocks).blocks + 1) + 1 = 25 :=
  ⟨sample_no_cycle, by decide⟩
example : findControlFlow 2 selfLoop = .error .diverge ∧
    selfLoop.blocks.length * (constructs selfLoop.blocks + 1) + 1 = 2 := ⟨rfl, rfl⟩

/-! ### C29 -/

/-- A loop header that branches on a condition -/
def loopCond : FunctionDefinition Empty := functionOf
  [ emptyBlock 10 (some (.OpLoopMerge ⟨⟨12⟩, ⟨11⟩, ⟨false, false, false, none⟩⟩))
      (.OpBranchConditional ⟨⟨5⟩, ⟨11⟩, ⟨12⟩, none⟩),
    emptyBlock 11 none (.OpBranch ⟨⟨10⟩⟩), emptyBlock 12 none (.OpReturn {}) ]

/-- A selection merge before an unconditional branch -/
def selectionGoto : FunctionDefinition Empty := functionOf
  [ emptyBlock 10 (some (.OpSelectionMerge ⟨⟨11⟩, ⟨false, false⟩⟩)) (.OpBranch ⟨⟨11⟩⟩),
    emptyBlock 11 none (.OpReturn {}) ]

/-- C29 is false of the code: it panics on these two functions. The first is an ordinary SPIR-V loop. -/
theorem C29_violated :
    (∀ fuel, findControlFlow (fuel + 1) loopCond = .error (.panic "not yet implemented")) ∧
    (∀ fuel, findControlFlow (fuel + 1) selectionGoto = .error (.panic "not yet implemented")) :=
  ⟨fun _ => rfl, fun _ => rfl⟩

/-- C29, for functions with no block of the two shapes of `C29_violated`: no panic. Missing are the
functions with such a block; some of them panic. -/
theorem C29_no_panic_partial {f : FunctionDefinition X}
    (h1 : ∀ b ∈ f.blocks, ∀ t e w m h, endOf b ≠ .chooseLoop t e w m h)
    (h2 : ∀ b ∈ f.blocks, ∀ t m h, endOf b ≠ .gotoSelection t m h) (fuel : Nat) (msg : String) :
    findControlFlow fuel f ≠ .error (.panic msg) := by
  intro h
  rcases find_error h with h | ⟨-, ⟨-, h⟩ | ⟨first', more', map, hb', hg, h⟩⟩
  · obtain ⟨_, _, _, _, he, _⟩ := build_error h
    cases he
  · cases h
  · obtain ⟨t, b, hgb, hu⟩ := search_reason h
    rw [hg] at hgb
    obtain ⟨hmem, -⟩ := blockOf_some hgb
    rcases hu with ⟨op, lm, hb, hm⟩ | ⟨op, sm, hb, hm⟩
    · exact h1 b hmem _ _ _ _ _ (by simp only [endOf, hb, hm]; rfl)
    · exact h2 b hmem _ _ _ (by simp only [endOf, hb, hm]; rfl)

example : (∀ b ∈ sampleBlocks, ∀ t e w m h, endOf b ≠ .chooseLoop t e w m h) ∧
    (∀ b ∈ sampleBlocks, ∀ t m h, endOf b ≠ .gotoSelection t m h) := by
  constructor <;> intro b hb <;>
    simp only [sampleBlocks, List.mem_cons, List.not_mem_nil, or_false] at hb <;>
    rcases hb with rfl | rfl | rfl | rfl | rfl | rfl | rfl | rfl <;> intros <;> rintro ⟨⟩

/-! ### C30 -/

/-- C30: if the blocks of a function, in any order and possibly among others, spell a structured
program with distinct blocks that starts at the first block, the program is recovered. -/
theorem C30_complete {f : FunctionDefinition X} {s : Program} {first : BasicBlock X}
    {more : List (BasicBlock X)} (hb : f.blocks = first :: more) (hn : (f.blocks.map labelId).Nodup)
    (hs : s.SpelledBy f.blocks none none) (he : s.entry none = some ⟨labelId first⟩) (hd : s.ids.Nodup) :
    ∃ fuel, ∀ fuel', fuel ≤ fuel' → findControlFlow fuel' f = .ok s.toChain := by
  refine find_of_found hb hn (found_of_spelled s [] .Return _ hs ?_ ?_ ?_ he)
  · exact nested_of_nodup s _ _ hd (by simp [stops]) (by simp [target])
  · intro t ht; cases ht
  · intro a b h; cases h

/-- C30, and more: a function is accepted exactly if its labels are distinct and its blocks spell a
structured program, in which a block may occur several times as long as it is not inside itself; and
the chain returned is that program. -/
theorem C30_accepted_iff {f : FunctionDefinition X} {chain : ControlFlowChain} :
    (∃ fuel, findControlFlow fuel f = .ok chain) ↔
    ∃ (s : Program) (first : BasicBlock X) (more : List (BasicBlock X)), f.blocks = first :: more ∧
      (f.blocks.map labelId).Nodup ∧ s.SpelledBy f.blocks none none ∧
      s.entry none = some ⟨labelId first⟩ ∧ s.Nested [] none ∧ chain = s.toChain := by
  constructor
  · rintro ⟨fuel, h⟩
    obtain ⟨first, more, hb, hn, hf⟩ := find_ok h
    obtain ⟨s, h1, h2, h3, h4⟩ := spelled_of_found hf
    exact ⟨s, first, more, hb, hn, h1, h3, h2, h4⟩
  · rintro ⟨s, first, more, hb, hn, hs, he, hne, rfl⟩
    obtain ⟨fuel, h⟩ := find_of_found hb hn (found_of_spelled s [] .Return _ hs hne
      (by intro t ht; cases ht) (by intro a b h; cases h) he)
    exact ⟨fuel, h fuel (Nat.le_refl _)⟩

theorem sample_spelled : sampleProgram.SpelledBy sampleBlocks none none := by
  refine ⟨_, _, _, rfl, rfl, rfl, rfl, rfl, rfl, rfl, rfl, ?_, ?_, ?_⟩
  · exact ⟨⟨_, _, rfl, rfl, rfl, rfl⟩, by simp [Program.SpelledBy]⟩
  · refine ⟨_, _, _, rfl, rfl, rfl, rfl, rfl, rfl, ?_, ?_⟩
    · refine ⟨_, _, _, _, rfl, rfl, rfl, rfl, rfl, rfl, rfl, rfl, ?_⟩
      refine ⟨_, _, _, _, rfl, rfl, rfl, rfl, rfl, rfl, rfl, rfl, ?_⟩
      exact ⟨⟨_, _, rfl, rfl, rfl, rfl⟩, by simp [Program.SpelledBy]⟩
    · exact ⟨⟨_, _, rfl, rfl, rfl, rfl⟩, by simp [Program.SpelledBy]⟩
  · exact ⟨rfl, _, _, rfl, rfl⟩

example : sampleProgram.ids.Nodup ∧ (sampleBlocks.map labelId).Nodup ∧
    sampleProgram.entry none = some ⟨10⟩ ∧ sampleProgram.toChain = sampleChain := ⟨by decide, by decide, rfl, rfl⟩

/-! ### C31 -/

/-- C31: the order of the blocks other than the first is irrelevant, also for errors, and for how deep
the search recurses. -/
theorem C31_block_order {f g : FunctionDefinition X} {first : BasicBlock X} {more more' : List (BasicBlock X)}
    (hf : f.blocks = first :: more) (hg : g.blocks = first :: more') (hp : more.Perm more')
    (hn : (f.blocks.map labelId).Nodup) (fuel : Nat) : findControlFlow fuel f = findControlFlow fuel g := by
  have hp' : f.blocks.Perm g.blocks := by rw [hf, hg]; exact hp.cons _
  have hn' : (g.blocks.map labelId).Nodup := (hp'.map labelId).nodup_iff.mp hn
  obtain ⟨m, hm, hmg⟩ := build_iff _ hn
  obtain ⟨m', hm', hmg'⟩ := build_iff _ hn'
  have hget : ∀ id, m.get id = m'.get id := by
    intro id
    rw [hmg, hmg']
    cases hb : blockOf f.blocks id with
    | none =>
      symm
      rw [blockOf_none] at hb ⊢
      exact fun b hb' => hb b (hp'.mem_iff.mpr hb')
    | some b =>
      obtain ⟨h1, h2⟩ := blockOf_some hb
      have := blockOf_mem hn' (hp'.mem_iff.mp h1)
      rw [h2] at this
      exact this.symm
  have hs := searchBlock_congr (fun _ => True) (map := m) (map' := m') (fun id _ => by rw [hget id])
    (fun _ _ _ _ _ _ => trivial) fuel ⟨labelId first⟩ [] trivial
  rw [findControlFlow, findControlFlow, hm, hm', cok_bind, cok_bind]
  simp only [hf, hg]
  simp only [labelId] at hs
  rw [hs]

example : findControlFlow 9 (functionOf (sampleBlocks.take 1 ++ (sampleBlocks.drop 1).reverse)) =
    findControlFlow 9 (functionOf sampleBlocks) := by rfl

/-! ### C32 -/

/-- C32: only labels and the ends of blocks matter: not the code inside blocks, parameters, the function
header, conditions or continue targets. -/
theorem C32_contents {Y : Type} {f : FunctionDefinition X} {g : FunctionDefinition Y}
    (h : f.blocks.map (fun b => (labelId b, endOf b)) = g.blocks.map (fun b => (labelId b, endOf b)))
    (fuel : Nat) : findControlFlow fuel f = findControlFlow fuel g := by
  have key : ∀ (bs : List (BasicBlock X)) (cs : List (BasicBlock Y)) (m : BlockMap X) (m' : BlockMap Y),
      bs.map (fun b => (labelId b, endOf b)) = cs.map (fun b => (labelId b, endOf b)) →
      (∀ id, (m.get id).map endOf = (m'.get id).map endOf) →
      (∃ e, buildBlockMap bs m = .error e ∧ buildBlockMap cs m' = .error e) ∨
      (∃ n n', buildBlockMap bs m = .ok n ∧ buildBlockMap cs m' = .ok n' ∧
        ∀ id, (n.get id).map endOf = (n'.get id).map endOf) := by
    intro bs
    induction bs with
    | nil =>
      intro cs m m' h hm
      cases cs with
      | nil => exact .inr ⟨m, m', rfl, rfl, hm⟩
      | cons c cs => cases h
    | cons b bs ih =>
      intro cs m m' h hm
      cases cs with
      | nil => cases h
      | cons c cs =>
        simp only [List.map_cons, List.cons.injEq, Prod.mk.injEq] at h
        obtain ⟨⟨hl, he⟩, h⟩ := h
        have hl' : b.label.result_id.val = c.label.result_id.val := hl
        simp only [buildBlockMap, hl']
        have hs := congrArg Option.isSome (hm ⟨c.label.result_id.val⟩)
        simp only [Option.isSome_map] at hs
        by_cases hd : (m'.get ⟨c.label.result_id.val⟩).isSome = true
        · rw [if_pos (hs.trans hd), if_pos hd]
          exact .inl ⟨_, rfl, rfl⟩
        · rw [if_neg (fun h => hd (hs.symm.trans h)), if_neg hd]
          refine ih cs _ _ h fun id => ?_
          rw [get_cons, get_cons]
          by_cases hid : id = ⟨c.label.result_id.val⟩
          · simp [hid, he]
          · simp only [if_neg hid, hm id]
  rcases key f.blocks g.blocks [] [] h (fun _ => rfl) with ⟨e, h1, h2⟩ | ⟨n, n', h1, h2, hn⟩
  · rw [findControlFlow, findControlFlow, h1, h2]; rfl
  · rw [findControlFlow, findControlFlow, h1, h2, cok_bind, cok_bind]
    cases hf : f.blocks with
    | nil =>
      rw [hf] at h
      cases hg : g.blocks with
      | nil => rfl
      | cons c cs => rw [hg] at h; cases h
    | cons b bs =>
      rw [hf] at h
      cases hg : g.blocks with
      | nil => rw [hg] at h; cases h
      | cons c cs =>
        rw [hg] at h
        simp only [List.map_cons, List.cons.injEq, Prod.mk.injEq] at h
        have hl : b.label.result_id.val = c.label.result_id.val := h.1.1
        simp only [hl]
        rw [searchBlock_congr (fun _ => True) (fun id _ => hn id) (fun _ _ _ _ _ _ => trivial) fuel _ _ trivial]

example : Samples.loopFn.blocks.map (fun b => (labelId b, endOf b)) =
    ({ Samples.loopFn with
        parameters := [], blocks := Samples.loopFn.blocks.map fun b => { b with code := [] } } :
      FunctionDefinition Empty).blocks.map (fun b => (labelId b, endOf b)) := by rfl

/-- C32: blocks that no other block names are irrelevant. The function `g` has the blocks of `f` and
others, whose labels are different and not named by a block of `f`. -/
theorem C32_unreachable {f g : FunctionDefinition X} {first : BasicBlock X} {more more' : List (BasicBlock X)}
    (hf : f.blocks = first :: more) (hg : g.blocks = first :: more') (hsub : ∀ b ∈ f.blocks, b ∈ g.blocks)
    (hnf : (f.blocks.map labelId).Nodup) (hng : (g.blocks.map labelId).Nodup)
    (hfresh : ∀ b ∈ f.blocks, ∀ t ∈ (endOf b).names, t ∈ g.blocks.map labelId → t ∈ f.blocks.map labelId)
    (fuel : Nat) : findControlFlow fuel f = findControlFlow fuel g := by
  obtain ⟨m, hm, hmg⟩ := build_iff _ hnf
  obtain ⟨m', hm', hmg'⟩ := build_iff _ hng
  have hs := searchBlock_congr (map := m) (map' := m')
    (fun id => id.val ∈ f.blocks.map labelId ∨ id.val ∉ g.blocks.map labelId)
    (by
      intro id hid
      rw [hmg, hmg']
      rcases hid with hid | hid
      · obtain ⟨b, hb, hl⟩ := List.mem_map.mp hid
        have h1 := blockOf_mem hnf hb
        have h2 := blockOf_mem hng (hsub b hb)
        rw [hl] at h1 h2
        rw [h1, h2]
      · have h2 : blockOf g.blocks id = none := by
          rw [blockOf_none]
          intro b hb he
          exact hid (he ▸ List.mem_map_of_mem hb)
        have h1 : blockOf f.blocks id = none := by
          rw [blockOf_none]
          intro b hb he
          exact hid (he ▸ List.mem_map_of_mem (hsub b hb))
        rw [h1, h2])
    (by
      intro id e hid he t ht
      rw [hmg] at he
      obtain ⟨b, hb, rfl⟩ := Option.map_eq_some_iff.mp he
      by_cases hg' : t ∈ g.blocks.map labelId
      · exact .inl (hfresh b (blockOf_some hb).1 t ht hg')
      · exact .inr hg')
    fuel ⟨labelId first⟩ [] (.inl (by rw [hf]; simp))
  rw [findControlFlow, findControlFlow, hm, hm', cok_bind, cok_bind]
  simp only [hf, hg]
  simp only [labelId] at hs
  rw [hs]

example : let extra := emptyBlock 40 none (.OpBranch ⟨⟨40⟩⟩)
    (∀ b ∈ sampleBlocks, b ∈ sampleBlocks ++ [extra]) ∧ (∀ b ∈ sampleBlocks, ∀ t ∈ (endOf b).names,
      t ∈ (sampleBlocks ++ [extra]).map labelId → t ∈ sampleBlocks.map labelId) :=
  ⟨fun _ h => by simp [h], by decide⟩

/-! ### C33 -/

/-- C33: `NoBlocks` exactly for functions without blocks -/
theorem C33_no_blocks (f : FunctionDefinition X) (fuel : Nat) :
    findControlFlow fuel f = .error (.err .NoBlocks) ↔ f.blocks = [] := by
  constructor
  · intro h
    rcases find_error h with h | ⟨-, ⟨h, -⟩ | ⟨first', more', map, hb', hg, h⟩⟩
    · obtain ⟨_, _, _, _, he, _⟩ := build_error h
      cases he
    · exact h
    · exact absurd (search_reason h) id
  · intro h
    rw [findControlFlow, h]
    rfl

/-- C33: `DuplicateBlockId` exactly if two blocks share a label; it reports the label of the first block
that repeats an earlier label. -/
theorem C33_duplicate (f : FunctionDefinition X) (fuel : Nat) (id : BlockId) :
    findControlFlow fuel f = .error (.err (.DuplicateBlockId id)) ↔
    ∃ pre b post, f.blocks = pre ++ b :: post ∧ (pre.map labelId).Nodup ∧ labelId b ∈ pre.map labelId ∧
      labelId b = id.val := by
  constructor
  · intro h
    rcases find_error h with h | ⟨-, ⟨-, h⟩ | ⟨first', more', map, hb', hg, h⟩⟩
    · obtain ⟨pre, b, post, hb, he, hd, hn, -⟩ := build_error h
      cases he
      refine ⟨pre, b, post, hb, (nodup_labels _).mp hn, ?_, rfl⟩
      rcases hd with hd | hd
      · cases hd
      · obtain ⟨b', h', he'⟩ := List.mem_map.mp hd
        exact List.mem_map.mpr ⟨b', h', congrArg BlockId.val he'⟩
    · cases h
    · exact absurd (search_reason h) (fun h => h)
  · rintro ⟨pre, b, post, hb, hn, hm, hl⟩
    have hnot : ∀ map, buildBlockMap f.blocks [] ≠ .ok map := by
      intro map h
      have := (build_map h).1
      rw [hb, List.map_append, List.nodup_append] at this
      exact this.2.2 _ hm _ (by simp) rfl
    cases hbm : buildBlockMap f.blocks [] with
    | ok map => exact absurd hbm (hnot map)
    | error e =>
      rw [findControlFlow, hbm]
      show Except.error e = _
      obtain ⟨pre', b', post', hb', he', hd, hn', -⟩ := build_error hbm
      rcases hd with hd | hd
      · cases hd
      rw [he']
      have hm' : labelId b' ∈ pre'.map labelId := by
        obtain ⟨b'', h', he'⟩ := List.mem_map.mp hd
        exact List.mem_map.mpr ⟨b'', h', congrArg BlockId.val he'⟩
      have hn'' := (nodup_labels _).mp hn'
      rw [hb] at hb'
      have hlen : pre.length = pre'.length := by
        rcases Nat.lt_trichotomy pre.length pre'.length with h | h | h
        · exfalso
          have : pre ++ [b] <+: pre' := by
            refine List.prefix_of_prefix_length_le (l₃ := pre ++ b :: post) ⟨post, by simp⟩ ⟨_, hb'.symm⟩ (by simp; omega)
          obtain ⟨t, rfl⟩ := this
          simp only [List.map_append, List.append_assoc, List.map_cons, List.map_nil] at hn''
          rw [List.nodup_append] at hn''
          exact hn''.2.2 _ hm _ (by simp) rfl
        · exact h
        · exfalso
          have : pre' ++ [b'] <+: pre := by
            refine List.prefix_of_prefix_length_le (l₃ := pre ++ b :: post) ⟨post', by rw [hb']; simp⟩ ⟨_, rfl⟩ (by simp; omega)
          obtain ⟨t, rfl⟩ := this
          simp only [List.map_append, List.append_assoc, List.map_cons, List.map_nil] at hn
          rw [List.nodup_append] at hn
          exact hn.2.2 _ hm' _ (by simp) rfl
      obtain ⟨-, h⟩ := List.append_inj hb' hlen
      cases h
      congr 3
      cases id
      simp only at hl
      simp only [labelOf, ← hl]
      rfl

/-- C33: `UnknownBlockId` only for a block that does not exist and is named by one that does -/
theorem C33_unknown {f : FunctionDefinition X} {fuel : Nat} {id : BlockId}
    (h : findControlFlow fuel f = .error (.err (.UnknownBlockId id))) :
    (∀ b ∈ f.blocks, labelId b ≠ id.val) ∧ ∃ b ∈ f.blocks, id.val ∈ (endOf b).names := by
  rcases find_error h with h | ⟨hn, ⟨-, h⟩ | ⟨first', more', map, hb', hg, h⟩⟩
  · obtain ⟨_, _, _, _, he, _⟩ := build_error h
    cases he
  · cases h
  · have hr := search_reason h
    rw [hg] at hr
    obtain ⟨h1, h2⟩ := hr
    refine ⟨blockOf_none.mp h1, ?_⟩
    rcases h2 with rfl | ⟨s, b, hb, hnm⟩
    · exact absurd rfl (blockOf_none.mp h1 first' (by rw [hb']; simp))
    · exact ⟨b, (blockOf_some hb).1, hnm⟩

/-- C33: `CouldNotPredictConverge` only for a block of the function that branches on a condition without
a merge -/
theorem C33_could_not_predict {f : FunctionDefinition X} {fuel : Nat} {id : BlockId}
    (h : findControlFlow fuel f = .error (.err (.CouldNotPredictConverge id))) :
    ∃ b ∈ f.blocks, labelId b = id.val ∧ ∃ t e w, endOf b = .choose t e w := by
  rcases find_error h with h | ⟨hn, ⟨-, h⟩ | ⟨first', more', map, hb', hg, h⟩⟩
  · obtain ⟨_, _, _, _, he, _⟩ := build_error h
    cases he
  · cases h
  · have hr := search_reason h
    rw [hg] at hr
    obtain ⟨b, op, hgb, hb, hm⟩ := hr
    obtain ⟨h1, h2⟩ := blockOf_some hgb
    exact ⟨b, h1, h2, _, _, _, by simp only [endOf, hb, hm]; rfl⟩

/-- C33: `InvalidConvergePrediction` for a selection only for a block of the function that starts a
selection; for a loop only for one that starts a loop, or leaves one on a condition -/
theorem C33_invalid {f : FunctionDefinition X} {fuel : Nat} {ty : ControlType} {id : BlockId}
    (h : findControlFlow fuel f = .error (.err (.InvalidConvergePrediction ty id))) :
    ∃ b ∈ f.blocks, labelId b = id.val ∧
      ((ty = .Selection ∧ ∃ t e w m hint, endOf b = .chooseSelection t e w m hint) ∨
       (ty = .Loop ∧ ((∃ t m hint, endOf b = .gotoLoop t m hint) ∨ ∃ t e w, endOf b = .choose t e w))) := by
  rcases find_error h with h | ⟨hn, ⟨-, h⟩ | ⟨first', more', map, hb', hg, h⟩⟩
  · obtain ⟨_, _, _, _, he, _⟩ := build_error h
    cases he
  · cases h
  · have hr := search_reason h
    rw [hg] at hr
    cases ty with
    | Selection =>
      obtain ⟨b, op, sm, hgb, hb, hm⟩ := hr
      obtain ⟨h1, h2⟩ := blockOf_some hgb
      exact ⟨b, h1, h2, .inl ⟨rfl, _, _, _, _, _, by simp only [endOf, hb, hm]; rfl⟩⟩
    | Loop =>
      obtain ⟨b, hgb, ⟨op, lm, hb, hm⟩ | ⟨op, hb, hm⟩⟩ := hr
      · obtain ⟨h1, h2⟩ := blockOf_some hgb
        exact ⟨b, h1, h2, .inr ⟨rfl, .inl ⟨_, _, _, by simp only [endOf, hb, hm]; rfl⟩⟩⟩
      · obtain ⟨h1, h2⟩ := blockOf_some hgb
        exact ⟨b, h1, h2, .inr ⟨rfl, .inr ⟨_, _, _, by simp only [endOf, hb, hm]; rfl⟩⟩⟩

/-- C33: `Failed` is never returned. -/
theorem C33_failed (f : FunctionDefinition X) (fuel : Nat) :
    findControlFlow fuel f ≠ .error (.err .Failed) := by
  intro h
  rcases find_error h with h | ⟨hn, ⟨-, h⟩ | ⟨first', more', map, hb', hg, h⟩⟩
  · obtain ⟨_, _, _, _, he, _⟩ := build_error h
    cases he
  · cases h
  · exact search_reason h

example : findControlFlow 9 (functionOf []) = .error (.err .NoBlocks) := by rfl
example : findControlFlow 9 (functionOf (sampleBlocks ++ sampleBlocks)) =
    .error (.err (.DuplicateBlockId ⟨10⟩)) := by rfl
example : findControlFlow 9 (functionOf (sampleBlocks.take 7)) = .error (.err (.UnknownBlockId ⟨19⟩)) := by rfl
example : findControlFlow 9 (functionOf [emptyBlock 10 none (.OpBranchConditional ⟨⟨5⟩, ⟨11⟩, ⟨12⟩, none⟩)]) =
    .error (.err (.CouldNotPredictConverge ⟨10⟩)) := by rfl
example : findControlFlow 9 (functionOf
    [emptyBlock 10 (some (.OpSelectionMerge ⟨⟨12⟩, ⟨false, false⟩⟩)) (.OpBranchConditional ⟨⟨5⟩, ⟨11⟩, ⟨12⟩, none⟩),
     emptyBlock 11 none (.OpReturn {}), emptyBlock 12 none (.OpReturn {})]) =
    .error (.err (.InvalidConvergePrediction .Selection ⟨10⟩)) := by rfl

/-! ### C34 -/

/-- C34: blocks are not nested directly, breaks and continues occur only as the else branch of a
selection inside a loop. -/
theorem C34_shape {f : FunctionDefinition X} {fuel : Nat} {chain : ControlFlowChain}
    (h : findControlFlow fuel f = .ok chain) : WellShaped false chain := by
  obtain ⟨first, more, hb, hn, hf⟩ := find_ok h
  obtain ⟨s, h1, -, -, rfl⟩ := spelled_of_found hf
  exact toChain_shaped s h1

/-! ### C35 -/

/-- C35: every node of the chain is a block of the function of the right kind, with the hints and weights
of that block. -/
theorem C35_blocks_and_hints {f : FunctionDefinition X} {fuel : Nat} {chain : ControlFlowChain}
    (h : findControlFlow fuel f = .ok chain) : Describes f.blocks chain := by
  obtain ⟨first, more, hb, hn, hf⟩ := find_ok h
  exact found_describes hf

example : WellShaped false sampleChain ∧ Describes sampleBlocks sampleChain :=
  ⟨C34_shape sample_found, C35_blocks_and_hints sample_found⟩

/-- The executions of the sample, by C27 -/
example (ds : List Bool) : runProgram sampleChain ds = runBlocks sampleBlocks ds ⟨10⟩ := by
  obtain ⟨_, _, hb, h⟩ := C27_executions sample_found
  cases hb
  exact h ds
/-- C28 for the sample: a search that may recurse further finds the same. -/
example : findControlFlow 1000 (functionOf sampleBlocks) = findControlFlow 25 (functionOf sampleBlocks) :=
  C28_depth (functionOf sampleBlocks) 1000 (by decide)
/-- C30 for the sample -/
example : ∃ fuel, ∀ fuel', fuel ≤ fuel' → findControlFlow fuel' (functionOf sampleBlocks) = .ok sampleProgram.toChain :=
  C30_complete (f := functionOf sampleBlocks) rfl (by decide) sample_spelled rfl (by decide)
/-- C33 for the errors above -/
example : ∃ b ∈ sampleBlocks.take 7, (19 : UInt32) ∈ (endOf b).names :=
  (C33_unknown (f := functionOf (sampleBlocks.take 7)) (fuel := 9) (id := ⟨19⟩) rfl).2
example : ∃ b ∈ [emptyBlock 10 none (.OpBranchConditional ⟨⟨5⟩, ⟨11⟩, ⟨12⟩, none⟩)], labelId b = 10 ∧
    ∃ t e w, endOf b = .choose t e w :=
  C33_could_not_predict (f := functionOf [emptyBlock 10 none (.OpBranchConditional ⟨⟨5⟩, ⟨11⟩, ⟨12⟩, none⟩)]) (fuel := 9)
    (id := ⟨10⟩) rfl

end Magma.Props
