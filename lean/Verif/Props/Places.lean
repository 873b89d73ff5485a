import Verif.Proofs.SizeExact
import Verif.Proofs.Accepted
import Verif.Props.Chains
import Mathlib.Order.WellFounded
/-! C28, C29, C33 and C50 again, in terms of the places of the function that the search gets to. -/

namespace Magma.Props
open Spec
variable {X : Type}

/-! ### C28 -/

/-- C28: if the search never ends, one can read the function from its first block on forever. -/
theorem C28_endless {f : FunctionDefinition X} (h : ∀ fuel, findControlFlow fuel f = .error .diverge) :
    ∃ first more, f.blocks = first :: more ∧
      ∃ p : Nat → Place, p 0 = (labelId first, []) ∧ ∀ n, Step f.blocks (p n) (p (n + 1)) := by
  rcases find_error (h 0) with h0 | ⟨hnd, ⟨-, h0⟩ | ⟨first, more, map, hb, hg, -⟩⟩
  · obtain ⟨_, _, _, _, he, _⟩ := build_error h0
    cases he
  · cases h0
  · refine ⟨first, more, hb, ?_⟩
    have hacc : ¬ Acc (fun a b => Step f.blocks b a) (labelId first, []) := by
      intro hacc
      obtain ⟨fuel, hd⟩ := search_acc hg _ hacc ⟨labelId first⟩ [] rfl
      rcases find_error (h fuel) with h0 | ⟨-, ⟨-, h0⟩ | ⟨first', more', map', hb', hg', h0⟩⟩
      · obtain ⟨_, _, _, _, he, _⟩ := build_error h0
        cases he
      · cases h0
      · rw [hb] at hb'
        cases hb'
        rw [searchBlock_congr (map' := map) (fun _ => True) (fun id _ => by rw [hg', hg])
          (fun _ _ _ _ _ _ => trivial) fuel _ _ trivial] at h0
        exact hd h0
    obtain ⟨p, h0, hp⟩ := not_acc_iff_exists_descending_chain.mp hacc
    exact ⟨p, h0, hp⟩

/-- C28, for functions without an endless path: the search ends. The full claim, for every function, is false
(`C28_violated`). -/
theorem C28_paths_partial {f : FunctionDefinition X}
    (hp : ∀ first more, f.blocks = first :: more → ¬ ∃ p : Nat → Place, p 0 = (labelId first, []) ∧
      ∀ n, Step f.blocks (p n) (p (n + 1))) (fuel : Nat)
    (hf : f.blocks.length * (constructs f.blocks + 1) + 1 ≤ fuel) :
    findControlFlow fuel f ≠ .error .diverge := by
  intro h
  obtain ⟨first, more, hb, hpath⟩ := C28_endless (find_deep hf h).1
  exact hp first more hb hpath

/-- A loop without a break -/
def plainLoop : FunctionDefinition Empty := functionOf
  [ emptyBlock 10 (some (.OpLoopMerge ⟨⟨12⟩, ⟨11⟩, ⟨false, false, false, none⟩⟩)) (.OpBranch ⟨⟨11⟩⟩),
    emptyBlock 11 none (.OpBranch ⟨⟨10⟩⟩), emptyBlock 12 none (.OpReturn {}) ]

/-- No endless path in `plainLoop`, as every step goes down -/
example : ¬ ∃ p : Nat → Place, p 0 = (10, []) ∧ ∀ n, Step plainLoop.blocks (p n) (p (n + 1)) := by
  rintro ⟨p, -, hp⟩
  let rank : Place → Nat := fun q =>
    if q.1 = 10 then (if 10 ∈ q.2.map Construct.stop then 0 else 3)
    else if q.1 = 11 then (if 10 ∈ q.2.map Construct.stop then 1 else 4) else 0
  have down : ∀ a b, Step plainLoop.blocks a b → rank b < rank a := by
    intro a b hab
    cases hab
    case stay hat he _ _ =>
      obtain ⟨hb, -⟩ := hat
      simp only [plainLoop, functionOf, List.mem_cons, List.not_mem_nil, or_false] at hb
      rcases hb with rfl | rfl | rfl <;> cases he
    all_goals
      rename_i hat he
      obtain ⟨hb, hl, hs⟩ := hat
      simp only [plainLoop, functionOf, List.mem_cons, List.not_mem_nil, or_false] at hb
      rcases hb with rfl | rfl | rfl <;> cases he <;> cases hl
    · rename_i cs
      show rank (10, cs) < rank (11, cs)
      by_cases h : 10 ∈ cs.map Construct.stop <;> simp only [rank, h] <;> decide
    · rename_i cs
      show rank (11, .loop 10 12 :: cs) < rank (10, cs)
      have hs : ¬ 10 ∈ cs.map Construct.stop := by assumption
      simp only [rank, List.map_cons, Construct.stop, List.mem_cons, true_or, hs]
      decide
    · rename_i cs
      show rank (12, cs) < rank (10, cs)
      have hs : ¬ 10 ∈ cs.map Construct.stop := by assumption
      simp only [rank, hs]
      decide
  have : ∀ n, rank (p n) + n ≤ rank (p 0) := by
    intro n
    induction n with
    | zero => simp
    | succ n ih => have := down _ _ (hp n); omega
  have := this (rank (p 0) + 1)
  omega

/-- The endless path of `selfLoop` -/
example : ∃ p : Nat → Place, p 0 = (10, []) ∧ ∀ n, Step selfLoop.blocks (p n) (p (n + 1)) := by
  obtain ⟨first, more, hb, p, h0, hp⟩ := C28_endless C28_violated
  cases hb
  exact ⟨p, h0, hp⟩

/-! ### C29 -/

/-- C29, for functions in which no place has a block of the two shapes of `C29_violated`: no panic. Missing are
the functions with such a place; they panic unless an error is found before. -/
theorem C29_places_partial {f : FunctionDefinition X}
    (hp : ∀ first more, f.blocks = first :: more → ∀ p, Path f.blocks (labelId first, []) p →
      ∀ b, At f.blocks p b →
        (∀ t e w m h, endOf b ≠ .chooseLoop t e w m h) ∧ ∀ t m h, endOf b ≠ .gotoSelection t m h)
    (fuel : Nat) (msg : String) : findControlFlow fuel f ≠ .error (.panic msg) := by
  intro h
  rcases find_error h with h | ⟨-, ⟨-, h⟩ | ⟨first, more, map, hb, hg, h⟩⟩
  · obtain ⟨_, _, _, _, he, _⟩ := build_error h
    cases he
  · cases h
  · obtain ⟨p, hpath, b, hat, hs⟩ := search_blamed hg _ _ _ _ h
    obtain ⟨h1, h2⟩ := hp first more hb p hpath b hat
    rcases hs with ⟨_, _, _, _, _, hs⟩ | ⟨_, _, _, hs⟩
    · exact h1 _ _ _ _ _ hs
    · exact h2 _ _ _ hs

/-- The panicking block need not matter, if it is not reached. -/
example : findControlFlow 9 (functionOf (sampleBlocks ++ [
    emptyBlock 50 (some (.OpSelectionMerge ⟨⟨51⟩, ⟨false, false⟩⟩)) (.OpBranch ⟨⟨51⟩⟩)])) = .ok sampleChain := by rfl
example : ∀ p, Path plainLoop.blocks (10, []) p → ∀ b, At plainLoop.blocks p b →
    (∀ t e w m h, endOf b ≠ .chooseLoop t e w m h) ∧ ∀ t m h, endOf b ≠ .gotoSelection t m h := by
  rintro p - b ⟨hb, -⟩
  simp only [plainLoop, functionOf, List.mem_cons, List.not_mem_nil, or_false] at hb
  rcases hb with rfl | rfl | rfl <;> constructor <;> intros <;> rintro ⟨⟩

/-! ### C33 -/

/-- C33: every error, and every panic, is about a place that one gets to from the first block, and is true of
that place: the block is missing; it branches on a condition, but neither out of nor to the start of the loop
around it; the construct that starts there is left in another way than it should be; the block is of an
unsupported shape. -/
theorem C33_place {f : FunctionDefinition X} {fuel : Nat} {e : Fault ControlFlowError}
    (h : findControlFlow fuel f = .error e) :
    e = .err .NoBlocks ∨ (∃ id, e = .err (.DuplicateBlockId id)) ∨
    ∃ first more p, f.blocks = first :: more ∧ Path f.blocks (labelId first, []) p ∧ Blamed f.blocks p e := by
  rcases find_error h with h | ⟨-, ⟨-, h⟩ | ⟨first, more, map, hb, hg, h⟩⟩
  · obtain ⟨_, _, _, _, he, _⟩ := build_error h
    exact .inr (.inl ⟨_, he⟩)
  · exact .inl h
  · obtain ⟨p, h1, h2⟩ := search_blamed hg _ _ _ _ h
    exact .inr (.inr ⟨first, more, p, hb, h1, h2⟩)

/-- Block 12 is left out of the function but not reached, as it is only named as the target of a break. -/
def strayLoop : FunctionDefinition Empty := functionOf
  [ emptyBlock 10 (some (.OpLoopMerge ⟨⟨12⟩, ⟨11⟩, ⟨false, false, false, none⟩⟩)) (.OpBranch ⟨⟨11⟩⟩),
    emptyBlock 11 none (.OpReturn {}) ]

example : findControlFlow 9 strayLoop = .error (.err (.InvalidConvergePrediction .Loop ⟨10⟩)) := by rfl
example : Blamed strayLoop.blocks (10, []) (.err (.InvalidConvergePrediction .Loop ⟨10⟩)) := by
  refine ⟨rfl, _, ⟨List.mem_cons_self, rfl, by simp [Stops]⟩, .inl ⟨_, _, _, rfl, 11, .refl,
    .inr ⟨emptyBlock 11 none (.OpReturn {}), ⟨?_, rfl, ?_⟩, rfl⟩⟩⟩
  · exact List.mem_cons_of_mem _ List.mem_cons_self
  · simp [Stops, Construct.stop]

/-! ### C30 -/

/-- C30, place by place: control flow is recovered exactly if there is a block, no two blocks have the same
label, one cannot go on forever from the first block, and nothing is wrong with any place one gets to: each is
a block of the function; it is not of an unsupported shape; if it branches on a condition without being the
start of a selection, it leaves the loop around it or goes back to its start; and from inside a construct one
gets to its end. -/
theorem C30_places_iff {f : FunctionDefinition X} : (∃ fuel chain, findControlFlow fuel f = .ok chain) ↔
    ∃ first more, f.blocks = first :: more ∧ (f.blocks.map labelId).Nodup ∧
      (¬ ∃ p : Nat → Place, p 0 = (labelId first, []) ∧ ∀ n, Step f.blocks (p n) (p (n + 1))) ∧
      ∀ p, Path f.blocks (labelId first, []) p → ∀ e, Blamed f.blocks p e → e = .diverge := by
  constructor
  · rintro ⟨fuel, chain, h⟩
    rw [findControlFlow, cbind_ok] at h
    obtain ⟨map, hm, h⟩ := h
    obtain ⟨hn, hg⟩ := build_map hm
    cases hb : f.blocks with
    | nil => rw [hb] at h; cases h
    | cons first more =>
      simp only [hb, cbind_ok, Prod.exists] at h
      obtain ⟨c, n, hs, -⟩ := h
      rw [hb] at hg hn
      exact ⟨first, more, rfl, hn, search_finite hg hn _ _ _ _ hs, fun p hp => search_sound hg hn _ _ _ _ hs p hp⟩
  · rintro ⟨first, more, hb, hn, hp, hbl⟩
    have hd := C28_paths_partial (f := f) (fun first' more' hb' => by
      rw [hb] at hb'
      cases hb'
      exact hp) _ (Nat.le_refl _)
    cases h : findControlFlow (f.blocks.length * (constructs f.blocks + 1) + 1) f with
    | ok chain => exact ⟨_, chain, h⟩
    | error e =>
      exfalso
      rcases C33_place h with rfl | ⟨id, rfl⟩ | ⟨first', more', p, hb', hp', hbl'⟩
      · have := (C33_no_blocks f _).mp h
        rw [hb] at this
        cases this
      · obtain ⟨pre, b, post, e, -, h2, -⟩ := (C33_duplicate f _ id).mp h
        rw [e, List.map_append, List.map_cons] at hn
        exact (List.nodup_append.mp hn).2.2 _ h2 _ List.mem_cons_self rfl
      · rw [hb] at hb'
        cases hb'
        exact hd (by rw [h, hbl p hp' e hbl'])

/-! ### C50 -/

/-- C50: how large the recovered control flow is at most. That it can be exponential is `C50_violated`. -/
theorem C50_bound {f : FunctionDefinition X} {fuel : Nat} {chain : ControlFlowChain}
    (h : findControlFlow fuel f = .ok chain) :
    (chainIds chain).length < 3 ^ (f.blocks.length * (constructs f.blocks + 1) + 1) := by
  have h' : findControlFlow (f.blocks.length * (constructs f.blocks + 1) + 1) f = .ok chain := by
    rw [← C28_depth f (max fuel (f.blocks.length * (constructs f.blocks + 1) + 1)) (Nat.le_max_right _ _), ← h]
    exact findControlFlow_mono (Nat.le_max_left _ _) (by rw [h]; intro e; cases e)
  rw [findControlFlow, cbind_ok] at h'
  obtain ⟨map, -, h'⟩ := h'
  cases hb : f.blocks with
  | nil => simp only [hb] at h'; cases h'
  | cons first more =>
    simp only [hb, cbind_ok, Prod.exists] at h'
    obtain ⟨c, n, hs, h'⟩ := h'
    cases n with
    | Next t => cases h'
    | Return =>
      cases h'
      exact search_size _ _ _ _ hs

/-- C50, for functions in which, apart from the ends of bodies, every block is entered in one way only: the
chain mentions every block at most once, so it is not larger than the function. -/
theorem C50_once_partial {f : FunctionDefinition X} {fuel : Nat} {chain : ControlFlowChain}
    (h : findControlFlow fuel f = .ok chain) {first : BasicBlock X} {more : List (BasicBlock X)}
    (hb : f.blocks = first :: more) (ho : EnteredOnce f.blocks (labelId first)) :
    (chainIds chain).Nodup ∧ (chainIds chain).length ≤ f.blocks.length := by
  have hnd : (chainIds chain).Nodup := by
    rw [findControlFlow, cbind_ok] at h
    obtain ⟨map, hm, h⟩ := h
    have hg := (build_map hm).2
    simp only [hb, cbind_ok, Prod.exists] at h
    obtain ⟨c, n, hs, h⟩ := h
    cases n with
    | Next t => cases h
    | Return =>
      cases h
      rcases search_once hg ho _ _ _ _ hs with ⟨hst, -⟩ | ⟨-, hsub⟩
      · simp [Stops, around] at hst
      · exact (hsub .refl).1
  refine ⟨hnd, ?_⟩
  obtain ⟨_, _, -, -, hf⟩ := find_ok h
  have := nodup_le (m := f.blocks.map labelId) hnd (by
    intro id hid
    obtain ⟨b, hb, rfl⟩ := describes_ids chain (found_describes hf) id hid
    exact List.mem_map_of_mem hb)
  rwa [List.length_map] at this

/-- C50, exactly when it holds: the chain mentions no block twice iff, apart from the ends of bodies, every
block of the function is entered in one way only. -/
theorem C50_once_iff {f : FunctionDefinition X} {fuel : Nat} {chain : ControlFlowChain}
    (h : findControlFlow fuel f = .ok chain) {first : BasicBlock X} {more : List (BasicBlock X)}
    (hb : f.blocks = first :: more) : (chainIds chain).Nodup ↔ EnteredOnce f.blocks (labelId first) := by
  refine ⟨fun hnd => ?_, fun ho => (C50_once_partial h hb ho).1⟩
  rw [findControlFlow, cbind_ok] at h
  obtain ⟨map, hm, h⟩ := h
  have hg := (build_map hm).2
  have hn := (build_map hm).1
  simp only [hb, cbind_ok, Prod.exists] at h
  obtain ⟨c, n, hs, h⟩ := h
  cases n with
  | Next t => cases h
  | Return =>
    cases h
    obtain ⟨h1, h2, h3⟩ := search_onceFrom hg hn _ _ _ _ hs hnd (by simp [Stops, around])
    exact ⟨h1, h2, h3⟩

/-- The steps in `plainLoop` -/
theorem plainLoop_step {p q : Place} (h : Step plainLoop.blocks p q) :
    (p.1 = 10 ∧ ¬ Stops p ∧ (q = (11, .loop 10 12 :: p.2) ∨ q = (12, p.2))) ∨ (p.1 = 11 ∧ q = (10, p.2)) := by
  cases h
  case stay hat he _ _ =>
    obtain ⟨hb, -⟩ := hat
    simp only [plainLoop, functionOf, List.mem_cons, List.not_mem_nil, or_false] at hb
    rcases hb with rfl | rfl | rfl <;> cases he
  all_goals
    rename_i hat he
    obtain ⟨hb, hl, hs⟩ := hat
    simp only [plainLoop, functionOf, List.mem_cons, List.not_mem_nil, or_false] at hb
    rcases hb with rfl | rfl | rfl <;> cases he <;> cases hl
  · exact .inr ⟨rfl, rfl⟩
  · exact .inl ⟨rfl, by assumption, .inl rfl⟩
  · exact .inl ⟨rfl, by assumption, .inr rfl⟩

/-- The places of `plainLoop` -/
theorem plainLoop_path {p : Place} (h : Path plainLoop.blocks (10, []) p) :
    p = (10, []) ∨ p = (11, [.loop 10 12]) ∨ p = (10, [.loop 10 12]) ∨ p = (12, []) := by
  induction h with
  | refl => exact .inl rfl
  | tail _ hs ih =>
    have hs := plainLoop_step hs
    rcases ih with rfl | rfl | rfl | rfl
    · rcases hs with ⟨-, -, rfl | rfl⟩ | ⟨h, -⟩
      · exact .inr (.inl rfl)
      · exact .inr (.inr (.inr rfl))
      · exact absurd h (by decide)
    · rcases hs with ⟨h, -⟩ | ⟨-, rfl⟩
      · exact absurd h (by decide)
      · exact .inr (.inr (.inl rfl))
    · rcases hs with ⟨-, h, -⟩ | ⟨h, -⟩
      · exact absurd (by simp [Stops, Construct.stop]) h
      · exact absurd h (by decide)
    · rcases hs with ⟨h, -⟩ | ⟨h, -⟩ <;> exact absurd h (by decide)

/-- In `plainLoop` every block is entered once. -/
example : EnteredOnce plainLoop.blocks 10 := by
  have key {p q : Place} (hp : Path plainLoop.blocks (10, []) p) (h : Step plainLoop.blocks p q) (hn : ¬ Stops q) :
      p = (10, []) ∧ (q = (11, [.loop 10 12]) ∨ q = (12, [])) := by
    have h := plainLoop_step h
    rcases plainLoop_path hp with rfl | rfl | rfl | rfl
    · rcases h with ⟨-, -, h⟩ | ⟨h, -⟩
      · exact ⟨rfl, h⟩
      · exact absurd h (by decide)
    · rcases h with ⟨h, -⟩ | ⟨-, rfl⟩
      · exact absurd h (by decide)
      · exact absurd (by simp [Stops, Construct.stop]) hn
    · rcases h with ⟨-, h, -⟩ | ⟨h, -⟩
      · exact absurd (by simp [Stops, Construct.stop]) h
      · exact absurd h (by decide)
    · rcases h with ⟨h, -⟩ | ⟨h, -⟩ <;> exact absurd h (by decide)
  refine ⟨fun p q p' q' hp hp' h h' hn hn' he => ?_, fun p q hp h he => ?_, ?_⟩
  · obtain ⟨hp1, hq⟩ := key hp h hn
    obtain ⟨hp2, hq'⟩ := key hp' h' hn'
    refine ⟨hp1.trans hp2.symm, ?_⟩
    clear h h'
    rcases hq with rfl | rfl <;> rcases hq' with rfl | rfl <;> first | rfl | exact absurd he (by decide)
  · by_contra hn
    obtain ⟨-, hq⟩ := key hp h hn
    clear h
    rcases hq with rfl | rfl <;> exact absurd he (by decide)
  · rintro p b t f w m h - ⟨hb, -⟩ he
    simp only [plainLoop, functionOf, List.mem_cons, List.not_mem_nil, or_false] at hb
    rcases hb with rfl | rfl | rfl <;> cases he
example : ∃ chain, findControlFlow 9 plainLoop = .ok chain ∧ chainIds chain = [10, 11, 12] := ⟨_, rfl, rfl⟩

/-- A selection with equal targets enters a block twice. -/
def sameTargets : FunctionDefinition Empty := functionOf
  [ emptyBlock 10 (some (.OpSelectionMerge ⟨⟨12⟩, ⟨false, false⟩⟩)) (.OpBranchConditional ⟨⟨5⟩, ⟨11⟩, ⟨11⟩, none⟩),
    emptyBlock 11 none (.OpBranch ⟨⟨12⟩⟩), emptyBlock 12 none (.OpReturn {}) ]
example : ¬ EnteredOnce sameTargets.blocks 10 := by
  obtain ⟨chain, h, he⟩ : ∃ chain, findControlFlow 9 sameTargets = .ok chain ∧ chainIds chain = [10, 11, 11, 12] :=
    ⟨_, rfl, rfl⟩
  refine fun ho => absurd ((C50_once_iff h rfl).mpr ho) ?_
  rw [he]
  decide

/-- C50 for the sample -/
example : (chainIds sampleChain).length < 3 ^ 25 := C50_bound sample_found

end Magma.Props
