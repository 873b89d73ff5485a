import Verif.Proofs.InOrder
import Verif.Props.Places
/-! C63: the outcome of the recovery of control flow is what is found first, reading in order. -/

namespace Magma.Props
open Spec
variable {X : Type}

/-! ### C63 -/

/-- How the search and the recovery of control flow are related -/
theorem find_search {f : FunctionDefinition X} {first : BasicBlock X} {more : List (BasicBlock X)}
    (hb : f.blocks = first :: more) (hn : (f.blocks.map labelId).Nodup) :
    ∃ map : BlockMap X, map.get = blockOf f.blocks ∧ ∀ fuel e, findControlFlow fuel f = .error e ↔
      searchBlock map fuel ⟨labelId first⟩ [] = .error e := by
  obtain ⟨map, hm, hg⟩ := build_iff _ hn
  refine ⟨map, hg, fun fuel e => ?_⟩
  rw [findControlFlow, hm, cok_bind]
  simp only [hb, cbind_error, Prod.exists]
  constructor
  · rintro (h | ⟨c, n, hs, h⟩)
    · exact h
    · cases n with
      | Return => cases h
      | Next t =>
        have := (found_of_search hs).next_merges t rfl
        cases this
  · exact .inl

theorem find_final {f : FunctionDefinition X} {first : BasicBlock X} {more : List (BasicBlock X)}
    (hb : f.blocks = first :: more) (hn : (f.blocks.map labelId).Nodup) :
    ∃ map : BlockMap X, map.get = blockOf f.blocks ∧
      (∀ e, e ≠ .diverge → ((∃ fuel, findControlFlow fuel f = .error e) ↔ final map ⟨labelId first⟩ [] = .error e)) ∧
      ((∀ fuel, findControlFlow fuel f = .error .diverge) ↔ final map ⟨labelId first⟩ [] = .error .diverge) := by
  obtain ⟨map, hg, h⟩ := find_search hb hn
  obtain ⟨n, hf⟩ := final_spec map ⟨labelId first⟩ []
  refine ⟨map, hg, fun e he => ⟨?_, fun hx => ⟨n, (h n e).mpr ((hf n (Nat.le_refl _)).trans hx)⟩⟩, ?_, fun hx fuel => ?_⟩
  · rintro ⟨fuel, hx⟩
    rw [h] at hx
    rcases search_or_final map fuel ⟨labelId first⟩ [] with hd | hd
    · rw [hx] at hd
      cases hd
      exact absurd rfl he
    · exact hd.symm.trans hx
  · intro hx
    rw [← hf n (Nat.le_refl _)]
    exact (h n _).mp (hx n)
  · rw [h]
    rcases search_or_final map fuel ⟨labelId first⟩ [] with hd | hd
    · exact hd
    · exact hd.trans hx

/-- C63: an error is returned exactly if it is the first thing that is wrong, reading in order. (For functions
without blocks or with repeated labels see C33.) -/
theorem C63_error {f : FunctionDefinition X} {first : BasicBlock X} {more : List (BasicBlock X)}
    (hb : f.blocks = first :: more) (hn : (f.blocks.map labelId).Nodup) (e : ControlFlowError) :
    (∃ fuel, findControlFlow fuel f = .error (.err e)) ↔ FirstWrong f.blocks (labelId first, []) (.err e) := by
  obtain ⟨map, hg, h, -⟩ := find_final hb hn
  rw [h _ (by simp)]
  exact final_first hg hn (by simp) (fun _ h => by cases h)

/-- C63: it panics exactly if the first thing that is wrong is a block of an unsupported shape. -/
theorem C63_panic {f : FunctionDefinition X} {first : BasicBlock X} {more : List (BasicBlock X)}
    (hb : f.blocks = first :: more) (hn : (f.blocks.map labelId).Nodup) :
    (∃ fuel msg, findControlFlow fuel f = .error (.panic msg)) ↔
      ∃ msg, FirstWrong f.blocks (labelId first, []) (.panic msg) := by
  obtain ⟨map, hg, h, -⟩ := find_final hb hn
  have key := final_first (id := ⟨labelId first⟩) (fl := []) (e := .panic "not yet implemented") hg hn (by simp)
    (fun _ h => by cases h; rfl)
  constructor
  · rintro ⟨fuel, msg, hx⟩
    exact ⟨msg, first_of_final hg hn (by simp) ((h _ (by simp)).mp ⟨fuel, hx⟩)⟩
  · rintro ⟨msg, q, hq, h1, h2, -⟩
    have : FirstWrong f.blocks (labelId first, []) (.panic "not yet implemented") :=
      ⟨q, hq, by simp, h2, fun _ _ h => by cases h⟩
    obtain ⟨fuel, hx⟩ := (h _ (by simp)).mpr (key.mpr this)
    exact ⟨fuel, _, hx⟩

/-- C63: it does not end exactly if one can read on forever, in order. -/
theorem C63_endless {f : FunctionDefinition X} {first : BasicBlock X} {more : List (BasicBlock X)}
    (hb : f.blocks = first :: more) (hn : (f.blocks.map labelId).Nodup) :
    (∀ fuel, findControlFlow fuel f = .error .diverge) ↔ EndlessInOrder f.blocks (labelId first, []) := by
  obtain ⟨map, hg, -, h⟩ := find_final hb hn
  rw [h]
  exact final_endless hg hn

/-- C63: it succeeds exactly if there is nothing wrong. -/
theorem C63_fine {f : FunctionDefinition X} {first : BasicBlock X} {more : List (BasicBlock X)}
    (hb : f.blocks = first :: more) (hn : (f.blocks.map labelId).Nodup) :
    (∃ fuel chain, findControlFlow fuel f = .ok chain) ↔ Fine f.blocks (labelId first, []) := by
  rw [C30_places_iff]
  constructor
  · rintro ⟨first', more', hb', -, h1, h2⟩
    rw [hb] at hb'
    cases hb'
    exact ⟨h1, h2⟩
  · rintro ⟨h1, h2⟩
    exact ⟨first, more, hb, hn, h1, h2⟩

/-! ### Examples -/

/-- The first branch of the selection returns, the second goes to a block that does not exist. What is inside the
selection is read before it is noticed that it is not left where it should be. -/
def twoFaults : FunctionDefinition Empty := functionOf
  [ emptyBlock 10 (some (.OpSelectionMerge ⟨⟨13⟩, ⟨false, false⟩⟩)) (.OpBranchConditional ⟨⟨1⟩, ⟨11⟩, ⟨12⟩, none⟩),
    emptyBlock 11 none (.OpReturn {}), emptyBlock 13 none (.OpReturn {}) ]

example : findControlFlow 9 twoFaults = .error (.err (.UnknownBlockId ⟨12⟩)) := by rfl
example : FirstWrong twoFaults.blocks (10, []) (.err (.UnknownBlockId ⟨12⟩)) :=
  (C63_error (f := twoFaults) rfl (by decide) _).mp ⟨9, rfl⟩
example : ¬ FirstWrong twoFaults.blocks (10, []) (.err (.InvalidConvergePrediction .Selection ⟨10⟩)) := by
  intro h
  obtain ⟨fuel, h⟩ := (C63_error (f := twoFaults) rfl (by decide) _).mpr h
  match fuel with
  | 0 => cases h
  | 1 => cases h
  | _ + 2 => cases h
example : Blamed twoFaults.blocks (10, []) (.err (.InvalidConvergePrediction .Selection ⟨10⟩)) := by
  have h10 : At twoFaults.blocks (10, []) _ := ⟨List.mem_cons_self, rfl, by simp [Stops]⟩
  have h11 : At twoFaults.blocks (11, [.selection 13]) _ := ⟨List.mem_cons_of_mem _ List.mem_cons_self, rfl, by
    simp [Stops, Construct.stop]⟩
  exact ⟨rfl, _, h10, _, _, _, _, _, rfl, .inl ⟨11, .refl, .inr ⟨_, h11, rfl⟩⟩⟩

/-- The second branch of the selection would be read forever, but the first goes to a block that does not exist. -/
def faultBeforeCycle : FunctionDefinition Empty := functionOf
  [ emptyBlock 10 (some (.OpSelectionMerge ⟨⟨13⟩, ⟨false, false⟩⟩)) (.OpBranchConditional ⟨⟨1⟩, ⟨12⟩, ⟨11⟩, none⟩),
    emptyBlock 11 none (.OpBranch ⟨⟨11⟩⟩), emptyBlock 13 none (.OpReturn {}) ]

example : findControlFlow 9 faultBeforeCycle = .error (.err (.UnknownBlockId ⟨12⟩)) := by rfl
example : Endless faultBeforeCycle.blocks (10, []) := by
  have h10 : At faultBeforeCycle.blocks (10, []) _ := ⟨List.mem_cons_self, rfl, by simp [Stops]⟩
  have h11 : At faultBeforeCycle.blocks (11, [.selection 13]) _ := ⟨List.mem_cons_of_mem _ List.mem_cons_self, rfl, by
    simp [Stops, Construct.stop]⟩
  refine ⟨fun n => match n with | 0 => (10, []) | _ + 1 => (11, [.selection 13]), rfl, fun n => ?_⟩
  cases n with
  | zero => exact .right h10 rfl
  | succ n => exact .goto h11 rfl
example : ¬ EndlessInOrder faultBeforeCycle.blocks (10, []) := by
  intro h
  have := (C63_endless (f := faultBeforeCycle) rfl (by decide)).mpr h 9
  cases this
example : EndlessInOrder selfLoop.blocks (10, []) := (C63_endless (f := selfLoop) rfl (by decide)).mp C28_violated
example : ∃ msg, FirstWrong loopCond.blocks (10, []) (.panic msg) :=
  (C63_panic (f := loopCond) rfl (by decide)).mp ⟨1, _, C29_violated.1 0⟩

end Magma.Props
