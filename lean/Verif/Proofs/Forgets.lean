import Verif.Proofs.Live
import Verif.Spec.Flow
/-! C81: what the recovered control flow depends on. -/

namespace Magma.Forgets
open Spec Program
variable {X Y : Type}

theorem toChain_ne_break (s : Program) (b : Bool) : toChain s ≠ if b then .Break else .Continue := by
  cases s <;> cases b <;> simp [toChain]

/-- The chain of a program, and its items, tell the program. -/
theorem chain_inj {blocks : List (BasicBlock X)} {blocks' : List (BasicBlock Y)} : ∀ (s s' : Program)
    (lp lp' : Option (BlockId × BlockId)) (k k' : Option BlockId), SpelledBy blocks lp k s → SpelledBy blocks' lp' k' s' →
    k.isNone = k'.isNone → (toChain s = toChain s' → s = s') ∧ (toChains s = toChains s' → s = s') := by
  intro s
  induction s with
  | done =>
    intro s' lp lp' k k' hs hs' hk
    cases s' <;> simp [toChain, toChains]
  | ret id =>
    intro s' lp lp' k k' hs hs' hk
    cases s' with
    | ret id' => simp [toChain, toChains]
    | atom id' rest =>
      refine ⟨by simp [toChain], fun h => ?_⟩
      simp only [toChains, List.cons.injEq] at h
      obtain ⟨-, h⟩ := h
      obtain ⟨-, h2⟩ := hs'
      cases rest <;> simp [toChains] at h
      have h1 : k = none := hs.1
      have h2 : k' ≠ none := h2
      subst h1
      cases k' <;> simp_all
    | _ => simp [toChain, toChains]
  | atom id rest ih =>
    intro s' lp lp' k k' hs hs' hk
    cases s' with
    | ret id' =>
      refine ⟨by simp [toChain], fun h => ?_⟩
      simp only [toChains, List.cons.injEq] at h
      obtain ⟨-, h⟩ := h
      obtain ⟨-, h2⟩ := hs
      cases rest <;> simp [toChains] at h
      have h1 : k' = none := hs'.1
      have h2 : k ≠ none := h2
      subst h1
      cases k <;> simp_all
    | atom id' rest' =>
      have := (ih rest' lp lp' k k' hs.2 hs'.2 hk).2
      constructor
      · intro h
        simp only [toChain, ControlFlowChain.Block.injEq, List.cons.injEq, ControlFlowChain.Atom.injEq] at h
        rw [h.1, this h.2]
      · intro h
        simp only [toChains, List.cons.injEq, ControlFlowChain.Atom.injEq] at h
        rw [h.1, this h.2]
    | _ => simp [toChain, toChains]
  | sel id left right hint weights rest ihl ihr ih =>
    intro s' lp lp' k k' hs hs' hk
    obtain ⟨b, op, sm, -, -, -, -, -, -, -, -, h1, h2, h3⟩ := hs
    cases s' with
    | sel id' left' right' hint' weights' rest' =>
      obtain ⟨b', op', sm', -, -, -, -, -, -, -, -, h1', h2', h3'⟩ := hs'
      have e1 := (ihl left' _ _ _ _ h1 h1' rfl).1
      have e2 := (ihr right' _ _ _ _ h2 h2' rfl).1
      have e3 := (ih rest' _ _ _ _ h3 h3' hk).2
      constructor
      · intro h
        simp only [toChain, ControlFlowChain.Block.injEq, List.cons.injEq, ControlFlowChain.Selection.injEq] at h
        obtain ⟨⟨rfl, a, b, rfl, rfl⟩, c⟩ := h
        rw [e1 a, e2 b, e3 c]
      · intro h
        simp only [toChains, List.cons.injEq, ControlFlowChain.Selection.injEq] at h
        obtain ⟨⟨rfl, a, b, rfl, rfl⟩, c⟩ := h
        rw [e1 a, e2 b, e3 c]
    | exit id' brk weights' rest' =>
      refine ⟨by simp [toChain], fun h => ?_⟩
      simp only [toChains, List.cons.injEq, ControlFlowChain.Selection.injEq] at h
      exact absurd h.1.2.2.1 (toChain_ne_break _ _)
    | _ => simp [toChain, toChains]
  | loop id body hint rest ihb ih =>
    intro s' lp lp' k k' hs hs' hk
    obtain ⟨b, op, sm, -, -, -, -, -, -, h1, h3⟩ := hs
    cases s' with
    | loop id' body' hint' rest' =>
      obtain ⟨b', op', sm', -, -, -, -, -, -, h1', h3'⟩ := hs'
      have e1 := (ihb body' _ _ _ _ h1 h1' rfl).1
      have e3 := (ih rest' _ _ _ _ h3 h3' hk).2
      constructor
      · intro h
        simp only [toChain, ControlFlowChain.Block.injEq, List.cons.injEq, ControlFlowChain.Loop.injEq] at h
        obtain ⟨⟨rfl, a, rfl, -⟩, c⟩ := h
        rw [e1 a, e3 c]
      · intro h
        simp only [toChains, List.cons.injEq, ControlFlowChain.Loop.injEq] at h
        obtain ⟨⟨rfl, a, rfl, -⟩, c⟩ := h
        rw [e1 a, e3 c]
    | _ => simp [toChain, toChains]
  | exit id brk weights rest ih =>
    intro s' lp lp' k k' hs hs' hk
    obtain ⟨_, _, _, _, -, -, -, -, -, -, -, -, h3⟩ := hs
    cases s' with
    | exit id' brk' weights' rest' =>
      obtain ⟨_, _, _, _, -, -, -, -, -, -, -, -, h3'⟩ := hs'
      have e3 := (ih rest' _ _ _ _ h3 h3' hk).1
      have key : (if brk then ControlFlowChain.Break else .Continue) = (if brk' then .Break else .Continue) → brk = brk' := by
        cases brk <;> cases brk' <;> simp
      constructor
      · intro h
        simp only [toChain, ControlFlowChain.Selection.injEq] at h
        obtain ⟨rfl, a, b, -, rfl⟩ := h
        rw [e3 a, key b]
      · intro h
        simp only [toChains, List.cons.injEq, ControlFlowChain.Selection.injEq] at h
        obtain ⟨⟨rfl, a, b, -, rfl⟩, -⟩ := h
        rw [e3 a, key b]
    | sel id' left' right' hint' weights' rest' =>
      refine ⟨by simp [toChain], fun h => ?_⟩
      simp only [toChains, List.cons.injEq, ControlFlowChain.Selection.injEq] at h
      exact absurd h.1.2.2.1.symm (toChain_ne_break _ _)
    | _ => simp [toChain, toChains]

/-- How the block with that id ends -/
def endAt (blocks : List (BasicBlock X)) (id : BlockId) : Option BlockEnd := (blockOf blocks id).map endOf

theorem endAt_iff {blocks : List (BasicBlock X)} {id : BlockId} {e : BlockEnd} :
    endAt blocks id = some e ↔ ∃ b, blockOf blocks id = some b ∧ endOf b = e := by
  rw [endAt, Option.map_eq_some_iff]

theorem endOf_returns {b : BasicBlock X} : endOf b = .returns ↔ ∃ r, b.branch = .OpReturn r := by
  unfold endOf
  split <;> simp_all
  exact ⟨{}, trivial⟩

theorem endOf_goto {b : BasicBlock X} {t : UInt32} : endOf b = .goto t ↔
    ∃ op, b.merge = none ∧ b.branch = .OpBranch op ∧ op.target_label.val = t := by
  unfold endOf
  split <;> simp_all

theorem endOf_gotoLoop {b : BasicBlock X} {t m : UInt32} {h : LoopControl} : endOf b = .gotoLoop t m h ↔
    ∃ op lm, b.merge = some (.OpLoopMerge lm) ∧ b.branch = .OpBranch op ∧ op.target_label.val = t ∧
      lm.merge_block.val = m ∧ lm.loop_control = h := by
  unfold endOf
  split <;> simp_all

theorem endOf_choose {b : BasicBlock X} {t f : UInt32} {w : Option BranchWeights} : endOf b = .choose t f w ↔
    ∃ op, b.merge = none ∧ b.branch = .OpBranchConditional op ∧ op.true_label.val = t ∧ op.false_label.val = f ∧
      op.weights = w := by
  unfold endOf
  split <;> simp_all

theorem endOf_chooseSelection {b : BasicBlock X} {t f m : UInt32} {w : Option BranchWeights} {h : SelectionControl} :
    endOf b = .chooseSelection t f w m h ↔
    ∃ op sm, b.merge = some (.OpSelectionMerge sm) ∧ b.branch = .OpBranchConditional op ∧ op.true_label.val = t ∧
      op.false_label.val = f ∧ op.weights = w ∧ sm.merge_block.val = m ∧ sm.selection_control = h := by
  unfold endOf
  split <;> simp_all

theorem spelled_ret {blocks : List (BasicBlock X)} {lp : Option (BlockId × BlockId)} {k : Option BlockId} {id : BlockId} :
    SpelledBy blocks lp k (.ret id) ↔ k = none ∧ endAt blocks id = some .returns := by
  rw [endAt_iff]
  constructor
  · rintro ⟨h, b, r, h1, h2⟩
    exact ⟨h, b, h1, endOf_returns.mpr ⟨r, h2⟩⟩
  · rintro ⟨h, b, h1, h2⟩
    obtain ⟨r, h2⟩ := endOf_returns.mp h2
    exact ⟨h, b, r, h1, h2⟩

theorem spelled_atom {blocks : List (BasicBlock X)} {lp : Option (BlockId × BlockId)} {k : Option BlockId} {id : BlockId}
    {rest : Program} : SpelledBy blocks lp k (.atom id rest) ↔
    (∃ t, endAt blocks id = some (.goto t) ∧ rest.entry k = some ⟨t⟩) ∧ SpelledBy blocks lp k rest := by
  refine and_congr_left fun _ => ?_
  simp only [endAt_iff]
  constructor
  · rintro ⟨b, op, h1, h2, h3, h4⟩
    exact ⟨_, ⟨b, h1, endOf_goto.mpr ⟨op, h2, h3, rfl⟩⟩, h4⟩
  · rintro ⟨_, ⟨b, h1, h2⟩, h4⟩
    obtain ⟨op, h2', h3, rfl⟩ := endOf_goto.mp h2
    exact ⟨b, op, h1, h2', h3, h4⟩

theorem spelled_sel {blocks : List (BasicBlock X)} {lp : Option (BlockId × BlockId)} {k : Option BlockId} {id : BlockId}
    {left right rest : Program} {hint : SelectionControl} {weights : Option BranchWeights} :
    SpelledBy blocks lp k (.sel id left right hint weights rest) ↔
    ∃ t f m, endAt blocks id = some (.chooseSelection t f weights m hint) ∧ rest.entry k = some ⟨m⟩ ∧
      left.entry (some ⟨m⟩) = some ⟨t⟩ ∧ right.entry (some ⟨m⟩) = some ⟨f⟩ ∧ SpelledBy blocks lp (some ⟨m⟩) left ∧
      SpelledBy blocks lp (some ⟨m⟩) right ∧ SpelledBy blocks lp k rest := by
  simp only [endAt_iff]
  constructor
  · rintro ⟨b, op, sm, h1, h2, h3, h4, h5, h⟩
    exact ⟨_, _, _, ⟨b, h1, endOf_chooseSelection.mpr ⟨op, sm, h2, h3, rfl, rfl, h5, rfl, h4⟩⟩, h⟩
  · rintro ⟨_, _, _, ⟨b, h1, h2⟩, h⟩
    obtain ⟨op, sm, h2', h3, rfl, rfl, h5, rfl, h4⟩ := endOf_chooseSelection.mp h2
    exact ⟨b, op, sm, h1, h2', h3, h4, h5, h⟩

theorem spelled_loop {blocks : List (BasicBlock X)} {lp : Option (BlockId × BlockId)} {k : Option BlockId} {id : BlockId}
    {body rest : Program} {hint : LoopControl} : SpelledBy blocks lp k (.loop id body hint rest) ↔
    ∃ t m, endAt blocks id = some (.gotoLoop t m hint) ∧ rest.entry k = some ⟨m⟩ ∧
      body.entry (some id) = some ⟨t⟩ ∧ SpelledBy blocks (some (id, ⟨m⟩)) (some id) body ∧
      SpelledBy blocks lp k rest := by
  simp only [endAt_iff]
  constructor
  · rintro ⟨b, op, lm, h1, h2, h3, h4, h⟩
    exact ⟨_, _, ⟨b, h1, endOf_gotoLoop.mpr ⟨op, lm, h2, h3, rfl, rfl, h4⟩⟩, h⟩
  · rintro ⟨_, _, ⟨b, h1, h2⟩, h⟩
    obtain ⟨op, lm, h2', h3, rfl, rfl, h4⟩ := endOf_gotoLoop.mp h2
    exact ⟨b, op, lm, h1, h2', h3, h4, h⟩

theorem spelled_exit {blocks : List (BasicBlock X)} {lp : Option (BlockId × BlockId)} {k : Option BlockId} {id : BlockId}
    {brk : Bool} {weights : Option BranchWeights} {rest : Program} :
    SpelledBy blocks lp k (.exit id brk weights rest) ↔
    ∃ head merge t f, lp = some (head, merge) ∧ k = some head ∧ endAt blocks id = some (.choose t f weights) ∧
      (⟨f⟩ : BlockId) = (if brk then merge else head) ∧ rest.entry k = some ⟨t⟩ ∧ SpelledBy blocks lp k rest := by
  simp only [endAt_iff]
  constructor
  · rintro ⟨head, merge, b, op, h1, h2, h3, h4, h5, h6, h⟩
    exact ⟨head, merge, _, _, h1, h2, ⟨b, h3, endOf_choose.mpr ⟨op, h4, h5, rfl, rfl, h6⟩⟩, h⟩
  · rintro ⟨head, merge, _, _, h1, h2, ⟨b, h3, h4⟩, h⟩
    obtain ⟨op, h4', h5, rfl, rfl, h6⟩ := endOf_choose.mp h4
    exact ⟨head, merge, b, op, h1, h2, h3, h4', h5, h6, h⟩

/-- A program that is spelled tells how its blocks end. -/
theorem ends_eq {blocks : List (BasicBlock X)} {blocks' : List (BasicBlock Y)} : ∀ (s : Program)
    (lp : Option (BlockId × BlockId)) (k : Option BlockId), SpelledBy blocks lp k s → SpelledBy blocks' lp k s →
    ∀ id ∈ s.ids, endAt blocks id = endAt blocks' id := by
  intro s
  induction s with
  | done => intro lp k _ _ id h; cases h
  | ret i =>
    intro lp k h h' id hi
    obtain rfl := List.mem_singleton.mp hi
    rw [(spelled_ret.mp h).2, (spelled_ret.mp h').2]
  | atom i rest ih =>
    intro lp k h h' id hi
    obtain ⟨⟨t, h1, h2⟩, h3⟩ := spelled_atom.mp h
    obtain ⟨⟨t', h1', h2'⟩, h3'⟩ := spelled_atom.mp h'
    rcases List.mem_cons.mp hi with rfl | hi
    · rw [h2] at h2'
      cases h2'
      rw [h1, h1']
    · exact ih lp k h3 h3' id hi
  | sel i left right hint weights rest ihl ihr ih =>
    intro lp k h h' id hi
    obtain ⟨t, f, m, h1, h2, h3, h4, h5, h6, h7⟩ := spelled_sel.mp h
    obtain ⟨t', f', m', h1', h2', h3', h4', h5', h6', h7'⟩ := spelled_sel.mp h'
    rw [h2] at h2'
    cases h2'
    rw [h3] at h3'
    cases h3'
    rw [h4] at h4'
    cases h4'
    rcases List.mem_cons.mp hi with rfl | hi
    · rw [h1, h1']
    · rcases List.mem_append.mp hi with hi | hi
      · rcases List.mem_append.mp hi with hi | hi
        · exact ihl _ _ h5 h5' id hi
        · exact ihr _ _ h6 h6' id hi
      · exact ih _ _ h7 h7' id hi
  | loop i body hint rest ihb ih =>
    intro lp k h h' id hi
    obtain ⟨t, m, h1, h2, h3, h4, h5⟩ := spelled_loop.mp h
    obtain ⟨t', m', h1', h2', h3', h4', h5'⟩ := spelled_loop.mp h'
    rw [h2] at h2'
    cases h2'
    rw [h3] at h3'
    cases h3'
    rcases List.mem_cons.mp hi with rfl | hi
    · rw [h1, h1']
    · rcases List.mem_append.mp hi with hi | hi
      · exact ihb _ _ h4 h4' id hi
      · exact ih _ _ h5 h5' id hi
  | exit i brk weights rest ih =>
    intro lp k h h' id hi
    obtain ⟨head, merge, t, f, h1, h2, h3, h4, h5, h6⟩ := spelled_exit.mp h
    obtain ⟨head', merge', t', f', h1', h2', h3', h4', h5', h6'⟩ := spelled_exit.mp h'
    rcases List.mem_cons.mp hi with rfl | hi
    · rw [h1] at h1'
      cases h1'
      rw [h5] at h5'
      cases h5'
      rw [← h4] at h4'
      cases h4'
      rw [h3, h3']
    · exact ih _ _ h6 h6' id hi

/-- Only the ends of its blocks count for a program to be spelled. -/
theorem spelled_congr {blocks : List (BasicBlock X)} {blocks' : List (BasicBlock Y)} : ∀ (s : Program)
    (lp : Option (BlockId × BlockId)) (k : Option BlockId), SpelledBy blocks lp k s →
    (∀ id ∈ s.ids, endAt blocks' id = endAt blocks id) → SpelledBy blocks' lp k s := by
  intro s
  induction s with
  | done => intro lp k h _; exact h
  | ret i =>
    intro lp k h he
    rw [spelled_ret] at h ⊢
    rw [he i List.mem_cons_self]
    exact h
  | atom i rest ih =>
    intro lp k h he
    rw [spelled_atom] at h ⊢
    rw [he i List.mem_cons_self]
    exact ⟨h.1, ih lp k h.2 fun id hi => he id (List.mem_cons_of_mem _ hi)⟩
  | sel i left right hint weights rest ihl ihr ih =>
    intro lp k h he
    rw [spelled_sel] at h ⊢
    rw [he i List.mem_cons_self]
    obtain ⟨t, f, m, h1, h2, h3, h4, h5, h6, h7⟩ := h
    exact ⟨t, f, m, h1, h2, h3, h4, ihl _ _ h5 fun id hi => he id (by simp [Program.ids, hi]),
      ihr _ _ h6 fun id hi => he id (by simp [Program.ids, hi]), ih _ _ h7 fun id hi => he id (by simp [Program.ids, hi])⟩
  | loop i body hint rest ihb ih =>
    intro lp k h he
    rw [spelled_loop] at h ⊢
    rw [he i List.mem_cons_self]
    obtain ⟨t, m, h1, h2, h3, h4, h5⟩ := h
    exact ⟨t, m, h1, h2, h3, ihb _ _ h4 fun id hi => he id (by simp [Program.ids, hi]),
      ih _ _ h5 fun id hi => he id (by simp [Program.ids, hi])⟩
  | exit i brk weights rest ih =>
    intro lp k h he
    rw [spelled_exit] at h ⊢
    rw [he i List.mem_cons_self]
    obtain ⟨head, merge, t, f, h1, h2, h3, h4, h5, h6⟩ := h
    exact ⟨head, merge, t, f, h1, h2, h3, h4, h5, ih _ _ h6 fun id hi => he id (List.mem_cons_of_mem _ hi)⟩

/-- The blocks of a program that is spelled are there. -/
theorem ends_some {blocks : List (BasicBlock X)} : ∀ (s : Program) (lp : Option (BlockId × BlockId)) (k : Option BlockId),
    SpelledBy blocks lp k s → ∀ id ∈ s.ids, ∃ e, endAt blocks id = some e := by
  intro s
  induction s with
  | done => intro lp k _ id h; cases h
  | ret i =>
    intro lp k h id hi
    obtain rfl := List.mem_singleton.mp hi
    exact ⟨_, (spelled_ret.mp h).2⟩
  | atom i rest ih =>
    intro lp k h id hi
    obtain ⟨⟨t, h1, h2⟩, h3⟩ := spelled_atom.mp h
    rcases List.mem_cons.mp hi with rfl | hi
    · exact ⟨_, h1⟩
    · exact ih lp k h3 id hi
  | sel i left right hint weights rest ihl ihr ih =>
    intro lp k h id hi
    obtain ⟨t, f, m, h1, h2, h3, h4, h5, h6, h7⟩ := spelled_sel.mp h
    rcases List.mem_cons.mp hi with rfl | hi
    · exact ⟨_, h1⟩
    · rcases List.mem_append.mp hi with hi | hi
      · rcases List.mem_append.mp hi with hi | hi
        · exact ihl _ _ h5 id hi
        · exact ihr _ _ h6 id hi
      · exact ih _ _ h7 id hi
  | loop i body hint rest ihb ih =>
    intro lp k h id hi
    obtain ⟨t, m, h1, h2, h3, h4, h5⟩ := spelled_loop.mp h
    rcases List.mem_cons.mp hi with rfl | hi
    · exact ⟨_, h1⟩
    · rcases List.mem_append.mp hi with hi | hi
      · exact ihb _ _ h4 id hi
      · exact ih _ _ h5 id hi
  | exit i brk weights rest ih =>
    intro lp k h id hi
    obtain ⟨head, merge, t, f, h1, h2, h3, h4, h5, h6⟩ := spelled_exit.mp h
    rcases List.mem_cons.mp hi with rfl | hi
    · exact ⟨_, h3⟩
    · exact ih _ _ h6 id hi

end Magma.Forgets
