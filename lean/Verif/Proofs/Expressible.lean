import Verif.Spec.Expressible
import Verif.Props.Chains
/-! Every sensible program is spelled by the blocks of some function. -/

namespace Magma
open Spec
variable {X : Type}

/-- A block without code -/
def bareBlock (id : BlockId) (merge : Option GroupMerge) (branch : GroupBranch) : BasicBlock X :=
  { label := ⟨⟨id.val⟩⟩, code := [], merge := merge, branch := branch }

/-- The id of a block as an operand -/
def operand (k : Option BlockId) : OpId := ⟨(k.getD ⟨0⟩).val⟩

namespace Spec.Program

/-- The blocks for a program -/
def blocks (lp : Option (BlockId × BlockId)) (k : Option BlockId) : Program → List (BasicBlock X)
  | done => []
  | ret id => [bareBlock id none (.OpReturn {})]
  | atom id rest => bareBlock id none (.OpBranch ⟨operand (rest.entry k)⟩) :: rest.blocks lp k
  | sel id left right hint weights rest =>
    bareBlock id (some (.OpSelectionMerge ⟨operand (rest.entry k), hint⟩))
      (.OpBranchConditional ⟨⟨0⟩, operand (left.entry (rest.entry k)), operand (right.entry (rest.entry k)), weights⟩) ::
      (left.blocks lp (rest.entry k) ++ right.blocks lp (rest.entry k) ++ rest.blocks lp k)
  | loop id body hint rest =>
    bareBlock id (some (.OpLoopMerge ⟨operand (rest.entry k), ⟨id.val⟩, hint⟩))
      (.OpBranch ⟨operand (body.entry (some id))⟩) ::
      (body.blocks (some (id, (rest.entry k).getD ⟨0⟩)) (some id) ++ rest.blocks lp k)
  | exit id brk weights rest =>
    bareBlock id none (.OpBranchConditional ⟨⟨0⟩, operand (rest.entry k),
      operand (lp.map (fun p => if brk then p.2 else p.1)), weights⟩) :: rest.blocks lp k

theorem blocks_labels : ∀ (s : Program) (lp : Option (BlockId × BlockId)) (k : Option BlockId),
    (s.blocks (X := X) lp k).map labelId = s.ids.map BlockId.val := by
  intro s
  induction s with
  | done => intros; rfl
  | ret => intros; rfl
  | atom id rest ih => intro lp k; simp [blocks, ids, ih, bareBlock, labelId]
  | sel id l r h w rest ihl ihr ih => intro lp k; simp [blocks, ids, ih, ihl, ihr, bareBlock, labelId]
  | loop id b h rest ihb ih => intro lp k; simp [blocks, ids, ih, ihb, bareBlock, labelId]
  | exit id b w rest ih => intro lp k; simp [blocks, ids, ih, bareBlock, labelId]

theorem entry_some (s : Program) {tail : Bool} {k : Option BlockId} (h : s.WellFormed tail k.isSome) :
    ∃ e, s.entry k = some e := by
  cases s with
  | done => exact Option.isSome_iff_exists.mp h
  | ret => exact ⟨_, rfl⟩
  | atom => exact ⟨_, rfl⟩
  | sel => exact ⟨_, rfl⟩
  | loop => exact ⟨_, rfl⟩
  | exit => exact ⟨_, rfl⟩

theorem spelled_blocks {all : List (BasicBlock X)} : ∀ (s : Program) (tail : Bool) (lp : Option (BlockId × BlockId))
    (k : Option BlockId), s.WellFormed tail k.isSome → (tail = true → ∃ p, lp = some p ∧ k = some p.1) →
    (∀ b ∈ s.blocks lp k, blockOf all ⟨labelId b⟩ = some b) → s.SpelledBy all lp k := by
  intro s
  induction s with
  | done =>
    intro tail lp k h _ _
    cases k with
    | none => cases h
    | some k => exact fun h => by cases h
  | ret id =>
    intro tail lp k h _ hb
    cases k with
    | some k => cases h
    | none => exact ⟨rfl, _, _, hb _ List.mem_cons_self, rfl⟩
  | atom id rest ih =>
    intro tail lp k h ht hb
    obtain ⟨e, he⟩ := entry_some rest h
    refine ⟨⟨_, _, hb _ List.mem_cons_self, rfl, rfl, ?_⟩,
      ih tail lp k h ht (fun b hb' => hb b (List.mem_cons_of_mem _ hb'))⟩
    rw [he]; rfl
  | sel id l r hh w rest ihl ihr ih =>
    intro tail lp k h ht hb
    obtain ⟨hl, hr, h⟩ := h
    obtain ⟨e, he⟩ := entry_some rest h
    have ht' : (tail && rest.finished) = true → ∃ p, lp = some p ∧ some e = some p.1 := by
      intro hx
      obtain ⟨h1, h2⟩ := Bool.and_eq_true_iff.mp hx
      obtain ⟨p, h3, h4⟩ := ht h1
      refine ⟨p, h3, ?_⟩
      cases rest <;> first | (rw [← he, ← h4]; rfl) | cases h2
    obtain ⟨el, hel⟩ := entry_some l (k := some e) hl
    obtain ⟨er, her⟩ := entry_some r (k := some e) hr
    simp only [blocks, he, List.mem_cons, List.mem_append] at hb
    refine ⟨_, _, _, hb _ (.inl rfl), rfl, rfl, rfl, rfl, he, ?_, ?_, ?_, ?_, ?_⟩
    · rw [hel]; show l.entry (some e) = _; rw [hel]; rfl
    · rw [her]; show r.entry (some e) = _; rw [her]; rfl
    · exact ihl _ lp (some e) hl ht' (fun b hb' => hb b (.inr (.inl (.inl hb'))))
    · exact ihr _ lp (some e) hr ht' (fun b hb' => hb b (.inr (.inl (.inr hb'))))
    · exact ih tail lp k h ht (fun b hb' => hb b (.inr (.inr hb')))
  | loop id body hh rest ihb ih =>
    intro tail lp k h ht hb
    obtain ⟨hbody, h⟩ := h
    obtain ⟨e, he⟩ := entry_some rest h
    obtain ⟨eb, heb⟩ := entry_some body (k := some id) hbody
    simp only [blocks, he, List.mem_cons, List.mem_append] at hb
    refine ⟨_, _, _, hb _ (.inl rfl), rfl, rfl, rfl, he, ?_, ?_, ?_⟩
    · rw [heb]; rfl
    · exact ihb true _ (some id) hbody (fun _ => ⟨_, rfl, rfl⟩) (fun b hb' => hb b (.inr (.inl hb')))
    · exact ih tail lp k h ht (fun b hb' => hb b (.inr (.inr hb')))
  | exit id brk w rest ih =>
    intro tail lp k h ht hb
    obtain ⟨htail, h⟩ := h
    obtain ⟨⟨head, merge⟩, rfl, rfl⟩ := ht htail
    obtain ⟨e, he⟩ := entry_some rest h
    refine ⟨head, merge, _, _, rfl, rfl, hb _ List.mem_cons_self, rfl, rfl, rfl, ?_, ?_,
      ih tail _ _ h ht (fun b hb' => hb b (List.mem_cons_of_mem _ hb'))⟩
    · cases brk <;> rfl
    · rw [he]; rfl

theorem wellFormed_of_spelled {all : List (BasicBlock X)} : ∀ (s : Program) (tail : Bool) (lp : Option (BlockId × BlockId))
    (k : Option BlockId) (avoid : List BlockId), s.SpelledBy all lp k → s.Nested avoid k →
    (∀ p, lp = some p → p.1 ∈ avoid ∧ (k = some p.1 → tail = true)) → s.WellFormed tail k.isSome := by
  intro s
  induction s with
  | done =>
    intro tail lp k avoid h _ _
    exact Option.isSome_iff_ne_none.mpr h
  | ret id =>
    intro tail lp k avoid h _ _
    rw [h.1]; rfl
  | atom id rest ih =>
    intro tail lp k avoid h hn ht
    exact ih tail lp k avoid h.2 hn.2 ht
  | sel id l r hh w rest ihl ihr ih =>
    intro tail lp k avoid h hn ht
    obtain ⟨b, op, sm, -, -, -, -, -, he, -, -, hl, hr, h⟩ := h
    obtain ⟨-, hnl, hnr, hn⟩ := hn
    rw [he] at hnl hnr
    have ht' : ∀ p, lp = some p → p.1 ∈ (some (⟨sm.merge_block.val⟩ : BlockId)).toList ++ avoid ∧
        (some (⟨sm.merge_block.val⟩ : BlockId) = some p.1 → (tail && rest.finished) = true) := by
      intro p hp
      refine ⟨List.mem_append_right _ (ht p hp).1, fun hk => ?_⟩
      rw [← he] at hk
      cases rest
      case done => rw [(ht p hp).2 hk]; rfl
      all_goals
        cases hk
        first | exact absurd (ht p hp).1 hn | exact absurd (ht p hp).1 hn.1
    exact ⟨ihl _ lp _ _ hl hnl ht', ihr _ lp _ _ hr hnr ht', ih tail lp k avoid h hn ht⟩
  | loop id body hh rest ihb ih =>
    intro tail lp k avoid h hn ht
    obtain ⟨b, op, lm, -, -, -, -, -, -, hb, h⟩ := h
    obtain ⟨-, hnb, hn⟩ := hn
    refine ⟨ihb true _ (some id) _ hb hnb ?_, ih tail lp k avoid h hn ht⟩
    rintro p ⟨⟩
    exact ⟨List.mem_cons_self, fun _ => rfl⟩
  | exit id brk w rest ih =>
    intro tail lp k avoid h hn ht
    obtain ⟨head, merge, b, op, rfl, rfl, -, -, -, -, -, -, h⟩ := h
    exact ⟨(ht _ rfl).2 rfl, ih tail _ _ avoid h hn.2 ht⟩

end Spec.Program
end Magma
