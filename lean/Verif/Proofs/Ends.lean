import Verif.Spec.Ends
import Verif.Proofs.Expressible
import Mathlib.Data.List.Dedup
/-! Programs in which blocks occur more than once. -/

namespace Magma
open Spec
variable {X : Type}

/-- A block that ends in a given way -/
def blockFor (id : BlockId) : BlockEnd → BasicBlock X
  | .goto t => bareBlock id none (.OpBranch ⟨⟨t⟩⟩)
  | .gotoLoop t m h => bareBlock id (some (.OpLoopMerge ⟨⟨m⟩, ⟨id.val⟩, h⟩)) (.OpBranch ⟨⟨t⟩⟩)
  | .gotoSelection t m h => bareBlock id (some (.OpSelectionMerge ⟨⟨m⟩, h⟩)) (.OpBranch ⟨⟨t⟩⟩)
  | .choose t f w => bareBlock id none (.OpBranchConditional ⟨⟨0⟩, ⟨t⟩, ⟨f⟩, w⟩)
  | .chooseLoop t f w m h =>
    bareBlock id (some (.OpLoopMerge ⟨⟨m⟩, ⟨id.val⟩, h⟩)) (.OpBranchConditional ⟨⟨0⟩, ⟨t⟩, ⟨f⟩, w⟩)
  | .chooseSelection t f w m h =>
    bareBlock id (some (.OpSelectionMerge ⟨⟨m⟩, h⟩)) (.OpBranchConditional ⟨⟨0⟩, ⟨t⟩, ⟨f⟩, w⟩)
  | .returns => bareBlock id none (.OpReturn {})

theorem blockFor_label (id : BlockId) (e : BlockEnd) : labelId (blockFor (X := X) id e) = id.val := by
  cases e <;> rfl

namespace Spec.Program

theorem blocks_ends : ∀ (s : Program) (lp : Option (BlockId × BlockId)) (k : Option BlockId),
    s.blocks (X := X) lp k = (s.ends lp k).map (fun p => blockFor p.1 p.2) := by
  intro s
  induction s with
  | done => intros; rfl
  | ret => intros; rfl
  | atom id rest ih => intro lp k; simp only [blocks, ends, List.map_cons, ih]; rfl
  | sel id l r h w rest ihl ihr ih =>
    intro lp k; simp only [blocks, ends, List.map_cons, List.map_append, ih, ihl, ihr]; rfl
  | loop id b h rest ihb ih =>
    intro lp k; simp only [blocks, ends, List.map_cons, List.map_append, ih, ihb]; rfl
  | exit id b w rest ih => intro lp k; simp only [blocks, ends, List.map_cons, ih]; rfl

theorem ends_ids : ∀ (s : Program) (lp : Option (BlockId × BlockId)) (k : Option BlockId),
    (s.ends lp k).map Prod.fst = s.ids := by
  intro s
  induction s with
  | done => intros; rfl
  | ret => intros; rfl
  | atom id rest ih => intro lp k; simp [ends, ids, ih]
  | sel id l r h w rest ihl ihr ih => intro lp k; simp [ends, ids, ih, ihl, ihr]
  | loop id b h rest ihb ih => intro lp k; simp [ends, ids, ih, ihb]
  | exit id b w rest ih => intro lp k; simp [ends, ids, ih]

/-- In a function that spells the program, the blocks end as they have to. -/
theorem ends_spelled {all : List (BasicBlock X)} : ∀ (s : Program) (lp : Option (BlockId × BlockId))
    (k : Option BlockId), s.SpelledBy all lp k →
    ∀ p ∈ s.ends lp k, ∃ b, blockOf all p.1 = some b ∧ endOf b = p.2 := by
  intro s
  induction s with
  | done => intro lp k _ p hp; cases hp
  | ret id =>
    intro lp k h p hp
    obtain ⟨-, b, r, hb, hr⟩ := h
    cases List.mem_singleton.mp hp
    exact ⟨b, hb, by rw [endOf, hr]⟩
  | atom id rest ih =>
    intro lp k h p hp
    obtain ⟨⟨b, op, hb, hm, hbr, he⟩, h⟩ := h
    rcases List.mem_cons.mp hp with rfl | hp
    · exact ⟨b, hb, by rw [endOf, hbr, hm, he]; rfl⟩
    · exact ih lp k h p hp
  | sel id l r hh w rest ihl ihr ih =>
    intro lp k h p hp
    obtain ⟨b, op, sm, hb, hm, hbr, hh', hw, he, hel, her, hl, hr, h⟩ := h
    rw [ends, he, hel, her] at hp
    rcases List.mem_cons.mp hp with rfl | hp
    · exact ⟨b, hb, by rw [endOf, hbr, hm]; simp only [← hh', ← hw]; rfl⟩
    · rcases List.mem_append.mp hp with hp | hp
      · rcases List.mem_append.mp hp with hp | hp
        · exact ihl _ _ hl p hp
        · exact ihr _ _ hr p hp
      · exact ih lp k h p hp
  | loop id body hh rest ihb ih =>
    intro lp k h p hp
    obtain ⟨b, op, lm, hb, hm, hbr, hh', he, heb, hbody, h⟩ := h
    rw [ends, he, heb] at hp
    rcases List.mem_cons.mp hp with rfl | hp
    · exact ⟨b, hb, by rw [endOf, hbr, hm]; simp only [← hh']; rfl⟩
    · rcases List.mem_append.mp hp with hp | hp
      · exact ihb _ _ hbody p hp
      · exact ih lp k h p hp
  | exit id brk w rest ih =>
    intro lp k h p hp
    obtain ⟨head, merge, b, op, rfl, rfl, hb, hm, hbr, hw, hf, he, h⟩ := h
    rw [ends, he] at hp
    rcases List.mem_cons.mp hp with rfl | hp
    · refine ⟨b, hb, ?_⟩
      rw [endOf, hbr, hm]
      simp only [← hw]
      have : op.false_label.val = (if brk then merge else head).val := by rw [← hf]
      rw [this]
      rfl
    · exact ih _ _ h p hp

end Spec.Program
end Magma
