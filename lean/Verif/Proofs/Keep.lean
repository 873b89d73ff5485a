import Verif.Spec.Keep
import Verif.Proofs.Excerpt
import Verif.Proofs.Meaning
/-! Lemmas: removing blocks. -/

namespace Magma.Keep
open Spec Spec.Program Excerpt
variable {X S : Type}

/-- The outcome is the same, or there is no block for a label that is gone. -/
def Less {α : Type} (gone : BlockId → Prop) (r r' : CF α) : Prop :=
  r' = r ∨ ∃ x, gone x ∧ r' = .error (.err (.UnknownBlockId x))

theorem Less.bind {α β : Type} {gone : BlockId → Prop} {r r' : CF α} {k k' : α → CF β} (h : Less gone r r')
    (hk : ∀ a, Less gone (k a) (k' a)) : Less gone (r >>= k) (r' >>= k') := by
  rcases h with rfl | ⟨x, hx, rfl⟩
  · cases r' with
    | error e => exact .inl rfl
    | ok a => exact hk a
  · exact .inr ⟨x, hx, rfl⟩

theorem Less.rfl {α : Type} {gone : BlockId → Prop} {r : CF α} : Less gone r r := .inl _root_.rfl

theorem step_less {gone : BlockId → Prop} {get get' : BlockId → Option (BasicBlock X)}
    {s s' : BlockId → FlowList → CF (ControlFlowChain × Continue)} (hs : ∀ id fl, Less gone (s id fl) (s' id fl))
    (hg : ∀ id, get' id = get id ∨ (gone id ∧ get' id = none)) (id : BlockId) (fl : FlowList) :
    Less gone (searchStep get s id fl) (searchStep get' s' id fl) := by
  rw [searchStep, searchStep]
  by_cases hm : fl.merges id = true
  · rw [if_pos hm, if_pos hm]
    exact .rfl
  · rw [if_neg hm, if_neg hm]
    rcases hg id with hg | ⟨hx, hg⟩
    · rw [hg]
      cases get id with
      | none => exact .rfl
      | some b =>
        obtain ⟨label, code, merge, branch⟩ := b
        cases branch with
        | OpReturn r => exact .rfl
        | OpBranch op =>
          cases merge with
          | none => exact (hs _ _).bind fun _ => .rfl
          | some mg =>
            cases mg with
            | OpSelectionMerge _ => exact .rfl
            | OpLoopMerge lm =>
              refine (hs _ _).bind fun r => ?_
              by_cases hn : r.2 = .Next id
              · rw [if_pos hn, if_pos hn]
                exact (hs _ _).bind fun _ => .rfl
              · rw [if_neg hn, if_neg hn]
                exact .rfl
        | OpBranchConditional op =>
          cases merge with
          | some mg =>
            cases mg with
            | OpLoopMerge _ => exact .rfl
            | OpSelectionMerge sm =>
              refine (hs _ _).bind fun r1 => (hs _ _).bind fun r2 => ?_
              by_cases hn : r1.2 = r2.2 ∧ r1.2 = .Next ⟨sm.merge_block.val⟩
              · rw [if_pos hn, if_pos hn]
                exact (hs _ _).bind fun _ => .rfl
              · rw [if_neg hn, if_neg hn]
                exact .rfl
          | none =>
            simp only
            cases fl.innermostLoop with
            | none => exact .rfl
            | some hd =>
              obtain ⟨head, merge⟩ := hd
              simp only
              by_cases hb : (⟨op.false_label.val⟩ : BlockId) = merge ∨ (⟨op.false_label.val⟩ : BlockId) = head
              · rw [if_pos hb, if_pos hb]
                exact (hs _ _).bind fun _ => .rfl
              · rw [if_neg hb, if_neg hb]
                exact .rfl
    · rw [hg]
      exact .inr ⟨id, hx, _root_.rfl⟩

theorem search_less {gone : BlockId → Prop} {map map' : BlockMap X}
    (hg : ∀ id, map'.get id = map.get id ∨ (gone id ∧ map'.get id = none)) : ∀ (fuel : Nat) (id : BlockId) (fl : FlowList),
    Less gone (searchBlock map fuel id fl) (searchBlock map' fuel id fl)
  | 0, _, _ => .rfl
  | fuel + 1, id, fl => by
    rw [searchBlock_succ, searchBlock_succ]
    exact step_less (search_less hg fuel) hg id fl

/-- The blocks of a program are all that matters for it. -/
theorem spelt_sub {ends ends' : BlockId → Option BlockEnd} {s : Program} : ∀ {lp : Option (BlockId × BlockId)}
    {k : Option BlockId}, (∀ x ∈ s.ids, ∀ e, ends x = some e → ends' x = some e) → Spelt ends lp k s → Spelt ends' lp k s := by
  induction s with
  | done => exact fun _ h => h
  | ret id => exact fun hx h => ⟨h.1, hx _ List.mem_cons_self _ h.2⟩
  | atom id rest ih =>
    rintro lp k hx ⟨⟨t, h1, h2⟩, h3⟩
    exact ⟨⟨t, hx _ List.mem_cons_self _ h1, h2⟩, ih (fun x h => hx x (List.mem_cons_of_mem _ h)) h3⟩
  | exit id brk w rest ih =>
    rintro lp k hx ⟨h, m, t, f, h1, h2, h3, h4, h5, h6⟩
    exact ⟨h, m, t, f, h1, h2, hx _ List.mem_cons_self _ h3, h4, h5, ih (fun x h => hx x (List.mem_cons_of_mem _ h)) h6⟩
  | loop id body hint rest ihb ih =>
    rintro lp k hx ⟨t, m, h1, h2, h3, h4, h5⟩
    simp only [ids, List.mem_cons, List.mem_append] at hx
    exact ⟨t, m, hx _ (.inl rfl) _ h1, h2, h3, ihb (fun x h => hx x (.inr (.inl h))) h4,
      ih (fun x h => hx x (.inr (.inr h))) h5⟩
  | sel id left right hint w rest ihl ihr ih =>
    rintro lp k hx ⟨t, f, m, h1, h2, h3, h4, h5, h6, h7⟩
    simp only [ids, List.mem_cons, List.mem_append] at hx
    exact ⟨t, f, m, hx _ (.inl rfl) _ h1, h2, h3, h4, ihl (fun x h => hx x (.inr (.inl (.inl h)))) h5,
      ihr (fun x h => hx x (.inr (.inl (.inr h)))) h6, ih (fun x h => hx x (.inr (.inr h))) h7⟩

/-- An execution that never misses a block is the same with more blocks. -/
theorem run_more {M : Machine X S} {blocks blocks' : List (BasicBlock X)}
    (hb : ∀ id b, blockOf blocks' id = some b → blockOf blocks id = some b) : ∀ (n : Nat) (id : BlockId) (c : Config S),
    (runMachine M blocks' n id c).2.2 ≠ .stuck → runMachine M blocks' n id c = runMachine M blocks n id c
  | 0, _, _, _ => rfl
  | n + 1, id, c, h => by
    rw [runMachine] at h
    rw [runMachine, runMachine]
    cases hg : blockOf blocks' id with
    | none => rw [hg] at h; exact absurd rfl h
    | some b =>
      rw [hg] at h
      rw [hb id b hg]
      cases hbr : b.branch with
      | OpReturn op => simp only [hbr]
      | OpBranch op =>
        simp only [hbr] at h ⊢
        rw [run_more hb n _ _ h]
      | OpBranchConditional op =>
        simp only [hbr] at h ⊢
        rw [run_more hb n _ _ h]

end Magma.Keep
