import Verif.Proofs.Sequence
import Verif.Spec.Insert
/-! The search in a function with another one inserted. -/

namespace Magma.Insert
open Spec Split Sequence
variable {X : Type}

/-- What becomes of the result of a search -/
def insertResult (x : UInt32) (c : ControlFlowChain) :
    CF (ControlFlowChain × Continue) → CF (ControlFlowChain × Continue)
  | .ok r => .ok (insertChain x c r.1, r.2)
  | .error e => .error e

theorem insert_diverges {x : UInt32} {c : ControlFlowChain} {r : CF (ControlFlowChain × Continue)} :
    Diverges (insertResult x c r) ↔ Diverges r := by
  cases r with
  | ok r => exact ⟨nofun, nofun⟩
  | error e => exact .rfl

theorem insert_bind {x : UInt32} {c : ControlFlowChain} {dir : Bool} {a b : CF (ControlFlowChain × Continue)}
    {f g : ControlFlowChain × Continue → CF (ControlFlowChain × Continue)}
    (hx : Halts dir a b → b = insertResult x c a)
    (hf : ∀ r, a = .ok r → Halts dir (f r) (g (insertChain x c r.1, r.2)) →
      g (insertChain x c r.1, r.2) = insertResult x c (f r))
    (h : Halts dir (a >>= f) (b >>= g)) : (b >>= g) = insertResult x c (a >>= f) := by
  have hb := hx (halts_bind h)
  subst hb
  cases a with
  | error e => rfl
  | ok r => exact hf r rfl h

theorem insertItems_append (x : UInt32) (c : ControlFlowChain) (as bs : List ControlFlowChain) :
    insertItems x c (as ++ bs) = insertItems x c as ++ insertItems x c bs := by
  induction as with
  | nil => rfl
  | cons a as ih => simp only [List.cons_append, insertItems, ih, List.append_assoc]

theorem itemsOf_insert (x : UInt32) (c a : ControlFlowChain) :
    itemsOf (insertChain x c a) = insertItems x c (itemsOf a) := by
  cases a <;> simp [itemsOf, insertItems, insertChain]

theorem insert_block2 (x : UInt32) (c a b : ControlFlowChain) :
    insertChain x c (.block [a, b]) = .block [insertChain x c a, insertChain x c b] := by
  rw [block2, block2, itemsOf_insert, itemsOf_insert, insertChain, insertItems_append]

/-- None of the blocks `N` merges. -/
def NoMerge (N : UInt32 → Prop) (fl : FlowList) : Prop := ∀ n, N n → FlowList.merges fl ⟨n⟩ = false

section
variable {x : UInt32} {c : ControlFlowChain} {N : UInt32 → Prop} {dir : Bool}
  {s s' : BlockId → FlowList → CF (ControlFlowChain × Continue)}
  (hs : ∀ id fl, ¬ N id.val → NoMerge N fl → Halts dir (s id fl) (s' id fl) → s' id fl = insertResult x c (s id fl))
include hs

/-- A block where nothing is inserted -/
theorem endStep_other {id : BlockId} {fl : FlowList} {e : Option BlockEnd} (hx : id.val ≠ x) (hn : ¬ N id.val)
    (hfl : NoMerge N fl) (he : ∀ e', e = some e' → ∀ t ∈ e'.names, ¬ N t)
    (h : Halts dir (endStep s id fl e) (endStep s' id fl e)) :
    endStep s' id fl e = insertResult x c (endStep s id fl e) := by
  cases e with
  | none => rfl
  | some e =>
    have he := he e rfl
    cases e with
    | returns => simp only [endStep, insertResult, insertChain, if_neg hx]
    | gotoSelection t m h => rfl
    | chooseLoop t f w m h => rfl
    | goto t =>
      simp only [BlockEnd.names, List.mem_cons, List.not_mem_nil, or_false, forall_eq] at he
      refine insert_bind (hs _ _ he hfl) (fun r _ _ => ?_) h
      show Except.ok _ = Except.ok _
      rw [insert_block2]
      simp only [insertChain, if_neg hx]
    | gotoLoop t m hint =>
      simp only [BlockEnd.names, List.mem_cons, List.not_mem_nil, or_false, forall_eq_or_imp, forall_eq] at he
      have hfl' : NoMerge N (.Loop id ⟨m⟩ hint :: fl) := fun n hN => by
        rw [FlowList.merges, if_neg (fun (e : id = ⟨n⟩) => hn (by rw [e]; exact hN)), hfl n hN]
      refine insert_bind (hs _ _ he.1 hfl') (fun r _ hr => ?_) h
      by_cases hk : r.2 = .Next id
      · simp only [if_pos hk] at hr ⊢
        refine insert_bind (hs _ _ he.2 hfl) (fun r _ _ => ?_) hr
        show Except.ok _ = Except.ok _
        rw [insert_block2]
        simp only [insertChain]
      · simp only [if_neg hk, insertResult]
    | chooseSelection t f w m hint =>
      simp only [BlockEnd.names, List.mem_cons, List.not_mem_nil, or_false, forall_eq_or_imp, forall_eq] at he
      have hfl' : NoMerge N (.If ⟨m⟩ hint :: fl) := fun n hN => by
        rw [FlowList.merges, if_neg (fun (e : (⟨m⟩ : BlockId) = ⟨n⟩) => he.2.2 (by cases e; exact hN)), hfl n hN]
      refine insert_bind (hs _ _ he.1 hfl') (fun r _ hr => ?_) h
      refine insert_bind (hs _ _ he.2.1 hfl') (fun r2 _ hr => ?_) hr
      by_cases hk : r.2 = r2.2 ∧ r.2 = .Next ⟨m⟩
      · simp only [if_pos hk] at hr ⊢
        refine insert_bind (hs _ _ he.2.2 hfl) (fun r _ _ => ?_) hr
        show Except.ok _ = Except.ok _
        rw [insert_block2]
        simp only [insertChain]
      · simp only [if_neg hk, insertResult]
    | choose t f w =>
      simp only [BlockEnd.names, List.mem_cons, List.not_mem_nil, or_false, forall_eq_or_imp, forall_eq] at he
      simp only [endStep] at h ⊢
      cases hi : fl.innermostLoop with
      | none => simp only [insertResult]
      | some p =>
        obtain ⟨a, m⟩ := p
        simp only [hi] at h ⊢
        by_cases hb : (⟨f⟩ : BlockId) = m ∨ (⟨f⟩ : BlockId) = a
        · simp only [if_pos hb] at h ⊢
          refine insert_bind (hs _ _ he.1 hfl) (fun r _ hr => ?_) h
          by_cases hk : r.2 = .Next a
          · simp only [if_pos hk]
            show Except.ok _ = Except.ok _
            by_cases hm : (⟨f⟩ : BlockId) = m
            · simp only [if_pos hm, insertChain]
            · simp only [if_neg hm, insertChain]
          · simp only [if_neg hk, insertResult]
        · simp only [if_neg hb, insertResult]

end

/-- The maps of the two functions: `F` is the depth of the function inserted. -/
structure Maps (x start t : UInt32) (c : ControlFlowChain) (F : Nat) (N : UInt32 → Prop) (map map' : BlockMap X) :
    Prop where
  first : (map'.get ⟨x⟩).map endOf = some (.goto start)
  before : (map.get ⟨x⟩).map endOf = some (.goto t)
  other : ∀ id : BlockId, id.val ≠ x → ¬ N id.val → (map'.get id).map endOf = (map.get id).map endOf
  fresh : ∀ id e, (map.get id).map endOf = some e → ∀ t ∈ e.names, ¬ N t
  goes : ∀ fl, NoMerge N fl → ∀ k, ¬ Diverges (searchBlock map' k ⟨t⟩ fl) →
    searchBlock map' (k + F) ⟨start⟩ fl = (searchBlock map' k ⟨t⟩ fl >>= andThen c)
  comes : ∀ fl, NoMerge N fl → ∀ k, ¬ Diverges (searchBlock map' k ⟨start⟩ fl) → ¬ Diverges (searchBlock map' k ⟨t⟩ fl)

theorem at_insert (x : UInt32) (c : ControlFlowChain) (r : CF (ControlFlowChain × Continue)) :
    ((insertResult x c r >>= andThen c) >>= fun r =>
      (.ok (.block [.Atom ⟨x⟩, r.1], r.2) : CF (ControlFlowChain × Continue))) =
    insertResult x c (r >>= fun r => .ok (.block [.Atom ⟨x⟩, r.1], r.2)) := by
  cases r with
  | error e => rfl
  | ok r =>
    show Except.ok _ = Except.ok _
    rw [insert_block2, block2, block2, insertChain, if_pos rfl]
    simp only [itemsOf, List.cons_append, List.nil_append]

theorem search_forth {x start t : UInt32} {c : ControlFlowChain} {F : Nat} {N : UInt32 → Prop} {map map' : BlockMap X}
    (hm : Maps x start t c F N map map') : ∀ k id fl, ¬ N id.val → NoMerge N fl →
    ¬ Diverges (searchBlock map k id fl) →
    searchBlock map' (k * (F + 1)) id fl = insertResult x c (searchBlock map k id fl) := by
  intro k
  induction k with
  | zero => intro id fl _ _ h; exact absurd rfl h
  | succ k ih =>
    intro id fl hid hfl h
    rw [searchBlock_succ] at h ⊢
    rw [Nat.succ_mul, ← Nat.add_assoc, searchBlock_succ]
    rw [searchStep_eq] at h ⊢
    rw [searchStep_eq]
    by_cases hg : fl.merges id = true
    · rw [if_pos hg, if_pos hg]
      rfl
    · rw [if_neg hg] at h ⊢
      rw [if_neg hg]
      by_cases hx : id.val = x
      · obtain ⟨v⟩ := id
        obtain rfl : v = x := hx
        rw [hm.before] at h ⊢
        rw [hm.first]
        have ht : ¬ N t := hm.fresh _ _ hm.before t (by simp [BlockEnd.names])
        have h1 : ¬ Diverges (searchBlock map k ⟨t⟩ fl) := halts_left h
        have h2 := ih ⟨t⟩ fl ht hfl h1
        have h3 := hm.goes fl hfl (k * (F + 1)) (by rw [h2]; exact fun hd => h1 (insert_diverges.mp hd))
        simp only [endStep]
        rw [h3, h2]
        exact at_insert _ _ _
      · rw [hm.other id hx hid]
        refine endStep_other (dir := true) (N := N) (fun id fl h1 h2 h3 => ?_) hx hid hfl (fun e he => hm.fresh _ _ he) h
        have hb := ih id fl h1 h2 h3
        rw [searchBlock_mono (Nat.le_add_right _ _), hb]
        rw [hb]
        exact fun hd => h3 (insert_diverges.mp hd)

theorem search_back {x start t : UInt32} {c : ControlFlowChain} {F : Nat} {N : UInt32 → Prop} {map map' : BlockMap X}
    (hm : Maps x start t c F N map map') : ∀ k id fl, ¬ N id.val → NoMerge N fl →
    ¬ Diverges (searchBlock map' k id fl) →
    searchBlock map' k id fl = insertResult x c (searchBlock map k id fl) := by
  intro k
  induction k with
  | zero => intro id fl _ _ h; exact absurd rfl h
  | succ k ih =>
    intro id fl hid hfl h
    rw [searchBlock_succ] at h ⊢
    rw [searchBlock_succ]
    rw [searchStep_eq] at h ⊢
    rw [searchStep_eq]
    by_cases hg : fl.merges id = true
    · rw [if_pos hg, if_pos hg]
      rfl
    · rw [if_neg hg] at h ⊢
      rw [if_neg hg]
      by_cases hx : id.val = x
      · obtain ⟨v⟩ := id
        obtain rfl : v = x := hx
        rw [hm.first] at h ⊢
        rw [hm.before]
        have ht : ¬ N t := hm.fresh _ _ hm.before t (by simp [BlockEnd.names])
        have h1 : ¬ Diverges (searchBlock map' k ⟨start⟩ fl) := halts_left h
        have h2 := hm.comes fl hfl k h1
        have h3 := hm.goes fl hfl k h2
        rw [searchBlock_mono (Nat.le_add_right _ _) h1, ih ⟨t⟩ fl ht hfl h2] at h3
        simp only [endStep]
        rw [h3]
        exact at_insert _ _ _
      · rw [hm.other id hx hid] at h ⊢
        exact endStep_other (dir := false) (N := N) ih hx hid hfl (fun e he => hm.fresh _ _ he) h

/-! ### The whole function -/

theorem firstDup_before : ∀ (as bs seen : List UInt32), bs.Nodup → (∀ b ∈ bs, b ∉ as ∧ b ∉ seen) →
    firstDup seen (as ++ bs) = firstDup seen as := by
  intro as
  induction as with
  | nil =>
    intro bs seen hn hb
    exact (firstDup_nodup bs seen).mpr ⟨hn, fun b hm => (hb b hm).2⟩
  | cons a as ih =>
    intro bs seen hn hb
    rw [List.cons_append, firstDup, firstDup, ih bs _ hn]
    intro b hm
    refine ⟨fun h => (hb b hm).1 (List.mem_cons_of_mem _ h), fun h => ?_⟩
    rcases List.mem_cons.mp h with rfl | h
    · exact (hb b hm).1 List.mem_cons_self
    · exact (hb b hm).2 h

theorem last_insert (x : UInt32) (c : ControlFlowChain) (r : CF (ControlFlowChain × Continue)) :
    (insertResult x c r >>= last) = insertOutcome x c (r >>= last) := by
  cases r with
  | error e => rfl
  | ok r =>
    obtain ⟨c', k⟩ := r
    cases k <;> rfl

theorem endOf_goTo {b : BasicBlock X} {t : UInt32} (h : endOf b = .goto t) (start : UInt32) :
    endOf (goTo b start) = .goto start := by
  obtain ⟨label, code, merge, branch⟩ := b
  cases branch with
  | OpReturn r => cases h
  | OpBranch op => cases merge with
    | none => rfl
    | some m => cases m <;> cases h
  | OpBranchConditional op => cases merge with
    | none => cases h
    | some m => cases m <;> cases h

theorem find_insert {f g h : FunctionDefinition X} {b : BasicBlock X} {t : UInt32} (hi : IsInserted f g h b t)
    {F : Nat} {c : ControlFlowChain} (hf : findControlFlow F f = .ok c) (k : Nat) :
    (¬ Diverges (findControlFlow k g) →
      findControlFlow (k * (F + 1)) h = insertOutcome (labelId b) c (findControlFlow k g)) ∧
    (¬ Diverges (findControlFlow k h) → findControlFlow k h = insertOutcome (labelId b) c (findControlFlow k g)) := by
  obtain ⟨hgo, ⟨pre, post, first, more, hg, hfb, hh⟩, ha⟩ := hi
  rcases find_cases f F with ⟨d, -, h2⟩ | ⟨-, hn, h3⟩
  · rw [h2] at hf
    cases hf
  have hlabels : h.blocks.map labelId = g.blocks.map labelId ++ f.blocks.map labelId := by
    rw [hh, hg, List.map_append, List.map_map]
    congr 1
    · simp only [List.map_append, List.map_cons]
      rfl
    · exact List.map_congr_left fun b _ => labelId_goOn t b
  have hl : firstDup [] (h.blocks.map labelId) = firstDup [] (g.blocks.map labelId) := by
    rw [hlabels]
    refine firstDup_before _ _ _ hn fun a ha1 => ⟨fun ha2 => ?_, List.not_mem_nil⟩
    obtain ⟨b, hb, rfl⟩ := List.mem_map.mp ha1
    obtain ⟨b', hb', he⟩ := List.mem_map.mp ha2
    exact ha.labels b hb b' hb' he.symm
  have hdup : ∀ d, firstDup [] (g.blocks.map labelId) = some d → ∀ k,
      findControlFlow k g = .error (.err (.DuplicateBlockId ⟨d⟩)) ∧
      findControlFlow k h = .error (.err (.DuplicateBlockId ⟨d⟩)) := by
    intro d hd k
    constructor
    · rcases find_cases g k with ⟨d', h1', h2'⟩ | ⟨h1', -, -⟩
      · rw [hd] at h1'
        rw [h2', Option.some.inj h1']
      · rw [hd] at h1'; cases h1'
    · rcases find_cases h k with ⟨d', h1', h2'⟩ | ⟨h1', -, -⟩
      · rw [hl, hd] at h1'
        rw [h2', Option.some.inj h1']
      · rw [hl, hd] at h1'; cases h1'
  cases hd : firstDup [] (g.blocks.map labelId) with
  | some d =>
    rw [(hdup d hd k).1, (hdup d hd (k * (F + 1))).2, (hdup d hd k).2]
    exact ⟨fun _ => rfl, fun _ => rfl⟩
  | none =>
    obtain ⟨map, m1, m2⟩ := h3 first more hfb
    have hsearch : searchBlock map F ⟨labelId first⟩ [] = .ok (c, .Return) := by
      rw [hf] at m2
      obtain ⟨r, h1, h2⟩ := bind_ok_iff.mp m2.symm
      obtain ⟨c', k'⟩ := r
      cases k' with
      | Next t => cases h2
      | Return => cases h2; exact h1
    have hgn := ((firstDup_nodup _ _).mp hd).1
    obtain ⟨g0, gm, hg0, hg0f⟩ : ∃ g0 gm, g.blocks = g0 :: gm ∧ ∃ h0 hm, h.blocks = h0 :: hm ∧ labelId h0 = labelId g0 := by
      cases pre with
      | nil => exact ⟨b, post, hg, goTo b (labelId first), _, hh, rfl⟩
      | cons p ps => exact ⟨p, ps ++ b :: post, hg, p, _, hh, rfl⟩
    obtain ⟨h0, hmore, hh0, hlab⟩ := hg0f
    have hG : ∃ mg : BlockMap X, mg.get = blockOf g.blocks ∧
        ∀ k, findControlFlow k g = (searchBlock mg k ⟨labelId g0⟩ [] >>= last) := by
      obtain ⟨mg, h1, h2⟩ := build_iff g.blocks hgn
      refine ⟨mg, h2, fun k => ?_⟩
      rw [findControlFlow, h1, cok_bind]
      simp only [hg0]
      rfl
    have hH : ∃ mh : BlockMap X, mh.get = blockOf h.blocks ∧
        ∀ k, findControlFlow k h = (searchBlock mh k ⟨labelId g0⟩ [] >>= last) := by
      obtain ⟨mh, h1, h2⟩ := build_iff h.blocks ((firstDup_nodup _ _).mp (hl.trans hd)).1
      refine ⟨mh, h2, fun k => ?_⟩
      rw [findControlFlow, h1, cok_bind]
      simp only [hh0]
      have e : (⟨h0.label.result_id.val⟩ : BlockId) = ⟨labelId g0⟩ := congrArg BlockId.mk hlab
      rw [e]
      rfl
    obtain ⟨mg, g1, g2⟩ := hG
    obtain ⟨mh, e1, e2⟩ := hH
    let N : UInt32 → Prop := fun n => ∃ a ∈ f.blocks, labelId a = n
    have hnotN : ∀ a ∈ g.blocks, ¬ N (labelId a) := by
      rintro a ha' ⟨a', hfa, he⟩
      exact ha.labels a' hfa a ha' he
    have hpre : ∀ a ∈ pre, labelId a ≠ labelId b := by
      intro a ha' he
      rw [hg, List.map_append, List.map_cons, List.nodup_append] at hgn
      exact hgn.2.2 _ (List.mem_map_of_mem ha') _ List.mem_cons_self he
    have hfm : ∀ id e, (map.get id).map endOf = some e → (mh.get id).map endOf = some (endOn t e) ∧ N id.val := by
      intro id e he
      rw [m1] at he
      cases hb : blockOf f.blocks id with
      | none => rw [hb] at he; cases he
      | some a =>
        have hin := blockOf_some hb
        have hNid : N id.val := ⟨a, hin.1, hin.2⟩
        have hnone : blockOf (pre ++ goTo b (labelId first) :: post) id = none := by
          refine blockOf_none.mpr fun a' ha' he' => ?_
          have : ∃ a'' ∈ g.blocks, labelId a'' = id.val := by
            rw [hg]
            rcases List.mem_append.mp ha' with h1 | h1
            · exact ⟨a', List.mem_append_left _ h1, he'⟩
            · rcases List.mem_cons.mp h1 with rfl | h1
              · exact ⟨b, by simp, he'⟩
              · exact ⟨a', by simp [h1], he'⟩
          obtain ⟨a'', h1, h2⟩ := this
          exact hnotN a'' h1 (by rw [h2]; exact hNid)
        rw [hb] at he
        obtain rfl : endOf a = e := Option.some.inj he
        rw [e1, hh, blockOf_append, hnone, Option.none_or, blockOf_map, hb]
        refine ⟨?_, hNid⟩
        show some (endOf (goOn _ a)) = _
        rw [endOf_goOn]
    have hmaps : Maps (labelId b) (labelId first) t c F N mg mh := by
      refine ⟨?_, ?_, ?_, ?_, ?_, ?_⟩
      · rw [e1, hh, blockOf_append, blockOf_append,
          blockOf_none.mpr (show ∀ c ∈ pre, labelId c ≠ BlockId.val ⟨labelId b⟩ from hpre), blockOf_cons,
          if_pos (show labelId (goTo b (labelId first)) = labelId b from rfl), Option.none_or, Option.some_or]
        exact congrArg some (endOf_goTo hgo _)
      · rw [g1, hg, blockOf_append, blockOf_none.mpr (show ∀ c ∈ pre, labelId c ≠ BlockId.val ⟨labelId b⟩ from hpre),
          blockOf_cons, if_pos rfl, Option.none_or]
        exact congrArg some hgo
      · intro id h1 h2
        have hnone : blockOf (f.blocks.map (goOn t)) id = none := by
          rw [blockOf_map, blockOf_none.mpr fun a ha' he => h2 ⟨a, ha', he⟩]
          rfl
        rw [e1, g1, hh, hg, blockOf_append, hnone, Option.or_none, blockOf_append, blockOf_append, blockOf_cons,
          blockOf_cons, if_neg (Ne.symm h1), if_neg (show labelId (goTo b (labelId first)) ≠ id.val from Ne.symm h1)]
      · rintro id e he n hn' ⟨a, ha1, rfl⟩
        rw [g1] at he
        cases hb : blockOf g.blocks id with
        | none => rw [hb] at he; cases he
        | some a' =>
          rw [hb] at he
          obtain rfl : endOf a' = e := Option.some.inj he
          exact ha.names a ha1 a' (blockOf_some hb).1 hn'
      · intro fl hfl k hk
        exact search_outside (fun id e he => (hfm id e he).1) (fun id e he => hfl _ (hfm id e he).2) hk _ _ _ hsearch
      · intro fl hfl k hk
        exact search_second (fun id e he => (hfm id e he).1) (fun id e he => hfl _ (hfm id e he).2) _ _ _ hsearch k hk
    have hg0N : ¬ N (labelId g0) := hnotN g0 (by rw [hg0]; exact List.mem_cons_self)
    rw [e2, e2, g2]
    constructor
    · intro hk
      rw [search_forth hmaps _ _ _ hg0N (fun _ _ => rfl) (last_diverges hk), last_insert]
    · intro hk
      rw [search_back hmaps _ _ _ hg0N (fun _ _ => rfl) (last_diverges hk), last_insert]

end Magma.Insert
