import Verif.Proofs.Split
import Verif.Spec.Sequence
/-! The search in one function that is followed by another. -/

namespace Magma.Sequence
open Spec Split
variable {X : Type}

/-- What becomes of the end of a block -/
def endOn (start : UInt32) : BlockEnd → BlockEnd
  | .returns => .goto start
  | e => e

theorem endOf_goOn (start : UInt32) (b : BasicBlock X) : endOf (goOn start b) = endOn start (endOf b) := by
  obtain ⟨label, code, merge, branch⟩ := b
  cases branch with
  | OpReturn r => rfl
  | OpBranch op => cases merge with
    | none => rfl
    | some m => cases m <;> rfl
  | OpBranchConditional op => cases merge with
    | none => rfl
    | some m => cases m <;> rfl

theorem labelId_goOn (start : UInt32) (b : BasicBlock X) : labelId (goOn start b) = labelId b := by
  obtain ⟨label, code, merge, branch⟩ := b
  cases branch <;> rfl

theorem bind_ok_iff {α β : Type} {x : CF α} {f : α → CF β} {b : β} :
    (x >>= f) = .ok b ↔ ∃ a, x = .ok a ∧ f a = .ok b := by
  cases x with
  | error e => exact ⟨nofun, nofun⟩
  | ok a => exact ⟨fun h => ⟨a, rfl, h⟩, fun ⟨_, h1, h2⟩ => by cases h1; exact h2⟩

theorem merges_append (fl out : FlowList) (id : BlockId) :
    FlowList.merges (fl ++ out) id = (fl.merges id || out.merges id) := by
  induction fl with
  | nil => rfl
  | cons a fl ih =>
    cases a with
    | If j hint =>
      rw [List.cons_append, FlowList.merges, FlowList.merges, ih]
      by_cases h : j = id <;> simp [h]
    | Loop j m hint =>
      rw [List.cons_append, FlowList.merges, FlowList.merges, ih]
      by_cases h : j = id <;> simp [h]

theorem innermost_append {fl : FlowList} (out : FlowList) {p : BlockId × BlockId} (h : fl.innermostLoop = some p) :
    FlowList.innermostLoop (fl ++ out) = some p := by
  induction fl with
  | nil => cases h
  | cons a fl ih =>
    cases a with
    | If j hint => exact ih h
    | Loop j m hint => exact h

section
variable {start : UInt32} {map map' : BlockMap X} {out : FlowList}
  (hm : ∀ id e, (map.get id).map endOf = some e → (map'.get id).map endOf = some (endOn start e))
  (ho : ∀ id e, (map.get id).map endOf = some e → out.merges id = false)
include hm ho

/-- Inside of constructs nothing changes. -/
theorem search_inside : ∀ fuel id fl c t, searchBlock map fuel id fl = .ok (c, .Next t) →
    searchBlock map' fuel id (fl ++ out) = .ok (c, .Next t) := by
  intro fuel
  induction fuel with
  | zero => intro id fl c t h; cases h
  | succ fuel ih =>
    intro id fl c t h
    rw [searchBlock_succ, searchStep_eq] at h ⊢
    by_cases hg : fl.merges id = true
    · rw [if_pos hg] at h
      rw [if_pos (by rw [merges_append, hg]; rfl)]
      exact h
    · rw [if_neg hg] at h
      cases he : (map.get id).map endOf with
      | none => rw [he] at h; cases h
      | some e =>
        rw [if_neg (by rw [merges_append, ho id e he, Bool.or_false]; exact hg), hm id e he]
        rw [he] at h
        cases e with
        | returns => cases h
        | gotoSelection t m h => cases h
        | chooseLoop t f w m h => cases h
        | goto t' =>
          simp only [endOn, endStep] at h ⊢
          obtain ⟨r, h1, h2⟩ := bind_ok_iff.mp h
          obtain ⟨c', k⟩ := r
          cases h2
          rw [ih _ _ _ _ h1]
          rfl
        | gotoLoop t' m hint =>
          simp only [endOn, endStep] at h ⊢
          obtain ⟨r, h1, h2⟩ := bind_ok_iff.mp h
          obtain ⟨c', k⟩ := r
          by_cases hk : k = .Next id
          · subst hk
            rw [if_pos rfl] at h2
            obtain ⟨r', h3, h4⟩ := bind_ok_iff.mp h2
            obtain ⟨c'', k'⟩ := r'
            cases h4
            rw [← List.cons_append, ih _ _ _ _ h1, cok_bind, if_pos rfl, ih _ _ _ _ h3]
            rfl
          · rw [if_neg hk] at h2
            cases h2
        | chooseSelection t' f w m hint =>
          simp only [endOn, endStep] at h ⊢
          obtain ⟨r, h1, h2⟩ := bind_ok_iff.mp h
          obtain ⟨c1, k1⟩ := r
          obtain ⟨r, h3, h4⟩ := bind_ok_iff.mp h2
          obtain ⟨c2, k2⟩ := r
          by_cases hk : k1 = k2 ∧ k1 = .Next ⟨m⟩
          · rw [if_pos hk] at h4
            obtain ⟨hk1, rfl⟩ := hk
            subst hk1
            obtain ⟨r', h5, h6⟩ := bind_ok_iff.mp h4
            obtain ⟨c3, k3⟩ := r'
            cases h6
            rw [← List.cons_append, ih _ _ _ _ h1, cok_bind, ih _ _ _ _ h3, cok_bind, if_pos ⟨rfl, rfl⟩, ih _ _ _ _ h5]
            rfl
          · rw [if_neg hk] at h4
            cases h4
        | choose t' f w =>
          simp only [endOn, endStep] at h ⊢
          cases hi : fl.innermostLoop with
          | none => rw [hi] at h; cases h
          | some p =>
            obtain ⟨a, m⟩ := p
            simp only [hi] at h
            simp only [innermost_append out hi]
            by_cases hb : (⟨f⟩ : BlockId) = m ∨ (⟨f⟩ : BlockId) = a
            · rw [if_pos hb] at h ⊢
              obtain ⟨r, h1, h2⟩ := bind_ok_iff.mp h
              obtain ⟨c1, k1⟩ := r
              by_cases hk : k1 = .Next a
              · subst hk
                rw [if_pos rfl] at h2
                cases h2
                rw [ih _ _ _ _ h1, cok_bind, if_pos rfl]
                rfl
              · rw [if_neg hk] at h2
                cases h2
            · rw [if_neg hb] at h
              cases h

/-- What comes after a chain -/
def andThen (c : ControlFlowChain) (r : ControlFlowChain × Continue) : CF (ControlFlowChain × Continue) :=
  .ok (.Block (itemsOf c ++ itemsOf r.1), r.2)

omit hm ho in
theorem bind_andThen (r : CF (ControlFlowChain × Continue)) (a c : ControlFlowChain) :
    ((r >>= andThen c) >>= fun r => (.ok (.block [a, r.1], r.2) : CF (ControlFlowChain × Continue))) =
      r >>= andThen (.block [a, c]) := by
  cases r with
  | error e => rfl
  | ok r =>
    show Except.ok _ = Except.ok _
    simp only [block2, itemsOf, List.append_assoc]

omit hm ho in
theorem same_of_halt {map : BlockMap X} {k k' : Nat} {id : BlockId} {fl : FlowList}
    (h : ¬ Diverges (searchBlock map k id fl)) (h' : ¬ Diverges (searchBlock map k' id fl)) :
    searchBlock map k id fl = searchBlock map k' id fl := by
  rw [← searchBlock_mono (Nat.le_max_left k k') h, ← searchBlock_mono (Nat.le_max_right k k') h']

omit hm ho in
theorem halts_mono {map : BlockMap X} {k k' : Nat} {id : BlockId} {fl : FlowList} (hk : k ≤ k')
    (h : ¬ Diverges (searchBlock map k id fl)) : ¬ Diverges (searchBlock map k' id fl) := by
  rw [searchBlock_mono hk h]
  exact h

omit hm ho in
theorem halts_left {α β : Type} {x : CF α} {f : α → CF β} (h : ¬ Diverges (x >>= f)) : ¬ Diverges x :=
  fun hd => h (by rw [show x = .error .diverge from hd]; rfl)

/-- Outside of constructs the search goes on with the second function at the end. -/
theorem search_outside {k : Nat} (hk : ¬ Diverges (searchBlock map' k ⟨start⟩ out)) :
    ∀ fuel id c, searchBlock map fuel id [] = .ok (c, .Return) →
    searchBlock map' (k + fuel) id out = (searchBlock map' k ⟨start⟩ out >>= andThen c) := by
  intro fuel
  induction fuel with
  | zero => intro id c h; cases h
  | succ fuel ih =>
    intro id c h
    have inside : ∀ id a c t, searchBlock map fuel id [a] = .ok (c, .Next t) →
        searchBlock map' (k + fuel) id (a :: out) = .ok (c, .Next t) := by
      intro id a c t h
      have : searchBlock map' fuel id (a :: out) = .ok (c, .Next t) := search_inside hm ho _ _ [a] _ _ h
      rw [searchBlock_mono (Nat.le_add_left fuel k) (by rw [this]; nofun), this]
    rw [← Nat.add_assoc, searchBlock_succ, searchStep_eq]
    rw [searchBlock_succ, searchStep_eq, if_neg (by simp [FlowList.merges])] at h
    cases he : (map.get id).map endOf with
    | none => rw [he] at h; cases h
    | some e =>
      rw [hm id e he, if_neg (by rw [ho id e he]; exact Bool.false_ne_true)]
      rw [he] at h
      cases e with
      | gotoSelection t m h => cases h
      | chooseLoop t f w m h => cases h
      | choose t' f w => cases h
      | returns =>
        cases h
        simp only [endOn, endStep]
        rw [searchBlock_mono (Nat.le_add_right k fuel) hk]
        cases searchBlock map' k ⟨start⟩ out with
        | error e => rfl
        | ok r =>
          show Except.ok _ = Except.ok _
          rw [block2]
      | goto t' =>
        simp only [endOn, endStep] at h ⊢
        obtain ⟨r, h1, h2⟩ := bind_ok_iff.mp h
        obtain ⟨c', k'⟩ := r
        cases h2
        rw [ih _ _ h1]
        exact bind_andThen _ _ _
      | gotoLoop t' m hint =>
        simp only [endOn, endStep] at h ⊢
        obtain ⟨r, h1, h2⟩ := bind_ok_iff.mp h
        obtain ⟨c', k'⟩ := r
        by_cases hn : k' = .Next id
        · subst hn
          rw [if_pos rfl] at h2
          obtain ⟨r', h3, h4⟩ := bind_ok_iff.mp h2
          obtain ⟨c'', k''⟩ := r'
          cases h4
          rw [inside _ _ _ _ h1, cok_bind, if_pos rfl, ih _ _ h3]
          exact bind_andThen _ _ _
        · rw [if_neg hn] at h2
          cases h2
      | chooseSelection t' f w m hint =>
        simp only [endOn, endStep] at h ⊢
        obtain ⟨r, h1, h2⟩ := bind_ok_iff.mp h
        obtain ⟨c1, k1⟩ := r
        obtain ⟨r, h3, h4⟩ := bind_ok_iff.mp h2
        obtain ⟨c2, k2⟩ := r
        by_cases hn : k1 = k2 ∧ k1 = .Next ⟨m⟩
        · rw [if_pos hn] at h4
          obtain ⟨hk1, rfl⟩ := hn
          subst hk1
          obtain ⟨r', h5, h6⟩ := bind_ok_iff.mp h4
          obtain ⟨c3, k3⟩ := r'
          cases h6
          rw [inside _ _ _ _ h1, cok_bind, inside _ _ _ _ h3, cok_bind, if_pos ⟨rfl, rfl⟩, ih _ _ h5]
          exact bind_andThen _ _ _
        · rw [if_neg hn] at h4
          cases h4

/-- If the search comes to an end, so does that of the second function. -/
theorem search_second : ∀ fuel id c, searchBlock map fuel id [] = .ok (c, .Return) →
    ∀ k, ¬ Diverges (searchBlock map' k id out) → ¬ Diverges (searchBlock map' k ⟨start⟩ out) := by
  intro fuel
  induction fuel with
  | zero => intro id c h; cases h
  | succ fuel ih =>
    intro id c h k hd
    have inside : ∀ id a c t, searchBlock map fuel id [a] = .ok (c, .Next t) → ∀ k,
        ¬ Diverges (searchBlock map' k id (a :: out)) → searchBlock map' k id (a :: out) = .ok (c, .Next t) := by
      intro id a c t h k hk
      have : searchBlock map' fuel id (a :: out) = .ok (c, .Next t) := search_inside hm ho _ _ [a] _ _ h
      rw [← this]
      exact same_of_halt hk (by rw [this]; nofun)
    cases k with
    | zero => exact absurd rfl hd
    | succ k =>
      refine halts_mono (Nat.le_succ k) ?_
      rw [searchBlock_succ, searchStep_eq] at hd
      rw [searchBlock_succ, searchStep_eq, if_neg (by simp [FlowList.merges])] at h
      cases he : (map.get id).map endOf with
      | none => rw [he] at h; cases h
      | some e =>
        rw [hm id e he, if_neg (by rw [ho id e he]; exact Bool.false_ne_true)] at hd
        rw [he] at h
        cases e with
        | gotoSelection t m h => cases h
        | chooseLoop t f w m h => cases h
        | choose t' f w => cases h
        | returns => exact halts_left hd
        | goto t' =>
          simp only [endOn, endStep] at h hd
          obtain ⟨r, h1, h2⟩ := bind_ok_iff.mp h
          obtain ⟨c', k'⟩ := r
          cases h2
          exact ih _ _ h1 k (halts_left hd)
        | gotoLoop t' m hint =>
          simp only [endOn, endStep] at h hd
          obtain ⟨r, h1, h2⟩ := bind_ok_iff.mp h
          obtain ⟨c', k'⟩ := r
          by_cases hn : k' = .Next id
          · subst hn
            rw [if_pos rfl] at h2
            obtain ⟨r', h3, h4⟩ := bind_ok_iff.mp h2
            obtain ⟨c'', k''⟩ := r'
            cases h4
            rw [inside _ _ _ _ h1 k (halts_left hd), cok_bind, if_pos rfl] at hd
            exact ih _ _ h3 k (halts_left hd)
          · rw [if_neg hn] at h2
            cases h2
        | chooseSelection t' f w m hint =>
          simp only [endOn, endStep] at h hd
          obtain ⟨r, h1, h2⟩ := bind_ok_iff.mp h
          obtain ⟨c1, k1⟩ := r
          obtain ⟨r, h3, h4⟩ := bind_ok_iff.mp h2
          obtain ⟨c2, k2⟩ := r
          by_cases hn : k1 = k2 ∧ k1 = .Next ⟨m⟩
          · rw [if_pos hn] at h4
            obtain ⟨hk1, rfl⟩ := hn
            subst hk1
            obtain ⟨r', h5, h6⟩ := bind_ok_iff.mp h4
            obtain ⟨c3, k3⟩ := r'
            cases h6
            rw [inside _ _ _ _ h1 k (halts_left hd), cok_bind] at hd
            rw [inside _ _ _ _ h3 k (halts_left hd), cok_bind, if_pos ⟨rfl, rfl⟩] at hd
            exact ih _ _ h5 k (halts_left hd)
          · rw [if_neg hn] at h4
            cases h4
end

/-! ### The whole function -/

theorem blockOf_map (start : UInt32) (fs : List (BasicBlock X)) (id : BlockId) :
    blockOf (fs.map (goOn start)) id = (blockOf fs id).map (goOn start) := by
  induction fs with
  | nil => rfl
  | cons b fs ih =>
    rw [List.map_cons, blockOf_cons, blockOf_cons, labelId_goOn, ih]
    by_cases h : labelId b = id.val
    · rw [if_pos h, if_pos h]; rfl
    · rw [if_neg h, if_neg h]

theorem labels_sequence (start : UInt32) (fs gs : List (BasicBlock X)) :
    (inSequence start fs gs).map labelId = fs.map labelId ++ gs.map labelId := by
  rw [inSequence, List.map_append, List.map_map]
  congr 1
  exact List.map_congr_left fun b _ => labelId_goOn start b

theorem last_andThen (c : ControlFlowChain) (r : CF (ControlFlowChain × Continue)) :
    ((r >>= andThen c) >>= last) = afterChain c (r >>= last) := by
  cases r with
  | error e => rfl
  | ok r =>
    obtain ⟨c', k⟩ := r
    cases k <;> rfl

theorem find_sequence {f g h : FunctionDefinition X} {first : BasicBlock X} {more : List (BasicBlock X)} {fuel : Nat}
    {c : ControlFlowChain} (hf : findControlFlow fuel f = .ok c) (hg : g.blocks = first :: more)
    (ha : Separate f.blocks g.blocks) (hh : h.blocks = inSequence (labelId first) f.blocks g.blocks) (k : Nat) :
    (¬ Diverges (findControlFlow k g) → findControlFlow (k + fuel) h = afterChain c (findControlFlow k g)) ∧
    (¬ Diverges (findControlFlow k h) → ¬ Diverges (findControlFlow k g)) := by
  rcases find_cases f fuel with ⟨d, -, h2⟩ | ⟨-, hn, h3⟩
  · rw [h2] at hf
    cases hf
  have hl : firstDup [] (h.blocks.map labelId) = firstDup [] (g.blocks.map labelId) := by
    rw [hh, labels_sequence]
    refine firstDup_append _ _ _ hn (fun _ _ => List.not_mem_nil) fun a ha1 ha2 => ?_
    obtain ⟨b, hb, rfl⟩ := List.mem_map.mp ha1
    obtain ⟨b', hb', he⟩ := List.mem_map.mp ha2
    exact ha.labels b hb b' hb' he.symm
  have hdup : ∀ d, firstDup [] (g.blocks.map labelId) = some d → ∀ k,
      findControlFlow k g = .error (.err (.DuplicateBlockId ⟨d⟩)) ∧
      findControlFlow k h = .error (.err (.DuplicateBlockId ⟨d⟩)) := by
    intro d hd k
    constructor
    · rcases find_cases g k with ⟨d', h1', h2'⟩ | ⟨h1', -, -⟩
      · rw [hd] at h1'
        rw [h2', Option.some.inj h1']
      · rw [hd] at h1'; cases h1'
    · rcases find_cases h k with ⟨d', h1', h2'⟩ | ⟨h1', -, -⟩
      · rw [hl, hd] at h1'
        rw [h2', Option.some.inj h1']
      · rw [hl, hd] at h1'; cases h1'
  cases hd : firstDup [] (g.blocks.map labelId) with
  | some d =>
    rw [(hdup d hd k).1, (hdup d hd (k + fuel)).2]
    exact ⟨fun _ => rfl, fun _ => nofun⟩
  | none =>
    obtain ⟨ff, fm, hfb⟩ : ∃ ff fm, f.blocks = ff :: fm := by
      obtain ⟨a, b, h1, -⟩ := find_ok hf
      exact ⟨a, b, h1⟩
    obtain ⟨map, m1, m2⟩ := h3 ff fm hfb
    have hsearch : searchBlock map fuel ⟨labelId ff⟩ [] = .ok (c, .Return) := by
      rw [hf] at m2
      obtain ⟨r, h1, h2⟩ := bind_ok_iff.mp m2.symm
      obtain ⟨c', k'⟩ := r
      cases k' with
      | Next t => cases h2
      | Return => cases h2; exact h1
    have hG : ∃ mg : BlockMap X, mg.get = blockOf g.blocks ∧
        ∀ k, findControlFlow k g = (searchBlock mg k ⟨labelId first⟩ [] >>= last) := by
      obtain ⟨mg, h1, h2⟩ := build_iff g.blocks ((firstDup_nodup _ _).mp hd).1
      refine ⟨mg, h2, fun k => ?_⟩
      rw [findControlFlow, h1, cok_bind]
      simp only [hg]
      rfl
    have hH : ∃ mh : BlockMap X, mh.get = blockOf h.blocks ∧
        ∀ k, findControlFlow k h = (searchBlock mh k ⟨labelId ff⟩ [] >>= last) := by
      obtain ⟨mh, h1, h2⟩ := build_iff h.blocks ((firstDup_nodup _ _).mp (hl.trans hd)).1
      refine ⟨mh, h2, fun k => ?_⟩
      rw [findControlFlow, h1, cok_bind]
      have : h.blocks = goOn (labelId first) ff :: (fm.map (goOn (labelId first)) ++ g.blocks) := by
        rw [hh, hfb]; rfl
      simp only [this]
      have e : (⟨(goOn (labelId first) ff).label.result_id.val⟩ : BlockId) = ⟨labelId ff⟩ :=
        congrArg BlockId.mk (labelId_goOn (labelId first) ff)
      rw [e]
      rfl
    obtain ⟨mg, g1, g2⟩ := hG
    obtain ⟨mh, e1, e2⟩ := hH
    have hm : ∀ id e, (map.get id).map endOf = some e → (mh.get id).map endOf = some (endOn (labelId first) e) := by
      intro id e he
      rw [m1] at he
      rw [e1, hh, inSequence, blockOf_append, blockOf_map]
      cases hb : blockOf f.blocks id with
      | none => rw [hb] at he; cases he
      | some b =>
        rw [hb] at he
        obtain rfl : endOf b = e := Option.some.inj he
        show some (endOf (goOn _ b)) = _
        rw [endOf_goOn]
    have hfar : ∀ k fl, searchBlock mh k ⟨labelId first⟩ fl = searchBlock mg k ⟨labelId first⟩ fl := by
      intro k fl
      refine searchBlock_congr (fun id => ∀ b ∈ f.blocks, labelId b ≠ id.val) ?_ ?_ k _ fl
        (fun b hb => ha.labels b hb first (by rw [hg]; exact List.mem_cons_self))
      · intro id hid
        rw [e1, g1, hh, inSequence, blockOf_append, blockOf_map, blockOf_none.mpr hid]
        rfl
      · intro id e hid he t ht b hb heq
        have hnone : blockOf f.blocks id = none := blockOf_none.mpr hid
        rw [e1, hh, inSequence, blockOf_append, blockOf_map, hnone] at he
        cases hb' : blockOf g.blocks id with
        | none => rw [hb'] at he; cases he
        | some b' =>
          rw [hb'] at he
          obtain rfl : endOf b' = e := Option.some.inj he
          exact ha.names b hb b' (blockOf_some hb').1 (heq ▸ ht)
    rw [e2, e2, g2]
    constructor
    · intro hk
      have hk' := last_diverges hk
      rw [← hfar] at hk' ⊢
      rw [search_outside (out := []) hm (fun _ _ _ => rfl) hk' _ _ _ hsearch, last_andThen]
    · intro hk hd
      have hk' := search_second (out := []) hm (fun _ _ _ => rfl) _ _ _ hsearch k (last_diverges hk)
      rw [hfar] at hk'
      cases hr : searchBlock mg k ⟨labelId first⟩ [] with
      | error e =>
        rw [hr] at hd
        cases hd
        exact hk' hr
      | ok r =>
        obtain ⟨c', k'⟩ := r
        rw [hr] at hd
        cases k' <;> cases hd

end Magma.Sequence
