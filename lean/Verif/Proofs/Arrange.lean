import Verif.Spec.Arrange
import Verif.Props.Dominators
import Verif.Proofs.Optimise
import Verif.Proofs.StandardFlow
/-! Lemmas: blocks in the order of a chain. -/

namespace Magma.Arrange
open Spec Standard
variable {X : Type}

/-! ### The order of the labels -/

theorem mem_firsts {a : UInt32} : ∀ {l : List UInt32}, a ∈ firsts l ↔ a ∈ l
  | [] => Iff.rfl
  | b :: l => by
    rw [firsts, List.mem_cons, List.mem_cons, List.mem_filter, mem_firsts (l := l), bne_iff_ne]
    by_cases h : a = b <;> simp [h]

theorem nodup_firsts : ∀ l : List UInt32, (firsts l).Nodup
  | [] => .nil
  | b :: l => by
    rw [firsts, List.nodup_cons]
    exact ⟨by simp, (nodup_firsts l).filter _⟩

/-- What comes before the first place where something stands still comes before it. -/
theorem firsts_before {a b : UInt32} : ∀ {l pre post : List UInt32}, firsts l = pre ++ b :: post →
    (∀ u v, l = u ++ b :: v → a ∈ u) → a ∈ pre
  | [], pre, post, h, _ => by cases pre <;> cases h
  | c :: l, pre, post, h, hu => by
    rw [firsts] at h
    cases pre with
    | nil =>
      rw [List.nil_append, List.cons.injEq] at h
      obtain ⟨rfl, -⟩ := h
      exact absurd (hu [] l rfl) (by simp)
    | cons d pre =>
      rw [List.cons_append, List.cons.injEq] at h
      obtain ⟨rfl, h⟩ := h
      by_cases hac : a = c
      · rw [hac]; exact List.mem_cons_self
      · refine List.mem_cons_of_mem _ ?_
        obtain ⟨pre', post', hf, hp, hq⟩ := List.filter_eq_append_iff.mp h
        obtain ⟨mid, post'', rfl, hm, -, -⟩ := List.filter_eq_cons_iff.mp hq
        have := firsts_before (l := l) (a := a) (b := b) (pre := pre' ++ mid) (post := post'') (by rw [hf]; simp) (by
          intro u v hl
          have := hu (c :: u) v (by rw [hl]; rfl)
          exact (List.mem_cons.mp this).resolve_left hac)
        rw [← hp]
        refine List.mem_filter.mpr ⟨?_, by simpa using hac⟩
        rcases List.mem_append.mp this with h' | h'
        · exact h'
        · exact absurd (hm a h') (by simpa using hac)

/-! ### Ways through a chain -/

mutual
theorem passes_unmet {a : BlockId} : ∀ (s : Signal) (chain : ControlFlowChain), a ∉ reached chain → mayEnd s chain = true →
    passes a s chain = true
  | s, .Atom id, h, he => by
    rw [reached, List.mem_singleton] at h
    rw [mayEnd] at he
    rw [passes, he, Bool.true_and, bne_iff_ne]
    exact fun h' => h h'.symm
  | s, .Block chains, h, he => by
    rw [reached] at h
    rw [mayEnd] at he
    rw [passes]
    exact passesAll_unmet s chains h he
  | s, .Selection id l r _ _, h, he => by
    rw [reached, List.mem_cons, List.mem_append, not_or, not_or] at h
    rw [mayEnd, Bool.or_eq_true] at he
    rw [passes, Bool.and_eq_true, Bool.or_eq_true, bne_iff_ne]
    exact ⟨fun h' => h.1 h'.symm, he.imp (passes_unmet s l h.2.1) (passes_unmet s r h.2.2)⟩
  | s, .Loop id inner _ _, h, he => by
    rw [reached, List.mem_cons, not_or] at h
    rw [mayEnd, Bool.and_eq_true] at he
    rw [passes, Bool.and_eq_true, Bool.and_eq_true, bne_iff_ne]
    exact ⟨⟨he.1, fun h' => h.1 h'.symm⟩, passes_unmet .breaks inner h.2 he.2⟩
  | s, .Break, _, he => he
  | s, .Continue, _, he => he
theorem passesAll_unmet {a : BlockId} : ∀ (s : Signal) (chains : List ControlFlowChain), a ∉ reachedAll chains →
    mayEndAll s chains = true → passesAll a s chains = true
  | s, [], _, he => he
  | s, chain :: chains, h, he => by
    rw [reachedAll, List.mem_append, not_or] at h
    rw [mayEndAll, Bool.or_eq_true, Bool.and_eq_true, Bool.and_eq_true] at he
    rw [passesAll, Bool.or_eq_true, Bool.and_eq_true, Bool.and_eq_true]
    refine he.imp (fun ⟨h1, h2⟩ => ⟨passes_unmet .next chain h.1 h1, ?_⟩) fun ⟨h1, h2⟩ => ⟨h1, passes_unmet s chain h.1 h2⟩
    rw [if_pos h1] at h
    exact passesAll_unmet s chains h.2 h2
end

mutual
/-- Control comes to each place of a chain by way of earlier places only. -/
theorem comes_earlier {a b : BlockId} : ∀ (chain : ControlFlowChain) (pre post : List BlockId),
    reached chain = pre ++ b :: post → a ∉ pre → comes a b chain = true
  | .Atom id, pre, post, h, ha => by
    rw [reached] at h
    cases pre with
    | nil => cases h; exact beq_self_eq_true _
    | cons c pre => cases pre <;> cases h
  | .Block chains, pre, post, h, ha => by
    rw [reached] at h
    rw [comes]
    exact comesAny_earlier chains pre post h ha
  | .Selection id l r _ _, pre, post, h, ha => by
    rw [reached] at h
    rw [comes, Bool.or_eq_true, Bool.and_eq_true, Bool.or_eq_true, bne_iff_ne]
    cases pre with
    | nil => cases h; exact .inl (beq_self_eq_true _)
    | cons c pre =>
      rw [List.cons_append, List.cons.injEq] at h
      obtain ⟨rfl, h⟩ := h
      rw [List.mem_cons, not_or] at ha
      refine .inr ⟨fun h' => ha.1 h'.symm, ?_⟩
      rcases List.append_eq_append_iff.mp h with ⟨w, hw, h⟩ | ⟨w, hl, h⟩
      · exact .inr (comes_earlier r w post h fun h' => ha.2 (hw ▸ List.mem_append_right _ h'))
      · cases w with
        | nil => exact .inr (comes_earlier r [] post h.symm (by simp))
        | cons d w =>
          rw [List.cons_append, List.cons.injEq] at h
          obtain ⟨rfl, -⟩ := h
          exact .inl (comes_earlier l pre w hl ha.2)
  | .Loop id inner _ _, pre, post, h, ha => by
    rw [reached] at h
    rw [comes, Bool.or_eq_true, Bool.and_eq_true, bne_iff_ne]
    cases pre with
    | nil => cases h; exact .inl (beq_self_eq_true _)
    | cons c pre =>
      rw [List.cons_append, List.cons.injEq] at h
      obtain ⟨rfl, h⟩ := h
      rw [List.mem_cons, not_or] at ha
      exact .inr ⟨fun h' => ha.1 h'.symm, comes_earlier inner pre post h ha.2⟩
  | .Break, pre, post, h, ha => by rw [reached] at h; cases pre <;> cases h
  | .Continue, pre, post, h, ha => by rw [reached] at h; cases pre <;> cases h
theorem comesAny_earlier {a b : BlockId} : ∀ (chains : List ControlFlowChain) (pre post : List BlockId),
    reachedAll chains = pre ++ b :: post → a ∉ pre → comesAny a b chains = true
  | [], pre, post, h, ha => by rw [reachedAll] at h; cases pre <;> cases h
  | chain :: chains, pre, post, h, ha => by
    rw [reachedAll] at h
    rw [comesAny, Bool.or_eq_true, Bool.and_eq_true]
    have later : ∀ w, pre = reached chain ++ w →
        (if mayEnd .next chain then reachedAll chains else []) = w ++ b :: post →
        passes a .next chain = true ∧ comesAny a b chains = true := by
      rintro w rfl h
      rw [List.mem_append, not_or] at ha
      split at h
      · rename_i he
        exact ⟨passes_unmet .next chain ha.1 he, comesAny_earlier chains w post h ha.2⟩
      · cases w <;> cases h
    rcases List.append_eq_append_iff.mp h with ⟨w, hp, h⟩ | ⟨w, hl, h⟩
    · exact .inr (later w hp h)
    · cases w with
      | nil => exact .inr (later [] (by simpa using hl.symm) h.symm)
      | cons d w =>
        rw [List.cons_append, List.cons.injEq] at h
        obtain ⟨rfl, -⟩ := h
        exact .inl (comes_earlier chain pre w hl ha)
end

/-! ### Ways along branches and to merge blocks -/

section
variable {blocks : List (BasicBlock X)} {first : UInt32}

/-- Some way leads to the block by way of some blocks only. -/
def Leads (blocks : List (BasicBlock X)) (first : UInt32) (A : UInt32 → Prop) (u : UInt32) : Prop :=
  ∃ l, Standard.Walk blocks first (u :: l) ∧ ∀ x ∈ l, A x

theorem Leads.step {A : UInt32 → Prop} {u v : UInt32} (h : Leads blocks first A u) (he : Edge blocks u v) :
    Leads blocks first (fun x => A x ∨ x = u) v := by
  obtain ⟨l, hw, hl⟩ := h
  refine ⟨u :: l, .step hw he, fun x hx => ?_⟩
  rcases List.mem_cons.mp hx with rfl | hx
  · exact .inr rfl
  · exact .inl (hl x hx)

theorem Leads.mono {A B : UInt32 → Prop} (hab : ∀ x, A x → B x) {u : UInt32} (h : Leads blocks first A u) :
    Leads blocks first B u := by
  obtain ⟨l, hw, hl⟩ := h
  exact ⟨l, hw, fun x hx => hab x (hl x hx)⟩

theorem entry_of_ids {s : Program} {k : Option BlockId} {e : BlockId} (h : s.entry k = some e) {pre post : List BlockId}
    {b : BlockId} (hs : s.ids = pre ++ b :: post) (k' : Option BlockId) : s.entry k' = some e := by
  cases s with
  | done => cases pre <;> cases hs
  | _ => exact h

theorem edge_of {b : BasicBlock X} {id : BlockId} (hb : blockOf blocks id = some b) {v : UInt32}
    (h : v ∈ targets (endOf b) ∨ mergeOf (endOf b) = some v) : Edge blocks id.val v := by
  obtain ⟨hm, hl⟩ := Standard.blockOf_mem hb
  exact ⟨b, hm, hl, h.imp_right .inl⟩

theorem widen {A : UInt32 → Prop} {id : BlockId} {pre pre' : List BlockId} {b : UInt32}
    (h : Leads blocks first (fun x => (A x ∨ x = id.val) ∨ ∃ c ∈ pre', c.val = x) b) (hsub : ∀ c ∈ pre', c ∈ pre) :
    Leads blocks first (fun x => A x ∨ ∃ c ∈ id :: pre, c.val = x) b := by
  refine h.mono fun x hx => ?_
  rcases hx with (hx | rfl) | ⟨c, hc, rfl⟩
  · exact .inl hx
  · exact .inr ⟨id, List.mem_cons_self, rfl⟩
  · exact .inr ⟨c, List.mem_cons_of_mem _ (hsub c hc), rfl⟩

theorem split_append {l r pre post : List BlockId} {b : BlockId} (h : l ++ r = pre ++ b :: post) :
    (∃ post', l = pre ++ b :: post') ∨ ∃ w, pre = l ++ w ∧ r = w ++ b :: post := by
  rcases List.append_eq_append_iff.mp h with ⟨w, hw, h⟩ | ⟨w, hl, h⟩
  · exact .inr ⟨w, hw, h⟩
  · cases w with
    | nil => exact .inr ⟨[], by simpa using hl.symm, h.symm⟩
    | cons d w =>
      rw [List.cons_append, List.cons.injEq] at h
      obtain ⟨rfl, -⟩ := h
      exact .inl ⟨w, hl⟩

/-- A way leads to each place of a program by way of earlier places only. -/
theorem leads_ids {b : BlockId} : ∀ (s : Program) (lp : Option (BlockId × BlockId)) (k : Option BlockId)
    (A : UInt32 → Prop) (e : BlockId) (pre post : List BlockId), s.SpelledBy blocks lp k → s.entry k = some e →
    Leads blocks first A e.val → s.ids = pre ++ b :: post → Leads blocks first (fun x => A x ∨ ∃ c ∈ pre, c.val = x) b.val
  | .done, _, _, _, _, pre, _, _, _, _, h => by cases pre <;> cases h
  | .ret id, _, _, A, e, pre, post, _, he, hA, h => by
    cases he
    cases pre with
    | nil => cases h; exact hA.mono fun _ => .inl
    | cons c pre => cases pre <;> cases h
  | .atom id rest, lp, k, A, e, pre, post, hs, he, hA, h => by
    cases he
    rw [Program.ids] at h
    cases pre with
    | nil => cases h; exact hA.mono fun _ => .inl
    | cons c pre =>
      obtain ⟨⟨bl, op, hbl, hm, hbr, hr⟩, hs⟩ := hs
      rw [List.cons_append, List.cons.injEq] at h
      obtain ⟨rfl, h⟩ := h
      have hE : endOf bl = .goto op.target_label.val := by rw [endOf, hbr, hm]
      exact widen (leads_ids rest lp k _ _ pre post hs hr
        (hA.step (edge_of hbl (.inl (by rw [hE]; exact List.mem_cons_self)))) h) fun _ hc => hc
  | .sel id l r _ _ rest, lp, k, A, e, pre, post, hs, he, hA, h => by
    cases he
    rw [Program.ids] at h
    cases pre with
    | nil => cases h; exact hA.mono fun _ => .inl
    | cons c pre =>
      obtain ⟨bl, op, sm, hbl, hm, hbr, -, -, hr, hl, hrt, sl, sr, srest⟩ := hs
      rw [List.cons_append, List.cons.injEq] at h
      obtain ⟨rfl, h⟩ := h
      have hE : endOf bl = .chooseSelection op.true_label.val op.false_label.val op.weights sm.merge_block.val
          sm.selection_control := by rw [endOf, hbr, hm]
      rw [List.append_assoc] at h
      rcases split_append h with ⟨post', h2⟩ | ⟨w, rfl, h2⟩
      · exact widen (leads_ids l lp _ _ _ pre post' sl hl
          (hA.step (edge_of hbl (.inl (by rw [hE]; exact List.mem_cons_self)))) h2) fun _ hc => hc
      · rcases split_append h2 with ⟨post', h3⟩ | ⟨w', rfl, h3⟩
        · exact widen (leads_ids r lp _ _ _ w post' sr hrt
            (hA.step (edge_of hbl (.inl (by rw [hE]; simp [targets])))) h3) fun _ hc => List.mem_append_right _ hc
        · exact widen (leads_ids rest lp _ _ _ w' post srest hr
            (hA.step (edge_of hbl (.inr (by rw [hE]; rfl)))) h3)
              fun _ hc => List.mem_append_right _ (List.mem_append_right _ hc)
  | .loop id body _ rest, lp, k, A, e, pre, post, hs, he, hA, h => by
    cases he
    rw [Program.ids] at h
    cases pre with
    | nil => cases h; exact hA.mono fun _ => .inl
    | cons c pre =>
      obtain ⟨bl, op, lm, hbl, hm, hbr, -, hr, hl, sl, srest⟩ := hs
      rw [List.cons_append, List.cons.injEq] at h
      obtain ⟨rfl, h⟩ := h
      have hE : endOf bl = .gotoLoop op.target_label.val lm.merge_block.val lm.loop_control := by rw [endOf, hbr, hm]
      rcases split_append h with ⟨post', h2⟩ | ⟨w, rfl, h2⟩
      · exact widen (leads_ids body _ _ _ _ pre post' sl hl
          (hA.step (edge_of hbl (.inl (by rw [hE]; exact List.mem_cons_self)))) h2) fun _ hc => hc
      · exact widen (leads_ids rest lp _ _ _ w post srest hr
          (hA.step (edge_of hbl (.inr (by rw [hE]; rfl)))) h2) fun _ hc => List.mem_append_right _ hc
  | .exit id _ _ rest, lp, k, A, e, pre, post, hs, he, hA, h => by
    cases he
    rw [Program.ids] at h
    cases pre with
    | nil => cases h; exact hA.mono fun _ => .inl
    | cons c pre =>
      obtain ⟨head, merge, bl, op, -, -, hbl, hm, hbr, -, -, hr, hs⟩ := hs
      rw [List.cons_append, List.cons.injEq] at h
      obtain ⟨rfl, h⟩ := h
      have hE : endOf bl = .choose op.true_label.val op.false_label.val op.weights := by rw [endOf, hbr, hm]
      exact widen (leads_ids rest lp k _ _ pre post hs hr
        (hA.step (edge_of hbl (.inl (by rw [hE]; exact List.mem_cons_self)))) h) fun _ hc => hc

theorem Course.walk {u : UInt32} {l : List UInt32} (h : Course blocks u l) : ∀ {w : List UInt32},
    Standard.Walk blocks first (u :: w) → Standard.Walk blocks first (l.reverse ++ w) := by
  induction h with
  | stop hb => exact fun hw => hw
  | step he hc ih =>
    intro w hw
    rw [List.reverse_cons, List.append_assoc]
    exact ih (.step hw he.edge)

/-! ### Blocks in another order -/

theorem Walk.perm {blocks' : List (BasicBlock X)} (hp : ∀ b, b ∈ blocks → b ∈ blocks') {l : List UInt32}
    (h : Standard.Walk blocks first l) : Standard.Walk blocks' first l := by
  induction h with
  | start => exact .start
  | step _ he ih =>
    obtain ⟨b, hb, rest⟩ := he
    exact .step ih ⟨b, hp b hb, rest⟩

theorem Course.perm {blocks' : List (BasicBlock X)} (hp : ∀ b, b ∈ blocks → b ∈ blocks') {u : UInt32} {l : List UInt32}
    (h : Course blocks u l) : Course blocks' u l := by
  induction h with
  | stop hb => exact .stop (hp _ hb)
  | step he _ ih =>
    obtain ⟨b, hb, rest⟩ := he
    exact .step ⟨b, hp b hb, rest⟩ ih

theorem blockOf_perm {blocks' : List (BasicBlock X)} (hp : blocks.Perm blocks') (hn : (blocks.map labelId).Nodup)
    (id : BlockId) : blockOf blocks id = blockOf blocks' id := by
  have hn' : (blocks'.map labelId).Nodup := (hp.map labelId).nodup_iff.mp hn
  cases h : blockOf blocks' id with
  | none =>
    rw [blockOf_none] at h ⊢
    exact fun b hb => h b (hp.mem_iff.mp hb)
  | some b =>
    obtain ⟨hb, hl⟩ := Standard.blockOf_mem h
    have := Standard.blockOf_label hn (hp.mem_iff.mpr hb)
    obtain ⟨id⟩ := id
    cases hl
    exact this

theorem found_labels (ids : List UInt32) : ids.filterMap (fun id => (blockOf blocks ⟨id⟩).map labelId) =
    ids.filter (fun id => (blocks.map labelId).contains id) := by
  induction ids with
  | nil => rfl
  | cons id ids ih =>
    cases h : blockOf blocks ⟨id⟩ with
    | none =>
      rw [List.filterMap_cons, h, Option.map_none, ih, List.filter_cons_of_neg]
      intro hc
      obtain ⟨b, hb, hl⟩ := List.mem_map.mp (List.contains_iff_mem.mp hc)
      exact blockOf_none.mp h b hb hl
    | some b =>
      obtain ⟨hb, hl⟩ := Standard.blockOf_mem h
      have hl : labelId b = id := hl
      rw [List.filterMap_cons, h, Option.map_some, ih, List.filter_cons_of_pos, hl]
      exact List.contains_iff_mem.mpr (List.mem_map.mpr ⟨b, hb, hl⟩)

theorem arrange_perm (chain : ControlFlowChain) (hn : (blocks.map labelId).Nodup) : (arrangeBlocks chain blocks).Perm blocks := by
  have hnb : blocks.Nodup := hn.of_map _
  rw [arrangeBlocks]
  refine (List.perm_ext_iff_of_nodup ?_ hnb).mpr fun b => ?_
  · refine List.nodup_append.mpr ⟨?_, hnb.filter _, ?_⟩
    · refine List.Nodup.of_map labelId ?_
      rw [List.map_filterMap, found_labels]
      exact (nodup_firsts _).filter _
    · intro b hb c hc he
      subst he
      obtain ⟨id, hid, hb⟩ := List.mem_filterMap.mp hb
      obtain ⟨-, hl⟩ := Standard.blockOf_mem hb
      have hl : labelId b = id := hl
      have := (List.mem_filter.mp hc).2
      rw [hl, Bool.not_eq_true', ← Bool.not_eq_true] at this
      exact this (List.contains_iff_mem.mpr hid)
  · rw [List.mem_append, List.mem_filterMap, List.mem_filter]
    constructor
    · rintro (⟨id, -, h⟩ | h)
      · exact (Standard.blockOf_mem h).1
      · exact h.1
    · intro hb
      by_cases hc : (chainOrder chain).contains (labelId b) = true
      · exact .inl ⟨_, List.contains_iff_mem.mp hc, Standard.blockOf_label hn hb⟩
      · exact .inr ⟨hb, by simpa using hc⟩

/-- The blocks before a block of the chain have at least the labels before its label. -/
theorem arrange_before {chain : ControlFlowChain} (hn : (blocks.map labelId).Nodup) {pre post : List (BasicBlock X)}
    {b : BasicBlock X} (h : arrangeBlocks chain blocks = pre ++ b :: post) (hb : labelId b ∈ chainOrder chain) {a : UInt32}
    (ha : a ∈ blocks.map labelId) (hl : ∀ u v, chainOrder chain = u ++ labelId b :: v → a ∈ u) : a ∈ pre.map labelId := by
  obtain ⟨u, v, hu⟩ := List.append_of_mem hb
  have hau := hl u v hu
  have hnd : (u ++ labelId b :: v).Nodup := hu ▸ nodup_firsts _
  have key : ((arrangeBlocks chain blocks).map labelId) =
      u.filter (fun id => (blocks.map labelId).contains id) ++ (labelId b :: v).filter (fun id => (blocks.map labelId).contains id) ++
        (blocks.filter fun b => !(chainOrder chain).contains (labelId b)).map labelId := by
    rw [arrangeBlocks, List.map_append, List.map_filterMap, found_labels, hu, List.filter_append]
  have hbm : b ∈ blocks := (arrange_perm chain hn).mem_iff.mp (by rw [h]; simp)
  rw [List.filter_cons_of_pos (by exact List.contains_iff_mem.mpr (List.mem_map.mpr ⟨b, hbm, rfl⟩)), h, List.map_append,
    List.map_cons, List.append_assoc, List.cons_append] at key
  have hall : ((pre ++ b :: post).map labelId).Nodup := by
    rw [← h]
    exact ((arrange_perm chain hn).map labelId).nodup_iff.mpr hn
  rw [List.map_append, List.map_cons] at hall
  have hcut : pre.map labelId = u.filter (fun id => (blocks.map labelId).contains id) := by
    have h1 : labelId b ∉ pre.map labelId := fun hm =>
      (List.nodup_append.mp hall).2.2 _ hm _ List.mem_cons_self rfl
    have h2 : labelId b ∉ u.filter (fun id => (blocks.map labelId).contains id) := fun hm =>
      (List.nodup_append.mp hnd).2.2 _ (List.mem_filter.mp hm).1 _ List.mem_cons_self rfl
    rcases List.append_eq_append_iff.mp key with ⟨w, hw, hx⟩ | ⟨w, hw, hx⟩
    · cases w with
      | nil => rw [hw, List.append_nil]
      | cons c w =>
        rw [List.cons_append, List.cons.injEq] at hx
        exact absurd (by rw [hw, hx.1]; simp) h2
    · cases w with
      | nil => rw [hw, List.append_nil]
      | cons c w =>
        rw [List.cons_append, List.cons.injEq] at hx
        exact absurd (by rw [hw, hx.1]; simp) h1
  rw [hcut]
  exact List.mem_filter.mpr ⟨hau, List.contains_iff_mem.mpr ha⟩
end

theorem runMachine_congr {S : Type} {blocks blocks' : List (BasicBlock X)} (M : Machine X S)
    (h : ∀ id, blockOf blocks id = blockOf blocks' id) :
    ∀ (n : Nat) (id : BlockId) (c : Config S), runMachine M blocks n id c = runMachine M blocks' n id c
  | 0, _, _ => rfl
  | n + 1, id, c => by
    rw [runMachine, runMachine, h id]
    cases blockOf blocks' id with
    | none => rfl
    | some b =>
      dsimp only
      cases b.branch with
      | OpReturn _ => rfl
      | OpBranch op => dsimp only; rw [runMachine_congr M h n]
      | OpBranchConditional op => dsimp only; rw [runMachine_congr M h n]

theorem reached_head {s : Program} {e : BlockId} (h : s.entry none = some e) : ∃ l, reached s.toChain = e :: l := by
  cases s with
  | done => cases h
  | ret id => cases h; exact ⟨_, by rw [Program.toChain, reached]⟩
  | atom id rest => cases h; exact ⟨_, by rw [Program.toChain, reached, reachedAll, reached]; rfl⟩
  | sel id l r hint w rest => cases h; exact ⟨_, by rw [Program.toChain, reached, reachedAll, reached]; rfl⟩
  | loop id body hint rest => cases h; exact ⟨_, by rw [Program.toChain, reached, reachedAll, reached]; rfl⟩
  | exit id brk w rest => cases h; exact ⟨_, by rw [Program.toChain, reached]⟩

theorem arrange_first {f : FunctionDefinition X} {fuel : Nat} {chain : ControlFlowChain}
    (h : findControlFlow fuel f = .ok chain) {first : BasicBlock X} {more : List (BasicBlock X)}
    (hb : f.blocks = first :: more) : ∃ more', arrangeBlocks chain f.blocks = first :: more' ∧ more'.Perm more := by
  have hp := arrange_perm chain (Props.labels_distinct h)
  obtain ⟨s, first', more', hb', hn, -, he, -, rfl⟩ := Props.C30_accepted_iff.mp ⟨fuel, h⟩
  rw [hb] at hb'
  cases hb'
  obtain ⟨l, hl⟩ := reached_head he
  have hf : ∃ m, arrangeBlocks s.toChain f.blocks = first :: m := by
    rw [arrangeBlocks, chainOrder, hl, List.map_cons, List.cons_append, firsts, List.filterMap_cons,
      Standard.blockOf_label hn (by rw [hb]; exact List.mem_cons_self)]
    exact ⟨_, rfl⟩
  obtain ⟨m, hm⟩ := hf
  rw [hm, hb] at hp
  exact ⟨m, hm, hp.cons_inv⟩

theorem arrange_again (chain : ControlFlowChain) {blocks : List (BasicBlock X)} (hn : (blocks.map labelId).Nodup) :
    arrangeBlocks chain (arrangeBlocks chain blocks) = arrangeBlocks chain blocks := by
  have hp := arrange_perm chain hn
  conv_lhs => rw [arrangeBlocks]
  rw [arrangeBlocks]
  congr 1
  · rw [← arrangeBlocks]
    exact congrArg (fun g => (chainOrder chain).filterMap g) (funext fun id => (blockOf_perm hp.symm hn ⟨id⟩).symm)
  · rw [List.filter_append, List.filter_filter, List.filter_eq_nil_iff.mpr, List.nil_append]
    · simp only [Bool.and_self]
    · intro b hb
      obtain ⟨id, hid, hb⟩ := List.mem_filterMap.mp hb
      obtain ⟨-, hl⟩ := Standard.blockOf_mem hb
      have hl : labelId b = id := hl
      rw [hl, List.contains_iff_mem.mpr hid]
      decide

/-! ### Modules -/

/-- The same function with its blocks in another order -/
theorem arrange_def (fuel : Nat) (d : FunctionDefinition X) : ∃ bs : List (BasicBlock X), bs.Perm d.blocks ∧
    arrange fuel d = { d with blocks := bs } := by
  rw [arrange]
  split
  · rename_i chain h
    exact ⟨_, arrange_perm chain (Props.labels_distinct h), rfl⟩
  · exact ⟨_, .refl _, rfl⟩

theorem arrange_insts (fuel : Nat) (d : FunctionDefinition X) :
    (definitionInsts (arrange fuel d)).Perm (definitionInsts d) := by
  obtain ⟨bs, hp, h⟩ := arrange_def fuel d
  rw [h]
  exact (((List.Perm.refl _).append (hp.flatMap_right _)).append (.refl _)).cons _

theorem definitions_perm (fuel : Nat) (ds : List (FunctionDefinition X)) :
    ((ds.map (arrange fuel)).flatMap definitionInsts).Perm (ds.flatMap definitionInsts) := by
  induction ds with
  | nil => exact .nil
  | cons d ds ih => exact (arrange_insts fuel d).append ih

theorem arrange_module (fuel : Nat) (m : LogicalModule X) : ∃ pre, layout m = pre ++ m.function_definitions.flatMap definitionInsts ∧
    layout (arrangeModule fuel m) = pre ++ (arrangeModule fuel m).function_definitions.flatMap definitionInsts :=
  ⟨_, rfl, rfl⟩

theorem serialisable_members {encX : X → UInt32 × List UInt32} {known : List (ExtInstSet X)} {raw : RawModule X}
    (h : Serialisable encX known raw) {pre a a' : List (Core X)} (hi : raw.instructions = pre ++ a) (ha : ∀ i ∈ a', i ∈ a)
    (hn : ∀ i ∈ a, ∀ id, importName id i = none) : Serialisable encX known { raw with instructions := pre ++ a' } := by
  refine ⟨h.1, h.2.1, fun before inst after he => ?_⟩
  have he : pre ++ a' = before ++ inst :: after := he
  rcases List.append_eq_append_iff.mp he with ⟨x, rfl, hx⟩ | ⟨x, rfl, hx⟩
  · have hm : inst ∈ a := ha inst (by rw [hx]; simp)
    obtain ⟨u, v, rfl⟩ := List.append_of_mem hm
    obtain ⟨h1, h2, h3, h4⟩ := h.2.2 (pre ++ u) inst v (by rw [hi]; simp)
    refine ⟨h1, h2, h3, ?_⟩
    cases inst with
    | OpExtInstImport op => exact absurd (hn _ hm op.result_id.val) (by simp [importName])
    | OpExtInst op =>
      obtain ⟨importer, name, s, him, hn', rest⟩ := h4
      refine ⟨importer, name, s, ?_, hn', rest⟩
      rcases List.mem_append.mp him with h' | h'
      · exact List.mem_append_left _ h'
      · rw [hn importer (by simp [h']) op.set.val] at hn'
        cases hn'
    | _ => trivial
  · cases x with
    | nil =>
      rw [List.nil_append] at hx
      have hm : inst ∈ a := ha inst (by rw [← hx]; simp)
      obtain ⟨u, v, rfl⟩ := List.append_of_mem hm
      obtain ⟨h1, h2, h3, h4⟩ := h.2.2 (before ++ u) inst v (by rw [hi]; simp)
      refine ⟨h1, h2, h3, ?_⟩
      cases inst with
      | OpExtInstImport op => exact absurd (hn _ hm op.result_id.val) (by simp [importName])
      | OpExtInst op =>
        obtain ⟨importer, name, s, him, hn', rest⟩ := h4
        refine ⟨importer, name, s, ?_, hn', rest⟩
        rcases List.mem_append.mp him with h' | h'
        · exact h'
        · rw [hn importer (by simp [h']) op.set.val] at hn'
          cases hn'
      | _ => trivial
    | cons y ys =>
      rw [List.cons_append, List.cons.injEq] at hx
      obtain ⟨rfl, -⟩ := hx
      exact h.2.2 before inst (ys ++ a) (by rw [hi]; simp)

theorem encode_perm {encX : X → UInt32 × List UInt32} {raw : RawModule X} {insts : List (Core X)} (le : Bool)
    (h : insts.Perm raw.instructions) :
    (encodeModule encX le { raw with instructions := insts }).length = (encodeModule encX le raw).length := by
  have := (h.flatMap_right (encodeInst encX)).length_eq
  simp only [encodeModule, bytesOf_length, encodeWords, List.length_append, List.length_cons]
  omega

end Magma.Arrange
