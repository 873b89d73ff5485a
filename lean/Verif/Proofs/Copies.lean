import Verif.Proofs.Rename
import Verif.Proofs.Place
import Verif.Spec.Copies
/-! The search cannot tell copies of blocks from the blocks. -/

namespace Magma.Copy
open Spec Magma
variable {X Y : Type} {σ : UInt32 → UInt32}

theorem eq_of_reId {a b : BlockId} (h : reId σ a = reId σ b) (hab : σ a.val = σ b.val → a.val = b.val) : a = b :=
  (blockId_eq a b).mpr (hab (congrArg BlockId.val h))

theorem stop_mem {fl : FlowList} {id : BlockId} (h : fl.merges id = true) : id.val ∈ (around fl).map Construct.stop :=
  (stops_iff fl id).mp h

theorem merges_map {id : BlockId} : ∀ (fl : FlowList),
    (∀ s ∈ (around fl).map Construct.stop, σ id.val = σ s → id.val = s) →
    FlowList.merges (fl.map (reConverge σ)) (reId σ id) = fl.merges id
  | [], _ => rfl
  | .If m h :: fl, hs => by
    have ih := merges_map (id := id) fl fun s hm => hs s (List.mem_cons_of_mem _ hm)
    have h0 : reId σ m = reId σ id ↔ m = id :=
      ⟨fun e => (eq_of_reId e.symm (hs m.val (List.mem_cons_self ..))).symm, fun e => by rw [e]⟩
    simp only [List.map_cons, reConverge, FlowList.merges, h0, ih]
  | .Loop a m h :: fl, hs => by
    have ih := merges_map (id := id) fl fun s hm => hs s (List.mem_cons_of_mem _ hm)
    have h0 : reId σ a = reId σ id ↔ a = id :=
      ⟨fun e => (eq_of_reId e.symm (hs a.val (List.mem_cons_self ..))).symm, fun e => by rw [e]⟩
    simp only [List.map_cons, reConverge, FlowList.merges, h0, ih]

variable {f : List (BasicBlock X)} {g : List (BasicBlock Y)} {first : UInt32}

/-- Where a search in a copy ends at a block, it is the block and not a copy. -/
theorem next_iff (hc : Copies σ f first g) {map : BlockMap X} (hg : map.get = blockOf f) {fuel : Nat} {t : UInt32}
    {fl : FlowList} {r : ControlFlowChain × Continue} (hp : Path f (first, []) (t, around fl))
    (h : searchBlock map fuel ⟨t⟩ fl = .ok r) {x : BlockId} (hx : x.val ∈ (around fl).map Construct.stop) :
    reNext σ r.2 = .Next (reId σ x) ↔ r.2 = .Next x := by
  have he := search_ends hg fuel ⟨t⟩ fl r h
  cases hr : r.2 with
  | Return => simp [reNext]
  | Next y =>
    rw [hr] at he
    constructor
    · intro e
      rw [eq_of_reId (Continue.Next.inj e) (hc.stops _ (hp.trans he.2) x.val hx)]
    · intro e; cases e; rfl

theorem innermost_mem : ∀ {fl : FlowList} {a m : BlockId}, fl.innermostLoop = some (a, m) →
    a.val ∈ (around fl).map Construct.stop
  | .If _ _ :: fl, a, m, h => List.mem_cons_of_mem _ (innermost_mem (fl := fl) h)
  | .Loop _ _ _ :: fl, a, m, h => by cases h; exact List.mem_cons_self ..

theorem search_copies (hc : Copies σ f first g) {map : BlockMap X} {map' : BlockMap Y} (hg : map.get = blockOf f)
    (hm : ∀ p, Path f (first, []) p → ¬ Stops p →
      (map'.get ⟨σ p.1⟩).map endOf = ((map.get ⟨p.1⟩).map endOf).map (BlockEnd.rename σ)) :
    ∀ fuel id fl, Path f (first, []) (id.val, around fl) →
      searchBlock map' fuel (reId σ id) (fl.map (reConverge σ)) = reResult σ (searchBlock map fuel id fl) := by
  intro fuel
  induction fuel with
  | zero => intros; rfl
  | succ fuel ih =>
    intro id fl hp
    rw [searchBlock_succ, searchBlock_succ, searchStep_eq, searchStep_eq, merges_map fl (hc.stops _ hp)]
    by_cases hmg : fl.merges id = true
    · rw [if_pos hmg, if_pos hmg]
      rfl
    rw [if_neg hmg, if_neg hmg]
    have hmm : (map'.get (reId σ id)).map endOf = ((map.get id).map endOf).map (BlockEnd.rename σ) :=
      hm _ hp fun h => hmg ((stops_iff fl id).mpr h)
    rw [hmm]
    cases he : (map.get id).map endOf with
    | none => rfl
    | some e =>
      obtain ⟨b, hat, hend⟩ := at_of_get hg hmg he
      have go : ∀ {t : UInt32} (fl' : FlowList), Step f (id.val, around fl) (t, around fl') →
          searchBlock map' fuel ⟨σ t⟩ (fl'.map (reConverge σ)) = reResult σ (searchBlock map fuel ⟨t⟩ fl') :=
        fun {t} fl' hs => ih ⟨t⟩ fl' (hp.tail hs)
      cases e with
      | returns => rfl
      | gotoSelection t m h => rfl
      | chooseLoop t f w m h => rfl
      | goto t =>
        simp only [Option.map_some, BlockEnd.rename, endStep, go fl (.goto hat hend)]
        cases searchBlock map fuel ⟨t⟩ fl with
        | error e => rfl
        | ok r =>
          simp only [reResult, cok_bind]
          show Except.ok _ = Except.ok _
          rw [renameChain_block2]
          rfl
      | gotoLoop t m h =>
        have hbody : Step f (id.val, around fl) (t, around (.Loop id ⟨m⟩ h :: fl)) := .body hat hend
        have h1 := go (.Loop id ⟨m⟩ h :: fl) hbody
        simp only [List.map_cons, reConverge] at h1
        have h1 : searchBlock map' fuel ⟨σ t⟩ (.Loop (reId σ id) ⟨σ m⟩ h :: fl.map (reConverge σ)) = _ := h1
        simp only [Option.map_some, BlockEnd.rename, endStep, h1, go fl (.after hat hend)]
        cases hr : searchBlock map fuel ⟨t⟩ (.Loop id ⟨m⟩ h :: fl) with
        | error e => rfl
        | ok r =>
          simp only [reResult, cok_bind]
          have hx := next_iff hc hg (hp.tail hbody) hr (x := id) (List.mem_cons_self ..)
          by_cases hn : r.2 = .Next id
          · rw [if_pos hn, if_pos (hx.mpr hn)]
            cases searchBlock map fuel ⟨m⟩ fl with
            | error e => rfl
            | ok r' =>
              simp only [cok_bind]
              show Except.ok _ = Except.ok _
              rw [renameChain_block2]
              rfl
          · rw [if_neg hn, if_neg (fun h => hn (hx.mp h))]
            rfl
      | chooseSelection t e w m h =>
        have hl : Step f (id.val, around fl) (t, around (.If ⟨m⟩ h :: fl)) := .left hat hend
        have hr : Step f (id.val, around fl) (e, around (.If ⟨m⟩ h :: fl)) := .right hat hend
        have h1 := go (.If ⟨m⟩ h :: fl) hl
        have h2 := go (.If ⟨m⟩ h :: fl) hr
        simp only [List.map_cons, reConverge] at h1 h2
        have h1 : searchBlock map' fuel ⟨σ t⟩ (.If ⟨σ m⟩ h :: fl.map (reConverge σ)) = _ := h1
        have h2 : searchBlock map' fuel ⟨σ e⟩ (.If ⟨σ m⟩ h :: fl.map (reConverge σ)) = _ := h2
        simp only [Option.map_some, BlockEnd.rename, endStep, h1, h2, go fl (.join hat hend)]
        cases hr1 : searchBlock map fuel ⟨t⟩ (.If ⟨m⟩ h :: fl) with
        | error e => rfl
        | ok r =>
          simp only [reResult, cok_bind]
          cases hr2 : searchBlock map fuel ⟨e⟩ (.If ⟨m⟩ h :: fl) with
          | error e => rfl
          | ok r2 =>
            simp only [cok_bind]
            have x1 : reNext σ r.2 = .Next ⟨σ m⟩ ↔ r.2 = .Next ⟨m⟩ :=
              next_iff hc hg (hp.tail hl) hr1 (x := ⟨m⟩) (List.mem_cons_self ..)
            have x2 : reNext σ r2.2 = .Next ⟨σ m⟩ ↔ r2.2 = .Next ⟨m⟩ :=
              next_iff hc hg (hp.tail hr) hr2 (x := ⟨m⟩) (List.mem_cons_self ..)
            by_cases hn : r.2 = r2.2 ∧ r.2 = .Next ⟨m⟩
            · rw [if_pos hn, if_pos ⟨by rw [hn.1], x1.mpr hn.2⟩]
              cases searchBlock map fuel ⟨m⟩ fl with
              | error e => rfl
              | ok r' =>
                simp only [cok_bind]
                show Except.ok _ = Except.ok _
                rw [renameChain_block2]
                rfl
            · have hn' : ¬ (reNext σ r.2 = reNext σ r2.2 ∧ reNext σ r.2 = .Next ⟨σ m⟩) := by
                rintro ⟨e1, e2⟩
                have a1 := x1.mp e2
                have a2 := x2.mp (e1 ▸ e2)
                exact hn ⟨a1.trans a2.symm, a1⟩
              rw [if_neg hn, if_neg hn']
              rfl
      | choose t e w =>
        simp only [Option.map_some, BlockEnd.rename, endStep, innermostLoop_rename]
        cases hi : fl.innermostLoop with
        | none => rfl
        | some p =>
          obtain ⟨a, m⟩ := p
          simp only [Option.map_some]
          have hin : innermost (around fl) = some (a.val, m.val) := by rw [innermost_around, hi]; rfl
          obtain ⟨e1, e2⟩ := hc.exits _ b t e w a.val m.val hp hat hend hin
          have hfm : (⟨σ e⟩ : BlockId) = reId σ m ↔ (⟨e⟩ : BlockId) = m :=
            ⟨fun h => eq_of_reId (a := ⟨e⟩) h e1, fun h => by rw [← h]; rfl⟩
          have hfa : (⟨σ e⟩ : BlockId) = reId σ a ↔ (⟨e⟩ : BlockId) = a :=
            ⟨fun h => eq_of_reId (a := ⟨e⟩) h e2, fun h => by rw [← h]; rfl⟩
          by_cases hx : (⟨e⟩ : BlockId) = m ∨ (⟨e⟩ : BlockId) = a
          · have hst : Step f (id.val, around fl) (t, around fl) :=
              .stay hat hend hin (by simpa only [blockId_eq] using hx)
            rw [if_pos hx, if_pos (hx.imp hfm.mpr hfa.mpr), go fl hst]
            cases hr : searchBlock map fuel ⟨t⟩ fl with
            | error e => rfl
            | ok r =>
              simp only [reResult, cok_bind]
              have hy := next_iff hc hg (hp.tail hst) hr (x := a) (innermost_mem hi)
              by_cases hn : r.2 = .Next a
              · rw [if_pos hn, if_pos (hy.mpr hn)]
                by_cases hb : (⟨e⟩ : BlockId) = m
                · rw [if_pos hb, if_pos (hfm.mpr hb)]
                  rfl
                · rw [if_neg hb, if_neg (fun h => hb (hfm.mp h))]
                  rfl
              · rw [if_neg hn, if_neg (fun h => hn (hy.mp h))]
                rfl
          · rw [if_neg hx, if_neg (fun h => hx (h.imp hfm.mp hfa.mp))]
            rfl

theorem get_copies (hc : Copies σ f first g) (hg : (g.map labelId).Nodup) (p : Place)
    (hp : Path f (first, []) p) (hs : ¬ Stops p) :
    (blockOf g ⟨σ p.1⟩).map endOf = ((blockOf f ⟨p.1⟩).map endOf).map (BlockEnd.rename σ) := by
  cases hb : blockOf f ⟨p.1⟩ with
  | none =>
    rw [blockOf_none.mpr (hc.missing p hp hs (blockOf_none.mp hb))]
    rfl
  | some b =>
    obtain ⟨h1, h2⟩ := blockOf_some hb
    obtain ⟨b', h3, h4, h5⟩ := hc.same p b hp ⟨h1, h2, hs⟩
    have hb' : blockOf g ⟨σ p.1⟩ = some b' := by rw [← h4]; exact blockOf_mem hg h3
    rw [hb', Option.map_some, Option.map_some, Option.map_some, h5]

theorem find_copies {f : FunctionDefinition X} {g : FunctionDefinition Y} {bf : BasicBlock X} {bg : BasicBlock Y}
    (hf : f.blocks.head? = some bf) (hg : g.blocks.head? = some bg) (h1 : labelId bg = σ (labelId bf))
    (hnf : (f.blocks.map labelId).Nodup) (hng : (g.blocks.map labelId).Nodup)
    (hc : Copies σ f.blocks (labelId bf) g.blocks) (fuel : Nat) :
    findControlFlow fuel g = renameOutcome σ (findControlFlow fuel f) := by
  obtain ⟨m, hm, hmg⟩ := build_iff f.blocks hnf
  obtain ⟨m', hm', hmg'⟩ := build_iff g.blocks hng
  rw [findControlFlow, findControlFlow, hm, hm', cok_bind, cok_bind]
  have e : searchBlock m' fuel ⟨labelId bg⟩ [] = reResult σ (searchBlock m fuel ⟨labelId bf⟩ []) := by
    rw [h1]
    refine search_copies hc hmg (fun p hp hs => ?_) fuel ⟨labelId bf⟩ [] .refl
    rw [hmg, hmg']
    exact get_copies hc hng p hp hs
  cases hfb : f.blocks with
  | nil => rw [hfb] at hf; cases hf
  | cons b bs =>
    rw [hfb] at hf
    cases hf
    cases hgb : g.blocks with
    | nil => rw [hgb] at hg; cases hg
    | cons c cs =>
      rw [hgb] at hg
      cases hg
      have e : searchBlock m' fuel ⟨bg.label.result_id.val⟩ [] =
        reResult σ (searchBlock m fuel ⟨bf.label.result_id.val⟩ []) := e
      simp only [e]
      cases searchBlock m fuel ⟨bf.label.result_id.val⟩ [] with
      | error e => cases e <;> rfl
      | ok r =>
        obtain ⟨c, n⟩ := r
        cases n <;> rfl

/-- What is around a place that can be reached -/
theorem around_anchors {p : Place} (hp : Path f (first, []) p) :
    (∀ s ∈ p.2.map Construct.stop, Anchor f s) ∧
      ∀ head merge, Construct.loop head merge ∈ p.2 → Anchor f head ∧ Anchor f merge := by
  induction hp with
  | refl => exact ⟨nofun, nofun⟩
  | tail _ hs ih =>
    cases hs with
    | goto => exact ih
    | after => exact ih
    | join => exact ih
    | stay => exact ih
    | body hat he =>
      have a1 : Anchor f _ := ⟨_, hat.1, .inl ⟨_, _, _, he, .inl rfl⟩⟩
      have a2 : Anchor f _ := ⟨_, hat.1, .inl ⟨_, _, _, he, .inr rfl⟩⟩
      rw [hat.2.1] at a1
      constructor
      · intro s hs
        rcases List.mem_cons.mp hs with rfl | hs
        · exact a1
        · exact ih.1 s hs
      · intro x y hxy
        rcases List.mem_cons.mp hxy with e | hxy
        · cases e; exact ⟨a1, a2⟩
        · exact ih.2 x y hxy
    | left hat he =>
      constructor
      · intro s hs
        rcases List.mem_cons.mp hs with rfl | hs
        · exact ⟨_, hat.1, .inr ⟨_, _, _, _, _, he, rfl⟩⟩
        · exact ih.1 s hs
      · intro x y hxy
        rcases List.mem_cons.mp hxy with e | hxy
        · cases e
        · exact ih.2 x y hxy
    | right hat he =>
      constructor
      · intro s hs
        rcases List.mem_cons.mp hs with rfl | hs
        · exact ⟨_, hat.1, .inr ⟨_, _, _, _, _, he, rfl⟩⟩
        · exact ih.1 s hs
      · intro x y hxy
        rcases List.mem_cons.mp hxy with e | hxy
        · cases e
        · exact ih.2 x y hxy

theorem innermost_mem_loop : ∀ {cs : List Construct} {a m : UInt32}, innermost cs = some (a, m) →
    Construct.loop a m ∈ cs
  | .selection _ :: cs, _, _, h => List.mem_cons_of_mem _ (innermost_mem_loop (cs := cs) h)
  | .loop _ _ :: _, _, _, h => by cases h; exact List.mem_cons_self ..

theorem copies_of_all (h : CopiesAll σ f g) (first : UInt32) : Copies σ f first g where
  same p b _ hat := by
    obtain ⟨b', h1, h2, h3⟩ := h.same b hat.1
    exact ⟨b', h1, by rw [h2, hat.2.1], h3⟩
  missing p _ _ hm := h.missing p.1 hm
  stops p hp s hs e := h.single s p.1 ((around_anchors hp).1 s hs) e
  exits p b t e w head merge hp _ _ hi := by
    obtain ⟨a1, a2⟩ := (around_anchors hp).2 head merge (innermost_mem_loop hi)
    exact ⟨h.single merge e a2, h.single head e a1⟩

deriving instance DecidableEq for Construct

/-- The places one step on -/
def stepsFrom (blocks : List (BasicBlock X)) (p : Place) : List Place :=
  blocks.flatMap fun b => if labelId b = p.1 ∧ ¬ p.1 ∈ p.2.map Construct.stop then
    match endOf b with
    | .goto t => [(t, p.2)]
    | .gotoLoop t m _ => [(t, .loop p.1 m :: p.2), (m, p.2)]
    | .chooseSelection t e _ m _ => [(t, .selection m :: p.2), (e, .selection m :: p.2), (m, p.2)]
    | .choose t _ _ => [(t, p.2)]
    | _ => []
  else []

theorem mem_stepsFrom {blocks : List (BasicBlock X)} {p q : Place} (h : Step blocks p q) : q ∈ stepsFrom blocks p := by
  have key : ∀ {id cs b} {l : List Place}, At blocks (id, cs) b → (match endOf b with
      | .goto t => [(t, cs)]
      | .gotoLoop t m _ => [(t, .loop id m :: cs), (m, cs)]
      | .chooseSelection t e _ m _ => [(t, .selection m :: cs), (e, .selection m :: cs), (m, cs)]
      | .choose t _ _ => [(t, cs)]
      | _ => []) = l → q ∈ l → q ∈ stepsFrom blocks (id, cs) := by
    intro id cs b l hat hl hq
    refine List.mem_flatMap.mpr ⟨b, hat.1, ?_⟩
    have hif : labelId b = (id, cs).1 ∧ ¬ (id, cs).1 ∈ (id, cs).2.map Construct.stop := hat.2
    rw [if_pos hif]
    exact hl ▸ hq
  cases h with
  | goto hat he => exact key hat (by rw [he]) (by simp)
  | body hat he => exact key hat (by rw [he]) (by simp)
  | after hat he => exact key hat (by rw [he]) (by simp)
  | left hat he => exact key hat (by rw [he]) (by simp)
  | right hat he => exact key hat (by rw [he]) (by simp)
  | join hat he => exact key hat (by rw [he]) (by simp)
  | stay hat he => exact key hat (by rw [he]) (by simp)

theorem path_mem {blocks : List (BasicBlock X)} {places : List Place}
    (h : ∀ p ∈ places, ∀ q ∈ stepsFrom blocks p, q ∈ places) {p q : Place} (hp : p ∈ places) (hq : Path blocks p q) :
    q ∈ places := by
  induction hq with
  | refl => exact hp
  | tail _ hs ih => exact h _ ih _ (mem_stepsFrom hs)

end Magma.Copy
