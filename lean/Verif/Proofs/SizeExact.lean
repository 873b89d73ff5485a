import Verif.Proofs.Size
import Mathlib.Data.List.Nodup
import Mathlib.Data.List.Pairwise
/-! If the recovered control flow mentions every block once, every block is entered once. -/

namespace Magma
open Spec
variable {X : Type} {blocks : List (BasicBlock X)} {map : BlockMap X}

/-- A call of the search and its result -/
structure Call where
  id : BlockId
  fl : FlowList
  chain : ControlFlowChain
  next : Continue

def Call.place (s : Call) : Place := (s.id.val, around s.fl)

theorem at_unique (hn : (blocks.map labelId).Nodup) {p : Place} {b b' : BasicBlock X} (h : At blocks p b)
    (h' : At blocks p b') : b = b' := by
  have h1 := blockOf_mem hn h.1
  have h2 := blockOf_mem hn h'.1
  rw [h.2.1] at h1
  rw [h'.2.1, h1] at h2
  exact Option.some.inj h2

/-- What a call at a place where no body ends consists of -/
theorem search_calls (hg : map.get = blockOf blocks) (hn : (blocks.map labelId).Nodup) {fuel : Nat} {id : BlockId}
    {fl : FlowList} {r : ControlFlowChain × Continue} (h : searchBlock map (fuel + 1) id fl = .ok r)
    (hm : ¬ Stops (id.val, around fl)) :
    ∃ calls : List Call, chainIds r.1 = id.val :: calls.flatMap (fun s => chainIds s.chain) ∧
      (∀ s ∈ calls, searchBlock map fuel s.id s.fl = .ok (s.chain, s.next) ∧ Step blocks (id.val, around fl) s.place) ∧
      (∀ q, Step blocks (id.val, around fl) q → ∃ s ∈ calls, q = s.place) ∧
      ∀ b t f w m hh, At blocks (id.val, around fl) b → endOf b = .chooseSelection t f w m hh →
        ∃ s1 s2 s3, calls = [s1, s2, s3] ∧ s1.place = (t, .selection m :: around fl) ∧
          s2.place = (f, .selection m :: around fl) := by
  have hm : ¬ fl.merges id = true := fun h => hm ((stops_iff _ _).mp h)
  rw [searchBlock_succ, searchStep_eq, if_neg hm] at h
  cases he : (map.get id).map endOf with
  | none => rw [he] at h; cases h
  | some e =>
    rw [he] at h
    obtain ⟨b, hat, hend⟩ := at_of_get hg hm he
    have only {b' : BasicBlock X} {e' : BlockEnd} (h : At blocks (id.val, around fl) b') (h' : endOf b' = e') : e = e' := by
      rw [at_unique hn h hat] at h'
      exact hend.symm.trans h'
    cases e with
    | returns =>
      cases h
      refine ⟨[], rfl, by simp, ?_, ?_⟩
      · intro q hq
        cases hq with
        | goto h1 h2 => cases only h1 h2
        | body h1 h2 => cases only h1 h2
        | after h1 h2 => cases only h1 h2
        | left h1 h2 => cases only h1 h2
        | right h1 h2 => cases only h1 h2
        | join h1 h2 => cases only h1 h2
        | stay h1 h2 => cases only h1 h2
      · intro b' t f w m hh h1 h2
        cases only h1 h2
    | gotoSelection => cases h
    | chooseLoop => cases h
    | goto t =>
      obtain ⟨a, ha, h⟩ := cbind_ok.mp h
      cases h
      refine ⟨[⟨⟨t⟩, fl, a.1, a.2⟩], by simp [chainIds_block2, chainIds], ?_, ?_, ?_⟩
      · intro s hs
        cases List.mem_singleton.mp hs
        exact ⟨ha, .goto hat hend⟩
      · intro q hq
        refine ⟨_, List.mem_singleton_self _, ?_⟩
        cases hq with
        | goto h1 h2 => cases only h1 h2; rfl
        | body h1 h2 => cases only h1 h2
        | after h1 h2 => cases only h1 h2
        | left h1 h2 => cases only h1 h2
        | right h1 h2 => cases only h1 h2
        | join h1 h2 => cases only h1 h2
        | stay h1 h2 => cases only h1 h2
      · intro b' t f w m hh h1 h2
        cases only h1 h2
    | gotoLoop t m hh =>
      obtain ⟨a, ha, h⟩ := cbind_ok.mp h
      by_cases hx : a.2 = .Next id
      · rw [if_pos hx] at h
        obtain ⟨a', ha', h⟩ := cbind_ok.mp h
        cases h
        refine ⟨[⟨⟨t⟩, .Loop id ⟨m⟩ hh :: fl, a.1, a.2⟩, ⟨⟨m⟩, fl, a'.1, a'.2⟩], by simp [chainIds_block2, chainIds], ?_, ?_, ?_⟩
        · intro s hs
          simp only [List.mem_cons, List.not_mem_nil, or_false] at hs
          rcases hs with rfl | rfl
          · exact ⟨ha, .body hat hend⟩
          · exact ⟨ha', .after hat hend⟩
        · intro q hq
          cases hq with
          | goto h1 h2 => cases only h1 h2
          | body h1 h2 => cases only h1 h2; exact ⟨_, List.mem_cons_self, rfl⟩
          | after h1 h2 => cases only h1 h2; exact ⟨_, List.mem_cons_of_mem _ List.mem_cons_self, rfl⟩
          | left h1 h2 => cases only h1 h2
          | right h1 h2 => cases only h1 h2
          | join h1 h2 => cases only h1 h2
          | stay h1 h2 => cases only h1 h2
        · intro b' t f w m hh h1 h2
          cases only h1 h2
      · rw [if_neg hx] at h; cases h
    | chooseSelection t f w m hh =>
      obtain ⟨a1, ha1, h⟩ := cbind_ok.mp h
      obtain ⟨a2, ha2, h⟩ := cbind_ok.mp h
      by_cases hx : a1.2 = a2.2 ∧ a1.2 = .Next ⟨m⟩
      · rw [if_pos hx] at h
        obtain ⟨a', ha', h⟩ := cbind_ok.mp h
        cases h
        refine ⟨[⟨⟨t⟩, .If ⟨m⟩ hh :: fl, a1.1, a1.2⟩, ⟨⟨f⟩, .If ⟨m⟩ hh :: fl, a2.1, a2.2⟩, ⟨⟨m⟩, fl, a'.1, a'.2⟩],
          by simp [chainIds_block2, chainIds], ?_, ?_, ?_⟩
        · intro s hs
          simp only [List.mem_cons, List.not_mem_nil, or_false] at hs
          rcases hs with rfl | rfl | rfl
          · exact ⟨ha1, .left hat hend⟩
          · exact ⟨ha2, .right hat hend⟩
          · exact ⟨ha', .join hat hend⟩
        · intro q hq
          cases hq with
          | goto h1 h2 => cases only h1 h2
          | body h1 h2 => cases only h1 h2
          | after h1 h2 => cases only h1 h2
          | left h1 h2 => cases only h1 h2; exact ⟨_, List.mem_cons_self, rfl⟩
          | right h1 h2 => cases only h1 h2; exact ⟨_, List.mem_cons_of_mem _ List.mem_cons_self, rfl⟩
          | join h1 h2 =>
            cases only h1 h2
            exact ⟨_, List.mem_cons_of_mem _ (List.mem_cons_of_mem _ List.mem_cons_self), rfl⟩
          | stay h1 h2 => cases only h1 h2
        · intro b' t' f' w' m' hh' h1 h2
          cases only h1 h2
          exact ⟨_, _, _, rfl, rfl, rfl⟩
      · rw [if_neg hx] at h; cases h
    | choose t f w =>
      simp only [endStep] at h
      cases hi : fl.innermostLoop with
      | none => simp only [hi] at h; cases h
      | some p =>
        obtain ⟨head, merge⟩ := p
        simp only [hi] at h
        by_cases hb : (⟨f⟩ : BlockId) = merge ∨ (⟨f⟩ : BlockId) = head
        · rw [if_pos hb] at h
          obtain ⟨a, ha, h⟩ := cbind_ok.mp h
          by_cases hx : a.2 = .Next head
          · rw [if_pos hx] at h
            cases h
            have he : ∀ c : Prop, ∀ [Decidable c],
                chainIds (if c then .Break else .Continue) = [] := by intro c _; split <;> rfl
            refine ⟨[⟨⟨t⟩, fl, a.1, a.2⟩], by simp [chainIds, he], ?_, ?_, ?_⟩
            · intro s hs
              cases List.mem_singleton.mp hs
              exact ⟨ha, .stay hat hend (by rw [innermost_around, hi]; rfl) (by simpa only [blockId_eq] using hb)⟩
            · intro q hq
              refine ⟨_, List.mem_singleton_self _, ?_⟩
              cases hq with
              | goto h1 h2 => cases only h1 h2
              | body h1 h2 => cases only h1 h2
              | after h1 h2 => cases only h1 h2
              | left h1 h2 => cases only h1 h2
              | right h1 h2 => cases only h1 h2
              | join h1 h2 => cases only h1 h2
              | stay h1 h2 => cases only h1 h2; rfl
            · intro b' t f w m hh h1 h2
              cases only h1 h2
          · rw [if_neg hx] at h; cases h
        · rw [if_neg hb] at h; cases h

theorem not_stops_of_step {a q : Place} (hs : Step blocks a q) : ¬ Stops a := by
  cases hs with
  | goto h1 => exact h1.2.2
  | body h1 => exact h1.2.2
  | after h1 => exact h1.2.2
  | left h1 => exact h1.2.2
  | right h1 => exact h1.2.2
  | join h1 => exact h1.2.2
  | stay h1 => exact h1.2.2

theorem not_stops_of_path {p a : Place} (h : Path blocks p a) (ha : ¬ Stops a) : ¬ Stops p := by
  rcases Relation.ReflTransGen.cases_head h with rfl | ⟨c, h, -⟩
  · exact ha
  · exact not_stops_of_step h

/-- The search finds all blocks one gets to. -/
theorem search_covers (hg : map.get = blockOf blocks) (hn : (blocks.map labelId).Nodup) : ∀ (fuel : Nat) (id : BlockId)
    (fl : FlowList) (r : ControlFlowChain × Continue), searchBlock map fuel id fl = .ok r →
    ∀ q, Path blocks (id.val, around fl) q → ¬ Stops q → q.1 ∈ chainIds r.1 := by
  intro fuel
  induction fuel with
  | zero => intro id fl r h; cases h
  | succ fuel ih =>
    intro id fl r h q hq hs
    have hm : ¬ Stops (id.val, around fl) := not_stops_of_path hq hs
    obtain ⟨calls, hc, h1, h2, -⟩ := search_calls hg hn h hm
    rw [hc]
    rcases Relation.ReflTransGen.cases_head hq with rfl | ⟨c, hst, hq⟩
    · exact List.mem_cons_self
    · obtain ⟨s, hs', rfl⟩ := h2 _ hst
      exact List.mem_cons_of_mem _ (List.mem_flatMap.mpr ⟨s, hs', ih _ _ _ (h1 s hs').1 q hq hs⟩)

/-- Every block is entered in one way only, from a place on. -/
structure OnceFrom (blocks : List (BasicBlock X)) (r : Place) : Prop where
  once : ∀ p q p' q', Path blocks r p → Path blocks r p' → Step blocks p q → Step blocks p' q' →
    ¬ Stops q → ¬ Stops q' → q.1 = q'.1 → p = p' ∧ q = q'
  start : ∀ p q, Path blocks r p → Step blocks p q → q.1 = r.1 → Stops q
  branches : ∀ p b t f w m h, Path blocks r p → At blocks p b → endOf b = .chooseSelection t f w m h →
    t = f → Stops (t, .selection m :: p.2)

theorem search_onceFrom (hg : map.get = blockOf blocks) (hn : (blocks.map labelId).Nodup) : ∀ (fuel : Nat) (id : BlockId)
    (fl : FlowList) (r : ControlFlowChain × Continue), searchBlock map fuel id fl = .ok r →
    (chainIds r.1).Nodup → ¬ Stops (id.val, around fl) → OnceFrom blocks (id.val, around fl) := by
  intro fuel
  induction fuel with
  | zero => intro id fl r h; cases h
  | succ fuel ih =>
    intro id fl r h hnd hm
    obtain ⟨calls, hc, h1, h2, h3⟩ := search_calls hg hn h hm
    rw [hc] at hnd
    obtain ⟨hid, hnd⟩ := List.nodup_cons.mp hnd
    rw [List.nodup_flatMap] at hnd
    obtain ⟨hnd, hpw⟩ := hnd
    have hid : ∀ s ∈ calls, id.val ∉ chainIds s.chain := fun s hs h => hid (List.mem_flatMap.mpr ⟨s, hs, h⟩)
    have same {s s' : Call} {v : UInt32} (hs : s ∈ calls) (hs' : s' ∈ calls) (hv : v ∈ chainIds s.chain)
        (hv' : v ∈ chainIds s'.chain) : s = s' := by
      by_contra hne
      have : Std.Symm (Function.onFun List.Disjoint (fun s : Call => chainIds s.chain)) := ⟨fun _ _ h _ h1 h2 => h h2 h1⟩
      exact hpw.forall hs hs' hne hv hv'
    have covers {s : Call} (hs : s ∈ calls) {q : Place} (hq : Path blocks s.place q) (hst : ¬ Stops q) :
        q.1 ∈ chainIds s.chain := search_covers hg hn _ _ _ _ (h1 s hs).1 q hq hst
    have inner {s : Call} (hs : s ∈ calls) {q : Place} (hq : Path blocks s.place q) (hst : ¬ Stops q) :
        OnceFrom blocks s.place :=
      ih _ _ _ (h1 s hs).1 (hnd s hs) (not_stops_of_path hq hst)
    -- every step is the first one, or taken inside one of the calls
    have split {p q : Place} (hp : Path blocks (id.val, around fl) p) (hq : Step blocks p q) (hst : ¬ Stops q) :
        ∃ s ∈ calls, q.1 ∈ chainIds s.chain ∧
          ((p = (id.val, around fl) ∧ q = s.place) ∨ Path blocks s.place p) := by
      rcases Relation.ReflTransGen.cases_head hp with rfl | ⟨c, hst', hp⟩
      · obtain ⟨s, hs, rfl⟩ := h2 _ hq
        exact ⟨s, hs, covers hs .refl hst, .inl ⟨rfl, rfl⟩⟩
      · obtain ⟨s, hs, rfl⟩ := h2 _ hst'
        exact ⟨s, hs, covers hs (hp.tail hq) hst, .inr hp⟩
    refine ⟨?_, ?_, ?_⟩
    · intro p q p' q' hp hp' hq hq' hst hst' he
      obtain ⟨s, hs, hv, hw⟩ := split hp hq hst
      obtain ⟨s', hs', hv', hw'⟩ := split hp' hq' hst'
      cases same hs hs' hv (he ▸ hv')
      rcases hw with ⟨rfl, rfl⟩ | hw <;> rcases hw' with ⟨rfl, rfl⟩ | hw'
      · exact ⟨rfl, rfl⟩
      · exact absurd ((inner hs (hw'.tail hq') hst').start _ _ hw' hq' he.symm) hst'
      · exact absurd ((inner hs (hw.tail hq) hst).start _ _ hw hq he) hst
      · exact (inner hs (hw.tail hq) hst).once _ _ _ _ hw hw' hq hq' hst hst' he
    · intro p q hp hq he
      by_contra hst
      obtain ⟨s, hs, hv, -⟩ := split hp hq hst
      rw [he] at hv; exact hid s hs hv
    · intro p b t f w m hh hp hat he htf
      rcases Relation.ReflTransGen.cases_head hp with rfl | ⟨c, hst', hp⟩
      · by_contra hst
        obtain ⟨s1, s2, s3, rfl, e1, e2⟩ := h3 _ _ _ _ _ _ hat he
        have c1 := covers (s := s1) (by simp) .refl (by rw [e1]; exact hst)
        have c2 := covers (s := s2) (by simp) .refl (by rw [e2, ← htf]; exact hst)
        rw [e1] at c1
        rw [e2, ← htf] at c2
        exact (List.pairwise_cons.mp hpw).1 s2 (by simp) c1 c2
      · obtain ⟨s, hs, rfl⟩ := h2 _ hst'
        exact (inner hs hp hat.2.2).branches _ _ _ _ _ _ _ hp hat he htf

end Magma
