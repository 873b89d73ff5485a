import Verif.Proofs.Place
import Verif.Spec.Printing
/-! How large the recovered control flow is. -/

namespace Magma
open Spec
variable {X : Type}

theorem chainIdsAll_append (as bs : List ControlFlowChain) :
    chainIdsAll (as ++ bs) = chainIdsAll as ++ chainIdsAll bs := by
  induction as with
  | nil => rfl
  | cons a as ih => simp only [List.cons_append, chainIdsAll, ih, List.append_assoc]

theorem chainIds_mergeAll (cs : List ControlFlowChain) :
    chainIdsAll (ControlFlowChain.mergeAll cs) = chainIdsAll cs := by
  induction cs with
  | nil => rfl
  | cons c cs ih => cases c <;> simp only [ControlFlowChain.mergeAll, chainIdsAll, chainIdsAll_append, chainIds, ih]

theorem chainIds_block2 (a b : ControlFlowChain) :
    chainIds (.block [a, b]) = chainIds a ++ chainIds b := by
  show chainIdsAll (ControlFlowChain.mergeAll [a, b]) = _
  rw [chainIds_mergeAll]
  simp [chainIdsAll]

/-- Every call adds one block and makes at most three calls. -/
theorem search_size {map : BlockMap X} : ∀ (fuel : Nat) (id : BlockId) (fl : FlowList)
    (r : ControlFlowChain × Continue), searchBlock map fuel id fl = .ok r →
    (chainIds r.1).length + 1 ≤ 3 ^ fuel := by
  intro fuel
  induction fuel with
  | zero => intro id fl r h; cases h
  | succ fuel ih =>
    intro id fl r h
    have pos : 1 ≤ 3 ^ fuel := Nat.pos_of_ne_zero (by simp)
    rw [Nat.pow_succ]
    rw [searchBlock_succ, searchStep_eq] at h
    by_cases hm : fl.merges id = true
    · rw [if_pos hm] at h
      cases h
      simp [chainIds, chainIdsAll]
      omega
    rw [if_neg hm] at h
    cases he : (map.get id).map endOf with
    | none => rw [he] at h; cases h
    | some e =>
      rw [he] at h
      cases e with
      | returns => cases h; simp [chainIds]; omega
      | gotoSelection => cases h
      | chooseLoop => cases h
      | goto t =>
        obtain ⟨a, ha, h⟩ := cbind_ok.mp h
        cases h
        have := ih _ _ a ha
        simp only [chainIds_block2, chainIds, List.length_append, List.length_cons, List.length_nil]
        omega
      | gotoLoop t m hh =>
        obtain ⟨a, ha, h⟩ := cbind_ok.mp h
        by_cases hn : a.2 = .Next id
        · rw [if_pos hn] at h
          obtain ⟨a', ha', h⟩ := cbind_ok.mp h
          cases h
          have := ih _ _ a ha
          have := ih _ _ a' ha'
          simp only [chainIds_block2, chainIds, List.length_append, List.length_cons]
          omega
        · rw [if_neg hn] at h; cases h
      | chooseSelection t f w m hh =>
        obtain ⟨a1, ha1, h⟩ := cbind_ok.mp h
        obtain ⟨a2, ha2, h⟩ := cbind_ok.mp h
        by_cases hn : a1.2 = a2.2 ∧ a1.2 = .Next ⟨m⟩
        · rw [if_pos hn] at h
          obtain ⟨a', ha', h⟩ := cbind_ok.mp h
          cases h
          have := ih _ _ a1 ha1
          have := ih _ _ a2 ha2
          have := ih _ _ a' ha'
          simp only [chainIds_block2, chainIds, List.length_append, List.length_cons]
          omega
        · rw [if_neg hn] at h; cases h
      | choose t f w =>
        simp only [endStep] at h
        cases hi : fl.innermostLoop with
        | none => simp only [hi] at h; cases h
        | some p =>
          obtain ⟨head, merge⟩ := p
          simp only [hi] at h
          by_cases hb : (⟨f⟩ : BlockId) = merge ∨ (⟨f⟩ : BlockId) = head
          · rw [if_pos hb] at h
            obtain ⟨a, ha, h⟩ := cbind_ok.mp h
            by_cases hn : a.2 = .Next head
            · rw [if_pos hn] at h
              cases h
              have := ih _ _ a ha
              have he : ∀ c : Prop, ∀ [Decidable c],
                  chainIds (if c then .Break else .Continue) = [] := by intro c _; split <;> rfl
              simp only [chainIds, he, List.length_append, List.length_cons, List.length_nil]
              omega
            · rw [if_neg hn] at h; cases h
          · rw [if_neg hb] at h; cases h

/-! ### Blocks that are entered once -/

section
variable {blocks : List (BasicBlock X)} {first : UInt32}

/-- A step from a place that one gets to, to a place where no body ends -/
def Enters (blocks : List (BasicBlock X)) (first : UInt32) (p q : Place) : Prop :=
  Path blocks (first, []) p ∧ Step blocks p q ∧ ¬ Stops q

abbrev Enters.Star (blocks : List (BasicBlock X)) (first : UInt32) : Place → Place → Prop :=
  Relation.ReflTransGen (Enters blocks first)

theorem enters_unique (h : EnteredOnce blocks first) {p p' q : Place} (h1 : Enters blocks first p q)
    (h2 : Enters blocks first p' q) : p = p' :=
  (h.once p q p' q h1.1 h2.1 h1.2.1 h2.2.1 h1.2.2 h2.2.2 rfl).1

theorem enters_acyclic (h : EnteredOnce blocks first) {p : Place} (hp : Enters.Star blocks first (first, []) p) :
    ¬ Relation.TransGen (Enters blocks first) p p := by
  induction hp with
  | refl =>
    intro hc
    obtain ⟨b, -, hb⟩ := Relation.TransGen.tail'_iff.mp hc
    exact hb.2.2 (h.start b _ hb.1 hb.2.1 rfl)
  | tail _ hbc ih =>
    intro hc
    obtain ⟨b', h1, h2⟩ := Relation.TransGen.tail'_iff.mp hc
    cases enters_unique h hbc h2
    exact ih (Relation.TransGen.head' hbc h1)

/-- The blocks found after a step -/
def Part (blocks : List (BasicBlock X)) (first : UInt32) (p q : Place) (l : List UInt32) : Prop :=
  l.Nodup ∧ ∀ v ∈ l, Enters blocks first p q ∧ ∃ cs, Enters.Star blocks first q (v, cs)

theorem enters_last {p q r : Place} (h1 : Enters blocks first p q) (h2 : Enters.Star blocks first q r) :
    ∃ s, Enters.Star blocks first p s ∧ Enters blocks first s r := by
  rcases Relation.ReflTransGen.cases_tail h2 with rfl | ⟨s, hs, h⟩
  · exact ⟨p, .refl, h1⟩
  · exact ⟨s, hs.head h1, h⟩

theorem same_place (h : EnteredOnce blocks first) {s s' r r' : Place} (h1 : Enters blocks first s r)
    (h2 : Enters blocks first s' r') (he : r.1 = r'.1) : r = r' :=
  (h.once s r s' r' h1.1 h2.1 h1.2.1 h2.2.1 h1.2.2 h2.2.2 he).2

theorem part_notin (h : EnteredOnce blocks first) {p q : Place} {l : List UInt32}
    (hp : Enters.Star blocks first (first, []) p) (hl : Part blocks first p q l) : p.1 ∉ l := by
  intro hv
  obtain ⟨h1, cs, h2⟩ := hl.2 _ hv
  obtain ⟨s, hs, hr⟩ := enters_last h1 h2
  rcases Relation.ReflTransGen.cases_tail hp with rfl | ⟨s', -, hs'⟩
  · exact hr.2.2 (h.start s _ hr.1 hr.2.1 rfl)
  · have := same_place h hr hs' rfl
    rw [this] at h2
    exact enters_acyclic h hp (Relation.TransGen.head' h1 h2)

theorem part_disjoint (h : EnteredOnce blocks first) {p q q' : Place} {l l' : List UInt32}
    (hp : Enters.Star blocks first (first, []) p) (hl : Part blocks first p q l) (hl' : Part blocks first p q' l')
    (hq : q = q' → Stops q) : ∀ v ∈ l, v ∉ l' := by
  intro v hv hv'
  obtain ⟨h1, cs, h2⟩ := hl.2 _ hv
  obtain ⟨h1', cs', h2'⟩ := hl'.2 _ hv'
  have hne : q ≠ q' := fun he => h1.2.2 (hq he)
  obtain ⟨s, -, hr⟩ := enters_last h1 h2
  obtain ⟨s', -, hr'⟩ := enters_last h1' h2'
  have he := same_place h hr hr' rfl
  rw [← he] at h2'
  have uniq : Relator.RightUnique (fun a b => Enters blocks first b a) := fun a b c hab hac => enters_unique h hab hac
  have key {a b : Place} (hpa : Enters blocks first p a) (hpb : Enters blocks first p b) (hab : a ≠ b)
      (hs : Enters.Star blocks first a b) : False := by
    rcases Relation.ReflTransGen.cases_tail hs with rfl | ⟨x, hx, hxb⟩
    · exact hab rfl
    · cases enters_unique h hxb hpb
      exact enters_acyclic h hp (Relation.TransGen.head' hpa hx)
  have sw : ∀ a b, Enters.Star blocks first a b → Relation.ReflTransGen (fun a b => Enters blocks first b a) b a := by
    intro a b hab
    exact Relation.reflTransGen_swap.mp hab
  have ws : ∀ a b, Relation.ReflTransGen (fun a b => Enters blocks first b a) b a → Enters.Star blocks first a b := by
    intro a b hab
    exact Relation.reflTransGen_swap.mpr hab
  rcases Relation.ReflTransGen.total_of_right_unique uniq (sw _ _ h2) (sw _ _ h2') with ht | ht
  · exact key h1' h1 (Ne.symm hne) (ws _ _ ht)
  · exact key h1 h1' hne (ws _ _ ht)

theorem star_path {p : Place} (hp : Enters.Star blocks first (first, []) p) : Path blocks (first, []) p := by
  induction hp with
  | refl => exact .refl
  | tail _ h ih => exact ih.tail h.2.1

/-- With blocks that are entered once, the search finds each once. -/
theorem search_once {map : BlockMap X} (hg : map.get = blockOf blocks) (ho : EnteredOnce blocks first) :
    ∀ (fuel : Nat) (id : BlockId) (fl : FlowList) (r : ControlFlowChain × Continue),
      searchBlock map fuel id fl = .ok r →
      (Stops (id.val, around fl) ∧ chainIds r.1 = []) ∨
      (¬ Stops (id.val, around fl) ∧ (Enters.Star blocks first (first, []) (id.val, around fl) →
        (chainIds r.1).Nodup ∧ ∀ v ∈ chainIds r.1, ∃ cs, Enters.Star blocks first (id.val, around fl) (v, cs))) := by
  intro fuel
  induction fuel with
  | zero => intro id fl r h; cases h
  | succ fuel ih =>
    intro id fl r h
    rw [searchBlock_succ, searchStep_eq] at h
    by_cases hm : fl.merges id = true
    · rw [if_pos hm] at h
      cases h
      exact .inl ⟨(stops_iff _ _).mp hm, rfl⟩
    rw [if_neg hm] at h
    refine .inr ⟨fun h => hm ((stops_iff _ _).mpr h), fun hp => ?_⟩
    have part {t : UInt32} {fl' : FlowList} {a : ControlFlowChain × Continue}
        (hs : Step blocks (id.val, around fl) (t, around fl')) (ha : searchBlock map fuel ⟨t⟩ fl' = .ok a) :
        Part blocks first (id.val, around fl) (t, around fl') (chainIds a.1) := by
      rcases ih _ _ a ha with ⟨-, h0⟩ | ⟨hns, hsub⟩
      · rw [h0]
        exact ⟨.nil, by simp⟩
      · have hent : Enters blocks first (id.val, around fl) (t, around fl') := ⟨star_path hp, hs, hns⟩
        obtain ⟨h1, h2⟩ := hsub (hp.tail hent)
        exact ⟨h1, fun v hv => ⟨hent, h2 v hv⟩⟩
    have mem {q : Place} {l : List UInt32} (hl : Part blocks first (id.val, around fl) q l) :
        ∀ v ∈ l, ∃ cs, Enters.Star blocks first (id.val, around fl) (v, cs) := by
      intro v hv
      obtain ⟨h1, cs, h2⟩ := hl.2 v hv
      exact ⟨cs, h2.head h1⟩
    have one {q : Place} {l : List UInt32} (hl : Part blocks first (id.val, around fl) q l) :
        (id.val :: l).Nodup ∧ ∀ v ∈ id.val :: l, ∃ cs, Enters.Star blocks first (id.val, around fl) (v, cs) := by
      refine ⟨List.nodup_cons.mpr ⟨part_notin ho hp hl, hl.1⟩, fun v hv => ?_⟩
      rcases List.mem_cons.mp hv with rfl | hv
      · exact ⟨_, .refl⟩
      · exact mem hl v hv
    cases he : (map.get id).map endOf with
    | none => rw [he] at h; cases h
    | some e =>
      rw [he] at h
      obtain ⟨b, hat, hend⟩ := at_of_get hg hm he
      cases e with
      | returns =>
        cases h
        exact ⟨by simp [chainIds], fun v hv => by
          simp only [chainIds, List.mem_singleton] at hv
          subst hv
          exact ⟨_, .refl⟩⟩
      | gotoSelection => cases h
      | chooseLoop => cases h
      | goto t =>
        obtain ⟨a, ha, h⟩ := cbind_ok.mp h
        cases h
        simp only [chainIds_block2, chainIds, List.cons_append, List.nil_append]
        exact one (part (.goto hat hend) ha)
      | gotoLoop t m hh =>
        obtain ⟨a, ha, h⟩ := cbind_ok.mp h
        by_cases hn : a.2 = .Next id
        · rw [if_pos hn] at h
          obtain ⟨a', ha', h⟩ := cbind_ok.mp h
          cases h
          simp only [chainIds_block2, chainIds, List.cons_append]
          have p1 := part (fl' := .Loop id ⟨m⟩ hh :: fl) (.body hat hend) ha
          have p2 := part (.after hat hend) ha'
          have d := part_disjoint ho hp p1 p2 (fun he => by
            have := congrArg (fun q : Place => q.2.length) he
            simp [around] at this)
          refine ⟨List.nodup_cons.mpr ⟨?_, List.nodup_append.mpr ⟨p1.1, p2.1, ?_⟩⟩, ?_⟩
          · rw [List.mem_append, not_or]
            exact ⟨part_notin ho hp p1, part_notin ho hp p2⟩
          · rintro a ha b hb rfl
            exact d a ha hb
          · intro v hv
            rcases List.mem_cons.mp hv with rfl | hv
            · exact ⟨_, .refl⟩
            · rcases List.mem_append.mp hv with hv | hv
              · exact mem p1 v hv
              · exact mem p2 v hv
        · rw [if_neg hn] at h; cases h
      | chooseSelection t f w m hh =>
        obtain ⟨a1, ha1, h⟩ := cbind_ok.mp h
        obtain ⟨a2, ha2, h⟩ := cbind_ok.mp h
        by_cases hn : a1.2 = a2.2 ∧ a1.2 = .Next ⟨m⟩
        · rw [if_pos hn] at h
          obtain ⟨a', ha', h⟩ := cbind_ok.mp h
          cases h
          simp only [chainIds_block2, chainIds, List.cons_append]
          have p1 := part (fl' := .If ⟨m⟩ hh :: fl) (.left hat hend) ha1
          have p2 := part (fl' := .If ⟨m⟩ hh :: fl) (.right hat hend) ha2
          have p3 := part (.join hat hend) ha'
          have d12 := part_disjoint ho hp p1 p2 (fun he =>
            ho.branches _ b t f w m hh (star_path hp) hat hend (congrArg Prod.fst he))
          have d13 := part_disjoint ho hp p1 p3 (fun he => by
            have := congrArg (fun q : Place => q.2.length) he
            simp [around] at this)
          have d23 := part_disjoint ho hp p2 p3 (fun he => by
            have := congrArg (fun q : Place => q.2.length) he
            simp [around] at this)
          refine ⟨List.nodup_cons.mpr ⟨?_, List.nodup_append.mpr ⟨List.nodup_append.mpr ⟨p1.1, p2.1, ?_⟩, p3.1, ?_⟩⟩, ?_⟩
          · rw [List.mem_append, List.mem_append, not_or, not_or]
            exact ⟨⟨part_notin ho hp p1, part_notin ho hp p2⟩, part_notin ho hp p3⟩
          · rintro a ha b hb rfl
            exact d12 a ha hb
          · rintro a ha b hb rfl
            rcases List.mem_append.mp ha with ha | ha
            · exact d13 a ha hb
            · exact d23 a ha hb
          · intro v hv
            rcases List.mem_cons.mp hv with rfl | hv
            · exact ⟨_, .refl⟩
            · rcases List.mem_append.mp hv with hv | hv
              · rcases List.mem_append.mp hv with hv | hv
                · exact mem p1 v hv
                · exact mem p2 v hv
              · exact mem p3 v hv
        · rw [if_neg hn] at h; cases h
      | choose t f w =>
        simp only [endStep] at h
        cases hi : fl.innermostLoop with
        | none => simp only [hi] at h; cases h
        | some p =>
          obtain ⟨head, merge⟩ := p
          simp only [hi] at h
          by_cases hb : (⟨f⟩ : BlockId) = merge ∨ (⟨f⟩ : BlockId) = head
          · rw [if_pos hb] at h
            obtain ⟨a, ha, h⟩ := cbind_ok.mp h
            by_cases hn : a.2 = .Next head
            · rw [if_pos hn] at h
              cases h
              have he : ∀ c : Prop, ∀ [Decidable c],
                  chainIds (if c then .Break else .Continue) = [] := by intro c _; split <;> rfl
              simp only [chainIds, he, List.append_nil]
              exact one (part (.stay hat hend (by rw [innermost_around, hi]; rfl)
                (by simpa only [blockId_eq] using hb)) ha)
            · rw [if_neg hn] at h; cases h
          · rw [if_neg hb] at h; cases h

end
end Magma
