import Verif.Proofs.SizeExact
/-! If the search succeeds, nothing is wrong with the places it gets to. -/

namespace Magma
open Spec
variable {X : Type} {blocks : List (BasicBlock X)} {map : BlockMap X}

/-- Constructs are entered only. -/
theorem step_length {p q : Place} (h : Step blocks p q) : q.2 = p.2 ∨ p.2.length < q.2.length := by
  cases h with
  | goto => exact .inl rfl
  | body => exact .inr (by simp)
  | after => exact .inl rfl
  | left => exact .inr (by simp)
  | right => exact .inr (by simp)
  | join => exact .inl rfl
  | stay => exact .inl rfl

theorem path_length {p q : Place} (h : Path blocks p q) : p.2.length ≤ q.2.length := by
  induction h with
  | refl => exact Nat.le_refl _
  | tail _ hs ih =>
    rcases step_length hs with h | h
    · rw [h]; exact ih
    · omega

/-- A path that ends in the constructs where it starts stays in them. -/
theorem path_head {p q r : Place} (hs : Step blocks p q) (h : Path blocks q r) (he : r.2 = p.2) : q.2 = p.2 := by
  rcases step_length hs with h' | h'
  · exact h'
  · have := path_length h
    rw [he] at this
    omega

theorem search_stop {fuel : Nat} {id : BlockId} {fl : FlowList} {r : ControlFlowChain × Continue}
    (h : searchBlock map fuel id fl = .ok r) (hs : Stops (id.val, around fl)) : r.2 = .Next id := by
  cases fuel with
  | zero => cases h
  | succ fuel =>
    rw [searchBlock_succ, searchStep_eq, if_pos ((stops_iff _ _).mpr hs)] at h
    cases h
    rfl

/-- The search is carried on in one way in the same constructs, and ends where that ends. -/
theorem search_ends_at (hg : map.get = blockOf blocks) (hn : (blocks.map labelId).Nodup) : ∀ (fuel : Nat) (id : BlockId)
    (fl : FlowList) (r : ControlFlowChain × Continue), searchBlock map fuel id fl = .ok r →
    ∀ y, Path blocks (id.val, around fl) (y, around fl) →
      (Stops (y, around fl) → r.2 = .Next ⟨y⟩) ∧ ∀ b, At blocks (y, around fl) b → endOf b = .returns → r.2 = .Return := by
  intro fuel
  induction fuel with
  | zero => intro id fl r h; cases h
  | succ fuel ih =>
    intro id fl r h y hy
    by_cases hm : fl.merges id = true
    · have hst := (stops_iff _ _).mp hm
      rcases Relation.ReflTransGen.cases_head hy with he | ⟨c, hs, -⟩
      · cases he
        exact ⟨fun _ => search_stop h hst, fun b hat _ => absurd hst hat.2.2⟩
      · exact absurd hst (not_stops_of_step hs)
    rw [searchBlock_succ, searchStep_eq, if_neg hm] at h
    cases he : (map.get id).map endOf with
    | none => rw [he] at h; cases h
    | some e =>
      rw [he] at h
      obtain ⟨b, hat, hend⟩ := at_of_get hg hm he
      have only {b' : BasicBlock X} {e' : BlockEnd} (h : At blocks (id.val, around fl) b') (h' : endOf b' = e') : e = e' := by
        rw [at_unique hn h hat] at h'
        exact hend.symm.trans h'
      -- the path goes on after this block, or this is where it ends
      have here {n : Continue} (hne : ∀ q, Step blocks (id.val, around fl) q → q.2 = around fl → Path blocks q (y, around fl) →
            (Stops (y, around fl) → n = .Next ⟨y⟩) ∧ ∀ b, At blocks (y, around fl) b → endOf b = .returns → n = .Return)
          (hr : e = .returns → n = .Return) :
          (Stops (y, around fl) → n = .Next ⟨y⟩) ∧ ∀ b, At blocks (y, around fl) b → endOf b = .returns → n = .Return := by
        rcases Relation.ReflTransGen.cases_head hy with he | ⟨c, hs, hc⟩
        · cases he
          refine ⟨fun h => absurd h hat.2.2, fun b' h1 h2 => hr (only h1 h2)⟩
        · exact hne c hs (path_head hs hc rfl) hc
      cases e with
      | returns =>
        cases h
        refine here ?_ (fun _ => rfl)
        intro q hs
        cases hs with
        | goto h1 h2 => cases only h1 h2
        | body h1 h2 => cases only h1 h2
        | after h1 h2 => cases only h1 h2
        | left h1 h2 => cases only h1 h2
        | right h1 h2 => cases only h1 h2
        | join h1 h2 => cases only h1 h2
        | stay h1 h2 => cases only h1 h2
      | gotoSelection => cases h
      | chooseLoop => cases h
      | goto t =>
        obtain ⟨a, ha, h⟩ := cbind_ok.mp h
        cases h
        refine here ?_ (fun h => by cases h)
        intro q hs _ hq
        cases hs with
        | goto h1 h2 => cases only h1 h2; exact ih _ _ a ha y hq
        | body h1 h2 => cases only h1 h2
        | after h1 h2 => cases only h1 h2
        | left h1 h2 => cases only h1 h2
        | right h1 h2 => cases only h1 h2
        | join h1 h2 => cases only h1 h2
        | stay h1 h2 => cases only h1 h2
      | gotoLoop t m hh =>
        obtain ⟨a, ha, h⟩ := cbind_ok.mp h
        by_cases hx : a.2 = .Next id
        · rw [if_pos hx] at h
          obtain ⟨a', ha', h⟩ := cbind_ok.mp h
          cases h
          refine here ?_ (fun h => by cases h)
          intro q hs hq2 hq
          cases hs with
          | goto h1 h2 => cases only h1 h2
          | body h1 h2 => exact absurd (congrArg List.length hq2) (by simp)
          | after h1 h2 => cases only h1 h2; exact ih _ _ a' ha' y hq
          | left h1 h2 => cases only h1 h2
          | right h1 h2 => cases only h1 h2
          | join h1 h2 => cases only h1 h2
          | stay h1 h2 => cases only h1 h2
        · rw [if_neg hx] at h; cases h
      | chooseSelection t f w m hh =>
        obtain ⟨a1, ha1, h⟩ := cbind_ok.mp h
        obtain ⟨a2, ha2, h⟩ := cbind_ok.mp h
        by_cases hx : a1.2 = a2.2 ∧ a1.2 = .Next ⟨m⟩
        · rw [if_pos hx] at h
          obtain ⟨a', ha', h⟩ := cbind_ok.mp h
          cases h
          refine here ?_ (fun h => by cases h)
          intro q hs hq2 hq
          cases hs with
          | goto h1 h2 => cases only h1 h2
          | body h1 h2 => cases only h1 h2
          | after h1 h2 => cases only h1 h2
          | left h1 h2 => exact absurd (congrArg List.length hq2) (by simp)
          | right h1 h2 => exact absurd (congrArg List.length hq2) (by simp)
          | join h1 h2 => cases only h1 h2; exact ih _ _ a' ha' y hq
          | stay h1 h2 => cases only h1 h2
        · rw [if_neg hx] at h; cases h
      | choose t f w =>
        simp only [endStep] at h
        cases hi : fl.innermostLoop with
        | none => simp only [hi] at h; cases h
        | some p =>
          obtain ⟨head, merge⟩ := p
          simp only [hi] at h
          by_cases hb : (⟨f⟩ : BlockId) = merge ∨ (⟨f⟩ : BlockId) = head
          · rw [if_pos hb] at h
            obtain ⟨a, ha, h⟩ := cbind_ok.mp h
            by_cases hx : a.2 = .Next head
            · rw [if_pos hx] at h
              cases h
              refine here ?_ (fun h => by cases h)
              intro q hs _ hq
              cases hs with
              | goto h1 h2 => cases only h1 h2
              | body h1 h2 => cases only h1 h2
              | after h1 h2 => cases only h1 h2
              | left h1 h2 => cases only h1 h2
              | right h1 h2 => cases only h1 h2
              | join h1 h2 => cases only h1 h2
              | stay h1 h2 => cases only h1 h2; exact ih _ _ a ha y hq
            · rw [if_neg hx] at h; cases h
          · rw [if_neg hb] at h; cases h

theorem not_strays (hg : map.get = blockOf blocks) (hn : (blocks.map labelId).Nodup) {fuel : Nat} {id : BlockId}
    {fl : FlowList} {r : ControlFlowChain × Continue} (h : searchBlock map fuel id fl = .ok r) {x : BlockId}
    (hx : r.2 = .Next x) : ¬ Strays blocks id.val (around fl) x.val := by
  rintro ⟨y, hy, ⟨hs, hne⟩ | ⟨b, hat, he⟩⟩
  · have := (search_ends_at hg hn _ _ _ _ h y hy).1 hs
    rw [hx] at this
    cases this
    exact hne rfl
  · have := (search_ends_at hg hn _ _ _ _ h y hy).2 b hat he
    rw [hx] at this
    cases this

theorem blamed_not_stops {p : Place} {e : Fault ControlFlowError} (he : e ≠ .diverge) (h : Blamed blocks p e) :
    ¬ Stops p := by
  match e, h with
  | .diverge, _ => exact absurd rfl he
  | .panic _, ⟨b, hat, _⟩ => exact hat.2.2
  | .err (.UnknownBlockId id), ⟨_, h, _⟩ => exact h
  | .err (.CouldNotPredictConverge id), ⟨_, b, hat, _⟩ => exact hat.2.2
  | .err (.InvalidConvergePrediction .Selection id), ⟨_, b, hat, _⟩ => exact hat.2.2
  | .err (.InvalidConvergePrediction .Loop id), ⟨_, b, hat, _⟩ => exact hat.2.2

/-- Nothing is wrong with the place where a successful search starts. -/
theorem search_not_blamed (hg : map.get = blockOf blocks) (hn : (blocks.map labelId).Nodup) {fuel : Nat} {id : BlockId}
    {fl : FlowList} {r : ControlFlowChain × Continue} (h : searchBlock map fuel id fl = .ok r)
    {e : Fault ControlFlowError} (he : e ≠ .diverge) : ¬ Blamed blocks (id.val, around fl) e := by
  intro hbl
  have hm : ¬ fl.merges id = true := fun h => blamed_not_stops he hbl ((stops_iff _ _).mp h)
  cases fuel with
  | zero => cases h
  | succ fuel =>
    rw [searchBlock_succ, searchStep_eq, if_neg hm] at h
    cases hen : (map.get id).map endOf with
    | none => rw [hen] at h; cases h
    | some en =>
      rw [hen] at h
      obtain ⟨b, hat, hend⟩ := at_of_get hg hm hen
      have only {b' : BasicBlock X} {e' : BlockEnd} (h : At blocks (id.val, around fl) b') (h' : endOf b' = e') : en = e' := by
        rw [at_unique hn h hat] at h'
        exact hend.symm.trans h'
      match e, hbl with
      | .diverge, _ => exact he rfl
      | .panic _, ⟨b', hat', .inl ⟨_, _, _, _, _, h'⟩⟩ => cases only hat' h'; cases h
      | .panic _, ⟨b', hat', .inr ⟨_, _, _, h'⟩⟩ => cases only hat' h'; cases h
      | .err (.UnknownBlockId id'), ⟨_, _, h'⟩ => exact h' b hat.1 hat.2.1
      | .err (.CouldNotPredictConverge id'), ⟨_, b', hat', t, f, w, h', hno⟩ =>
        cases only hat' h'
        simp only [endStep] at h
        cases hi : fl.innermostLoop with
        | none => simp only [hi] at h; cases h
        | some p =>
          obtain ⟨head, merge⟩ := p
          simp only [hi] at h
          have := hno head.val merge.val (by rw [innermost_around, hi]; rfl)
          have hb : ¬ ((⟨f⟩ : BlockId) = merge ∨ (⟨f⟩ : BlockId) = head) := by
            simp only [blockId_eq]
            exact fun h => h.elim this.1 this.2
          rw [if_neg hb] at h
          cases h
      | .err (.InvalidConvergePrediction .Selection id'), ⟨_, b', hat', t, f, w, m, hh, h', hst⟩ =>
        cases only hat' h'
        obtain ⟨a1, ha1, h⟩ := cbind_ok.mp h
        obtain ⟨a2, ha2, h⟩ := cbind_ok.mp h
        by_cases hx : a1.2 = a2.2 ∧ a1.2 = .Next ⟨m⟩
        · rcases hst with hst | hst
          · exact not_strays hg hn ha1 hx.2 hst
          · exact not_strays hg hn ha2 (hx.1.symm.trans hx.2) hst
        · rw [if_neg hx] at h; cases h
      | .err (.InvalidConvergePrediction .Loop id'), ⟨_, b', hat', .inl ⟨t, m, hh, h', hst⟩⟩ =>
        cases only hat' h'
        obtain ⟨a, ha, h⟩ := cbind_ok.mp h
        by_cases hx : a.2 = .Next id
        · exact not_strays hg hn ha hx hst
        · rw [if_neg hx] at h; cases h
      | .err (.InvalidConvergePrediction .Loop id'), ⟨_, b', hat', .inr ⟨t, f, w, hd, mg, h', hin, hf, hst⟩⟩ =>
        cases only hat' h'
        simp only [endStep] at h
        cases hi : fl.innermostLoop with
        | none => simp only [hi] at h; cases h
        | some p =>
          obtain ⟨head, merge⟩ := p
          rw [innermost_around, hi] at hin
          cases hin
          simp only [hi] at h
          have hb : (⟨f⟩ : BlockId) = merge ∨ (⟨f⟩ : BlockId) = head := by
            simp only [blockId_eq]
            exact hf
          rw [if_pos hb] at h
          obtain ⟨a, ha, h⟩ := cbind_ok.mp h
          by_cases hx : a.2 = .Next head
          · exact not_strays hg hn ha hx hst
          · rw [if_neg hx] at h; cases h

/-- Nothing is wrong with the places one gets to. -/
theorem search_sound (hg : map.get = blockOf blocks) (hn : (blocks.map labelId).Nodup) : ∀ (fuel : Nat) (id : BlockId)
    (fl : FlowList) (r : ControlFlowChain × Continue), searchBlock map fuel id fl = .ok r →
    ∀ q, Path blocks (id.val, around fl) q → ∀ e, Blamed blocks q e → e = .diverge := by
  intro fuel
  induction fuel with
  | zero => intro id fl r h; cases h
  | succ fuel ih =>
    intro id fl r h q hq e hb
    by_contra he
    rcases Relation.ReflTransGen.cases_head hq with rfl | ⟨c, hs, hc⟩
    · exact search_not_blamed hg hn h he hb
    · obtain ⟨calls, -, h1, h2, -⟩ := search_calls hg hn h (not_stops_of_step hs)
      obtain ⟨s, hs', rfl⟩ := h2 c hs
      exact he (ih _ _ _ (h1 s hs').1 q hc e hb)

/-- Paths from where a successful search starts end. -/
theorem search_finite (hg : map.get = blockOf blocks) (hn : (blocks.map labelId).Nodup) : ∀ (fuel : Nat) (id : BlockId)
    (fl : FlowList) (r : ControlFlowChain × Continue), searchBlock map fuel id fl = .ok r →
    ¬ ∃ p : Nat → Place, p 0 = (id.val, around fl) ∧ ∀ n, Step blocks (p n) (p (n + 1)) := by
  intro fuel
  induction fuel with
  | zero => intro id fl r h; cases h
  | succ fuel ih =>
    rintro id fl r h ⟨p, h0, hp⟩
    have hs := hp 0
    rw [h0] at hs
    obtain ⟨calls, -, h1, h2, -⟩ := search_calls hg hn h (not_stops_of_step hs)
    obtain ⟨s, hs', he⟩ := h2 _ hs
    exact ih _ _ _ (h1 s hs').1 ⟨fun n => p (n + 1), he, fun n => hp (n + 1)⟩

end Magma
