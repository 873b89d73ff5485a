import Verif.Proofs.Depth
import Verif.Spec.Place
/-! The search visits the places of the function. -/

namespace Magma
open Spec
variable {X : Type}

/-- The list of constructs of the search, without hints -/
def around : FlowList → List Construct
  | [] => []
  | .If merge _ :: fl => .selection merge.val :: around fl
  | .Loop head merge _ :: fl => .loop head.val merge.val :: around fl

theorem blockId_eq (a b : BlockId) : a = b ↔ a.val = b.val := by
  obtain ⟨a⟩ := a; obtain ⟨b⟩ := b; simp

theorem stops_iff (fl : FlowList) (id : BlockId) : fl.merges id = true ↔ Stops (id.val, around fl) := by
  induction fl with
  | nil => simp [FlowList.merges, Stops, around]
  | cons c fl ih =>
    cases c with
    | If m h =>
      simp only [FlowList.merges, Stops, around, List.map_cons, List.mem_cons, Construct.stop] at ih ⊢
      by_cases hm : m = id
      · rw [if_pos hm]; simp [hm]
      · rw [if_neg hm, ih]
        have : id.val ≠ m.val := fun h => hm ((blockId_eq _ _).mpr h.symm)
        simp [this]
    | Loop a m h =>
      simp only [FlowList.merges, Stops, around, List.map_cons, List.mem_cons, Construct.stop] at ih ⊢
      by_cases hm : a = id
      · rw [if_pos hm]; simp [hm]
      · rw [if_neg hm, ih]
        have : id.val ≠ a.val := fun h => hm ((blockId_eq _ _).mpr h.symm)
        simp [this]

theorem innermost_around (fl : FlowList) :
    innermost (around fl) = fl.innermostLoop.map (fun p => (p.1.val, p.2.val)) := by
  induction fl with
  | nil => rfl
  | cons c fl ih =>
    cases c with
    | If m h => exact ih
    | Loop a m h => rfl

section
variable {blocks : List (BasicBlock X)} {map : BlockMap X}

theorem at_of_get (hg : map.get = blockOf blocks) {id : BlockId} {fl : FlowList} {e : BlockEnd}
    (hm : ¬ fl.merges id = true) (he : (map.get id).map endOf = some e) :
    ∃ b, At blocks (id.val, around fl) b ∧ endOf b = e := by
  rw [hg] at he
  obtain ⟨b, hb, he⟩ := Option.map_eq_some_iff.mp he
  obtain ⟨h1, h2⟩ := blockOf_some hb
  exact ⟨b, ⟨h1, h2, fun h => hm ((stops_iff _ _).mpr h)⟩, he⟩

/-- Where the search ends -/
def Ends (blocks : List (BasicBlock X)) (p : Place) : Continue → Prop
  | .Next x => Stops (x.val, p.2) ∧ Path blocks p (x.val, p.2)
  | .Return => ∃ y b, Path blocks p (y, p.2) ∧ At blocks (y, p.2) b ∧ endOf b = .returns

theorem Ends.step {p : Place} {t : UInt32} {n : Continue} (hs : Step blocks p (t, p.2)) (h : Ends blocks (t, p.2) n) :
    Ends blocks p n := by
  cases n with
  | Next x => exact ⟨h.1, h.2.head hs⟩
  | Return =>
    obtain ⟨y, b, h1, h2⟩ := h
    exact ⟨y, b, h1.head hs, h2⟩

theorem search_ends (hg : map.get = blockOf blocks) : ∀ (fuel : Nat) (id : BlockId) (fl : FlowList)
    (r : ControlFlowChain × Continue), searchBlock map fuel id fl = .ok r →
    Ends blocks (id.val, around fl) r.2 := by
  intro fuel
  induction fuel with
  | zero => intro id fl r h; cases h
  | succ fuel ih =>
    intro id fl r h
    rw [searchBlock_succ, searchStep_eq] at h
    by_cases hm : fl.merges id = true
    · rw [if_pos hm] at h
      cases h
      exact ⟨(stops_iff _ _).mp hm, .refl⟩
    rw [if_neg hm] at h
    cases he : (map.get id).map endOf with
    | none => rw [he] at h; cases h
    | some e =>
      rw [he] at h
      obtain ⟨b, hat, hend⟩ := at_of_get hg hm he
      cases e with
      | returns =>
        cases h
        exact ⟨id.val, b, .refl, hat, hend⟩
      | gotoSelection => cases h
      | chooseLoop => cases h
      | goto t =>
        obtain ⟨a, ha, h⟩ := cbind_ok.mp h
        cases h
        exact Ends.step (.goto hat hend) (ih _ _ a ha)
      | gotoLoop t m hh =>
        obtain ⟨a, ha, h⟩ := cbind_ok.mp h
        by_cases hn : a.2 = .Next id
        · rw [if_pos hn] at h
          obtain ⟨a', ha', h⟩ := cbind_ok.mp h
          cases h
          exact Ends.step (.after hat hend) (ih _ _ a' ha')
        · rw [if_neg hn] at h; cases h
      | chooseSelection t f w m hh =>
        obtain ⟨a1, ha1, h⟩ := cbind_ok.mp h
        obtain ⟨a2, ha2, h⟩ := cbind_ok.mp h
        by_cases hn : a1.2 = a2.2 ∧ a1.2 = .Next ⟨m⟩
        · rw [if_pos hn] at h
          obtain ⟨a', ha', h⟩ := cbind_ok.mp h
          cases h
          exact Ends.step (.join hat hend) (ih _ _ a' ha')
        · rw [if_neg hn] at h; cases h
      | choose t f w =>
        simp only [endStep] at h
        cases hi : fl.innermostLoop with
        | none => simp only [hi] at h; cases h
        | some p =>
          obtain ⟨head, merge⟩ := p
          simp only [hi] at h
          by_cases hb : (⟨f⟩ : BlockId) = merge ∨ (⟨f⟩ : BlockId) = head
          · rw [if_pos hb] at h
            obtain ⟨a, ha, h⟩ := cbind_ok.mp h
            by_cases hn : a.2 = .Next head
            · rw [if_pos hn] at h
              cases h
              refine Ends.step (.stay hat hend (by rw [innermost_around, hi]; rfl) ?_) (ih _ _ a ha)
              simpa only [blockId_eq] using hb
            · rw [if_neg hn] at h; cases h
          · rw [if_neg hb] at h; cases h

theorem strays {t : UInt32} {cs : List Construct} {n : Continue} {x : BlockId} (h : Ends blocks (t, cs) n) (hn : n ≠ .Next x) :
    Strays blocks t cs x.val := by
  cases n with
  | Next y =>
    refine ⟨y.val, h.2, .inl ⟨h.1, fun he => hn ?_⟩⟩
    rw [(blockId_eq _ _).mpr he]
  | Return =>
    obtain ⟨y, b, h1, h2, h3⟩ := h
    exact ⟨y, h1, .inr ⟨b, h2, h3⟩⟩

theorem search_blamed (hg : map.get = blockOf blocks) : ∀ (fuel : Nat) (id : BlockId) (fl : FlowList)
    (e : Fault ControlFlowError), searchBlock map fuel id fl = .error e →
    ∃ p, Path blocks (id.val, around fl) p ∧ Blamed blocks p e := by
  intro fuel
  induction fuel with
  | zero => intro id fl e h; cases h; exact ⟨_, .refl, trivial⟩
  | succ fuel ih =>
    intro id fl e h
    rw [searchBlock_succ, searchStep_eq] at h
    by_cases hm : fl.merges id = true
    · rw [if_pos hm] at h; cases h
    rw [if_neg hm] at h
    have sub {t : UInt32} {fl' : FlowList} (hs : Step blocks (id.val, around fl) (t, around fl'))
        (h : searchBlock map fuel ⟨t⟩ fl' = .error e) :
        ∃ p, Path blocks (id.val, around fl) p ∧ Blamed blocks p e := by
      obtain ⟨p, h1, h2⟩ := ih _ _ _ h
      exact ⟨p, h1.head hs, h2⟩
    cases he : (map.get id).map endOf with
    | none =>
      rw [he] at h
      cases h
      refine ⟨_, .refl, rfl, fun h => hm ((stops_iff _ _).mpr h), ?_⟩
      rw [hg] at he
      exact blockOf_none.mp (Option.map_eq_none_iff.mp he)
    | some end_ =>
      rw [he] at h
      obtain ⟨b, hat, hend⟩ := at_of_get hg hm he
      cases end_ with
      | returns => cases h
      | gotoSelection t m hh =>
        cases h
        exact ⟨_, .refl, b, hat, .inr ⟨_, _, _, hend⟩⟩
      | chooseLoop t f w m hh =>
        cases h
        exact ⟨_, .refl, b, hat, .inl ⟨_, _, _, _, _, hend⟩⟩
      | goto t =>
        rcases cbind_error.mp h with h | ⟨a, -, h⟩
        · exact sub (.goto hat hend) h
        · cases h
      | gotoLoop t m hh =>
        rcases cbind_error.mp h with h | ⟨a, ha, h⟩
        · exact sub (fl' := .Loop id ⟨m⟩ hh :: fl) (.body hat hend) h
        · by_cases hn : a.2 = .Next id
          · rw [if_pos hn] at h
            rcases cbind_error.mp h with h | ⟨a, -, h⟩
            · exact sub (.after hat hend) h
            · cases h
          · rw [if_neg hn] at h
            cases h
            exact ⟨_, .refl, rfl, b, hat, .inl ⟨_, _, _, hend, strays (search_ends hg _ _ _ _ ha) hn⟩⟩
      | chooseSelection t f w m hh =>
        rcases cbind_error.mp h with h | ⟨a1, ha1, h⟩
        · exact sub (fl' := .If ⟨m⟩ hh :: fl) (.left hat hend) h
        rcases cbind_error.mp h with h | ⟨a2, ha2, h⟩
        · exact sub (fl' := .If ⟨m⟩ hh :: fl) (.right hat hend) h
        by_cases hn : a1.2 = a2.2 ∧ a1.2 = .Next ⟨m⟩
        · rw [if_pos hn] at h
          rcases cbind_error.mp h with h | ⟨a, -, h⟩
          · exact sub (.join hat hend) h
          · cases h
        · rw [if_neg hn] at h
          cases h
          refine ⟨_, .refl, rfl, b, hat, _, _, _, _, _, hend, ?_⟩
          by_cases hn1 : a1.2 = .Next ⟨m⟩
          · refine .inr (strays (x := ⟨m⟩) (search_ends hg _ _ _ _ ha2) fun hn2 => hn ⟨?_, hn1⟩)
            rw [hn1, hn2]
          · exact .inl (strays (x := ⟨m⟩) (search_ends hg _ _ _ _ ha1) hn1)
      | choose t f w =>
        simp only [endStep] at h
        cases hi : fl.innermostLoop with
        | none =>
          simp only [hi] at h
          cases h
          refine ⟨_, .refl, rfl, b, hat, _, _, _, hend, ?_⟩
          intro head merge hin
          rw [innermost_around, hi] at hin
          cases hin
        | some p =>
          obtain ⟨head, merge⟩ := p
          have hin : innermost (around fl) = some (head.val, merge.val) := by rw [innermost_around, hi]; rfl
          simp only [hi] at h
          by_cases hb : (⟨f⟩ : BlockId) = merge ∨ (⟨f⟩ : BlockId) = head
          · rw [if_pos hb] at h
            simp only [blockId_eq] at hb
            rcases cbind_error.mp h with h | ⟨a, ha, h⟩
            · exact sub (.stay hat hend hin hb) h
            · by_cases hn : a.2 = .Next head
              · rw [if_pos hn] at h; cases h
              · rw [if_neg hn] at h
                cases h
                exact ⟨_, .refl, rfl, b, hat, .inr ⟨_, _, _, _, _, hend, hin, hb, strays (search_ends hg _ _ _ _ ha) hn⟩⟩
          · rw [if_neg hb] at h
            cases h
            refine ⟨_, .refl, rfl, b, hat, _, _, _, hend, ?_⟩
            intro head' merge' hin'
            simp only [hin, Option.some.injEq, Prod.mk.injEq] at hin'
            obtain ⟨rfl, rfl⟩ := hin'
            simpa only [blockId_eq, not_or] using hb

/-- If there is no endless path, the search ends. -/
theorem search_acc (hg : map.get = blockOf blocks) (p : Place) (hacc : Acc (fun a b => Step blocks b a) p) :
    ∀ (id : BlockId) (fl : FlowList), p = (id.val, around fl) → ∃ fuel, ¬ Diverges (searchBlock map fuel id fl) := by
  induction hacc with
  | intro p _ ih =>
    rintro id fl rfl
    by_cases hm : fl.merges id = true
    · refine ⟨1, fun h => ?_⟩
      rw [searchBlock_succ, searchStep_eq, if_pos hm] at h
      cases h
    have run : ∀ j, searchBlock map (j + 1) id fl = endStep (searchBlock map j) id fl ((map.get id).map endOf) := by
      intro j
      rw [searchBlock_succ, searchStep_eq, if_neg hm]
    have up {j k : Nat} {id : BlockId} {fl : FlowList} (hjk : j ≤ k) (h : ¬ Diverges (searchBlock map j id fl)) :
        ¬ Diverges (searchBlock map k id fl) := by
      rw [searchBlock_mono hjk h]
      exact h
    have bind_div {α β : Type} {x : CF α} {f : α → CF β} (h1 : ¬ Diverges x)
        (h2 : ∀ a, ¬ Diverges (f a)) : ¬ Diverges (x >>= f) := by
      intro hd
      rcases cbind_error.mp hd with h | ⟨a, -, h⟩
      · exact h1 h
      · exact h2 a h
    cases he : (map.get id).map endOf with
    | none => exact ⟨1, fun h => by rw [run, he] at h; cases h⟩
    | some e =>
      obtain ⟨b, hat, hend⟩ := at_of_get hg hm he
      cases e with
      | returns => exact ⟨1, fun h => by rw [run, he] at h; cases h⟩
      | gotoSelection => exact ⟨1, fun h => by rw [run, he] at h; cases h⟩
      | chooseLoop => exact ⟨1, fun h => by rw [run, he] at h; cases h⟩
      | goto t =>
        obtain ⟨j, hj⟩ := ih _ (.goto hat hend) ⟨t⟩ fl rfl
        refine ⟨j + 1, ?_⟩
        rw [run, he]
        refine bind_div hj ?_
        rintro a ⟨⟩
      | gotoLoop t m hh =>
        obtain ⟨j, hj⟩ := ih _ (.body hat hend) ⟨t⟩ (.Loop id ⟨m⟩ hh :: fl) rfl
        obtain ⟨k, hk⟩ := ih _ (.after hat hend) ⟨m⟩ fl rfl
        refine ⟨max j k + 1, ?_⟩
        rw [run, he]
        refine bind_div (up (Nat.le_max_left j k) hj) ?_
        intro r hd
        by_cases hn : r.2 = .Next id
        · rw [if_pos hn] at hd
          refine bind_div (up (Nat.le_max_right j k) hk) ?_ hd
          rintro a ⟨⟩
        · rw [if_neg hn] at hd
          cases hd
      | chooseSelection t f w m hh =>
        obtain ⟨i, hi⟩ := ih _ (.left hat hend) ⟨t⟩ (.If ⟨m⟩ hh :: fl) rfl
        obtain ⟨j, hj⟩ := ih _ (.right hat hend) ⟨f⟩ (.If ⟨m⟩ hh :: fl) rfl
        obtain ⟨k, hk⟩ := ih _ (.join hat hend) ⟨m⟩ fl rfl
        refine ⟨max i (max j k) + 1, ?_⟩
        rw [run, he]
        refine bind_div (up (Nat.le_max_left _ _) hi) ?_
        intro r1
        refine bind_div (up (Nat.le_trans (Nat.le_max_left j k) (Nat.le_max_right _ _)) hj) ?_
        intro r2 hd
        by_cases hn : r1.2 = r2.2 ∧ r1.2 = .Next ⟨m⟩
        · rw [if_pos hn] at hd
          refine bind_div (up (Nat.le_trans (Nat.le_max_right j k) (Nat.le_max_right _ _)) hk) ?_ hd
          rintro a ⟨⟩
        · rw [if_neg hn] at hd
          cases hd
      | choose t f w =>
        cases hi : fl.innermostLoop with
        | none =>
          refine ⟨1, fun h => ?_⟩
          rw [run, he] at h
          simp only [endStep, hi] at h
          cases h
        | some p =>
          obtain ⟨head, merge⟩ := p
          have hin : innermost (around fl) = some (head.val, merge.val) := by rw [innermost_around, hi]; rfl
          by_cases hb : (⟨f⟩ : BlockId) = merge ∨ (⟨f⟩ : BlockId) = head
          · obtain ⟨j, hj⟩ := ih _ (.stay hat hend hin (by simpa only [blockId_eq] using hb)) ⟨t⟩ fl rfl
            refine ⟨j + 1, ?_⟩
            rw [run, he]
            simp only [endStep, hi]
            rw [if_pos hb]
            refine bind_div hj ?_
            intro r hd
            by_cases hn : r.2 = .Next head
            · rw [if_pos hn] at hd; cases hd
            · rw [if_neg hn] at hd; cases hd
          · refine ⟨1, fun h => ?_⟩
            rw [run, he] at h
            simp only [endStep, hi] at h
            rw [if_neg hb] at h
            cases h

end
end Magma
