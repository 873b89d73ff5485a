import Verif.Proofs.Flow
/-! How deep the search recurses. -/

namespace Magma
open Spec
variable {X : Type}

/-- The calls the search makes for a block, inside of the constructs `fl` -/
inductive Sub : BlockEnd → BlockId → FlowList → BlockId → FlowList → Prop where
  | goto {t id fl} : Sub (.goto t) id fl ⟨t⟩ fl
  | body {t m h id fl} : Sub (.gotoLoop t m h) id fl ⟨t⟩ (.Loop id ⟨m⟩ h :: fl)
  | after {t m h id fl} : Sub (.gotoLoop t m h) id fl ⟨m⟩ fl
  | left {t f w m h id fl} : Sub (.chooseSelection t f w m h) id fl ⟨t⟩ (.If ⟨m⟩ h :: fl)
  | right {t f w m h id fl} : Sub (.chooseSelection t f w m h) id fl ⟨f⟩ (.If ⟨m⟩ h :: fl)
  | join {t f w m h id fl} : Sub (.chooseSelection t f w m h) id fl ⟨m⟩ fl
  | stay {t f w id fl} : Sub (.choose t f w) id fl ⟨t⟩ fl

theorem search_agree {map : BlockMap X} {j k : Nat} {id : BlockId} {fl : FlowList}
    (hj : ¬ Diverges (searchBlock map j id fl)) (hk : ¬ Diverges (searchBlock map k id fl)) :
    searchBlock map j id fl = searchBlock map k id fl := by
  rcases Nat.le_total j k with h | h
  · exact (searchBlock_mono h hj).symm
  · exact searchBlock_mono h hk

theorem bind_diverges {α β : Type} {x : CF α} {f : α → CF β} (h : Diverges x) : Diverges (x >>= f) := by
  rw [h]; rfl

/-- If the search does not end within `k + 1` calls, one of its calls does not end within `k`; and
whenever that call does not end, neither does the search. -/
theorem search_diverges {map : BlockMap X} {k : Nat} {id : BlockId} {fl : FlowList}
    (h : Diverges (searchBlock map (k + 1) id fl)) :
    fl.merges id = false ∧ ∃ e, (map.get id).map endOf = some e ∧
      ∃ id' fl', Sub e id fl id' fl' ∧ Diverges (searchBlock map k id' fl') ∧
        ∀ j, Diverges (searchBlock map j id' fl') → Diverges (searchBlock map (j + 1) id fl) := by
  rw [searchBlock_succ, searchStep_eq] at h
  by_cases hm : fl.merges id = true
  · rw [if_pos hm] at h; cases h
  rw [if_neg hm] at h
  have hm' : fl.merges id = false := by simpa using hm
  refine ⟨hm', ?_⟩
  have step : ∀ j, searchBlock map (j + 1) id fl =
      endStep (searchBlock map j) id fl ((map.get id).map endOf) := by
    intro j
    rw [searchBlock_succ, searchStep_eq, if_neg hm]
  cases he : (map.get id).map endOf with
  | none => rw [he] at h; cases h
  | some e =>
    refine ⟨e, rfl, ?_⟩
    rw [he] at h
    simp only [he] at step
    -- the result of a call that ended
    have same {r : ControlFlowChain × Continue} {id' fl'} {j : Nat}
        (hr : searchBlock map k id' fl' = .ok r) (hj : ¬ Diverges (searchBlock map j id' fl')) :
        searchBlock map j id' fl' = .ok r := by
      rw [← hr]
      exact search_agree hj (by rw [hr]; exact fun h => by cases h)
    cases e with
    | returns => cases h
    | gotoSelection => cases h
    | chooseLoop => cases h
    | goto t =>
      simp only [endStep] at h step
      rcases cbind_error.mp h with h | ⟨r, -, h⟩
      · exact ⟨_, _, .goto, h, fun j hj => by rw [step]; exact bind_diverges hj⟩
      · cases h
    | gotoLoop t m hh =>
      simp only [endStep] at h step
      rcases cbind_error.mp h with h | ⟨r, hr, h⟩
      · exact ⟨_, _, .body, h, fun j hj => by rw [step]; exact bind_diverges hj⟩
      · by_cases hn : r.2 = .Next id
        · rw [if_pos hn] at h
          rcases cbind_error.mp h with h | ⟨r', -, h⟩
          · refine ⟨_, _, .after, h, fun j hj => ?_⟩
            rw [step]
            by_cases hd : Diverges (searchBlock map j ⟨t⟩ (.Loop id ⟨m⟩ hh :: fl))
            · exact bind_diverges hd
            · rw [same hr hd, cok_bind, if_pos hn]
              exact bind_diverges hj
          · cases h
        · rw [if_neg hn] at h; cases h
    | chooseSelection t f w m hh =>
      simp only [endStep] at h step
      rcases cbind_error.mp h with h | ⟨r1, hr1, h⟩
      · exact ⟨_, _, .left, h, fun j hj => by rw [step]; exact bind_diverges hj⟩
      rcases cbind_error.mp h with h | ⟨r2, hr2, h⟩
      · refine ⟨_, _, .right, h, fun j hj => ?_⟩
        rw [step]
        by_cases hd : Diverges (searchBlock map j ⟨t⟩ (.If ⟨m⟩ hh :: fl))
        · exact bind_diverges hd
        · rw [same hr1 hd, cok_bind]
          exact bind_diverges hj
      by_cases hn : r1.2 = r2.2 ∧ r1.2 = .Next ⟨m⟩
      · rw [if_pos hn] at h
        rcases cbind_error.mp h with h | ⟨r', -, h⟩
        · refine ⟨_, _, .join, h, fun j hj => ?_⟩
          rw [step]
          by_cases hd : Diverges (searchBlock map j ⟨t⟩ (.If ⟨m⟩ hh :: fl))
          · exact bind_diverges hd
          rw [same hr1 hd, cok_bind]
          by_cases hd2 : Diverges (searchBlock map j ⟨f⟩ (.If ⟨m⟩ hh :: fl))
          · exact bind_diverges hd2
          rw [same hr2 hd2, cok_bind, if_pos hn]
          exact bind_diverges hj
        · cases h
      · rw [if_neg hn] at h; cases h
    | choose t f w =>
      simp only [endStep] at h step
      cases hi : fl.innermostLoop with
      | none => simp only [hi] at h; cases h
      | some p =>
        obtain ⟨head, merge⟩ := p
        simp only [hi] at h step
        by_cases hb : (⟨f⟩ : BlockId) = merge ∨ (⟨f⟩ : BlockId) = head
        · rw [if_pos hb] at h
          rcases cbind_error.mp h with h | ⟨r, -, h⟩
          · exact ⟨_, _, .stay, h, fun j hj => by rw [step, if_pos hb]; exact bind_diverges hj⟩
          · by_cases hn : r.2 = .Next head
            · rw [if_pos hn] at h; cases h
            · rw [if_neg hn] at h; cases h
        · rw [if_neg hb] at h; cases h

/-- Two lists of constructs the search cannot tell apart -/
def Alike (fl fl' : FlowList) : Prop :=
  (∀ x, fl.merges x = fl'.merges x) ∧ fl.innermostLoop = fl'.innermostLoop

theorem Alike.refl (fl : FlowList) : Alike fl fl := ⟨fun _ => rfl, rfl⟩

theorem Alike.trans {a b c : FlowList} (h : Alike a b) (h' : Alike b c) : Alike a c :=
  ⟨fun x => (h.1 x).trans (h'.1 x), h.2.trans h'.2⟩

theorem Alike.pushIf {fl fl' : FlowList} (h : Alike fl fl') (m : BlockId) (hh : SelectionControl) :
    Alike (.If m hh :: fl) (.If m hh :: fl') := by
  refine ⟨fun x => ?_, h.2⟩
  simp only [FlowList.merges, h.1 x]

theorem Alike.pushLoop {fl fl' : FlowList} (h : Alike fl fl') (a m : BlockId) (hh : LoopControl) :
    Alike (.Loop a m hh :: fl) (.Loop a m hh :: fl') := by
  refine ⟨fun x => ?_, rfl⟩
  simp only [FlowList.merges, h.1 x]

theorem search_alike {map : BlockMap X} : ∀ (k : Nat) (id : BlockId) {fl fl' : FlowList}, Alike fl fl' →
    searchBlock map k id fl = searchBlock map k id fl' := by
  intro k
  induction k with
  | zero => intros; rfl
  | succ k ih =>
    intro id fl fl' h
    rw [searchBlock_succ, searchBlock_succ, searchStep_eq, searchStep_eq, h.1 id]
    congr 1
    cases (map.get id).map endOf with
    | none => rfl
    | some e =>
      cases e with
      | returns => rfl
      | gotoSelection => rfl
      | chooseLoop => rfl
      | goto t => simp only [endStep, ih ⟨t⟩ h]
      | gotoLoop t m hh => simp only [endStep, ih ⟨t⟩ (h.pushLoop id ⟨m⟩ hh), ih ⟨m⟩ h]
      | chooseSelection t f w m hh =>
        simp only [endStep, ih ⟨t⟩ (h.pushIf ⟨m⟩ hh), ih ⟨f⟩ (h.pushIf ⟨m⟩ hh), ih ⟨m⟩ h]
      | choose t f w => simp only [endStep, ih ⟨t⟩ h, h.2]

/-! ### Counting -/

/-- The block where a construct makes the search stop -/
def mark (b : BasicBlock X) : Option UInt32 :=
  match endOf b with
  | .gotoLoop _ _ _ => some (labelId b)
  | .chooseSelection _ _ _ m _ => some m
  | _ => none

theorem marks_le (blocks : List (BasicBlock X)) : (blocks.filterMap mark).length ≤ constructs blocks := by
  induction blocks with
  | nil => exact Nat.le_refl _
  | cons b bs ih =>
    simp only [constructs] at ih ⊢
    rw [List.filterMap_cons, List.filter_cons]
    have hb : mark b ≠ none → b.merge.isSome = true := by
      obtain ⟨label, code, merge, branch⟩ := b
      cases merge with
      | some _ => exact fun _ => rfl
      | none => cases branch <;> intro h <;> exact absurd rfl h
    cases hmk : mark b with
    | none =>
      simp only
      split
      · simp only [List.length_cons]; omega
      · exact ih
    | some m =>
      rw [if_pos (hb (by rw [hmk]; simp))]
      simp only [List.length_cons]
      omega

/-- How many of the marks make the search stop -/
def level (marks : List UInt32) (fl : FlowList) : Nat := marks.countP (fun m => fl.merges ⟨m⟩)

theorem level_le (marks : List UInt32) (fl : FlowList) : level marks fl ≤ marks.length :=
  List.countP_le_length

theorem countP_lt {α : Type} {p q : α → Bool} : ∀ (l : List α), (∀ x, p x = true → q x = true) →
    ∀ a ∈ l, p a = false → q a = true → l.countP p < l.countP q := by
  intro l
  induction l with
  | nil => intro _ a ha; cases ha
  | cons x l ih =>
    intro hpq a ha hp hq
    rw [List.countP_cons, List.countP_cons]
    have hle : l.countP p ≤ l.countP q := List.countP_mono_left fun x _ => hpq x
    rcases List.mem_cons.mp ha with rfl | ha
    · rw [if_neg (by simp [hp]), if_pos hq]; omega
    · have := ih hpq a ha hp hq
      cases hpx : p x with
      | false => cases q x <;> simp <;> omega
      | true => simp [hpq x hpx]; omega

/-- A call either stays on the level, to a block that follows, or goes to a higher level. -/
theorem sub_level {blocks : List (BasicBlock X)} {b : BasicBlock X} (hb : b ∈ blocks) {id' : BlockId}
    {fl fl' : FlowList} (hm : fl.merges ⟨labelId b⟩ = false) (hs : Sub (endOf b) ⟨labelId b⟩ fl id' fl') :
    (Alike fl fl' ∧ Leads blocks (labelId b) id'.val) ∨
      level (blocks.filterMap mark) fl < level (blocks.filterMap mark) fl' := by
  have pushIf (m : BlockId) (hh : SelectionControl) (hmk : mark b = some m.val) :
      Alike fl (.If m hh :: fl) ∨
        level (blocks.filterMap mark) fl < level (blocks.filterMap mark) (.If m hh :: fl) := by
    by_cases hmm : fl.merges m = true
    · refine .inl ⟨fun x => ?_, rfl⟩
      simp only [FlowList.merges]
      by_cases hx : m = x
      · rw [if_pos hx, ← hx, hmm]
      · rw [if_neg hx]
    · refine .inr (countP_lt _ ?_ m.val (List.mem_filterMap.mpr ⟨b, hb, hmk⟩) (by simpa using hmm) ?_)
      · intro x hx
        simp only [FlowList.merges, hx]
        split <;> rfl
      · simp [FlowList.merges]
  generalize he : endOf b = e at hs
  generalize hid : (⟨labelId b⟩ : BlockId) = id at hs
  cases hs with
  | goto => exact .inl ⟨.refl _, .goto hb he⟩
  | after => exact .inl ⟨.refl _, .afterLoop hb he⟩
  | join => exact .inl ⟨.refl _, .join hb he⟩
  | stay => exact .inl ⟨.refl _, .stay hb he⟩
  | @left t f w m hh =>
    rcases pushIf ⟨m⟩ hh (by simp [mark, he]) with h | h
    · exact .inl ⟨h, .left hb he⟩
    · exact .inr h
  | @right t f w m hh =>
    rcases pushIf ⟨m⟩ hh (by simp [mark, he]) with h | h
    · exact .inl ⟨h, .right hb he⟩
    · exact .inr h
  | @body t m hh =>
    subst hid
    refine .inr (countP_lt _ ?_ (labelId b) (List.mem_filterMap.mpr ⟨b, hb, by simp [mark, he]⟩) hm ?_)
    · intro x hx
      simp only [FlowList.merges, hx]
      split <;> rfl
    · simp [FlowList.merges]

theorem nodup_le {l : List UInt32} : ∀ {m : List UInt32}, l.Nodup → (∀ x ∈ l, x ∈ m) → l.length ≤ m.length := by
  induction l with
  | nil => intros; simp
  | cons a l ih =>
    intro m hn hs
    have ha := hs a (by simp)
    obtain ⟨hna, hn⟩ := List.nodup_cons.mp hn
    have := ih (m := m.erase a) hn (fun x hx => by
      refine (List.mem_erase_of_ne ?_).mpr (hs x (by simp [hx]))
      rintro rfl
      exact hna hx)
    rw [List.length_erase_of_mem ha] at this
    have : 0 < m.length := List.length_pos_of_mem ha
    simp only [List.length_cons]
    omega

/-- If the search goes deeper than the bound, it comes back to a block on the same level, and then it
never ends. `seen` are the blocks on the way since the last change of level. -/
theorem search_deep {blocks : List (BasicBlock X)} {map : BlockMap X} (hg : map.get = blockOf blocks) :
    ∀ (fuel : Nat) (id : BlockId) (fl : FlowList) (seen : List UInt32), seen.Nodup →
      (∀ v ∈ seen, v ∈ blocks.map labelId) →
      (∀ v ∈ seen, Relation.TransGen (Leads blocks) v id.val ∧ ∃ n fl', Alike fl' fl ∧
        ∀ j, Diverges (searchBlock map j id fl) → Diverges (searchBlock map (j + n + 1) ⟨v⟩ fl')) →
      (blocks.length - seen.length) +
        blocks.length * ((blocks.filterMap mark).length - level (blocks.filterMap mark) fl) + 1 ≤ fuel →
      Diverges (searchBlock map fuel id fl) →
      (∀ j, Diverges (searchBlock map j id fl)) ∧ ∃ v, Relation.TransGen (Leads blocks) v v := by
  intro fuel
  induction fuel with
  | zero => intro id fl seen _ _ _ h; omega
  | succ fuel ih =>
    intro id fl seen hn hsub hpath hf hd
    obtain ⟨hm, e, he, id', fl', hs, hd', hback⟩ := search_diverges hd
    by_cases hin : id.val ∈ seen
    · obtain ⟨hc, n, fl0, ha, hb⟩ := hpath _ hin
      refine ⟨?_, _, hc⟩
      have key : ∀ i, Diverges (searchBlock map (i * (n + 1)) id fl) := by
        intro i
        induction i with
        | zero => rw [Nat.zero_mul]; rfl
        | succ i ih =>
          have := hb _ ih
          rw [search_alike _ _ ha] at this
          rw [Nat.succ_mul]
          exact this
      intro j
      by_cases hj : Diverges (searchBlock map j id fl)
      · exact hj
      · have := searchBlock_mono (fuel' := j * (n + 1)) (Nat.le_mul_of_pos_right _ (by omega)) hj
        rw [key j] at this
        exact absurd this.symm hj
    · rw [hg] at he
      obtain ⟨b, hbo, rfl⟩ := Option.map_eq_some_iff.mp he
      obtain ⟨hmem, hl⟩ := blockOf_some hbo
      have hid : id = ⟨labelId b⟩ := by rw [hl]
      subst hid
      have hlen : (labelId b :: seen).length ≤ (blocks.map labelId).length :=
        nodup_le (List.nodup_cons.mpr ⟨hin, hn⟩) (fun x hx => by
          rcases List.mem_cons.mp hx with rfl | hx
          · exact List.mem_map_of_mem hmem
          · exact hsub x hx)
      simp only [List.length_cons, List.length_map] at hlen
      have fin : (∀ j, Diverges (searchBlock map j id' fl')) ∧ (∃ v, Relation.TransGen (Leads blocks) v v) →
          (∀ j, Diverges (searchBlock map j ⟨labelId b⟩ fl)) ∧ ∃ v, Relation.TransGen (Leads blocks) v v := by
        rintro ⟨h1, h2⟩
        refine ⟨fun j => ?_, h2⟩
        cases j with
        | zero => rfl
        | succ j => exact hback j (h1 j)
      apply fin
      have hl1 := level_le (blocks.filterMap mark) fl
      have hl2 := level_le (blocks.filterMap mark) fl'
      rcases sub_level hmem hm hs with ⟨ha, hfo⟩ | hlt
      · refine ih id' fl' (labelId b :: seen) (List.nodup_cons.mpr ⟨hin, hn⟩) ?_ ?_ ?_ hd'
        · intro x hx
          rcases List.mem_cons.mp hx with rfl | hx
          · exact List.mem_map_of_mem hmem
          · exact hsub x hx
        · intro x hx
          rcases List.mem_cons.mp hx with rfl | hx
          · exact ⟨.single hfo, 0, fl, ha, fun j hj => hback j hj⟩
          · obtain ⟨hc, n, fl0, ha0, hb0⟩ := hpath x hx
            exact ⟨hc.tail hfo, n + 1, fl0, ha0.trans ha, fun j hj => by
              have := hb0 _ (hback j hj)
              rwa [show j + 1 + n + 1 = j + (n + 1) + 1 by omega] at this⟩
        · have hlev : level (blocks.filterMap mark) fl' = level (blocks.filterMap mark) fl := by
            simp only [level, ha.1]
          rw [hlev]
          simp only [List.length_cons]
          omega
      · refine ih id' fl' [] List.nodup_nil (by simp) (by simp) ?_ hd'
        have : blocks.length * ((blocks.filterMap mark).length - level (blocks.filterMap mark) fl') +
            blocks.length ≤ blocks.length * ((blocks.filterMap mark).length - level (blocks.filterMap mark) fl) := by
          rw [← Nat.mul_succ]
          exact Nat.mul_le_mul_left _ (by omega)
        simp only [List.length_nil]
        omega

/-- Deeper than this, the search from the first block of the function does not end. -/
theorem search_deep_start {blocks : List (BasicBlock X)} {map : BlockMap X} (hg : map.get = blockOf blocks)
    {id : BlockId} {fuel : Nat} (hf : blocks.length * (constructs blocks + 1) + 1 ≤ fuel)
    (h : Diverges (searchBlock map fuel id [])) :
    (∀ j, Diverges (searchBlock map j id [])) ∧ ∃ v, Relation.TransGen (Leads blocks) v v := by
  refine search_deep hg fuel id [] [] List.nodup_nil (by simp) (by simp) ?_ h
  have : blocks.length * ((blocks.filterMap mark).length - level (blocks.filterMap mark) []) ≤
      blocks.length * constructs blocks := Nat.mul_le_mul_left _ (by have := marks_le blocks; omega)
  rw [Nat.mul_succ] at hf
  simp only [List.length_nil]
  omega

end Magma
