import Verif.Proofs.Accepted
import Verif.Spec.InOrder
import Mathlib.Order.WellFounded
/-! The search visits the places in order. -/

namespace Magma
open Spec
variable {X : Type} {blocks : List (BasicBlock X)} {map : BlockMap X}

/-- The outcome of the search, at whatever depth -/
theorem exists_final (map : BlockMap X) (id : BlockId) (fl : FlowList) :
    ∃ r n, ∀ k, n ≤ k → searchBlock map k id fl = r := by
  by_cases h : ∃ n, ¬ Diverges (searchBlock map n id fl)
  · obtain ⟨n, hn⟩ := h
    exact ⟨_, n, fun k hk => searchBlock_mono hk hn⟩
  · refine ⟨.error .diverge, 0, fun k _ => ?_⟩
    by_cases hk : Diverges (searchBlock map k id fl)
    · exact hk
    · exact absurd ⟨k, hk⟩ h

noncomputable def final (map : BlockMap X) (id : BlockId) (fl : FlowList) : CF (ControlFlowChain × Continue) :=
  (exists_final map id fl).choose

theorem final_spec (map : BlockMap X) (id : BlockId) (fl : FlowList) :
    ∃ n, ∀ k, n ≤ k → searchBlock map k id fl = final map id fl := (exists_final map id fl).choose_spec

theorem search_or_final (map : BlockMap X) (k : Nat) (id : BlockId) (fl : FlowList) :
    Diverges (searchBlock map k id fl) ∨ searchBlock map k id fl = final map id fl := by
  by_cases h : Diverges (searchBlock map k id fl)
  · exact .inl h
  · obtain ⟨n, hn⟩ := final_spec map id fl
    refine .inr ?_
    rw [← searchBlock_mono (Nat.le_max_left k n) h]
    exact hn _ (Nat.le_max_right _ _)

theorem endStep_sub {s s' : BlockId → FlowList → CF (ControlFlowChain × Continue)} {id : BlockId} {fl : FlowList}
    {e : Option BlockEnd} (h : ∀ e' id' fl', e = some e' → Sub e' id fl id' fl' → s id' fl' = s' id' fl') :
    endStep s id fl e = endStep s' id fl e := by
  cases e with
  | none => rfl
  | some e =>
    cases e with
    | returns => rfl
    | gotoSelection => rfl
    | chooseLoop => rfl
    | goto t => simp only [endStep, h _ _ _ rfl .goto]
    | gotoLoop t m hh => simp only [endStep, h _ _ _ rfl .body, h _ _ _ rfl .after]
    | chooseSelection t f w m hh => simp only [endStep, h _ _ _ rfl .left, h _ _ _ rfl .right, h _ _ _ rfl .join]
    | choose t f w => simp only [endStep, h _ _ _ rfl .stay]

/-- A depth at which the calls made for a block are settled -/
theorem sub_final (map : BlockMap X) (e : BlockEnd) (id : BlockId) (fl : FlowList) :
    ∃ n, ∀ k, n ≤ k → ∀ id' fl', Sub e id fl id' fl' → searchBlock map k id' fl' = final map id' fl' := by
  cases e with
  | returns => exact ⟨0, fun k _ _ _ h => nomatch h⟩
  | gotoSelection => exact ⟨0, fun k _ _ _ h => nomatch h⟩
  | chooseLoop => exact ⟨0, fun k _ _ _ h => nomatch h⟩
  | goto t =>
    obtain ⟨n, hn⟩ := final_spec map ⟨t⟩ fl
    refine ⟨n, fun k hk _ _ h => ?_⟩
    cases h
    exact hn k hk
  | choose t f w =>
    obtain ⟨n, hn⟩ := final_spec map ⟨t⟩ fl
    refine ⟨n, fun k hk _ _ h => ?_⟩
    cases h
    exact hn k hk
  | gotoLoop t m hh =>
    obtain ⟨n1, h1⟩ := final_spec map ⟨t⟩ (.Loop id ⟨m⟩ hh :: fl)
    obtain ⟨n2, h2⟩ := final_spec map ⟨m⟩ fl
    refine ⟨n1 + n2, fun k hk _ _ h => ?_⟩
    cases h
    · exact h1 k (by omega)
    · exact h2 k (by omega)
  | chooseSelection t f w m hh =>
    obtain ⟨n1, h1⟩ := final_spec map ⟨t⟩ (.If ⟨m⟩ hh :: fl)
    obtain ⟨n2, h2⟩ := final_spec map ⟨f⟩ (.If ⟨m⟩ hh :: fl)
    obtain ⟨n3, h3⟩ := final_spec map ⟨m⟩ fl
    refine ⟨n1 + n2 + n3, fun k hk _ _ h => ?_⟩
    cases h
    · exact h1 k (by omega)
    · exact h2 k (by omega)
    · exact h3 k (by omega)

theorem final_eq (map : BlockMap X) (id : BlockId) (fl : FlowList) : final map id fl =
    if fl.merges id then .ok (.Block [], .Next id) else endStep (final map) id fl ((map.get id).map endOf) := by
  obtain ⟨n, hn⟩ := final_spec map id fl
  by_cases hm : fl.merges id = true
  · rw [← hn (n + 1) (by omega), searchBlock_succ, searchStep_eq, if_pos hm, if_pos hm]
  · have key : ∃ k, ∀ j, k ≤ j → endStep (searchBlock map j) id fl ((map.get id).map endOf) =
        endStep (final map) id fl ((map.get id).map endOf) := by
      cases he : (map.get id).map endOf with
      | none => exact ⟨0, fun _ _ => rfl⟩
      | some e =>
        obtain ⟨k, hk⟩ := sub_final map e id fl
        refine ⟨k, fun j hj => endStep_sub fun e' id' fl' h h' => ?_⟩
        cases h
        exact hk j hj _ _ h'
    obtain ⟨k, hk⟩ := key
    rw [← hn (n + k + 1) (by omega), searchBlock_succ, searchStep_eq, if_neg hm, if_neg hm]
    exact hk _ (by omega)

theorem final_ok {id : BlockId} {fl : FlowList} {r : ControlFlowChain × Continue} (h : final map id fl = .ok r) :
    ∃ k, searchBlock map k id fl = .ok r := by
  obtain ⟨n, hn⟩ := final_spec map id fl
  exact ⟨n, (hn n (Nat.le_refl _)).trans h⟩

/-- The search succeeds exactly where everything is fine. -/
theorem final_fine (hg : map.get = blockOf blocks) (hn : (blocks.map labelId).Nodup) {id : BlockId} {fl : FlowList} :
    Fine blocks (id.val, around fl) ↔ ∃ r, final map id fl = .ok r := by
  constructor
  · rintro ⟨h1, h2⟩
    have hacc : Acc (fun a b => Step blocks b a) (id.val, around fl) := by
      by_contra hacc
      obtain ⟨p, h0, hp⟩ := not_acc_iff_exists_descending_chain.mp hacc
      exact h1 ⟨p, h0, hp⟩
    obtain ⟨k, hk⟩ := search_acc hg _ hacc id fl rfl
    cases hf : final map id fl with
    | ok r => exact ⟨r, rfl⟩
    | error e =>
      exfalso
      rcases search_or_final map k id fl with h | h
      · exact hk h
      · rw [hf] at h
        obtain ⟨p, hp, hb⟩ := search_blamed hg _ _ _ _ h
        rw [h2 p hp e hb] at h
        exact hk h
  · rintro ⟨r, hr⟩
    obtain ⟨k, hk⟩ := final_ok hr
    exact ⟨search_finite hg hn _ _ _ _ hk, fun q hq => search_sound hg hn _ _ _ _ hk q hq⟩

theorem final_strays (hg : map.get = blockOf blocks) (hn : (blocks.map labelId).Nodup) {id x : BlockId} {fl : FlowList}
    {r : ControlFlowChain × Continue} (h : final map id fl = .ok r) :
    Strays blocks id.val (around fl) x.val ↔ r.2 ≠ .Next x := by
  obtain ⟨k, hk⟩ := final_ok h
  refine ⟨fun hs hx => not_strays hg hn hk hx hs, fun hx => strays (search_ends hg _ _ _ _ hk) hx⟩

/-- An error is that of a call, made in order, or is about this place. -/
theorem final_error (hg : map.get = blockOf blocks) (hn : (blocks.map labelId).Nodup) {id : BlockId} {fl : FlowList}
    {e : Fault ControlFlowError} (h : final map id fl = .error e) :
    WrongHere blocks (id.val, around fl) e ∨
      ∃ id' fl', InOrder blocks (id.val, around fl) (id'.val, around fl') ∧ final map id' fl' = .error e := by
  rw [final_eq] at h
  by_cases hm : fl.merges id = true
  · rw [if_pos hm] at h; cases h
  rw [if_neg hm] at h
  have fine {id fl r} (h : final map id fl = .ok r) : Fine blocks (id.val, around fl) := (final_fine hg hn).mpr ⟨r, h⟩
  cases he : (map.get id).map endOf with
  | none =>
    rw [he] at h
    cases h
    refine .inl ⟨by simp, ⟨rfl, fun h => hm ((stops_iff _ _).mpr h), ?_⟩, fun _ _ h => by cases h⟩
    rw [hg] at he
    exact blockOf_none.mp (Option.map_eq_none_iff.mp he)
  | some end_ =>
    rw [he] at h
    obtain ⟨b, hat, hend⟩ := at_of_get hg hm he
    have only {b' : BasicBlock X} {e' : BlockEnd} (h : At blocks (id.val, around fl) b') (h' : endOf b' = e') : end_ = e' := by
      rw [at_unique hn h hat] at h'
      exact hend.symm.trans h'
    cases end_ with
    | returns => cases h
    | gotoSelection t m hh =>
      cases h
      exact .inl ⟨by simp, ⟨b, hat, .inr ⟨_, _, _, hend⟩⟩, fun _ _ h => by cases h⟩
    | chooseLoop t f w m hh =>
      cases h
      exact .inl ⟨by simp, ⟨b, hat, .inl ⟨_, _, _, _, _, hend⟩⟩, fun _ _ h => by cases h⟩
    | goto t =>
      rcases cbind_error.mp h with h | ⟨a, -, h⟩
      · exact .inr ⟨⟨t⟩, fl, .goto hat hend, h⟩
      · cases h
    | gotoLoop t m hh =>
      rcases cbind_error.mp h with h | ⟨a, ha, h⟩
      · exact .inr ⟨⟨t⟩, .Loop id ⟨m⟩ hh :: fl, .body hat hend, h⟩
      · by_cases hx : a.2 = .Next id
        · rw [if_pos hx] at h
          rcases cbind_error.mp h with h | ⟨a', -, h⟩
          · exact .inr ⟨⟨m⟩, fl, .after hat hend (fine ha) (fun hs => (final_strays hg hn ha).mp hs hx), h⟩
          · cases h
        · rw [if_neg hx] at h
          cases h
          refine .inl ⟨by simp, ⟨rfl, b, hat, .inl ⟨_, _, _, hend, (final_strays hg hn ha).mpr hx⟩⟩, ?_⟩
          intro _ _ _ q hq
          cases hq with
          | body h1 h2 => cases only h1 h2; exact fine ha
          | left h1 h2 => cases only h1 h2
          | right h1 h2 => cases only h1 h2
          | stay h1 h2 => cases only h1 h2
    | chooseSelection t f w m hh =>
      rcases cbind_error.mp h with h | ⟨a1, ha1, h⟩
      · exact .inr ⟨⟨t⟩, .If ⟨m⟩ hh :: fl, .left hat hend, h⟩
      rcases cbind_error.mp h with h | ⟨a2, ha2, h⟩
      · exact .inr ⟨⟨f⟩, .If ⟨m⟩ hh :: fl, .right hat hend (fine ha1), h⟩
      have s1 := final_strays (x := ⟨m⟩) hg hn ha1
      have s2 := final_strays (x := ⟨m⟩) hg hn ha2
      by_cases hx : a1.2 = a2.2 ∧ a1.2 = .Next ⟨m⟩
      · rw [if_pos hx] at h
        rcases cbind_error.mp h with h | ⟨a, -, h⟩
        · exact .inr ⟨⟨m⟩, fl, .join hat hend (fine ha1) (fine ha2) (fun hs => s1.mp hs hx.2)
            (fun hs => s2.mp hs (hx.1 ▸ hx.2)), h⟩
        · cases h
      · rw [if_neg hx] at h
        cases h
        refine .inl ⟨by simp, ⟨rfl, b, hat, _, _, _, _, _, hend, ?_⟩, ?_⟩
        · by_cases hx1 : a1.2 = .Next ⟨m⟩
          · refine .inr (s2.mpr fun hx2 => hx ⟨?_, hx1⟩)
            rw [hx1, hx2]
          · exact .inl (s1.mpr hx1)
        · intro _ _ _ q hq
          cases hq with
          | body h1 h2 => cases only h1 h2
          | left h1 h2 => cases only h1 h2; exact fine ha1
          | right h1 h2 => cases only h1 h2; exact fine ha2
          | stay h1 h2 => cases only h1 h2
    | choose t f w =>
      simp only [endStep] at h
      cases hi : fl.innermostLoop with
      | none =>
        simp only [hi] at h
        cases h
        refine .inl ⟨by simp, ⟨rfl, b, hat, _, _, _, hend, ?_⟩, fun _ _ h => by cases h⟩
        intro head merge hin
        rw [innermost_around, hi] at hin
        cases hin
      | some p =>
        obtain ⟨head, merge⟩ := p
        have hin : innermost (around fl) = some (head.val, merge.val) := by rw [innermost_around, hi]; rfl
        simp only [hi] at h
        by_cases hb : (⟨f⟩ : BlockId) = merge ∨ (⟨f⟩ : BlockId) = head
        · rw [if_pos hb] at h
          simp only [blockId_eq] at hb
          rcases cbind_error.mp h with h | ⟨a, ha, h⟩
          · exact .inr ⟨⟨t⟩, fl, .stay hat hend hin hb, h⟩
          · by_cases hx : a.2 = .Next head
            · rw [if_pos hx] at h; cases h
            · rw [if_neg hx] at h
              cases h
              refine .inl ⟨by simp, ⟨rfl, b, hat, .inr ⟨_, _, _, _, _, hend, hin, hb, (final_strays hg hn ha).mpr hx⟩⟩, ?_⟩
              intro _ _ _ q hq
              cases hq with
              | body h1 h2 => cases only h1 h2
              | left h1 h2 => cases only h1 h2
              | right h1 h2 => cases only h1 h2
              | stay h1 h2 => cases only h1 h2; exact fine ha
        · rw [if_neg hb] at h
          cases h
          refine .inl ⟨by simp, ⟨rfl, b, hat, _, _, _, hend, ?_⟩, fun _ _ h => by cases h⟩
          intro head' merge' hin'
          simp only [hin, Option.some.injEq, Prod.mk.injEq] at hin'
          obtain ⟨rfl, rfl⟩ := hin'
          simpa only [blockId_eq, not_or] using hb

theorem get_of_at (hg : map.get = blockOf blocks) (hn : (blocks.map labelId).Nodup) {id : BlockId} {fl : FlowList}
    {b : BasicBlock X} (h : At blocks (id.val, around fl) b) :
    ¬ fl.merges id = true ∧ (map.get id).map endOf = some (endOf b) := by
  refine ⟨fun hm => h.2.2 ((stops_iff _ _).mp hm), ?_⟩
  have := blockOf_mem hn h.1
  rw [h.2.1] at this
  rw [hg, this]
  rfl

/-- An error of a call made in order is the error of the search, also at a depth where the other calls may not
end (`D`). -/
theorem inOrder_pass (hg : map.get = blockOf blocks) (hn : (blocks.map labelId).Nodup) {id : BlockId} {fl : FlowList}
    {q : Place} (h : InOrder blocks (id.val, around fl) q) : ¬ fl.merges id = true ∧
    ∃ id' fl', q = (id'.val, around fl') ∧
      ∀ (s : BlockId → FlowList → CF (ControlFlowChain × Continue)) (D : Prop),
        (∀ id fl, (D ∧ Diverges (s id fl)) ∨ s id fl = final map id fl) → ∀ e, s id' fl' = .error e →
        endStep s id fl ((map.get id).map endOf) = .error e ∨
          (D ∧ Diverges (endStep s id fl ((map.get id).map endOf))) := by
  generalize hp : (id.val, around fl) = p at h
  have fine {id : BlockId} {fl : FlowList} (h : Fine blocks (id.val, around fl)) := (final_fine hg hn).mp h
  cases h with
  | @goto id0 cs b t hat hend =>
    cases hp
    obtain ⟨hm, he⟩ := get_of_at hg hn hat
    refine ⟨hm, ⟨t⟩, fl, rfl, fun s D hs e h => .inl ?_⟩
    rw [he, hend]
    simp only [endStep]
    rw [h]; rfl
  | @body id0 cs b t m hh hat hend =>
    cases hp
    obtain ⟨hm, he⟩ := get_of_at hg hn hat
    refine ⟨hm, ⟨t⟩, .Loop id ⟨m⟩ hh :: fl, rfl, fun s D hs e h => .inl ?_⟩
    rw [he, hend]
    simp only [endStep]
    rw [h]; rfl
  | @left id0 cs b t f w m hh hat hend =>
    cases hp
    obtain ⟨hm, he⟩ := get_of_at hg hn hat
    refine ⟨hm, ⟨t⟩, .If ⟨m⟩ hh :: fl, rfl, fun s D hs e h => .inl ?_⟩
    rw [he, hend]
    simp only [endStep]
    rw [h]; rfl
  | @stay id0 cs b t f w head merge hat hend hin hb =>
    cases hp
    obtain ⟨hm, he⟩ := get_of_at hg hn hat
    refine ⟨hm, ⟨t⟩, fl, rfl, fun s D hs e h => .inl ?_⟩
    rw [he, hend]
    rw [innermost_around] at hin
    obtain ⟨⟨a1, a2⟩, ha, hb'⟩ := Option.map_eq_some_iff.mp hin
    cases hb'
    simp only [endStep, ha]
    rw [if_pos (by simpa only [blockId_eq] using hb), h]
    rfl
  | @right id0 cs b t f w m hh hat hend h1 =>
    cases hp
    obtain ⟨hm, he⟩ := get_of_at hg hn hat
    refine ⟨hm, ⟨f⟩, .If ⟨m⟩ hh :: fl, rfl, fun s D hs e h => ?_⟩
    rw [he, hend]
    simp only [endStep]
    obtain ⟨r, hr⟩ := fine (id := ⟨t⟩) (fl := .If ⟨m⟩ hh :: fl) h1
    rcases hs ⟨t⟩ (.If ⟨m⟩ hh :: fl) with ⟨hd, hdv⟩ | h'
    · exact .inr ⟨hd, bind_diverges hdv⟩
    · rw [h', hr, cok_bind, h]
      exact .inl rfl
  | @after id0 cs b t m hh hat hend h1 h2 =>
    cases hp
    obtain ⟨hm, he⟩ := get_of_at hg hn hat
    refine ⟨hm, ⟨m⟩, fl, rfl, fun s D hs e h => ?_⟩
    rw [he, hend]
    simp only [endStep]
    obtain ⟨r, hr⟩ := fine (id := ⟨t⟩) (fl := .Loop id ⟨m⟩ hh :: fl) h1
    have hx : r.2 = .Next id := by
      by_contra hx
      exact h2 ((final_strays hg hn hr).mpr hx)
    rcases hs ⟨t⟩ (.Loop id ⟨m⟩ hh :: fl) with ⟨hd, hdv⟩ | h'
    · exact .inr ⟨hd, bind_diverges hdv⟩
    · rw [h', hr, cok_bind, if_pos hx, h]
      exact .inl rfl
  | @join id0 cs b t f w m hh hat hend h1 h2 h3 h4 =>
    cases hp
    obtain ⟨hm, he⟩ := get_of_at hg hn hat
    refine ⟨hm, ⟨m⟩, fl, rfl, fun s D hs e h => ?_⟩
    rw [he, hend]
    simp only [endStep]
    obtain ⟨r1, hr1⟩ := fine (id := ⟨t⟩) (fl := .If ⟨m⟩ hh :: fl) h1
    obtain ⟨r2, hr2⟩ := fine (id := ⟨f⟩) (fl := .If ⟨m⟩ hh :: fl) h2
    have hx1 : r1.2 = .Next ⟨m⟩ := by
      by_contra hx
      exact h3 ((final_strays hg hn hr1).mpr hx)
    have hx2 : r2.2 = .Next ⟨m⟩ := by
      by_contra hx
      exact h4 ((final_strays hg hn hr2).mpr hx)
    rcases hs ⟨t⟩ (.If ⟨m⟩ hh :: fl) with ⟨hd, hdv⟩ | h'
    · exact .inr ⟨hd, bind_diverges hdv⟩
    rw [h', hr1, cok_bind]
    rcases hs ⟨f⟩ (.If ⟨m⟩ hh :: fl) with ⟨hd, hdv⟩ | h'
    · exact .inr ⟨hd, bind_diverges hdv⟩
    rw [h', hr2, cok_bind, if_pos ⟨hx1.trans hx2.symm, hx1⟩, h]
    exact .inl rfl

/-- The error of a call made in order is the error of the search. -/
theorem final_pass (hg : map.get = blockOf blocks) (hn : (blocks.map labelId).Nodup) {id : BlockId} {fl : FlowList}
    {q : Place} (h : InOrder blocks (id.val, around fl) q) :
    ∃ id' fl', q = (id'.val, around fl') ∧ ∀ e, final map id' fl' = .error e → final map id fl = .error e := by
  obtain ⟨hm, id', fl', hq, hs⟩ := inOrder_pass hg hn h
  refine ⟨id', fl', hq, fun e he => ?_⟩
  rw [final_eq, if_neg hm]
  rcases hs (final map) False (fun _ _ => .inr rfl) e he with h | ⟨h, -⟩
  · exact h
  · exact h.elim

theorem search_pass (hg : map.get = blockOf blocks) (hn : (blocks.map labelId).Nodup) {id : BlockId} {fl : FlowList}
    {q : Place} (h : InOrder blocks (id.val, around fl) q) : ∃ id' fl', q = (id'.val, around fl') ∧
      ∀ k, Diverges (searchBlock map k id' fl') → Diverges (searchBlock map (k + 1) id fl) := by
  obtain ⟨hm, id', fl', hq, hs⟩ := inOrder_pass hg hn h
  refine ⟨id', fl', hq, fun k he => ?_⟩
  rw [searchBlock_succ, searchStep_eq, if_neg hm]
  rcases hs (searchBlock map k) True (fun id fl => (search_or_final map k id fl).imp (fun h => ⟨trivial, h⟩) (fun h => h)) _ he
    with h | ⟨-, h⟩ <;> exact h

/-- What is wrong with a place is what the search from there returns. -/
theorem final_wrong (hg : map.get = blockOf blocks) (hn : (blocks.map labelId).Nodup) {id : BlockId} {fl : FlowList}
    {e : Fault ControlFlowError} (hp : ∀ msg, e = .panic msg → msg = "not yet implemented")
    (h : WrongHere blocks (id.val, around fl) e) : final map id fl = .error e := by
  obtain ⟨hd, hb, hin⟩ := h
  have fine {id : BlockId} {fl : FlowList} (h : Fine blocks (id.val, around fl)) := (final_fine hg hn).mp h
  rw [final_eq]
  match e, hd, hb, hin, hp with
  | .diverge, hd, _, _, _ => exact absurd rfl hd
  | .panic msg, _, ⟨b, hat, hs⟩, _, hp =>
    obtain ⟨hm, he⟩ := get_of_at hg hn hat
    rw [if_neg hm, he, hp msg rfl]
    rcases hs with ⟨t, f, w, m, h, hs⟩ | ⟨t, m, h, hs⟩ <;> rw [hs] <;> rfl
  | .err (.UnknownBlockId x), _, ⟨hx, hs, hb⟩, _, _ =>
    rw [if_neg (fun hm => hs ((stops_iff _ _).mp hm)), hg, blockOf_none.mpr hb, (blockId_eq x id).mpr hx]
    rfl
  | .err (.CouldNotPredictConverge x), _, ⟨hx, b, hat, t, f, w, hend, hi⟩, _, _ =>
    obtain ⟨hm, he⟩ := get_of_at hg hn hat
    rw [if_neg hm, he, hend, (blockId_eq x id).mpr hx]
    simp only [endStep]
    dsimp only at hi
    rw [innermost_around] at hi
    cases hil : fl.innermostLoop with
    | none => rfl
    | some p =>
      obtain ⟨head, merge⟩ := p
      rw [hil] at hi
      have := hi _ _ rfl
      dsimp only
      rw [if_neg]
      simpa only [blockId_eq, not_or] using this
  | .err (.InvalidConvergePrediction .Selection x), _, ⟨hx, b, hat, t, f, w, m, h, hend, hst⟩, hin, _ =>
    obtain ⟨hm, he⟩ := get_of_at hg hn hat
    rw [if_neg hm, he, hend, (blockId_eq x id).mpr hx]
    obtain ⟨r1, hr1⟩ := fine (id := ⟨t⟩) (fl := .If ⟨m⟩ h :: fl) (hin _ _ rfl _ (.left hat hend))
    obtain ⟨r2, hr2⟩ := fine (id := ⟨f⟩) (fl := .If ⟨m⟩ h :: fl) (hin _ _ rfl _ (.right hat hend))
    have s1 := final_strays (x := ⟨m⟩) hg hn hr1
    have s2 := final_strays (x := ⟨m⟩) hg hn hr2
    simp only [endStep]
    rw [hr1, cok_bind, hr2, cok_bind, if_neg]
    rintro ⟨h1, h2⟩
    rcases hst with hst | hst
    · exact s1.mp hst h2
    · exact s2.mp hst (h1 ▸ h2)
  | .err (.InvalidConvergePrediction .Loop x), _, ⟨hx, b, hat, .inl ⟨t, m, h, hend, hst⟩⟩, hin, _ =>
    obtain ⟨hm, he⟩ := get_of_at hg hn hat
    rw [if_neg hm, he, hend, (blockId_eq x id).mpr hx]
    obtain ⟨r, hr⟩ := fine (id := ⟨t⟩) (fl := .Loop id ⟨m⟩ h :: fl) (hin _ _ rfl _ (.body hat hend))
    simp only [endStep]
    rw [hr, cok_bind, if_neg ((final_strays hg hn hr).mp hst)]
  | .err (.InvalidConvergePrediction .Loop x), _, ⟨hx, b, hat, .inr ⟨t, f, w, head, merge, hend, hi, hfm, hst⟩⟩, hin, _ =>
    obtain ⟨hm, he⟩ := get_of_at hg hn hat
    rw [if_neg hm, he, hend, (blockId_eq x id).mpr hx]
    obtain ⟨r, hr⟩ := fine (id := ⟨t⟩) (fl := fl) (hin _ _ rfl _ (.stay hat hend))
    rw [innermost_around] at hi
    obtain ⟨⟨a1, a2⟩, ha, hb'⟩ := Option.map_eq_some_iff.mp hi
    cases hb'
    simp only [endStep, ha]
    rw [if_pos (by simpa only [blockId_eq] using hfm), hr, cok_bind, if_neg ((final_strays hg hn hr).mp hst)]

theorem alike_of_around {fl fl' : FlowList} (h : around fl = around fl') : Alike fl fl' := by
  refine ⟨fun x => ?_, ?_⟩
  · rw [Bool.eq_iff_iff, stops_iff, stops_iff, h]
  · have h1 := innermost_around fl
    rw [h, innermost_around] at h1
    cases h2 : fl.innermostLoop with
    | none =>
      rw [h2] at h1
      exact (Option.map_eq_none_iff.mp h1).symm
    | some p =>
      rw [h2] at h1
      obtain ⟨q, hq, he⟩ := Option.map_eq_some_iff.mp h1
      rw [hq]
      obtain ⟨⟨p1⟩, ⟨p2⟩⟩ := p
      obtain ⟨⟨q1⟩, ⟨q2⟩⟩ := q
      cases he
      rfl

theorem first_of_final (hg : map.get = blockOf blocks) (hn : (blocks.map labelId).Nodup) {id : BlockId} {fl : FlowList}
    {e : Fault ControlFlowError} (hd : e ≠ .diverge) (h : final map id fl = .error e) :
    FirstWrong blocks (id.val, around fl) e := by
  have key : ∀ k id fl, searchBlock map k id fl = .error e → FirstWrong blocks (id.val, around fl) e := by
    intro k
    induction k with
    | zero =>
      intro id fl h
      cases h
      exact absurd rfl hd
    | succ k ih =>
      intro id fl h
      have hf : final map id fl = .error e := by
        rcases search_or_final map (k + 1) id fl with h' | h'
        · rw [h] at h'
          cases h'
          exact absurd rfl hd
        · exact h'.symm.trans h
      rcases final_error hg hn hf with hw | ⟨id', fl', hi, h'⟩
      · exact ⟨_, .refl, hw⟩
      · obtain ⟨id1, fl1, hq, hback⟩ := search_pass hg hn hi
        have hid : id' = id1 := (blockId_eq _ _).mpr (congrArg Prod.fst hq)
        subst hid
        have hal := search_alike (map := map) k id' (alike_of_around (congrArg Prod.snd hq))
        have hk : searchBlock map k id' fl' = .error e := by
          rcases search_or_final map k id' fl' with hk | hk
          · rw [hal] at hk
            have := hback k hk
            rw [h] at this
            cases this
            exact absurd rfl hd
          · exact hk.trans h'
        obtain ⟨q, hq, hw⟩ := ih _ _ hk
        exact ⟨q, hq.head hi, hw⟩
  obtain ⟨n, hn'⟩ := final_spec map id fl
  exact key n id fl ((hn' n (Nat.le_refl _)).trans h)

/-- The search returns an error exactly if that is the first thing that is wrong. -/
theorem final_first (hg : map.get = blockOf blocks) (hn : (blocks.map labelId).Nodup) {id : BlockId} {fl : FlowList}
    {e : Fault ControlFlowError} (hd : e ≠ .diverge) (hp : ∀ msg, e = .panic msg → msg = "not yet implemented") :
    final map id fl = .error e ↔ FirstWrong blocks (id.val, around fl) e := by
  constructor
  · exact first_of_final hg hn hd
  · rintro ⟨q, hq, hw⟩
    suffices ∀ p, Relation.ReflTransGen (InOrder blocks) p q → ∀ id fl, p = (id.val, around fl) → final map id fl = .error e from
      this _ hq _ _ rfl
    intro p hq
    induction hq using Relation.ReflTransGen.head_induction_on with
    | refl => rintro id fl rfl; exact final_wrong hg hn hp hw
    | head hs _ ih =>
      rintro id fl rfl
      obtain ⟨id', fl', rfl, h⟩ := final_pass hg hn hs
      exact h e (ih _ _ rfl)

/-- The search does not end exactly if one can read on forever, in order. -/
theorem final_endless (hg : map.get = blockOf blocks) (hn : (blocks.map labelId).Nodup) {id : BlockId} {fl : FlowList} :
    final map id fl = .error .diverge ↔ EndlessInOrder blocks (id.val, around fl) := by
  constructor
  · intro h
    have next : ∀ p : {p : BlockId × FlowList // final map p.1 p.2 = .error .diverge}, ∃ q : {p : BlockId × FlowList //
        final map p.1 p.2 = .error .diverge}, InOrder blocks (p.1.1.val, around p.1.2) (q.1.1.val, around q.1.2) := by
      rintro ⟨⟨id, fl⟩, h⟩
      rcases final_error hg hn h with hw | ⟨id', fl', hi, h'⟩
      · exact absurd rfl hw.1
      · exact ⟨⟨(id', fl'), h'⟩, hi⟩
    let s : Nat → {p : BlockId × FlowList // final map p.1 p.2 = .error .diverge} :=
      fun n => n.rec ⟨(id, fl), h⟩ (fun _ p => (next p).choose)
    exact ⟨fun n => ((s n).1.1.val, around (s n).1.2), rfl, fun n => (next (s n)).choose_spec⟩
  · rintro ⟨s, h0, hs⟩
    have key : ∀ k n id fl, s n = (id.val, around fl) → Diverges (searchBlock map k id fl) := by
      intro k
      induction k with
      | zero => intros; rfl
      | succ k ih =>
        intro n id fl h
        have hi := hs n
        rw [h] at hi
        obtain ⟨id', fl', hq, hb⟩ := search_pass hg hn hi
        exact hb k (ih (n + 1) id' fl' hq)
    obtain ⟨k, hk⟩ := final_spec map id fl
    rw [← hk k (Nat.le_refl _)]
    exact key k 0 id fl h0

end Magma
