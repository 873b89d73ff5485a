import Verif.Proofs.Simt
import Verif.Proofs.Uniform
/-! Blocks that all lanes visit together are issued for all of them at once. -/

namespace Magma.Simt
open Spec Lockstep
variable {V W X S : Type} {k : Nat}

/-! ### Logs -/
section
variable {M : Machine X S} {blocks : List (BasicBlock X)}

/-- What is issued is of a list of blocks, and for some lane, of those of the mask. -/
structure Issued (l : List UInt32) (mask : Fin k → Bool) (g : Group k S) : Prop where
  ids : ∀ p ∈ g.log, p.1.val ∈ l
  some : ∀ p ∈ g.log, anyLane p.2 = true
  within : ∀ p ∈ g.log, ∀ i, p.2 i = true → mask i = true

theorem Issued.mono {l l' : List UInt32} {mask mask' : Fin k → Bool} {g : Group k S} (h : Issued l mask g) (hl : ∀ x ∈ l, x ∈ l')
    (hm : ∀ i, mask i = true → mask' i = true) : Issued l' mask' g :=
  ⟨fun p hp => hl _ (h.ids p hp), h.some, fun p hp i hi => hm i (h.within p hp i hi)⟩

theorem Issued.append {l : List UInt32} {mask : Fin k → Bool} {g g' : Group k S} (h : Issued l mask g) (h' : Issued l mask g')
    (s : Fin k → Signal) (c : Fin k → Config S) : Issued l mask (⟨g.log ++ g'.log, s, c⟩ : Group k S) := by
  refine ⟨fun p hp => ?_, fun p hp => ?_, fun p hp => ?_⟩ <;> rcases List.mem_append.mp hp with hp | hp
  · exact h.ids p hp
  · exact h'.ids p hp
  · exact h.some p hp
  · exact h'.some p hp
  · exact h.within p hp
  · exact h'.within p hp

theorem Issued.none {l : List UInt32} {mask : Fin k → Bool} {g : Group k S} (h : g.log = []) : Issued l mask g := by
  constructor <;> simp [h]

theorem issue_issued (id : BlockId) (mask : Fin k → Bool) (c : Fin k → Config S) : Issued [id.val] mask (M.issue blocks id mask c) := by
  unfold Machine.issue
  split
  · next h => exact ⟨by simp, by simpa using h, by simp⟩
  · exact .none rfl

theorem andThen_issued {l : List UInt32} {mask : Fin k → Bool} {g : Group k S}
    {second : (Fin k → Bool) → (Fin k → Config S) → Group k S} (h : Issued l mask g) (h' : ∀ mask c, Issued l mask (second mask c)) :
    Issued l mask (g.andThen mask second) :=
  h.append ((h' _ _).mono (fun _ hx => hx) fun i hi => by
    rw [Bool.and_eq_true] at hi
    exact hi.1) _ _

theorem rounds_issued {l : List UInt32} {body : (Fin k → Bool) → (Fin k → Config S) → Group k S}
    (h : ∀ mask c, Issued l mask (body mask c)) : ∀ r mask c, Issued l mask (roundsOf body r mask c)
  | 0, _, _ => .none rfl
  | r + 1, mask, c => by
    rw [roundsOf]
    split
    · exact (h mask c).append ((rounds_issued h r _ _).mono (fun _ hx => hx) fun i hi => by
        rw [Bool.and_eq_true] at hi
        exact hi.1) _ _
    · exact .none rfl

mutual
theorem simt_issued (R : Nat) : ∀ (chain : ControlFlowChain) (mask : Fin k → Bool) (c : Fin k → Config S),
    Issued (chainIds chain) mask (simt M blocks R chain mask c)
  | .Atom id, mask, c => by
    rw [simt]
    exact issue_issued id mask c
  | .Block chains, mask, c => by
    rw [simt]
    exact simt_all_issued R chains mask c
  | .Selection id left right _ _, mask, c => by
    rw [simt, chainIds]
    refine andThen_issued ((issue_issued id mask c).mono (by simp) fun _ hx => hx) fun mask c => ?_
    exact ((simt_issued R left _ _).mono (fun x hx => by simp [hx]) fun i hi => by
        rw [Bool.and_eq_true] at hi
        exact hi.1).append
      ((simt_issued R right _ _).mono (fun x hx => by simp [hx]) fun i hi => by
        rw [Bool.and_eq_true] at hi
        exact hi.1) _ _
  | .Loop id inner _ _, mask, c => by
    rw [simt, chainIds]
    exact rounds_issued (fun mask c => andThen_issued ((issue_issued id mask c).mono (by simp) fun _ hx => hx)
      fun mask c => (simt_issued R inner mask c).mono (fun x hx => by simp [hx]) fun _ hx => hx) _ _ _
  | .Break, mask, c => by
    rw [simt]
    exact .none rfl
  | .Continue, mask, c => by
    rw [simt]
    exact .none rfl
theorem simt_all_issued (R : Nat) : ∀ (chains : List ControlFlowChain) (mask : Fin k → Bool) (c : Fin k → Config S),
    Issued (chainIdsAll chains) mask (simtAll M blocks R chains mask c)
  | [], mask, c => by
    rw [simtAll]
    exact .none rfl
  | chain :: chains, mask, c => by
    rw [simtAll, chainIdsAll]
    exact andThen_issued ((simt_issued R chain mask c).mono (fun x hx => by simp [hx]) fun _ hx => hx)
      fun mask c => (simt_all_issued R chains mask c).mono (fun x hx => by simp [hx]) fun _ hx => hx
end

theorem Issued.empty {l : List UInt32} {mask : Fin k → Bool} {g : Group k S} (h : Issued l mask g) (hm : anyLane mask = false) :
    g.log = [] := by
  cases hg : g.log with
  | nil => rfl
  | cons p rest =>
    have hp : p ∈ g.log := by simp [hg]
    obtain ⟨i, -, hi⟩ := List.any_eq_true.mp (h.some p hp)
    have := h.within p hp i hi
    rw [none_of hm i] at this
    cases this

/-- A block issued, and then something -/
theorem issue_then {id : BlockId} {mask : Fin k → Bool} {c c' : Fin k → Config S}
    {second : (Fin k → Bool) → (Fin k → Config S) → Group k S} (h : anyLane mask = true)
    (hc : (fun i => if mask i then M.arrive blocks id (c i) else c i) = c') :
    (M.issue blocks id mask c).andThen mask second =
      ⟨(id, mask) :: (second mask c').log, fun i => if mask i then (second mask c').signal i else .next, (second mask c').config⟩ := by
  rw [Machine.issue, if_pos h, hc]
  simp [Group.andThen]

end

/-! ### Full masks -/
section
variable {A : Access X V} {M : Machine X (V → W)} {same : V → Bool} {blocks : List (BasicBlock X)}

/-- Blocks outside a list are issued for all the lanes of the mask. -/
def Full (apart : List UInt32) (mask : Fin k → Bool) (g : Group k S) : Prop := ∀ p ∈ g.log, p.1.val ∉ apart → p.2 = mask

theorem full_none {apart : List UInt32} {mask : Fin k → Bool} {g : Group k S} (h : g.log = []) : Full apart mask g := by
  simp [Full, h]

theorem full_inside {apart l : List UInt32} {mask mask' : Fin k → Bool} {g : Group k S} (h : Issued l mask' g) (hl : ∀ x ∈ l, x ∈ apart) :
    Full apart mask g := fun p hp hn => absurd (hl _ (h.ids p hp)) hn

theorem full_append {apart : List UInt32} {mask : Fin k → Bool} {g g' : Group k S} (h : Full apart mask g) (h' : Full apart mask g')
    (s : Fin k → Signal) (c : Fin k → Config S) : Full apart mask (⟨g.log ++ g'.log, s, c⟩ : Group k S) := fun p hp hn =>
  (List.mem_append.mp hp).elim (fun hp => h p hp hn) (fun hp => h' p hp hn)

/-- Lanes all do something or none does. -/
theorem all_or_none {mask P : Fin k → Bool} (h : ∀ i j, mask i = true → mask j = true → P i = P j) :
    ((fun i => mask i && P i) = mask ∧ ∀ i, mask i = true → P i = true) ∨
      (anyLane (fun i => mask i && P i) = false ∧ ∀ i, mask i = true → P i = false) := by
  by_cases hx : ∃ i, mask i = true ∧ P i = true
  · obtain ⟨i, hi, hp⟩ := hx
    have hall : ∀ j, mask j = true → P j = true := fun j hj => (h j i hj hi).trans hp
    refine .inl ⟨funext fun j => ?_, hall⟩
    cases hj : mask j with
    | false => rfl
    | true => simp [hall j hj]
  · have hall : ∀ j, mask j = true → P j = false := fun j hj => by
      cases hp : P j with
      | false => rfl
      | true => exact absurd ⟨j, hj, hp⟩ hx
    refine .inr ⟨?_, hall⟩
    rw [anyLane, List.any_eq_false]
    intro j _
    cases hj : mask j with
    | false => simp
    | true => simp [hall j hj]

/-- The lanes of a mask are together. -/
def LanesTogether (same : V → Bool) (stray : Bool) (mask : Fin k → Bool) (c : Fin k → Config (V → W)) : Prop :=
  ∀ i j, mask i = true → mask j = true → Together same stray (c i) (c j)

/-- The lanes of a mask end alike. -/
def LanesAlike (same : V → Bool) (apart : List UInt32) (part stray : Bool) (mask : Fin k → Bool) (g : Group k (V → W)) : Prop :=
  ∀ i j, mask i = true → mask j = true →
    Alike same apart part stray ⟨g.laneLog i, g.signal i, 0, g.config i⟩ ⟨g.laneLog j, g.signal j, 0, g.config j⟩

theorem simt_pair (hA : A.Right M) {asks : GroupCode X → Bool} (hL : M.AsksLast asks) {apart : List UInt32} (R : Nat)
    (chain : ControlFlowChain) (before : Bool)
    (h : Checked A asks same blocks apart (chainIds chain) (visitedApart (A.varies same blocks) chain)
      (visitedTogether (A.varies same blocks) before chain)) (hl : mayLeave (A.varies same blocks) chain = false)
    {mask : Fin k → Bool} {c : Fin k → Config (V → W)} (hc : LanesTogether same before mask c)
    (hr : ∀ i, mask i = true → (simt M blocks R chain mask c).signal i ≠ .running) :
    LanesAlike same apart (mayPart (A.varies same blocks) chain) (mayStray (A.varies same blocks) before chain) mask
      (simt M blocks R chain mask c) := by
  intro i j hi hj
  obtain ⟨N, h1⟩ := simt_alone R chain mask c hi (hr i hi)
  obtain ⟨N', h2⟩ := simt_alone R chain mask c hj (hr j hj)
  have h1 := h1 0
  have h2 := h2 0
  rw [← h1, ← h2]
  exact exec_together hA hL chain before h hl _ _ _ _ (hc i j hi hj) (by rw [h1]; exact hr i hi) (by rw [h2]; exact hr j hj)

theorem arrive_lanes (hA : A.Right M) {asks : GroupCode X → Bool} (hL : M.AsksLast asks) {stray : Bool} {id : BlockId}
    (h : A.steady asks same blocks id stray = true) (hk : (blockOf blocks id).isSome) {mask : Fin k → Bool}
    {c : Fin k → Config (V → W)} (hc : LanesTogether same stray mask c) :
    LanesTogether same false mask (fun i => if mask i then M.arrive blocks id (c i) else c i) := by
  intro i j hi hj
  simp only [hi, hj, if_true]
  exact arrive_steady hA hL h (hc i j hi hj) hk

theorem rounds_full {apart : List UInt32} {part s t : Bool} {body : (Fin k → Bool) → (Fin k → Config (V → W)) → Group k (V → W)}
    (hts : t = true → s = true)
    (h : ∀ mask c, anyLane mask = true → LanesTogether same s mask c → (∀ i, mask i = true → (body mask c).signal i ≠ .running) →
      Full apart mask (body mask c) ∧ LanesAlike same apart part t mask (body mask c)) :
    ∀ r mask c, LanesTogether same s mask c → (∀ i, mask i = true → (roundsOf body r mask c).signal i ≠ .running) →
      (∀ mask c, ∃ l, Issued l mask (body mask c)) → Full apart mask (roundsOf body r mask c)
  | 0, _, _, _, _, _ => full_none rfl
  | r + 1, mask, c, hc, hr, hi => by
    rw [roundsOf] at hr ⊢
    cases hany : anyLane mask with
    | false => exact full_none rfl
    | true =>
      simp only [hany, if_true] at hr ⊢
      have hr1 : ∀ i, mask i = true → (body mask c).signal i ≠ .running := by
        intro i hm he
        have := hr i hm
        simp [he] at this
      obtain ⟨h1, h2⟩ := h mask c hany hc hr1
      refine full_append h1 ?_ _ _
      have hP : ∀ i j, mask i = true → mask j = true →
          ((body mask c).signal i == .next || (body mask c).signal i == .continues) =
            ((body mask c).signal j == .next || (body mask c).signal j == .continues) := by
        intro i j hi hj
        rcases (h2 i j hi hj).signal with he | ⟨-, he, he'⟩
        · simp only at he
          rw [he]
        · simp only at he he'
          rcases he with he | he <;> rcases he' with he' | he' <;> simp [he, he']
      rcases all_or_none hP with ⟨hm, hall⟩ | ⟨hm, -⟩
      · rw [hm]
        refine rounds_full hts h r mask _ (fun i j hi hj => (h2 i j hi hj).config.mono hts) ?_ hi
        intro i hi
        have := hr i hi
        simp only [hm] at this
        rw [if_pos] at this
        · exact this
        · rw [hi, Bool.true_and]
          exact hall i hi
      · refine full_none ?_
        cases r with
        | zero => rfl
        | succ r => rw [roundsOf, hm]; rfl

mutual
theorem simt_full (hA : A.Right M) {asks : GroupCode X → Bool} (hL : M.AsksLast asks) {apart : List UInt32} (R : Nat) :
    ∀ (chain : ControlFlowChain) (before : Bool),
      Checked A asks same blocks apart (chainIds chain) (visitedApart (A.varies same blocks) chain)
        (visitedTogether (A.varies same blocks) before chain) →
      mayLeave (A.varies same blocks) chain = false →
      ∀ (mask : Fin k → Bool) (c : Fin k → Config (V → W)), LanesTogether same before mask c →
        (∀ i, mask i = true → (simt M blocks R chain mask c).signal i ≠ .running) →
        Full apart mask (simt M blocks R chain mask c)
  | .Atom id, before, h, _, mask, c, hc, hr => by
    rw [simt, Machine.issue]
    split
    · simp [Full]
    · exact full_none rfl
  | .Block chains, before, h, hl, mask, c, hc, hr => by
    simp only [simt, chainIds, visitedApart, visitedTogether, mayLeave] at *
    exact simt_all_full hA hL R chains before h hl mask c hc hr
  | .Selection id left right _ _, before, h, hl, mask, c, hc, hr => by
    cases hany : anyLane mask with
    | false => exact full_none ((simt_issued R _ mask c).empty hany)
    | true =>
      simp only [simt, chainIds, visitedApart, visitedTogether, mayLeave] at *
      have hc' := arrive_lanes hA hL (h.steady (id, before) (by simp)) (h.known id.val (by simp)) hc
      generalize hcd : (fun i => if mask i then M.arrive blocks id (c i) else c i) = c' at hc'
      rw [issue_then hany hcd] at hr ⊢
      have hr' : ∀ i, mask i = true → (Group.choose (fun i => M.decides blocks id (c' i)) mask c' (fun mask c => simt M blocks R left mask c)
          (fun mask c => simt M blocks R right mask c)).signal i ≠ .running := by
        intro i hi
        have := hr i hi
        simpa only [hi, if_true] using this
      suffices hs : Full apart mask (Group.choose (fun i => M.decides blocks id (c' i)) mask c' (fun mask c => simt M blocks R left mask c)
          (fun mask c => simt M blocks R right mask c)) by
        intro p hp hn
        rcases List.mem_cons.mp hp with rfl | hp
        · rfl
        · exact hs p hp hn
      cases hv : A.varies same blocks id with
      | true =>
        simp only [hv, if_true] at h
        exact full_append (full_inside (simt_issued R left _ _) fun x hx => h.inside x (List.mem_append_left _ hx))
          (full_inside (simt_issued R right _ _) fun x hx => h.inside x (List.mem_append_right _ hx)) _ _
      | false =>
        simp only [hv, Bool.false_eq_true, if_false, Bool.false_and, Bool.false_or, Bool.or_eq_false_iff] at h hl
        have hP : ∀ i j, mask i = true → mask j = true → M.decides blocks id (c' i) = M.decides blocks id (c' j) :=
          fun i j hi hj => decides_together hA hv (hc' i j hi hj).agree
        simp only [Group.choose] at hr' ⊢
        rcases all_or_none hP with ⟨hm, hall⟩ | ⟨hm, hall⟩
        · refine full_append ?_ (full_none ((simt_issued R right _ _).empty ?_)) _ _
          · rw [hm] at hr' ⊢
            refine simt_full hA hL R left false (h.mono (fun x hx => by simp [hx]) (fun x hx => by simp [hx])
              (fun x hx => by simp [hx])) hl.1 mask c' hc' fun i hi => ?_
            have := hr' i hi
            simpa only [hall i hi, if_true] using this
          · rw [anyLane, List.any_eq_false]
            intro i _
            cases hi : mask i with
            | false => simp
            | true => simp [hall i hi]
        · have hleft : (simt M blocks R left (fun i => mask i && M.decides blocks id (c' i)) c').config = c' :=
            funext fun i => (simt_idle R left _ c' (none_of hm i)).2
          have hmr : (fun i => mask i && !M.decides blocks id (c' i)) = mask := by
            funext i
            cases hi : mask i with
            | false => rfl
            | true => simp [hall i hi]
          refine full_append (full_none ((simt_issued R left _ _).empty hm)) ?_ _ _
          rw [hleft, hmr] at hr' ⊢
          refine simt_full hA hL R right false (h.mono (fun x hx => by simp [hx]) (fun x hx => by simp [hx])
            (fun x hx => by simp [hx])) hl.2 mask c' hc' fun i hi => ?_
          have := hr' i hi
          simpa only [hall i hi, Bool.false_eq_true, if_false] using this
  | .Loop id inner sc st, before, h, hl, mask, c, hc, hr => by
    cases hv : mayLeave (A.varies same blocks) inner with
    | true =>
      refine full_inside (simt_issued R (.Loop id inner sc st) mask c) fun x hx => h.inside x ?_
      simpa [visitedApart, hv, chainIds] using hx
    | false =>
      simp only [simt, chainIds, visitedApart, visitedTogether, hv, Bool.false_eq_true, if_false] at h hr ⊢
      refine rounds_full (s := before || mayStray (A.varies same blocks) false inner) (t := mayStray (A.varies same blocks) false inner)
        (part := mayPart (A.varies same blocks) inner) (fun hb => by simp [hb]) ?_ R mask c
        (fun i j hi hj => (hc i j hi hj).mono fun hb => by simp [hb]) hr
        (fun mask c => ⟨id.val :: chainIds inner, andThen_issued ((issue_issued id mask c).mono (by simp) fun _ hx => hx)
          fun mask c => (simt_issued R inner mask c).mono (fun x hx => by simp [hx]) fun _ hx => hx⟩)
      intro mask c hany hc hr
      have hc' := arrive_lanes hA hL (h.steady _ (List.mem_cons_self ..)) (h.known id.val (by simp)) hc
      generalize hcd : (fun i => if mask i then M.arrive blocks id (c i) else c i) = c' at hc'
      rw [issue_then hany hcd] at hr ⊢
      have hr' : ∀ i, mask i = true → (simt M blocks R inner mask c').signal i ≠ .running := by
        intro i hi
        have := hr i hi
        simpa only [hi, if_true] using this
      have hch := h.mono (i' := chainIds inner) (a' := visitedApart (A.varies same blocks) inner)
        (s' := visitedTogether (A.varies same blocks) false inner) (fun x hx => by simp [hx]) (fun x hx => hx) (fun x hx => by simp [hx])
      have hfull := simt_full hA hL R inner false hch hv mask c' hc' hr'
      have hpair := simt_pair hA hL R inner false hch hv hc' hr'
      refine ⟨?_, ?_⟩
      · intro p hp hn
        rcases List.mem_cons.mp hp with rfl | hp
        · rfl
        · exact hfull p hp hn
      · intro i j hi hj
        have h3 := hpair i j hi hj
        refine ⟨?_, ?_, h3.config⟩
        · simpa only [hi, hj, if_true] using h3.signal
        · simp only [Group.laneLog, List.filter_cons, hi, hj, if_true, List.map_cons]
          have := h3.trace
          simp only [Group.laneLog] at this
          simp only [visitsBut, List.filter_cons] at this ⊢
          rw [this]
  | .Break, before, _, _, mask, c, hc, _ => by
    rw [simt]
    exact full_none rfl
  | .Continue, before, _, _, mask, c, hc, _ => by
    rw [simt]
    exact full_none rfl
theorem simt_all_full (hA : A.Right M) {asks : GroupCode X → Bool} (hL : M.AsksLast asks) {apart : List UInt32} (R : Nat) :
    ∀ (chains : List ControlFlowChain) (before : Bool),
      Checked A asks same blocks apart (chainIdsAll chains) (visitedApartAll (A.varies same blocks) chains)
        (visitedTogetherAll (A.varies same blocks) before chains) →
      mayLeaveAny (A.varies same blocks) chains = false →
      ∀ (mask : Fin k → Bool) (c : Fin k → Config (V → W)), LanesTogether same before mask c →
        (∀ i, mask i = true → (simtAll M blocks R chains mask c).signal i ≠ .running) →
        Full apart mask (simtAll M blocks R chains mask c)
  | [], before, _, _, mask, c, hc, _ => by
    rw [simtAll]
    exact full_none rfl
  | chain :: chains, before, h, hl, mask, c, hc, hr => by
    simp only [simtAll, chainIdsAll, visitedApartAll, visitedTogetherAll, mayLeaveAny, Bool.or_eq_false_iff] at *
    have hr1 : ∀ i, mask i = true → (simt M blocks R chain mask c).signal i ≠ .running := by
      intro i hi he
      have := hr i hi
      simp [Group.andThen, he] at this
    have hch := h.mono (i' := chainIds chain) (a' := visitedApart (A.varies same blocks) chain)
      (s' := visitedTogether (A.varies same blocks) before chain) (fun x hx => by simp [hx]) (fun x hx => by simp [hx])
      (fun x hx => by simp [hx])
    have hfull := simt_full hA hL R chain before hch hl.1.1 mask c hc hr1
    have hpair := simt_pair hA hL R chain before hch hl.1.1 hc hr1
    refine full_append hfull ?_ _ _
    by_cases hnil : chains = []
    · subst hnil
      exact full_none (by simp only [simtAll])
    · have hpart : mayPart (A.varies same blocks) chain = false := by
        have := hl.1.2
        simpa [hnil] using this
      have hP : ∀ i j, mask i = true → mask j = true →
          ((simt M blocks R chain mask c).signal i == .next) = ((simt M blocks R chain mask c).signal j == .next) := by
        intro i j hi hj
        rcases (hpair i j hi hj).signal with he | ⟨hp, -⟩
        · simp only at he
          rw [he]
        · rw [hpart] at hp
          cases hp
      rcases all_or_none hP with ⟨hm, hall⟩ | ⟨hm, -⟩
      · simp only [Group.andThen, hm] at hr ⊢
        refine simt_all_full hA hL R chains (mayStray (A.varies same blocks) before chain)
          (h.mono (fun x hx => by simp [hx]) (fun x hx => by simp [hx]) (fun x hx => by simp [hx])) hl.2 mask _
          (fun i j hi hj => (hpair i j hi hj).config) fun i hi => ?_
        have := hr i hi
        rw [if_pos (by rw [hi, hall i hi]; rfl)] at this
        exact this
      · exact full_none ((simt_all_issued R chains _ _).empty hm)
end
end

end Magma.Simt
