import Verif.Proofs.Flow
import Verif.Spec.Split
/-! The search when a block is split in two. -/

namespace Magma.Split
open Spec
variable {X Y : Type}

/-- What becomes of the result of a search -/
def splitResult (x n : UInt32) : CF (ControlFlowChain × Continue) → CF (ControlFlowChain × Continue)
  | .ok r => .ok (splitChain x n r.1, r.2)
  | .error e => .error (splitFault x n e)

/-- One of the searches comes to an end: the first, or the second. -/
def Halts (dir : Bool) {α β : Type} (a : CF α) (b : CF β) : Prop :=
  if dir then ¬ Diverges a else ¬ Diverges b

theorem halts_bind {dir : Bool} {α β γ δ : Type} {a : CF α} {b : CF β} {f : α → CF γ} {g : β → CF δ}
    (h : Halts dir (a >>= f) (b >>= g)) : Halts dir a b := by
  cases dir with
  | true => exact fun hd => h (by rw [show a = .error .diverge from hd]; rfl)
  | false => exact fun hd => h (by rw [show b = .error .diverge from hd]; rfl)

theorem split_bind {x n : UInt32} {dir : Bool} {a b : CF (ControlFlowChain × Continue)}
    {f g : ControlFlowChain × Continue → CF (ControlFlowChain × Continue)}
    (hx : Halts dir a b → b = splitResult x n a)
    (hf : ∀ r, a = .ok r → Halts dir (f r) (g (splitChain x n r.1, r.2)) →
      g (splitChain x n r.1, r.2) = splitResult x n (f r))
    (h : Halts dir (a >>= f) (b >>= g)) : (b >>= g) = splitResult x n (a >>= f) := by
  have hb := hx (halts_bind h)
  subst hb
  cases a with
  | error e => rfl
  | ok r => exact hf r rfl h

theorem split_bind_two {x n : UInt32} {dir : Bool} {a b : CF (ControlFlowChain × Continue)}
    {f g : ControlFlowChain × Continue → CF (ControlFlowChain × Continue)}
    {k : ControlFlowChain × Continue → CF (ControlFlowChain × Continue)}
    (hx : Halts dir a b → b = splitResult x n a)
    (hf : ∀ r, a = .ok r → Halts dir (f r) (g (splitChain x n r.1, r.2) >>= k) →
      (g (splitChain x n r.1, r.2) >>= k) = splitResult x n (f r))
    (h : Halts dir (a >>= f) ((b >>= g) >>= k)) : ((b >>= g) >>= k) = splitResult x n (a >>= f) := by
  have e : ((b >>= g) >>= k) = (b >>= fun r => g r >>= k) := by cases b <;> rfl
  rw [e] at h ⊢
  exact split_bind (g := fun r => g r >>= k) hx hf h

theorem splitItems_append (x n : UInt32) (as bs : List ControlFlowChain) :
    splitItems x n (as ++ bs) = splitItems x n as ++ splitItems x n bs := by
  induction as with
  | nil => rfl
  | cons a as ih => simp only [List.cons_append, splitItems, ih, List.append_assoc]

theorem block2 (a b : ControlFlowChain) : ControlFlowChain.block [a, b] = .Block (itemsOf a ++ itemsOf b) := by
  cases a <;> cases b <;> simp [ControlFlowChain.block, ControlFlowChain.mergeAll, itemsOf]

theorem itemsOf_split (x n : UInt32) (a : ControlFlowChain) :
    itemsOf (splitChain x n a) = splitItems x n (itemsOf a) := by
  cases a <;> simp [itemsOf, splitItems, splitChain]

theorem split_block2 (x n : UInt32) (a b : ControlFlowChain) :
    splitChain x n (.block [a, b]) = .block [splitChain x n a, splitChain x n b] := by
  rw [block2, block2, itemsOf_split, itemsOf_split, splitChain, splitItems_append]

section
variable {x n : UInt32} {dir : Bool} {s s' : BlockId → FlowList → CF (ControlFlowChain × Continue)}
  (hs : ∀ id fl, id.val ≠ n → FlowList.merges fl ⟨n⟩ = false → Halts dir (s id fl) (s' id fl) →
    s' id fl = splitResult x n (s id fl))
include hs

/-- A block that is not split -/
theorem endStep_other {id : BlockId} {fl : FlowList} {e : Option BlockEnd} (hx : id.val ≠ x) (hn : id.val ≠ n)
    (hfl : FlowList.merges fl ⟨n⟩ = false) (he : ∀ e', e = some e' → n ∉ e'.names)
    (h : Halts dir (endStep s id fl e) (endStep s' id fl e)) :
    endStep s' id fl e = splitResult x n (endStep s id fl e) := by
  have hid : id ≠ ⟨n⟩ := fun h => hn (congrArg BlockId.val h)
  cases e with
  | none => rfl
  | some e =>
    have he := he e rfl
    cases e with
    | returns => simp only [endStep, splitResult, splitChain, if_neg hx]
    | gotoSelection t m h => rfl
    | chooseLoop t f w m h => rfl
    | goto t =>
      simp only [BlockEnd.names, List.mem_cons, List.not_mem_nil, or_false] at he
      refine split_bind (hs _ _ (Ne.symm he) hfl) (fun r _ _ => ?_) h
      show Except.ok _ = Except.ok _
      rw [split_block2]
      simp only [splitChain, if_neg hx]
    | gotoLoop t m h =>
      simp only [BlockEnd.names, List.mem_cons, List.not_mem_nil, or_false, not_or] at he
      refine split_bind (hs _ _ (Ne.symm he.1) (by rw [FlowList.merges, if_neg hid, hfl])) (fun r _ hr => ?_) h
      by_cases hk : r.2 = .Next id
      · simp only [if_pos hk] at hr ⊢
        refine split_bind (hs _ _ (Ne.symm he.2) hfl) (fun r _ _ => ?_) hr
        show Except.ok _ = Except.ok _
        rw [split_block2]
        simp only [splitChain]
      · simp only [if_neg hk, splitResult, splitFault, splitError, if_neg hx]
    | chooseSelection t f w m h =>
      simp only [BlockEnd.names, List.mem_cons, List.not_mem_nil, or_false, not_or] at he
      have hm : (⟨m⟩ : BlockId) ≠ ⟨n⟩ := fun h => he.2.2 (congrArg BlockId.val h).symm
      refine split_bind (hs _ _ (Ne.symm he.1) (by rw [FlowList.merges, if_neg hm, hfl])) (fun r _ hr => ?_) h
      refine split_bind (hs _ _ (Ne.symm he.2.1) (by rw [FlowList.merges, if_neg hm, hfl])) (fun r2 _ hr => ?_) hr
      by_cases hk : r.2 = r2.2 ∧ r.2 = .Next ⟨m⟩
      · simp only [if_pos hk] at hr ⊢
        refine split_bind (hs _ _ (Ne.symm he.2.2) hfl) (fun r _ _ => ?_) hr
        show Except.ok _ = Except.ok _
        rw [split_block2]
        simp only [splitChain, if_neg hx]
      · simp only [if_neg hk, splitResult, splitFault, splitError, if_neg hx]
    | choose t f w =>
      simp only [BlockEnd.names, List.mem_cons, List.not_mem_nil, or_false, not_or] at he
      simp only [endStep] at h ⊢
      cases hi : fl.innermostLoop with
      | none => simp only [splitResult, splitFault, splitError, if_neg hx]
      | some p =>
        obtain ⟨a, m⟩ := p
        simp only [hi] at h ⊢
        by_cases hb : (⟨f⟩ : BlockId) = m ∨ (⟨f⟩ : BlockId) = a
        · simp only [if_pos hb] at h ⊢
          refine split_bind (hs _ _ (Ne.symm he.1) hfl) (fun r _ hr => ?_) h
          by_cases hk : r.2 = .Next a
          · simp only [if_pos hk]
            show Except.ok _ = Except.ok _
            by_cases hm : (⟨f⟩ : BlockId) = m
            · simp only [if_pos hm, splitChain, if_neg hx]
            · simp only [if_neg hm, splitChain, if_neg hx]
          · simp only [if_neg hk, splitResult, splitFault, splitError, if_neg hx]
        · simp only [if_neg hb, splitResult, splitFault, splitError, if_neg hx]

/-- The block that is split -/
theorem endStep_split {fl : FlowList} {e : BlockEnd}
    (hfl : FlowList.merges fl ⟨n⟩ = false) (he : n ∉ e.names) (hl : ∀ t m h, e ≠ .gotoLoop t m h)
    (h : Halts dir (endStep s ⟨x⟩ fl (some e)) (endStep s' ⟨n⟩ fl (some e) >>= fun r =>
      (.ok (.block [.Atom ⟨x⟩, r.1], r.2) : CF (ControlFlowChain × Continue)))) :
    (endStep s' ⟨n⟩ fl (some e) >>= fun r => (.ok (.block [.Atom ⟨x⟩, r.1], r.2) : CF (ControlFlowChain × Continue))) =
      splitResult x n (endStep s ⟨x⟩ fl (some e)) := by
  cases e with
  | returns => simp [endStep, splitResult, splitChain, cok_bind, block2, itemsOf]
  | gotoSelection t m h => rfl
  | chooseLoop t f w m h => rfl
  | gotoLoop t m h => exact absurd rfl (hl _ _ _)
  | goto t =>
    simp only [BlockEnd.names, List.mem_cons, List.not_mem_nil, or_false] at he
    refine split_bind_two (hs _ _ (Ne.symm he) hfl) (fun r _ _ => ?_) h
    show Except.ok _ = Except.ok _
    simp only [block2, itemsOf_split]
    simp [itemsOf, splitItems, splitChain]
  | chooseSelection t f w m h =>
    simp only [BlockEnd.names, List.mem_cons, List.not_mem_nil, or_false, not_or] at he
    have hm : (⟨m⟩ : BlockId) ≠ ⟨n⟩ := fun h => he.2.2 (congrArg BlockId.val h).symm
    refine split_bind_two (hs _ _ (Ne.symm he.1) (by rw [FlowList.merges, if_neg hm, hfl])) (fun r _ hr => ?_) h
    refine split_bind_two (hs _ _ (Ne.symm he.2.1) (by rw [FlowList.merges, if_neg hm, hfl])) (fun r2 _ hr => ?_) hr
    by_cases hk : r.2 = r2.2 ∧ r.2 = .Next ⟨m⟩
    · simp only [if_pos hk] at hr ⊢
      refine split_bind_two (hs _ _ (Ne.symm he.2.2) hfl) (fun r _ _ => ?_) hr
      show Except.ok _ = Except.ok _
      simp only [block2, itemsOf_split]
      simp [itemsOf, splitItems, splitChain]
    · simp only [if_neg hk, splitResult, splitFault, splitError, if_true]
      rfl
  | choose t f w =>
    simp only [BlockEnd.names, List.mem_cons, List.not_mem_nil, or_false, not_or] at he
    simp only [endStep] at h ⊢
    cases hi : fl.innermostLoop with
    | none =>
      simp only [splitResult, splitFault, splitError, if_true]
      rfl
    | some p =>
      obtain ⟨a, m⟩ := p
      simp only [hi] at h ⊢
      by_cases hb : (⟨f⟩ : BlockId) = m ∨ (⟨f⟩ : BlockId) = a
      · simp only [if_pos hb] at h ⊢
        refine split_bind_two (hs _ _ (Ne.symm he.1) hfl) (fun r _ hr => ?_) h
        by_cases hk : r.2 = .Next a
        · simp only [if_pos hk]
          show Except.ok _ = Except.ok _
          by_cases hm : (⟨f⟩ : BlockId) = m
          · simp only [if_pos hm]
            simp [splitChain, block2, itemsOf]
          · simp only [if_neg hm]
            simp [splitChain, block2, itemsOf]
        · simp only [if_neg hk, splitResult, splitFault, splitError, if_true]
          rfl
      · simp only [if_neg hb, splitResult, splitFault, splitError, if_true]
        rfl

end

/-- The maps of the two functions -/
structure Maps (x n : UInt32) (get : BlockId → Option (BasicBlock X)) (get' : BlockId → Option (BasicBlock Y)) :
    Prop where
  ne : x ≠ n
  first : (get' ⟨x⟩).map endOf = some (.goto n)
  second : ∃ e, (get ⟨x⟩).map endOf = some e ∧ (get' ⟨n⟩).map endOf = some e ∧ ∀ t m h, e ≠ .gotoLoop t m h
  other : ∀ id : BlockId, id.val ≠ x → id.val ≠ n → (get' id).map endOf = (get id).map endOf
  fresh : ∀ id e, (get id).map endOf = some e → n ∉ e.names

theorem search_split {x n : UInt32} {dir : Bool} {map : BlockMap X} {map' : BlockMap Y}
    (hm : Maps x n map.get map'.get) {s : BlockId → FlowList → CF (ControlFlowChain × Continue)} {k : Nat}
    (hs : ∀ id fl, id.val ≠ n → FlowList.merges fl ⟨n⟩ = false → Halts dir (s id fl) (searchBlock map' k id fl) →
      searchBlock map' k id fl = splitResult x n (s id fl))
    (hs' : ∀ id fl, id.val ≠ n → FlowList.merges fl ⟨n⟩ = false → Halts dir (s id fl) (searchBlock map' (k + 1) id fl) →
      searchBlock map' (k + 1) id fl = splitResult x n (s id fl)) (id : BlockId) (fl : FlowList)
    (hid : id.val ≠ n) (hfl : FlowList.merges fl ⟨n⟩ = false)
    (h : Halts dir (searchStep map.get s id fl) (searchBlock map' (k + 2) id fl)) :
    searchBlock map' (k + 2) id fl = splitResult x n (searchStep map.get s id fl) := by
  rw [searchBlock_succ, searchStep_eq] at h ⊢
  rw [searchStep_eq] at h ⊢
  by_cases hg : fl.merges id = true
  · rw [if_pos hg, if_pos hg]
    rfl
  · rw [if_neg hg, if_neg hg] at h ⊢
    by_cases hx : id.val = x
    · obtain ⟨v⟩ := id
      obtain rfl : v = x := hx
      obtain ⟨e, h1, h2, h3⟩ := hm.second
      have hn : ¬ FlowList.merges fl ⟨n⟩ = true := by rw [hfl]; exact Bool.false_ne_true
      have he : endStep (searchBlock map' (k + 1)) ⟨v⟩ fl ((map'.get ⟨v⟩).map endOf) =
          (endStep (searchBlock map' k) ⟨n⟩ fl (some e) >>= fun r =>
            (.ok (.block [.Atom ⟨v⟩, r.1], r.2) : CF (ControlFlowChain × Continue))) := by
        rw [hm.first, endStep, searchBlock_succ, searchStep_eq, if_neg hn, h2]
        rfl
      rw [he, h1] at h ⊢
      exact endStep_split hs hfl (hm.fresh _ _ h1) h3 h
    · rw [hm.other id hx hid] at h ⊢
      exact endStep_other hs' hx hid hfl (fun e he => hm.fresh _ _ he) h

theorem search_forth {x n : UInt32} {map : BlockMap X} {map' : BlockMap Y} (hm : Maps x n map.get map'.get) :
    ∀ fuel id fl, id.val ≠ n → FlowList.merges fl ⟨n⟩ = false → ¬ Diverges (searchBlock map fuel id fl) →
      searchBlock map' (2 * fuel) id fl = splitResult x n (searchBlock map fuel id fl) := by
  intro fuel
  induction fuel with
  | zero => intro id fl _ _ h; exact absurd rfl h
  | succ fuel ih =>
    intro id fl hid hfl h
    rw [searchBlock_succ] at h ⊢
    refine search_split (dir := true) hm ih (fun id fl h1 h2 h3 => ?_) id fl hid hfl h
    have hb := ih id fl h1 h2 h3
    rw [searchBlock_mono (Nat.le_succ _), hb]
    rw [hb]
    intro hd
    cases hr : searchBlock map fuel id fl with
    | ok r => rw [hr] at hd; cases hd
    | error e =>
      rw [hr] at hd
      cases e with
      | diverge => exact h3 hr
      | err e => cases hd
      | panic m => cases hd

theorem split_diverges {x n : UInt32} {r : CF (ControlFlowChain × Continue)} :
    Diverges (splitResult x n r) ↔ Diverges r := by
  cases r with
  | ok r => exact ⟨nofun, nofun⟩
  | error e => cases e with
    | diverge => exact ⟨fun _ => rfl, fun _ => rfl⟩
    | err e => exact ⟨nofun, nofun⟩
    | panic m => exact ⟨nofun, nofun⟩

theorem search_back {x n : UInt32} {map : BlockMap X} {map' : BlockMap Y} (hm : Maps x n map.get map'.get) :
    ∀ fuel id fl, id.val ≠ n → FlowList.merges fl ⟨n⟩ = false → ¬ Diverges (searchBlock map' fuel id fl) →
      searchBlock map' fuel id fl = splitResult x n (searchBlock map fuel id fl) := by
  intro fuel
  induction fuel with
  | zero => intro id fl _ _ h; exact absurd rfl h
  | succ fuel ih =>
    intro id fl hid hfl h
    rw [searchBlock_succ map]
    cases fuel with
    | zero =>
      rw [searchBlock_succ, searchStep_eq] at h ⊢
      rw [searchStep_eq]
      by_cases hg : fl.merges id = true
      · rw [if_pos hg, if_pos hg]
        rfl
      · rw [if_neg hg] at h
        rw [if_neg hg, if_neg hg]
        by_cases hx : id.val = x
        · obtain ⟨v⟩ := id
          obtain rfl : v = x := hx
          rw [hm.first] at h
          exact absurd rfl h
        · rw [hm.other id hx hid] at h ⊢
          exact endStep_other (dir := false) ih hx hid hfl (fun e he => hm.fresh _ _ he) h
    | succ k =>
      refine search_split (dir := false) hm (fun id fl h1 h2 h3 => ?_) ih id fl hid hfl h
      have e := searchBlock_mono (Nat.le_succ k) h3
      rw [← e]
      exact ih id fl h1 h2 (by rw [e]; exact h3)

/-! ### The whole function -/

/-- The blocks of a function, and those of the function with one of them split -/
structure Blocks (fs gs pre post : List (BasicBlock X)) (b b1 b2 : BasicBlock X) : Prop where
  before : fs = pre ++ b :: post
  after : gs = pre ++ b1 :: b2 :: post
  label : labelId b1 = labelId b
  goes : endOf b1 = .goto (labelId b2)
  ends : endOf b2 = endOf b
  noLoop : ∀ t m h, endOf b ≠ .gotoLoop t m h
  fresh : ∀ c ∈ fs, labelId c ≠ labelId b2 ∧ labelId b2 ∉ (endOf c).names

theorem blockOf_append (as bs : List (BasicBlock X)) (id : BlockId) :
    blockOf (as ++ bs) id = (blockOf as id).or (blockOf bs id) := by
  simp only [blockOf, List.find?_append]

theorem blockOf_cons (a : BasicBlock X) (as : List (BasicBlock X)) (id : BlockId) :
    blockOf (a :: as) id = if labelId a = id.val then some a else blockOf as id := by
  rw [blockOf, List.find?_cons, blockOf]
  by_cases h : labelId a = id.val
  · rw [if_pos h]
    have : (a.label.result_id.val == id.val) = true := beq_iff_eq.mpr h
    simp only [this]
  · rw [if_neg h]
    have : (a.label.result_id.val == id.val) = false := beq_eq_false_iff_ne.mpr h
    simp only [this]

theorem maps_of_blocks {fs gs pre post : List (BasicBlock X)} {b b1 b2 : BasicBlock X}
    (h : Blocks fs gs pre post b b1 b2) (hd : (fs.map labelId).Nodup) :
    Maps (labelId b) (labelId b2) (blockOf fs) (blockOf gs) := by
  obtain ⟨rfl, rfl, h1, h2, h3, h4, h5⟩ := h
  have hx : labelId b ≠ labelId b2 := (h5 b (by simp)).1
  have hp : ∀ c ∈ pre, labelId c ≠ labelId b := by
    intro c hc he
    rw [List.map_append, List.map_cons, List.nodup_append] at hd
    exact hd.2.2 _ (List.mem_map_of_mem hc) _ List.mem_cons_self he
  have hn : ∀ c ∈ pre, labelId c ≠ labelId b2 := fun c hc => (h5 c (by simp [hc])).1
  refine ⟨hx, ?_, ⟨endOf b, ?_, ?_, h4⟩, ?_, ?_⟩
  · rw [blockOf_append, blockOf_none.mpr (show ∀ c ∈ pre, labelId c ≠ BlockId.val ⟨labelId b⟩ from hp), blockOf_cons, if_pos h1, Option.none_or]
    exact congrArg some h2
  · rw [blockOf_append, blockOf_none.mpr (show ∀ c ∈ pre, labelId c ≠ BlockId.val ⟨labelId b⟩ from hp), blockOf_cons, if_pos rfl, Option.none_or]
    rfl
  · rw [blockOf_append, blockOf_none.mpr (show ∀ c ∈ pre, labelId c ≠ BlockId.val ⟨labelId b2⟩ from hn), blockOf_cons, if_neg (by rw [h1]; exact hx),
      blockOf_cons, if_pos rfl, Option.none_or]
    exact congrArg some h3
  · intro id h6 h7
    rw [blockOf_append, blockOf_append, blockOf_cons, blockOf_cons, blockOf_cons,
      if_neg (by rw [h1]; exact Ne.symm h6), if_neg (Ne.symm h7), if_neg (Ne.symm h6)]
  · intro id e he
    cases hb : blockOf (pre ++ b :: post) id with
    | none => rw [hb] at he; cases he
    | some c =>
      rw [hb] at he
      obtain rfl : endOf c = e := Option.some.inj he
      exact (h5 c (blockOf_some hb).1).2

/-- What the filling of the map makes of the labels -/
def firstDup (seen : List UInt32) : List UInt32 → Option UInt32
  | [] => none
  | a :: as => if a ∈ seen then some a else firstDup (a :: seen) as

theorem build_dup (blocks : List (BasicBlock X)) : ∀ (map : BlockMap X) (seen : List UInt32),
    (∀ id : BlockId, (map.get id).isSome = true ↔ id.val ∈ seen) → ∀ d, firstDup seen (blocks.map labelId) = some d →
    buildBlockMap blocks map = .error (.err (.DuplicateBlockId ⟨d⟩)) := by
  induction blocks with
  | nil => intro map seen _ d h; cases h
  | cons b bs ih =>
    intro map seen hs d h
    rw [List.map_cons, firstDup] at h
    rw [buildBlockMap]
    by_cases hm : labelId b ∈ seen
    · rw [if_pos hm] at h
      rw [if_pos ((hs ⟨b.label.result_id.val⟩).mpr hm)]
      obtain rfl := Option.some.inj h
      rfl
    · rw [if_neg hm] at h
      rw [if_neg (fun hc => hm ((hs ⟨b.label.result_id.val⟩).mp hc))]
      refine ih _ _ (fun id => ?_) d h
      rw [get_cons]
      by_cases hi : id = ⟨b.label.result_id.val⟩
      · rw [if_pos hi, hi]
        exact ⟨fun _ => List.mem_cons_self, fun _ => rfl⟩
      · rw [if_neg hi, hs, List.mem_cons]
        exact ⟨.inr, fun h => h.resolve_left fun h => hi (by rw [← show BlockId.mk id.val = id from rfl, h]; rfl)⟩

theorem firstDup_nodup : ∀ (l seen : List UInt32), firstDup seen l = none ↔ l.Nodup ∧ ∀ a ∈ l, a ∉ seen
  | [], seen => by simp [firstDup]
  | a :: l, seen => by
    rw [firstDup]
    by_cases h : a ∈ seen
    · rw [if_pos h]
      simp [h]
    · rw [if_neg h, firstDup_nodup l, List.nodup_cons]
      constructor
      · rintro ⟨h1, h2⟩
        refine ⟨⟨fun hm => h2 a hm List.mem_cons_self, h1⟩, fun c hc => ?_⟩
        rcases List.mem_cons.mp hc with rfl | hc
        · exact h
        · exact fun hs => h2 c hc (List.mem_cons_of_mem _ hs)
      · rintro ⟨⟨h1, h2⟩, h3⟩
        refine ⟨h2, fun c hc hm => ?_⟩
        rcases List.mem_cons.mp hm with rfl | hm
        · exact h1 hc
        · exact h3 c (List.mem_cons_of_mem _ hc) hm

theorem firstDup_congr {n : UInt32} : ∀ (l seen seen' : List UInt32), n ∉ l →
    (∀ a, a ≠ n → (a ∈ seen' ↔ a ∈ seen)) → firstDup seen' l = firstDup seen l := by
  intro l
  induction l with
  | nil => intros; rfl
  | cons a l ih =>
    intro seen seen' hn hs
    have ha : a ≠ n := fun h => hn (h ▸ List.mem_cons_self)
    rw [firstDup, firstDup]
    by_cases h : a ∈ seen
    · rw [if_pos h, if_pos ((hs a ha).mpr h)]
    · rw [if_neg h, if_neg (fun h' => h ((hs a ha).mp h'))]
      refine ih _ _ (fun h => hn (List.mem_cons_of_mem _ h)) fun c hc => ?_
      rw [List.mem_cons, List.mem_cons, hs c hc]

theorem firstDup_append : ∀ (as bs seen : List UInt32), as.Nodup → (∀ a ∈ as, a ∉ seen) → (∀ a ∈ as, a ∉ bs) →
    firstDup seen (as ++ bs) = firstDup seen bs := by
  intro as
  induction as with
  | nil => intros; rfl
  | cons a as ih =>
    intro bs seen hn hs hb
    rw [List.nodup_cons] at hn
    rw [List.cons_append, firstDup, if_neg (hs a List.mem_cons_self), ih bs _ hn.2 ?_ ?_]
    · refine firstDup_congr (n := a) _ _ _ (hb a List.mem_cons_self) fun c hc => ?_
      rw [List.mem_cons]
      exact ⟨fun h => h.resolve_left hc, .inr⟩
    · intro c hc hm
      rcases List.mem_cons.mp hm with rfl | hm
      · exact hn.1 hc
      · exact hs c (List.mem_cons_of_mem _ hc) hm
    · exact fun c hc => hb c (List.mem_cons_of_mem _ hc)

/-- A label that occurs nowhere else does not matter. -/
theorem firstDup_insert (n : UInt32) : ∀ (as bs seen seen' : List UInt32), n ∉ as → n ∉ bs →
    (∀ a, a ≠ n → (a ∈ seen' ↔ a ∈ seen)) → n ∉ seen' →
    firstDup seen' (as ++ n :: bs) = firstDup seen (as ++ bs) := by
  intro as
  induction as with
  | nil =>
    intro bs seen seen' _ hb hs hn
    rw [List.nil_append, List.nil_append, firstDup, if_neg hn]
    refine firstDup_congr (n := n) _ _ _ hb fun a ha => ?_
    rw [List.mem_cons, hs a ha]
    exact ⟨fun h => h.resolve_left ha, .inr⟩
  | cons a as ih =>
    intro bs seen seen' ha hb hs hn
    have han : a ≠ n := fun h => ha (h ▸ List.mem_cons_self)
    rw [List.cons_append, List.cons_append, firstDup, firstDup]
    by_cases h : a ∈ seen
    · rw [if_pos h, if_pos ((hs a han).mpr h)]
    · rw [if_neg h, if_neg (fun h' => h ((hs a han).mp h'))]
      refine ih bs _ _ (fun h => ha (List.mem_cons_of_mem _ h)) hb (fun c hc => ?_) fun hm => ?_
      · rw [List.mem_cons, List.mem_cons, hs c hc]
      · rcases List.mem_cons.mp hm with h | h
        · exact han h.symm
        · exact hn h

theorem labels_dup {fs gs pre post : List (BasicBlock X)} {b b1 b2 : BasicBlock X}
    (h : Blocks fs gs pre post b b1 b2) : firstDup [] (gs.map labelId) = firstDup [] (fs.map labelId) := by
  obtain ⟨rfl, rfl, h1, -, -, -, h5⟩ := h
  have e1 : (pre ++ b1 :: b2 :: post).map labelId = (pre ++ [b]).map labelId ++ labelId b2 :: post.map labelId := by
    simp [h1]
  have e2 : (pre ++ b :: post).map labelId = (pre ++ [b]).map labelId ++ post.map labelId := by simp
  rw [e1, e2]
  refine firstDup_insert _ _ _ _ _ ?_ ?_ (fun _ _ => .rfl) (List.not_mem_nil)
  · intro hm
    obtain ⟨c, hc, he⟩ := List.mem_map.mp hm
    exact (h5 c (by rcases List.mem_append.mp hc with hc | hc <;> simp_all)).1 he
  · intro hm
    obtain ⟨c, hc, he⟩ := List.mem_map.mp hm
    exact (h5 c (by simp [hc])).1 he

theorem find_cases (f : FunctionDefinition X) (fuel : Nat) :
    (∃ d, firstDup [] (f.blocks.map labelId) = some d ∧
      findControlFlow fuel f = .error (.err (.DuplicateBlockId ⟨d⟩))) ∨
    (firstDup [] (f.blocks.map labelId) = none ∧ (f.blocks.map labelId).Nodup ∧
      ∀ first more, f.blocks = first :: more → ∃ map : BlockMap X, map.get = blockOf f.blocks ∧
        findControlFlow fuel f = (searchBlock map fuel ⟨labelId first⟩ [] >>= fun r =>
          match r.2 with
          | .Return => .ok r.1
          | _ => .error (.err .Failed))) := by
  cases hd : firstDup [] (f.blocks.map labelId) with
  | some d =>
    refine .inl ⟨d, rfl, ?_⟩
    rw [findControlFlow, build_dup f.blocks [] [] (fun id => by simp [BlockMap.get]) d hd]
    rfl
  | none =>
    have hn := ((firstDup_nodup _ _).mp hd).1
    refine .inr ⟨rfl, hn, fun first more hb => ?_⟩
    obtain ⟨map, h1, h2⟩ := build_iff f.blocks hn
    refine ⟨map, h2, ?_⟩
    rw [findControlFlow, h1, cok_bind]
    simp only [hb]
    show (searchBlock map fuel ⟨labelId first⟩ [] >>= _) = _
    congr 1

/-- The last step: the search has to end with a return. -/
def last (r : ControlFlowChain × Continue) : CF ControlFlowChain :=
  match r.2 with
  | .Return => .ok r.1
  | _ => .error (.err .Failed)

theorem last_split (x n : UInt32) (r : CF (ControlFlowChain × Continue)) :
    (splitResult x n r >>= last) = splitOutcome x n (r >>= last) := by
  cases r with
  | error e => rfl
  | ok r =>
    obtain ⟨c, k⟩ := r
    cases k <;> rfl

theorem last_diverges {r : CF (ControlFlowChain × Continue)} (h : ¬ Diverges (r >>= last)) : ¬ Diverges r :=
  fun hd => h (by rw [show r = .error .diverge from hd]; rfl)

theorem find_split {f g : FunctionDefinition X} {pre post : List (BasicBlock X)} {b b1 b2 : BasicBlock X}
    (h : Blocks f.blocks g.blocks pre post b b1 b2) (fuel : Nat) :
    (¬ Diverges (findControlFlow fuel f) →
      findControlFlow (2 * fuel) g = splitOutcome (labelId b) (labelId b2) (findControlFlow fuel f)) ∧
    (¬ Diverges (findControlFlow fuel g) →
      findControlFlow fuel g = splitOutcome (labelId b) (labelId b2) (findControlFlow fuel f)) := by
  have hl := labels_dup h
  rcases find_cases f fuel with ⟨d, h1, h2⟩ | ⟨h1, h2, h3⟩
  · have hg : ∀ k, findControlFlow k g = .error (.err (.DuplicateBlockId ⟨d⟩)) := by
      intro k
      rcases find_cases g k with ⟨d', h1', h2'⟩ | ⟨h1', -, -⟩
      · rw [hl, h1] at h1'
        rw [h2', Option.some.inj h1']
      · rw [hl, h1] at h1'
        cases h1'
    rw [hg, hg, h2]
    exact ⟨fun _ => rfl, fun _ => rfl⟩
  · have hm := maps_of_blocks h h2
    have hg : ∀ k, (g.blocks.map labelId).Nodup ∧ ∀ first more, g.blocks = first :: more →
        ∃ map : BlockMap X, map.get = blockOf g.blocks ∧
        findControlFlow k g = (searchBlock map k ⟨labelId first⟩ [] >>= last) := by
      intro k
      rcases find_cases g k with ⟨d', h1', h2'⟩ | ⟨-, h2', h3'⟩
      · rw [hl, h1] at h1'
        cases h1'
      · exact ⟨h2', h3'⟩
    have hfirst : ∃ first more first' more', f.blocks = first :: more ∧ g.blocks = first' :: more' ∧
        labelId first' = labelId first ∧ labelId first ≠ labelId b2 := by
      have h5 := h.fresh
      cases pre with
      | nil => exact ⟨b, post, b1, b2 :: post, h.before, h.after, h.label, (h5 b (by rw [h.before]; simp)).1⟩
      | cons p ps =>
        exact ⟨p, ps ++ b :: post, p, ps ++ b1 :: b2 :: post, h.before, h.after, rfl,
          (h5 p (by rw [h.before]; simp)).1⟩
    obtain ⟨first, more, first', more', e1, e2, e3, e4⟩ := hfirst
    obtain ⟨map, m1, m2⟩ := h3 first more e1
    have m2 : findControlFlow fuel f = (searchBlock map fuel ⟨labelId first⟩ [] >>= last) := m2
    rw [m2]
    constructor
    · intro hd
      obtain ⟨map', n1, n2⟩ := (hg (2 * fuel)).2 first' more' e2
      rw [← m1, ← n1] at hm
      rw [n2, e3, search_forth hm _ _ _ e4 rfl (last_diverges hd), last_split]
    · intro hd
      obtain ⟨map', n1, n2⟩ := (hg fuel).2 first' more' e2
      rw [← m1, ← n1] at hm
      rw [n2, e3] at hd
      rw [n2, e3, search_back hm _ _ _ e4 rfl (last_diverges hd), last_split]

end Magma.Split
