import Verif.Proofs.Depth
import Verif.Spec.SearchDepth
/-! How deep the search recurses if it succeeds. -/

namespace Magma
open Spec
variable {X : Type}

/-- The search succeeds, with `n` frames and no fewer. -/
def Needs (map : BlockMap X) (n : Nat) (r : ControlFlowChain × Continue) (id : BlockId) (fl : FlowList) : Prop :=
  searchBlock map n id fl = .ok r ∧ ∀ k, k < n → Diverges (searchBlock map k id fl)

theorem needs_of_ok {map : BlockMap X} {id : BlockId} {fl : FlowList} {r : ControlFlowChain × Continue} :
    ∀ {n : Nat}, searchBlock map n id fl = .ok r → ∃ m, m ≤ n ∧ Needs map m r id fl := by
  intro n
  induction n with
  | zero => intro h; cases h
  | succ n ih =>
    intro h
    by_cases hd : Diverges (searchBlock map n id fl)
    · refine ⟨n + 1, Nat.le_refl _, h, fun k hk => ?_⟩
      by_cases hk' : Diverges (searchBlock map k id fl)
      · exact hk'
      · have := searchBlock_mono (fuel' := n) (by omega) hk'
        rw [hd] at this
        exact absurd this.symm hk'
    · have := searchBlock_mono (fuel' := n + 1) (by omega) hd
      rw [h] at this
      obtain ⟨m, hm, ht⟩ := ih this.symm
      exact ⟨m, by omega, ht⟩

theorem Needs.unique {map : BlockMap X} {n n' : Nat} {id : BlockId} {fl fl' : FlowList}
    {r r' : ControlFlowChain × Continue} (h : Needs map n r id fl) (h' : Needs map n' r' id fl')
    (ha : Alike fl fl') : n = n' := by
  rcases Nat.lt_trichotomy n n' with hlt | he | hlt
  · have := h'.2 n hlt
    rw [← search_alike n id ha, h.1] at this
    cases this
  · exact he
  · have := h.2 n' hlt
    rw [search_alike n' id ha, h'.1] at this
    cases this

/-- What is known of a call, made for a block whose own call succeeds -/
inductive SubResult (map : BlockMap X) (n : Nat) (r : ControlFlowChain × Continue) (id : BlockId) (fl : FlowList) :
    BlockEnd → FlowList → (ControlFlowChain × Continue) → Prop where
  | same {e r'} : r'.2 = r.2 → SubResult map n r id fl e fl r'
  | selection {t f w m h r' r3} : r'.2 = .Next ⟨m⟩ → searchBlock map n ⟨m⟩ fl = .ok r3 → r3.2 = r.2 →
      SubResult map n r id fl (.chooseSelection t f w m h) (.If ⟨m⟩ h :: fl) r'
  | loop {t m h r'} : r'.2 = .Next id → SubResult map n r id fl (.gotoLoop t m h) (.Loop id ⟨m⟩ h :: fl) r'

theorem search_sub {map : BlockMap X} {n : Nat} {r : ControlFlowChain × Continue} {id id' : BlockId}
    {fl fl' : FlowList} {e : BlockEnd} (h : searchBlock map (n + 1) id fl = .ok r) (hm : fl.merges id = false)
    (he : (map.get id).map endOf = some e) (hs : Sub e id fl id' fl') :
    ∃ r', searchBlock map n id' fl' = .ok r' ∧ SubResult map n r id fl e fl' r' := by
  rw [searchBlock_succ, searchStep_eq, if_neg (by simp [hm]), he] at h
  cases hs with
  | goto =>
    obtain ⟨r', h1, h2⟩ := cbind_ok.mp h
    cases h2
    exact ⟨r', h1, .same rfl⟩
  | body =>
    obtain ⟨r', h1, h2⟩ := cbind_ok.mp h
    by_cases hn : r'.2 = .Next id
    · exact ⟨r', h1, .loop hn⟩
    · rw [if_neg hn] at h2; cases h2
  | after =>
    obtain ⟨r', h1, h2⟩ := cbind_ok.mp h
    by_cases hn : r'.2 = .Next id
    · rw [if_pos hn] at h2
      obtain ⟨r2, h3, h4⟩ := cbind_ok.mp h2
      cases h4
      exact ⟨r2, h3, .same rfl⟩
    · rw [if_neg hn] at h2; cases h2
  | @left t f w m hh =>
    obtain ⟨r1, h1, h⟩ := cbind_ok.mp h
    obtain ⟨r2, h2, h⟩ := cbind_ok.mp h
    by_cases hn : r1.2 = r2.2 ∧ r1.2 = .Next ⟨m⟩
    · rw [if_pos hn] at h
      obtain ⟨r3, h3, h⟩ := cbind_ok.mp h
      cases h
      exact ⟨r1, h1, .selection hn.2 h3 rfl⟩
    · rw [if_neg hn] at h; cases h
  | @right t f w m hh =>
    obtain ⟨r1, h1, h⟩ := cbind_ok.mp h
    obtain ⟨r2, h2, h⟩ := cbind_ok.mp h
    by_cases hn : r1.2 = r2.2 ∧ r1.2 = .Next ⟨m⟩
    · rw [if_pos hn] at h
      obtain ⟨r3, h3, h⟩ := cbind_ok.mp h
      cases h
      exact ⟨r2, h2, .selection (hn.1.symm.trans hn.2) h3 rfl⟩
    · rw [if_neg hn] at h; cases h
  | @join t f w m hh =>
    obtain ⟨r1, h1, h⟩ := cbind_ok.mp h
    obtain ⟨r2, h2, h⟩ := cbind_ok.mp h
    by_cases hn : r1.2 = r2.2 ∧ r1.2 = .Next ⟨m⟩
    · rw [if_pos hn] at h
      obtain ⟨r3, h3, h⟩ := cbind_ok.mp h
      cases h
      exact ⟨r3, h3, .same rfl⟩
    · rw [if_neg hn] at h; cases h
  | @stay t f w =>
    simp only [endStep] at h
    cases hi : fl.innermostLoop with
    | none => simp only [hi] at h; cases h
    | some p =>
      obtain ⟨head, merge⟩ := p
      simp only [hi] at h
      by_cases hb : (⟨f⟩ : BlockId) = merge ∨ (⟨f⟩ : BlockId) = head
      · rw [if_pos hb] at h
        obtain ⟨r1, h1, h⟩ := cbind_ok.mp h
        by_cases hn : r1.2 = .Next head
        · rw [if_pos hn] at h
          cases h
          exact ⟨r1, h1, .same rfl⟩
        · rw [if_neg hn] at h; cases h
      · rw [if_neg hb] at h; cases h

/-- If the search takes several frames, one of its calls takes all but one of them. -/
theorem Needs.sub {map : BlockMap X} {n : Nat} {r : ControlFlowChain × Continue} {id : BlockId} {fl : FlowList}
    (h : Needs map (n + 2) r id fl) : fl.merges id = false ∧ ∃ e, (map.get id).map endOf = some e ∧
      ∃ id' fl' r', Sub e id fl id' fl' ∧ Needs map (n + 1) r' id' fl' ∧ SubResult map (n + 1) r id fl e fl' r' := by
  obtain ⟨hm, e, he, id', fl', hs, hd, -⟩ := search_diverges (h.2 (n + 1) (by omega))
  obtain ⟨r', h1, h2⟩ := search_sub h.1 hm he hs
  refine ⟨hm, e, he, id', fl', r', hs, ?_, h2⟩
  obtain ⟨m, hle, ht⟩ := needs_of_ok h1
  have : ¬ m ≤ n := fun hn => by
    have := searchBlock_mono (fuel' := n) hn (by rw [ht.1]; exact fun h => by cases h)
    rw [hd, ht.1] at this
    cases this
  rwa [show n + 1 = m by omega]

/-- Where the body of a construct ends -/
def endsAt : Converge → BlockId
  | .If m _ => m
  | .Loop head _ _ => head

/-- If there is a construct around, control goes to the end of its body. -/
def Converges : FlowList → (ControlFlowChain × Continue) → Prop
  | [], _ => True
  | c :: _, r => r.2 = .Next (endsAt c)

/-- If several constructs around end at the same block, they are selections directly inside one another. -/
def Tight : FlowList → Prop
  | [] => True
  | .If m _ :: fl => (FlowList.merges fl m = true → ∃ c rest, fl = c :: rest ∧ endsAt c = m) ∧ Tight fl
  | .Loop head _ _ :: fl => FlowList.merges fl head = false ∧ Tight fl

theorem merges_cons (c : Converge) (fl : FlowList) (id : BlockId) :
    FlowList.merges (c :: fl) id = if endsAt c = id then true else fl.merges id := by
  cases c <;> rfl

theorem merges_last (inner : FlowList) (m : BlockId) (h : SelectionControl) :
    FlowList.merges (inner ++ [Converge.If m h]) m = true := by
  induction inner with
  | nil => exact if_pos rfl
  | cons d fl ih =>
    rw [List.cons_append, merges_cons, ih]
    split <;> rfl

theorem SubResult.converges {map : BlockMap X} {n : Nat} {r r' : ControlFlowChain × Continue} {id : BlockId}
    {fl fl' : FlowList} {e : BlockEnd} (h : SubResult map n r id fl e fl' r') (hc : Converges fl r) :
    Converges fl' r' := by
  cases h with
  | same h =>
    cases fl with
    | nil => trivial
    | cons c fl => exact h.trans hc
  | selection h => exact h
  | loop h => exact h

theorem searched_merge {map : BlockMap X} {n : Nat} {r : ControlFlowChain × Continue} {id : BlockId} {fl : FlowList}
    (h : searchBlock map n id fl = .ok r) (hm : fl.merges id = true) : r.2 = .Next id := by
  cases n with
  | zero => cases h
  | succ n =>
    rw [searchBlock_succ, searchStep_eq, if_pos hm] at h
    cases h
    rfl

theorem SubResult.tight {map : BlockMap X} {n : Nat} {r r' : ControlFlowChain × Continue} {id : BlockId}
    {fl fl' : FlowList} {e : BlockEnd} (h : SubResult map n r id fl e fl' r') (hc : Converges fl r)
    (hm : fl.merges id = false) (ht : Tight fl) : Tight fl' := by
  cases h with
  | same h => exact ht
  | @selection t f w m _ _ r3 h h3 he =>
    refine ⟨fun hmm => ?_, ht⟩
    have h4 := searched_merge h3 hmm
    cases fl with
    | nil => cases hmm
    | cons c fl =>
      refine ⟨c, fl, rfl, ?_⟩
      have hc : r.2 = .Next (endsAt c) := hc
      rw [← he, h4] at hc
      exact (Continue.Next.inj hc).symm
  | loop h => exact ⟨hm, ht⟩

/-- Inside a selection that ends at `m`, only selections that end there are found where control goes to `m`. -/
theorem tight_alike {m : BlockId} {h : SelectionControl} : ∀ (fl : FlowList), Tight (fl ++ [.If m h]) →
    (∀ c rest, fl ++ [.If m h] = c :: rest → endsAt c = m) → Alike (fl ++ [.If m h]) [.If m h] := by
  intro fl
  induction fl with
  | nil => intro _ _; exact Alike.refl _
  | cons c fl ih =>
    intro ht hc
    have hcm : endsAt c = m := hc c _ rfl
    have hmm := merges_last fl m h
    cases c with
    | If m' h' =>
      have hcm : m' = m := hcm
      subst hcm
      obtain ⟨h1, h2⟩ : (FlowList.merges (fl ++ [Converge.If m' h]) m' = true → ∃ c rest,
        fl ++ [Converge.If m' h] = c :: rest ∧ endsAt c = m') ∧ Tight (fl ++ [Converge.If m' h]) := ht
      have ha := ih h2 (fun c rest he => by
        obtain ⟨c', rest', he', hc'⟩ := h1 hmm
        rw [he] at he'
        cases he'
        exact hc')
      refine Alike.trans (b := fl ++ [.If m' h]) ⟨fun x => ?_, rfl⟩ ha
      rw [List.cons_append, merges_cons]
      by_cases hx : m' = x
      · rw [← hx, hmm]; exact if_pos rfl
      · exact if_neg hx
    | Loop head merge h' =>
      have hcm : head = m := hcm
      subst hcm
      have : FlowList.merges (fl ++ [Converge.If head h]) head = false := ht.1
      rw [hmm] at this
      cases this

/-! ### Counting -/

/-- Does the block return? -/
def returns (b : BasicBlock X) : Bool :=
  match endOf b with
  | .returns => true
  | _ => false

/-- The blocks that the search may be at, with calls to follow -/
def free (fl : FlowList) (ban : Option UInt32) (b : BasicBlock X) : Bool :=
  !(returns b) && !(fl.merges ⟨labelId b⟩) && decide (ban ≠ some (labelId b))

theorem Alike.free {fl fl' : FlowList} (h : Alike fl fl') (ban : Option UInt32) :
    Magma.free (X := X) fl ban = Magma.free fl' ban := by
  funext b
  rw [Magma.free, Magma.free, h.1]

/-- The frames for `q` further levels, if there are `a` blocks on this one -/
def tri : Nat → Nat → Nat
  | _, 0 => 0
  | a, q + 1 => (a - 1) + tri (a - 1) q

theorem tri_mono : ∀ {q q' a a' : Nat}, q ≤ q' → a ≤ a' → tri a q ≤ tri a' q' := by
  intro q
  induction q with
  | zero => intros; rw [tri]; omega
  | succ q ih =>
    intro q' a a' hq ha
    cases q' with
    | zero => omega
    | succ q' =>
      have := ih (q' := q') (a := a - 1) (a' := a' - 1) (by omega) (by omega)
      rw [tri, tri]
      omega

theorem tri_eq : ∀ {q a : Nat}, q ≤ a → 2 * tri a q + q * (q + 1) = 2 * (q * a) := by
  intro q
  induction q with
  | zero => intros; rw [tri]; omega
  | succ q ih =>
    intro a h
    obtain ⟨a, rfl⟩ : ∃ c, a = c + 1 := ⟨a - 1, by omega⟩
    have := ih (a := a) (by omega)
    rw [tri, Nat.add_sub_cancel]
    simp only [Nat.add_mul, Nat.mul_add, Nat.mul_one, Nat.one_mul] at this ⊢
    omega

/-- What is kept out inside a selection that ends where the function returns: the header of the selection. The
branch `t` that was taken does not take fewer frames than what is found inside. -/
inductive Ban (blocks : List (BasicBlock X)) (map : BlockMap X) (n : Nat) (fl : FlowList) : Option UInt32 → Prop where
  | none : Ban blocks map n fl none
  | header {b t f w m h k r x inner} : b ∈ blocks → endOf b = .chooseSelection t f w m h → (x = t ∨ x = f) →
      fl = inner ++ [.If ⟨m⟩ h] → n ≤ k → Needs map k r ⟨x⟩ [.If ⟨m⟩ h] → Ban blocks map n fl (some (labelId b))

/-- The header that is kept out is not found. -/
theorem Ban.not_mem {blocks : List (BasicBlock X)} {map : BlockMap X} (hg : map.get = blockOf blocks)
    (hn : (blocks.map labelId).Nodup) {n : Nat} {fl : FlowList} {ban : Option UInt32} {id : BlockId}
    {r : ControlFlowChain × Continue} (h : Ban blocks map n fl ban) (ht : Needs map n r id fl)
    (hm : fl.merges id = false) (hc : Converges fl r) (hti : Tight fl) : ban ≠ some id.val := by
  cases h with
  | none => exact fun h => by cases h
  | @header b t f w m hh k r0 x inner hb he hx hfl hk hk' =>
    intro heq
    have hid : id = ⟨labelId b⟩ := by cases id; cases heq; rfl
    subst hid
    have hget : (map.get ⟨labelId b⟩).map endOf = some (.chooseSelection t f w m hh) := by
      rw [hg, blockOf_mem hn hb, Option.map_some, he]
    cases n with
    | zero => cases ht.1
    | succ n =>
      -- control goes to the block where the function returns
      obtain ⟨r3, h3, hr⟩ := search_sub ht.1 hm hget .join
      have hr3 : r3.2 = r.2 := by
        obtain ⟨r', -, hs⟩ := search_sub ht.1 hm hget .left
        cases hs with
        | selection _ h3' he' =>
          rw [h3] at h3'
          cases h3'
          exact he'
      have hnext := searched_merge h3 (by rw [hfl]; exact merges_last inner _ _)
      have hal : Alike fl [.If ⟨m⟩ hh] := by
        rw [hfl]
        rw [hfl] at hti
        refine tight_alike inner hti fun c rest he => ?_
        rw [hfl, he] at hc
        have hc : r.2 = .Next (endsAt c) := hc
        rw [← hr3, hnext] at hc
        exact (Continue.Next.inj hc).symm
      -- so the branch is found again
      have hal' : Alike (.If ⟨m⟩ hh :: fl) [.If ⟨m⟩ hh] := by
        refine (hal.pushIf ⟨m⟩ hh).trans ⟨fun y => ?_, rfl⟩
        simp only [FlowList.merges]
        split <;> rfl
      have hsub : ∃ r', searchBlock map n ⟨x⟩ (.If ⟨m⟩ hh :: fl) = .ok r' := by
        rcases hx with rfl | rfl
        · obtain ⟨r', h, -⟩ := search_sub ht.1 hm hget .left
          exact ⟨r', h⟩
        · obtain ⟨r', h, -⟩ := search_sub ht.1 hm hget .right
          exact ⟨r', h⟩
      obtain ⟨r', h'⟩ := hsub
      obtain ⟨j, hj, htj⟩ := needs_of_ok h'
      have := htj.unique hk' hal'
      omega

theorem Ban.mono {blocks : List (BasicBlock X)} {map : BlockMap X} {n n' : Nat} {fl fl' : FlowList}
    {ban : Option UInt32} (h : Ban blocks map n fl ban) (hn : n' ≤ n) (hf : fl' = fl ∨ ∃ c, fl' = c :: fl) :
    Ban blocks map n' fl' ban := by
  cases h with
  | none => exact .none
  | @header b t f w m hh k r x inner hb he hx hfl hk hk' =>
    subst hfl
    rcases hf with rfl | ⟨c, rfl⟩
    · exact .header hb he hx rfl (by omega) hk'
    · exact .header (inner := c :: inner) hb he hx rfl (by omega) hk'

theorem level_lt {blocks : List (BasicBlock X)} {b : BasicBlock X} (hb : b ∈ blocks) {fl : FlowList} {c : Converge}
    (hmk : mark b = some (endsAt c).val) (hm : fl.merges (endsAt c) = false) :
    level (blocks.filterMap mark) fl < level (blocks.filterMap mark) (c :: fl) := by
  refine countP_lt _ ?_ (endsAt c).val (List.mem_filterMap.mpr ⟨b, hb, hmk⟩) hm ?_
  · intro x hx
    rw [merges_cons, hx]
    split <;> rfl
  · rw [merges_cons, if_pos rfl]

/-- The block `a` is no longer free. -/
theorem free_lt {blocks : List (BasicBlock X)} {a : BasicBlock X} (ha : a ∈ blocks) {fl : FlowList} {c : Converge}
    {ban ban' : Option UInt32} (hban : ∀ x, ban = some x → ban' = some x) (hf : free fl ban a = true)
    (hf' : free (c :: fl) ban' a = false) :
    blocks.countP (free (c :: fl) ban') < blocks.countP (free fl ban) := by
  refine countP_lt _ ?_ a ha hf' hf
  intro x hx
  rw [free] at hx ⊢
  simp only [Bool.and_eq_true, Bool.not_eq_true', decide_eq_true_eq, merges_cons] at hx ⊢
  obtain ⟨⟨h1, h2⟩, h3⟩ := hx
  refine ⟨⟨h1, ?_⟩, fun h => h3 (hban _ h)⟩
  split at h2
  · cases h2
  · exact h2

/-- The frames are bounded by the free blocks on this level that are not `seen`, and those on further levels. -/
theorem needs_bound {blocks : List (BasicBlock X)} {map : BlockMap X} (hg : map.get = blockOf blocks)
    (hnd : (blocks.map labelId).Nodup) :
    ∀ (n : Nat) (r : ControlFlowChain × Continue) (id : BlockId) (fl : FlowList) (seen : List UInt32)
      (ban : Option UInt32), Needs map n r id fl → Converges fl r → Tight fl → Ban blocks map n fl ban →
      seen.Nodup → (∀ v ∈ seen, v ∈ (blocks.filter (free fl ban)).map labelId) →
      (∀ v ∈ seen, ∃ k r' fl', n < k ∧ Alike fl' fl ∧ Needs map k r' ⟨v⟩ fl') →
      n + seen.length ≤ blocks.countP (free fl ban) +
        tri (blocks.countP (free fl ban)) ((blocks.filterMap mark).length - level (blocks.filterMap mark) fl) + 1 := by
  intro n
  induction n with
  | zero => intro r id fl seen ban ht; cases ht.1
  | succ n ih =>
    intro r id fl seen ban ht hc hti hban hn hsub hpath
    have hlen : ∀ l : List UInt32, l.Nodup → (∀ v ∈ l, v ∈ (blocks.filter (free fl ban)).map labelId) →
        l.length ≤ blocks.countP (free fl ban) := by
      intro l h1 h2
      have := nodup_le h1 h2
      rwa [List.length_map, ← List.countP_eq_length_filter] at this
    cases n with
    | zero =>
      have := hlen seen hn hsub
      omega
    | succ n =>
      obtain ⟨hm, e, he, id', fl', r', hs, ht', hr⟩ := ht.sub
      have hin : id.val ∉ seen := by
        intro hin
        obtain ⟨k, r0, fl0, hlt, ha, hk⟩ := hpath _ hin
        have := hk.unique ht ha
        omega
      have hnb := hban.not_mem hg hnd ht hm hc hti
      rw [hg] at he
      obtain ⟨b, hbo, rfl⟩ := Option.map_eq_some_iff.mp he
      obtain ⟨hmem, hl⟩ := blockOf_some hbo
      have hid : id = ⟨labelId b⟩ := by rw [hl]
      subst hid
      have hret : returns b = false := by
        rw [returns]
        generalize endOf b = e at hs
        cases hs <;> rfl
      have hfree : free fl ban b = true := by
        rw [free, hret, hm]
        simp only [Bool.not_false, Bool.and_self, Bool.true_and, decide_eq_true_eq]
        exact hnb
      have hn' : (labelId b :: seen).Nodup := List.nodup_cons.mpr ⟨hin, hn⟩
      have hsub' : ∀ v ∈ labelId b :: seen, v ∈ (blocks.filter (free fl ban)).map labelId := by
        intro v hv
        rcases List.mem_cons.mp hv with rfl | hv
        · exact List.mem_map_of_mem (List.mem_filter.mpr ⟨hmem, hfree⟩)
        · exact hsub v hv
      have hl0 := hlen _ hn' hsub'
      rw [List.length_cons] at hl0
      have hc' := hr.converges hc
      have hti' := hr.tight hc hm hti
      -- the same level
      have stay (ha : Alike fl fl') (hb' : Ban blocks map (n + 1) fl' ban) : n + 1 + 1 + seen.length ≤
          blocks.countP (free fl ban) + tri (blocks.countP (free fl ban))
            ((blocks.filterMap mark).length - level (blocks.filterMap mark) fl) + 1 := by
        have := ih r' id' fl' (labelId b :: seen) ban ht' hc' hti' hb' hn' (by rw [← ha.free]; exact hsub') (by
          intro v hv
          rcases List.mem_cons.mp hv with rfl | hv
          · exact ⟨n + 2, r, fl, by omega, ha, ht⟩
          · obtain ⟨k, r0, fl0, hlt, ha0, hk⟩ := hpath v hv
            exact ⟨k, r0, fl0, by omega, ha0.trans ha, hk⟩)
        rw [← ha.free, show level (blocks.filterMap mark) fl' = level (blocks.filterMap mark) fl by
          simp only [level, ha.1], List.length_cons] at this
        omega
      -- a higher level
      have up (ban' : Option UInt32) (hb' : Ban blocks map (n + 1) fl' ban')
          (hlev : level (blocks.filterMap mark) fl < level (blocks.filterMap mark) fl')
          (hfr : blocks.countP (free fl' ban') < blocks.countP (free fl ban)) : n + 1 + 1 + seen.length ≤
          blocks.countP (free fl ban) + tri (blocks.countP (free fl ban))
            ((blocks.filterMap mark).length - level (blocks.filterMap mark) fl) + 1 := by
        have h1 := ih r' id' fl' [] ban' ht' hc' hti' hb' List.nodup_nil (by simp) (by simp)
        rw [List.length_nil] at h1
        have h2 := level_le (blocks.filterMap mark) fl'
        obtain ⟨q, hq⟩ : ∃ q, (blocks.filterMap mark).length - level (blocks.filterMap mark) fl = q + 1 :=
          ⟨(blocks.filterMap mark).length - level (blocks.filterMap mark) fl - 1, by omega⟩
        have h3 := tri_mono (q := (blocks.filterMap mark).length - level (blocks.filterMap mark) fl') (q' := q)
          (a := blocks.countP (free fl' ban')) (a' := blocks.countP (free fl ban) - 1) (by omega) (by omega)
        rw [hq, tri]
        omega
      generalize hend : endOf b = e at hr hs
      cases hr with
      | same => exact stay (Alike.refl _) (hban.mono (by omega) (.inl rfl))
      | @loop t m h _ hnext =>
        refine up ban (hban.mono (by omega) (.inr ⟨_, rfl⟩)) (level_lt hmem ?_ hm) (free_lt hmem (fun _ h => h) hfree ?_)
        · simp [mark, hend, endsAt]
        · rw [free, merges_cons, if_pos (by rfl)]
          simp
      | @selection t f w m h _ r3 hnext h3 he3 =>
        by_cases hmm : fl.merges ⟨m⟩ = true
        · refine stay ⟨fun x => ?_, rfl⟩ (hban.mono (by omega) (.inr ⟨_, rfl⟩))
          simp only [FlowList.merges]
          by_cases hx : (⟨m⟩ : BlockId) = x
          · rw [if_pos hx, ← hx, hmm]
          · rw [if_neg hx]
        have hmm' : fl.merges ⟨m⟩ = false := by simpa using hmm
        have hlev := level_lt hmem (fl := fl) (c := .If ⟨m⟩ h) (by simp [mark, hend, endsAt]) hmm'
        -- the block where the selection ends
        have hblock : ∃ a, a ∈ blocks ∧ labelId a = m ∧ (returns a = true → r3.2 = .Return) := by
          rw [searchBlock_succ, searchStep_eq, if_neg hmm, hg] at h3
          cases hba : blockOf blocks ⟨m⟩ with
          | none => rw [hba] at h3; cases h3
          | some a =>
            obtain ⟨h1, h2⟩ := blockOf_some hba
            refine ⟨a, h1, h2, fun hra => ?_⟩
            rw [hba, Option.map_some] at h3
            rw [returns] at hra
            generalize endOf a = e at h3 hra
            cases e <;> first | (cases hra; done) | (cases h3; rfl)
        obtain ⟨a, hab, hal, har⟩ := hblock
        by_cases hra : returns a = true
        · -- then there is nothing around, and the header is kept out
          have hr3 := har hra
          have hnil : fl = [] := by
            cases fl with
            | nil => rfl
            | cons c rest =>
              have hc : r.2 = .Next (endsAt c) := hc
              rw [← he3, hr3] at hc
              cases hc
          subst hnil
          have hbn : ban = none := by
            cases hban with
            | none => rfl
            | header _ _ _ hfl => exact absurd hfl (by simp)
          subst hbn
          have hx : id'.val = t ∨ id'.val = f := by
            cases hs with
            | left => exact .inl rfl
            | right => exact .inr rfl
          refine up (some (labelId b)) (.header (inner := []) hmem hend hx rfl (Nat.le_refl _) ht') hlev
            (free_lt hmem (fun x h => by cases h) hfree ?_)
          simp [free]
        · by_cases hbm : ban = some m
          · -- the selection cannot end at the header that is kept out
            obtain ⟨k, hk, htk⟩ := needs_of_ok h3
            refine absurd hbm ((hban.mono (n' := k) (by omega) (.inl rfl)).not_mem hg hnd htk hmm' ?_ hti)
            cases fl with
            | nil => trivial
            | cons c rest => exact he3.trans hc
          · refine up ban (hban.mono (by omega) (.inr ⟨_, rfl⟩)) hlev (free_lt hab (fun _ h => h) ?_ ?_)
            · rw [free, hal, hmm']
              simp [hra, hbm]
            · rw [free, hal, merges_cons, if_pos (by rfl)]
              simp

theorem marks_length (blocks : List (BasicBlock X)) : (blocks.filterMap mark).length = headers blocks := by
  rw [headers]
  induction blocks with
  | nil => rfl
  | cons b bs ih =>
    rw [List.filterMap_cons, List.countP_cons, ← ih, mark, starts]
    cases endOf b <;> simp

theorem headers_le (blocks : List (BasicBlock X)) : headers blocks ≤ blocks.countP (free [] none) := by
  refine List.countP_mono_left fun b _ h => ?_
  rw [starts] at h
  rw [free, returns]
  cases he : endOf b <;> rw [he] at h <;> first | (cases h; done) | rfl

theorem free_le {blocks : List (BasicBlock X)} {b : BasicBlock X} (hb : b ∈ blocks) (h : endOf b = .returns) :
    blocks.countP (free [] none) + 1 ≤ blocks.length := by
  have h1 := countP_lt (p := free (X := X) [] none) (q := fun _ => true) blocks (fun _ _ => rfl) b hb
    (by rw [free, returns, h]; rfl) rfl
  have h2 := List.countP_le_length (p := fun _ => true) (l := blocks)
  omega

/-- The bound, with one block less than there are -/
theorem deepest_bound {a blocks n : Nat} (ha : a + 1 ≤ blocks) (hn : n ≤ a) : a + tri a n + 1 ≤ deepest blocks n := by
  have h1 := tri_mono (Nat.le_refl n) (a := a) (a' := blocks - 1) (by omega)
  have h2 := tri_eq (q := n) (a := blocks - 1) (by omega)
  rw [deepest]
  have h3 : n * (n + 1) % 2 = 0 := by
    rcases Nat.mod_two_eq_zero_or_one n with h | h
    · rw [Nat.mul_mod, h]; simp
    · rw [Nat.mul_mod, Nat.add_mod, h]
  rw [Nat.succ_mul]
  omega

end Magma
