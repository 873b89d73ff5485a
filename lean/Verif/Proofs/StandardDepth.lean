import Verif.Proofs.StandardFlow
/-! The search in a structured function goes no deeper than the function has blocks, and a way to check that a function
is structured. -/

namespace Magma.Standard
open Magma Spec
variable {X : Type} {blocks : List (BasicBlock X)} {first : UInt32} {map : BlockMap X}

/-- Where the search runs out of fuel there is a long trail. -/
theorem search_far (hg : map.get = blockOf blocks) : ∀ (fuel : Nat) (id : BlockId) (fl : FlowList) (l : List Place),
    Trail blocks first ((id.val, around fl) :: l) → searchBlock map fuel id fl = .error .diverge →
    ∃ q l', Trail blocks first (q :: l') ∧ l'.length = l.length + fuel := by
  intro fuel
  induction fuel with
  | zero => intro id fl l ht _; exact ⟨_, l, ht, rfl⟩
  | succ fuel ih =>
    intro id fl l ht h
    rw [searchBlock_succ, searchStep_eq] at h
    by_cases hm : fl.merges id = true
    · rw [if_pos hm] at h; cases h
    rw [if_neg hm] at h
    have deeper {t : BlockId} {fl' : FlowList} (hst : Step blocks (id.val, around fl) (t.val, around fl'))
        (hd : searchBlock map fuel t fl' = .error .diverge) :
        ∃ q l', Trail blocks first (q :: l') ∧ l'.length = l.length + (fuel + 1) := by
      obtain ⟨q, l', h1, h2⟩ := ih t fl' _ (.step ht hst) hd
      exact ⟨q, l', h1, by rw [h2, List.length_cons]; omega⟩
    cases he : (map.get id).map endOf with
    | none => rw [he] at h; cases h
    | some e =>
      obtain ⟨b, hat, hend⟩ := at_of_get hg hm he
      rw [he] at h
      cases e with
      | returns => cases h
      | gotoSelection => cases h
      | chooseLoop => cases h
      | goto t =>
        rcases cbind_error.mp h with h | ⟨a, -, h⟩
        · exact deeper (.goto hat hend) h
        · cases h
      | gotoLoop t m hh =>
        rcases cbind_error.mp h with h | ⟨a, -, h⟩
        · exact deeper (t := ⟨t⟩) (fl' := .Loop id ⟨m⟩ hh :: fl) (.body hat hend) h
        · by_cases hn : a.2 = .Next id
          · rw [if_pos hn] at h
            rcases cbind_error.mp h with h | ⟨a, -, h⟩
            · exact deeper (t := ⟨m⟩) (fl' := fl) (.after hat hend) h
            · cases h
          · rw [if_neg hn] at h; cases h
      | chooseSelection t f w m hh =>
        rcases cbind_error.mp h with h | ⟨a, -, h⟩
        · exact deeper (t := ⟨t⟩) (fl' := .If ⟨m⟩ hh :: fl) (.left hat hend) h
        · rcases cbind_error.mp h with h | ⟨a', -, h⟩
          · exact deeper (t := ⟨f⟩) (fl' := .If ⟨m⟩ hh :: fl) (.right hat hend) h
          · by_cases hn : a.2 = a'.2 ∧ a.2 = .Next ⟨m⟩
            · rw [if_pos hn] at h
              rcases cbind_error.mp h with h | ⟨a, -, h⟩
              · exact deeper (t := ⟨m⟩) (fl' := fl) (.join hat hend) h
              · cases h
            · rw [if_neg hn] at h; cases h
      | choose t f w =>
        cases hi : fl.innermostLoop with
        | none => simp only [endStep, hi] at h; cases h
        | some p =>
          obtain ⟨head, merge⟩ := p
          have hin : innermost (around fl) = some (head.val, merge.val) := by rw [innermost_around, hi]; rfl
          simp only [endStep, hi] at h
          by_cases hb : (⟨f⟩ : BlockId) = merge ∨ (⟨f⟩ : BlockId) = head
          · rw [if_pos hb] at h
            rcases cbind_error.mp h with h | ⟨a, -, h⟩
            · exact deeper (t := ⟨t⟩) (fl' := fl) (.stay hat hend hin (by simpa only [blockId_eq] using hb)) h
            · by_cases hn : a.2 = .Next head
              · rw [if_pos hn] at h; cases h
              · rw [if_neg hn] at h; cases h
          · rw [if_neg hb] at h; cases h

/-- The blocks that a block names -/
def named (b : BasicBlock X) : List UInt32 :=
  targets (endOf b) ++ (mergeOf (endOf b)).toList ++ (continueOf b).toList

theorem edge_iff {u v : UInt32} : Edge blocks u v ↔ ∃ b ∈ blocks, labelId b = u ∧ v ∈ named b := by
  simp only [Edge, named, List.mem_append, Option.mem_toList, or_assoc]

/-- What is to be checked, given an order of the blocks and the blocks that dominate each block -/
def checked (blocks : List (BasicBlock X)) (first : UInt32) (rank : UInt32 → Nat) (dom : UInt32 → List UInt32) : Bool :=
  decide (blocks.map labelId).Nodup &&
  decide (first ∈ blocks.map labelId) &&
  decide (dom first = [first]) &&
  blocks.all (fun b => decide (labelId b ∈ dom (labelId b))) &&
  blocks.all (fun b => (named b).all fun v =>
    decide (v ∈ blocks.map labelId) &&
    (dom v).all (fun d => decide (d = v ∨ d ∈ dom (labelId b))) &&
    (decide (rank (labelId b) < rank v) ||
      (decide (v ∈ dom (labelId b)) &&
        blocks.all fun h => decide (labelId h ≠ v) ||
          (isLoop (endOf h) && (mergeOf (endOf h)).all fun m => decide (m ∉ dom (labelId b)))))) &&
  blocks.all (fun b => decide (labelId b = first) ||
    blocks.all fun y => decide (labelId y ∈ dom (labelId b)) ||
      blocks.any fun a => decide (labelId b ∈ named a) && decide (rank (labelId a) < rank (labelId b)) &&
        decide (labelId y ∉ dom (labelId a))) &&
  blocks.all (fun b => (mergeOf (endOf b)).all fun m => decide (labelId b ≠ m) && decide (labelId b ∈ dom m) &&
    blocks.all fun b' => decide (mergeOf (endOf b') ≠ some m ∨ labelId b' = labelId b)) &&
  blocks.all (fun b => (continueOf b).all fun c => decide (labelId b ∈ dom c)) &&
  blocks.all (fun b => (targets (endOf b)).all fun v => blocks.all fun h => (mergeOf (endOf h)).all fun m =>
    decide (labelId h ∉ dom v ∨ m ∈ dom v ∨ v = labelId h ∨
      (labelId h ∈ dom (labelId b) ∧ m ∉ dom (labelId b))))

theorem structured_of_checked {rank : UInt32 → Nat} {dom : UInt32 → List UInt32}
    (hc : checked blocks first rank dom = true) : Structured blocks first := by
  simp only [checked, Bool.and_eq_true, decide_eq_true_eq, List.all_eq_true, Bool.or_eq_true, List.any_eq_true,
    Option.all_eq_true] at hc
  obtain ⟨⟨⟨⟨⟨⟨⟨⟨hlabels, hfirst⟩, hdf⟩, hself⟩, hedges⟩, hcomplete⟩, hmerge⟩, hcont⟩, hentry⟩ := hc
  have label {u v : UInt32} (h : Edge blocks u v) : v ∈ blocks.map labelId := by
    obtain ⟨b, hb, rfl, hv⟩ := edge_iff.mp h
    exact (hedges b hb v hv).1.1
  -- the blocks said to dominate a block are on every walk to it
  have sound : ∀ l, Walk blocks first l → ∀ v l', l = v :: l' → ∀ d ∈ dom v, d ∈ l := by
    intro l hw
    induction hw with
    | start => intro v l' h d hd; cases h; rw [hdf] at hd; exact hd
    | @step a b l hw he ih =>
      intro v l' h d hd
      cases h
      obtain ⟨b0, hb0, rfl, hv⟩ := edge_iff.mp he
      rcases (hedges b0 hb0 b hv).1.2 d hd with rfl | h
      · exact List.mem_cons_self
      · exact List.mem_cons_of_mem _ (ih _ _ rfl d h)
  -- the others are avoided by some walk
  have avoid : ∀ (n : Nat) (v y : UInt32), rank v < n → v ∈ blocks.map labelId → y ∈ blocks.map labelId → y ∉ dom v →
      ∃ l, Walk blocks first (v :: l) ∧ y ∉ v :: l := by
    intro n
    induction n with
    | zero => intro v y h; omega
    | succ n ih =>
      intro v y hn hv hy hd
      obtain ⟨b, hb, rfl⟩ := List.mem_map.mp hv
      obtain ⟨y', hy', rfl⟩ := List.mem_map.mp hy
      have hne : labelId y' ≠ labelId b := fun h => hd (h ▸ hself b hb)
      rcases hcomplete b hb with h | h
      · rw [h] at hne ⊢
        exact ⟨[], .start, by simpa using hne⟩
      · rcases h y' hy' with h | ⟨a, ha, ⟨h1, h2⟩, h3⟩
        · exact absurd h hd
        · obtain ⟨l, h4, h5⟩ := ih (labelId a) (labelId y') (by omega) (List.mem_map.mpr ⟨a, ha, rfl⟩) hy h3
          refine ⟨_, .step h4 (edge_iff.mpr ⟨a, ha, rfl, h1⟩), fun h => ?_⟩
          rcases List.mem_cons.mp h with h | h
          · exact hne h
          · exact h5 h
  have dominates {y v : UInt32} (hv : v ∈ blocks.map labelId) (hy : y ∈ blocks.map labelId) :
      Dominates blocks first y v ↔ y ∈ dom v := by
    constructor
    · intro h
      refine Classical.byContradiction fun hd => ?_
      obtain ⟨l, h1, h2⟩ := avoid _ v y (Nat.lt_succ_self _) hv hy hd
      exact h2 (h l h1)
    · intro h l hl
      exact sound _ hl v l rfl y h
  have isLabel {u v : UInt32} (h : Edge blocks u v) : u ∈ blocks.map labelId := by
    obtain ⟨b, hb, rfl, -⟩ := h
    exact List.mem_map.mpr ⟨b, hb, rfl⟩
  -- a walk without repetition goes up
  have up : ∀ l, Walk blocks first l → l.Nodup → ∀ v l', l = v :: l' → ∀ z ∈ l', rank z < rank v := by
    intro l hw
    induction hw with
    | start => intro _ v l' h z hz; cases h; cases hz
    | @step a b l hw he ih =>
      intro hn v l' h z hz
      cases h
      have hab : rank a < rank b := by
        obtain ⟨b0, hb0, rfl, hv⟩ := edge_iff.mp he
        rcases (hedges b0 hb0 b hv).2 with h | ⟨h, -⟩
        · exact h
        · exact absurd (sound _ hw _ _ rfl b h) (List.nodup_cons.mp hn).1
      rcases List.mem_cons.mp hz with rfl | hz
      · exact hab
      · exact Nat.lt_trans (ih (List.nodup_cons.mp hn).2 _ _ rfl z hz) hab
  have retreat {u v : UInt32} (h : BackEdge blocks first u v) : v ∈ dom u ∧ ∀ b ∈ blocks, labelId b = v →
      isLoop (endOf b) = true ∧ ∀ m, mergeOf (endOf b) = some m → m ∉ dom u := by
    obtain ⟨he, l, hw, hn, hv⟩ := h
    obtain ⟨b, hb, rfl, hvn⟩ := edge_iff.mp he
    rcases (hedges b hb v hvn).2 with h | ⟨h1, h2⟩
    · rcases List.mem_cons.mp hv with rfl | hv
      · omega
      · have := up _ hw hn _ _ rfl v hv
        omega
    · refine ⟨h1, fun b' hb' hl => ?_⟩
      rcases h2 b' hb' with h | h
      · exact absurd hl h
      · exact h
  refine ⟨hlabels, fun u v h => ?_, fun x m h => ?_, fun x x' m h h' => ?_, fun b hb c h => ?_, fun u v h => ?_,
    fun u x m h hh => ?_, fun u v x m hbr hh hi hv hw => ?_⟩
  · exact List.mem_map.mp (label h)
  · have he := h.edge
    obtain ⟨b, hb, rfl, hm⟩ := h
    have := (hmerge b hb m hm).1
    exact ⟨this.1, (dominates (label he) (isLabel he)).mpr this.2⟩
  · obtain ⟨b, hb, rfl, hm⟩ := h
    obtain ⟨b', hb', rfl, hm'⟩ := h'
    rcases (hmerge b hb m hm).2 b' hb' with h | h
    · exact absurd hm' h
    · exact h.symm
  · have he : Edge blocks (labelId b) c := ⟨b, hb, rfl, .inr (.inr h)⟩
    exact (dominates (label he) (isLabel he)).mpr (hcont b hb c h)
  · obtain ⟨b, hb, hl⟩ := List.mem_map.mp (label h.1)
    exact ⟨b, hb, hl, ((retreat h).2 b hb hl).1⟩
  · have he := hh.edge
    obtain ⟨b, hb, hl, hm⟩ := hh
    have h1 := retreat h
    exact ⟨(dominates (isLabel h.1) (label h.1)).mpr h1.1,
      fun hd => (h1.2 b hb hl).2 m hm ((dominates (isLabel h.1) (label he)).mp hd)⟩
  · have he := hh.edge
    have hbe := hbr.edge
    obtain ⟨b, hb, rfl, ht⟩ := hbr
    obtain ⟨h0, hh0, rfl, hm⟩ := hh
    rcases hentry b hb v ht h0 hh0 m hm with h | h | h | h
    · exact absurd ((dominates (label hbe) (isLabel he)).mp hi.1) h
    · exact absurd ((dominates (label hbe) (label he)).mpr h) hi.2
    · exact absurd h hv
    · exact ⟨(dominates (isLabel hbe) (isLabel he)).mpr h.1,
        fun hd => h.2 ((dominates (isLabel hbe) (label he)).mp hd)⟩

end Magma.Standard
