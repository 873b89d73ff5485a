import Verif.Proofs.Structured
import Verif.Spec.Flow
/-! The search in terms of the ends of blocks. -/

namespace Magma
open Spec
variable {X Y : Type}

/-- One unfolding of the search, given the end of the block -/
def endStep (search : BlockId → FlowList → CF (ControlFlowChain × Continue)) (id : BlockId)
    (fl : FlowList) : Option BlockEnd → CF (ControlFlowChain × Continue)
  | none => .error (.err (.UnknownBlockId id))
  | some .returns => .ok (.Atom id, .Return)
  | some (.goto t) => do
    let r ← search ⟨t⟩ fl
    return (.block [.Atom id, r.1], r.2)
  | some (.gotoSelection _ _ _) => .error (.panic "not yet implemented")
  | some (.gotoLoop t m h) => do
    let r ← search ⟨t⟩ (.Loop id ⟨m⟩ h :: fl)
    if r.2 = .Next id then do
      let r' ← search ⟨m⟩ fl
      return (.block [.Loop id r.1 h none, r'.1], r'.2)
    else .error (.err (.InvalidConvergePrediction .Loop id))
  | some (.chooseLoop _ _ _ _ _) => .error (.panic "not yet implemented")
  | some (.chooseSelection t f w m h) => do
    let r1 ← search ⟨t⟩ (.If ⟨m⟩ h :: fl)
    let r2 ← search ⟨f⟩ (.If ⟨m⟩ h :: fl)
    if r1.2 = r2.2 ∧ r1.2 = .Next ⟨m⟩ then do
      let r3 ← search ⟨m⟩ fl
      return (.block [.Selection id r1.1 r2.1 h w, r3.1], r3.2)
    else .error (.err (.InvalidConvergePrediction .Selection id))
  | some (.choose t f w) =>
    match fl.innermostLoop with
    | none => .error (.err (.CouldNotPredictConverge id))
    | some (head, merge) =>
      if (⟨f⟩ : BlockId) = merge ∨ (⟨f⟩ : BlockId) = head then do
        let r ← search ⟨t⟩ fl
        if r.2 = .Next head then
          return (.Selection id r.1 (if (⟨f⟩ : BlockId) = merge then .Break else .Continue)
            SelectionControl.default w, r.2)
        else .error (.err (.InvalidConvergePrediction .Loop id))
      else .error (.err (.CouldNotPredictConverge id))

theorem searchStep_eq (get : BlockId → Option (BasicBlock X))
    (search : BlockId → FlowList → CF (ControlFlowChain × Continue)) (id : BlockId) (fl : FlowList) :
    searchStep get search id fl =
      if fl.merges id then .ok (.Block [], .Next id) else endStep search id fl ((get id).map endOf) := by
  rw [searchStep]
  by_cases hm : fl.merges id = true
  · rw [if_pos hm, if_pos hm]
  · rw [if_neg hm, if_neg hm]
    cases get id with
    | none => rfl
    | some b =>
      obtain ⟨label, code, merge, branch⟩ := b
      cases branch with
      | OpReturn r => rfl
      | OpBranch op =>
        cases merge with
        | none => rfl
        | some mg => cases mg <;> rfl
      | OpBranchConditional op =>
        cases merge with
        | none => rfl
        | some mg => cases mg <;> rfl

theorem endStep_congr {s s' : BlockId → FlowList → CF (ControlFlowChain × Continue)} {id : BlockId}
    {fl : FlowList} {e : Option BlockEnd} (h : ∀ e', e = some e' → ∀ t ∈ e'.names, ∀ fl, s ⟨t⟩ fl = s' ⟨t⟩ fl) :
    endStep s id fl e = endStep s' id fl e := by
  cases e with
  | none => rfl
  | some e =>
    have h := h e rfl
    cases e <;> simp only [BlockEnd.names, List.mem_cons, List.not_mem_nil, or_false, forall_eq_or_imp,
      forall_eq, false_implies, implies_true] at h <;> simp only [endStep, h]

/-- The search only looks at the ends of the blocks it can reach. -/
theorem searchBlock_congr {map : BlockMap X} {map' : BlockMap Y} (P : BlockId → Prop)
    (hP : ∀ id, P id → (map.get id).map endOf = (map'.get id).map endOf)
    (hc : ∀ id e, P id → (map.get id).map endOf = some e → ∀ t ∈ e.names, P ⟨t⟩) :
    ∀ fuel id fl, P id → searchBlock map fuel id fl = searchBlock map' fuel id fl := by
  intro fuel
  induction fuel with
  | zero => intros; rfl
  | succ fuel ih =>
    intro id fl hid
    rw [searchBlock_succ, searchBlock_succ, searchStep_eq, searchStep_eq, hP id hid]
    congr 1
    refine endStep_congr fun e he t ht fl' => ih _ _ ?_
    exact hc id e hid (by rw [hP id hid]; exact he) t ht

/-! ### The whole function -/

theorem labelOf_beq (b : BasicBlock X) (id : BlockId) : (labelOf b == id) = (labelId b == id.val) := by
  obtain ⟨v⟩ := id
  by_cases h : labelId b = v
  · have h' : labelOf b = ⟨v⟩ := by rw [← h]; rfl
    rw [beq_iff_eq.mpr h', beq_iff_eq.mpr h]
  · have h' : labelOf b ≠ ⟨v⟩ := by
      intro he
      exact h (congrArg BlockId.val he)
    rw [beq_eq_false_iff_ne.mpr h', beq_eq_false_iff_ne.mpr h]

theorem nodup_labels (blocks : List (BasicBlock X)) :
    (blocks.map labelOf).Nodup ↔ (blocks.map labelId).Nodup := by
  induction blocks with
  | nil => simp
  | cons b bs ih =>
    simp only [List.map_cons, List.nodup_cons, ih, List.mem_map]
    refine and_congr_left fun _ => not_congr ?_
    constructor
    · rintro ⟨b', h, he⟩; exact ⟨b', h, congrArg BlockId.val he⟩
    · rintro ⟨b', h, he⟩
      refine ⟨b', h, ?_⟩
      have : b'.label.result_id.val = b.label.result_id.val := he
      simp only [labelOf, this]

theorem build_iff (blocks : List (BasicBlock X)) (hn : (blocks.map labelId).Nodup) :
    ∃ map : BlockMap X, buildBlockMap blocks [] = .ok map ∧ map.get = blockOf blocks := by
  obtain ⟨map, h, hg⟩ := build_ok (map := []) (blocks := blocks) (fun _ _ => rfl) ((nodup_labels _).mpr hn)
  refine ⟨map, h, funext fun id => ?_⟩
  rw [hg]
  simp only [BlockMap.get, List.lookup_nil, Option.or_none, blockOf, labelOf_beq]
  rfl

theorem build_map {blocks : List (BasicBlock X)} {map : BlockMap X} (h : buildBlockMap blocks [] = .ok map) :
    (blocks.map labelId).Nodup ∧ map.get = blockOf blocks := by
  have hn := (nodup_labels _).mp (build_nodup h).1
  obtain ⟨map', h', hg⟩ := build_iff blocks hn
  rw [h] at h'
  cases h'
  exact ⟨hn, hg⟩

theorem find_ok {decl : FunctionDefinition X} {fuel : Nat} {chain : ControlFlowChain}
    (h : findControlFlow fuel decl = .ok chain) :
    ∃ first more, decl.blocks = first :: more ∧ (decl.blocks.map labelId).Nodup ∧
      Found (blockOf decl.blocks) ⟨labelId first⟩ [] chain .Return := by
  rw [findControlFlow, cbind_ok] at h
  obtain ⟨map, hb, h⟩ := h
  obtain ⟨hn, hg⟩ := build_map hb
  cases hbl : decl.blocks with
  | nil => simp only [hbl] at h; cases h
  | cons first more =>
    simp only [hbl, cbind_ok, Prod.exists] at h
    obtain ⟨c, n, hs, h⟩ := h
    cases n with
    | Next t => cases h
    | Return =>
      cases h
      have := found_of_search hs
      rw [hg, hbl] at this
      exact ⟨first, more, rfl, hbl ▸ hn, this⟩

theorem find_of_found {decl : FunctionDefinition X} {chain : ControlFlowChain} {first : BasicBlock X}
    {more : List (BasicBlock X)} (hbl : decl.blocks = first :: more)
    (hn : (decl.blocks.map labelId).Nodup)
    (h : Found (blockOf decl.blocks) ⟨labelId first⟩ [] chain .Return) :
    ∃ fuel, ∀ fuel', fuel ≤ fuel' → findControlFlow fuel' decl = .ok chain := by
  obtain ⟨map, hb, hg⟩ := build_iff _ hn
  rw [← hg] at h
  obtain ⟨f, hf⟩ := search_of_found h
  refine ⟨f, fun f' hf' => ?_⟩
  rw [findControlFlow, hb, cok_bind]
  simp only [hbl]
  have := hf f' hf'
  simp only [labelId] at this
  rw [this]
  rfl

theorem find_error {decl : FunctionDefinition X} {fuel : Nat} {e : Fault ControlFlowError}
    (h : findControlFlow fuel decl = .error e) :
    buildBlockMap decl.blocks [] = .error e ∨
    (decl.blocks.map labelId).Nodup ∧
      ((decl.blocks = [] ∧ e = .err .NoBlocks) ∨
       ∃ first more map, decl.blocks = first :: more ∧ map.get = blockOf decl.blocks ∧
        searchBlock map fuel ⟨labelId first⟩ [] = .error e) := by
  rw [findControlFlow, cbind_error] at h
  rcases h with h | ⟨map, hb, h⟩
  · exact .inl h
  · obtain ⟨hn, hg⟩ := build_map hb
    refine .inr ⟨hn, ?_⟩
    cases hbl : decl.blocks with
    | nil =>
      simp only [hbl] at h
      cases h
      exact .inl ⟨rfl, rfl⟩
    | cons first more =>
      refine .inr ⟨first, more, map, rfl, hbl ▸ hg, ?_⟩
      simp only [hbl, cbind_error, Prod.exists] at h
      rcases h with h | ⟨c, n, hs, h⟩
      · exact h
      · cases n with
        | Return => cases h
        | Next t =>
          have := (found_of_search hs).next_merges t rfl
          cases this

theorem blockOf_some {blocks : List (BasicBlock X)} {id : BlockId} {b : BasicBlock X}
    (h : blockOf blocks id = some b) : b ∈ blocks ∧ labelId b = id.val := by
  refine ⟨List.mem_of_find?_eq_some h, ?_⟩
  have := List.find?_some h
  exact beq_iff_eq.mp this

theorem blockOf_none {blocks : List (BasicBlock X)} {id : BlockId} :
    blockOf blocks id = none ↔ ∀ b ∈ blocks, labelId b ≠ id.val := by
  rw [blockOf, List.find?_eq_none]
  simp [labelId]

theorem blockOf_mem {blocks : List (BasicBlock X)} (hn : (blocks.map labelId).Nodup) {b : BasicBlock X}
    (h : b ∈ blocks) : blockOf blocks ⟨labelId b⟩ = some b := by
  induction blocks with
  | nil => cases h
  | cons a as ih =>
    simp only [List.map_cons, List.nodup_cons] at hn
    simp only [blockOf, List.find?_cons]
    rcases List.mem_cons.mp h with rfl | h
    · simp [labelId]
    · have hne : labelId a ≠ labelId b := fun he => hn.1 (he ▸ List.mem_map_of_mem h)
      have : (a.label.result_id.val == labelId b) = false := by
        simpa [labelId] using hne
      rw [this]
      exact ih hn.2 h

/-! ### Termination -/

theorem endStep_total {blocks : List (BasicBlock X)} {map : BlockMap X} (hg : map.get = blockOf blocks)
    {rank : UInt32 → Nat} {scope : UInt32 → List UInt32} (hp : ProperlyNested blocks rank scope) :
    ∀ (fuel : Nat) (id : BlockId) (fl : FlowList), rank id.val + 1 < fuel →
      (∀ x ∈ scope id.val, (⟨x⟩ : BlockId) ∈ stops fl) → ¬ Diverges (searchBlock map fuel id fl) := by
  intro fuel
  induction fuel with
  | zero => intro id fl h; omega
  | succ fuel ih =>
    intro id fl hr hs hd
    rw [searchBlock_succ, searchStep_eq] at hd
    by_cases hm : fl.merges id = true
    · rw [if_pos hm] at hd; cases hd
    rw [if_neg hm, hg] at hd
    have step {t : UInt32} {around : List UInt32} {fl' : FlowList} (hf : Forward rank scope id.val t around)
        (ha : ∀ x ∈ around, (⟨x⟩ : BlockId) ∈ stops fl') : ¬ Diverges (searchBlock map fuel ⟨t⟩ fl') := by
      rcases hf with hf | ⟨hlt, hf⟩
      · obtain ⟨k, rfl⟩ : ∃ k, fuel = k + 1 := ⟨fuel - 1, by omega⟩
        intro hd
        rw [searchBlock_succ, searchStep_eq, if_pos ((merges_iff _ _).mpr (ha t hf))] at hd
        cases hd
      · exact ih ⟨t⟩ fl' (by simp only; omega) (fun x hx => ha x (hf x hx))
    cases hb : blockOf blocks id with
    | none => rw [hb] at hd; cases hd
    | some b =>
      obtain ⟨hmem, hl⟩ := blockOf_some hb
      rw [hb, Option.map_some] at hd
      have bind_div {α β : Type} {x : CF α} {f : α → CF β} (h1 : ¬ Diverges x)
          (h2 : ∀ a, ¬ Diverges (f a)) : ¬ Diverges (x >>= f) := by
        intro hd
        rcases cbind_error.mp hd with h | ⟨a, -, h⟩
        · exact h1 h
        · exact h2 a h
      have cons_if {m : UInt32} {h : SelectionControl} : ∀ x ∈ m :: scope id.val,
          (⟨x⟩ : BlockId) ∈ stops (.If ⟨m⟩ h :: fl) := by
        intro x hx
        simp only [stops, List.mem_cons]
        rcases List.mem_cons.mp hx with rfl | hx
        · exact .inl rfl
        · exact .inr (hs x hx)
      have cons_loop {m : BlockId} {h : LoopControl} : ∀ x ∈ id.val :: scope id.val,
          (⟨x⟩ : BlockId) ∈ stops (.Loop id m h :: fl) := by
        intro x hx
        simp only [stops, List.mem_cons]
        rcases List.mem_cons.mp hx with rfl | hx
        · exact .inl rfl
        · exact .inr (hs x hx)
      cases he : endOf b with
      | returns => rw [he] at hd; cases hd
      | gotoSelection => rw [he] at hd; cases hd
      | chooseLoop => rw [he] at hd; cases hd
      | goto t =>
        rw [he] at hd
        refine bind_div (step (hl ▸ hp.goto b hmem t he) hs) ?_ hd
        rintro a ⟨⟩
      | gotoLoop t m h =>
        rw [he] at hd
        have hp := hp.loop b hmem t m h he
        rw [hl] at hp
        refine bind_div (step hp.1 cons_loop) ?_ hd
        intro r hd
        by_cases hn : r.2 = .Next id
        · rw [if_pos hn] at hd
          refine bind_div (step hp.2 hs) ?_ hd
          rintro a ⟨⟩
        · rw [if_neg hn] at hd
          cases hd
      | chooseSelection t f w m h =>
        rw [he] at hd
        have hp := hp.selection b hmem t f w m h he
        rw [hl] at hp
        refine bind_div (step hp.1 cons_if) ?_ hd
        intro r1
        refine bind_div (step hp.2.1 cons_if) ?_
        intro r2 hd
        by_cases hn : r1.2 = r2.2 ∧ r1.2 = .Next ⟨m⟩
        · rw [if_pos hn] at hd
          refine bind_div (step hp.2.2 hs) ?_ hd
          rintro a ⟨⟩
        · rw [if_neg hn] at hd
          cases hd
      | choose t f w =>
        rw [he, endStep] at hd
        cases hi : fl.innermostLoop with
        | none => simp only [hi] at hd; cases hd
        | some hdm =>
          obtain ⟨head, merge⟩ := hdm
          simp only [hi] at hd
          by_cases hbr : (⟨f⟩ : BlockId) = merge ∨ (⟨f⟩ : BlockId) = head
          · rw [if_pos hbr] at hd
            refine bind_div (step (hl ▸ hp.exit b hmem t f w he) hs) ?_ hd
            intro r hd
            by_cases hn : r.2 = .Next head
            · rw [if_pos hn] at hd; cases hd
            · rw [if_neg hn] at hd; cases hd
          · rw [if_neg hbr] at hd
            cases hd

/-! ### Shape -/

mutual
theorem toChain_shaped {blocks : List (BasicBlock X)} : ∀ (s : Program) {lp k}, s.SpelledBy blocks lp k →
    WellShaped lp.isSome s.toChain
  | .done, _, _, _ => by simp [Program.toChain, WellShaped, Items]
  | .ret _, _, _, _ => by simp [Program.toChain, WellShaped]
  | .atom _ rest, _, _, h => by
    have := toChains_shaped rest h.2
    simp [Program.toChain, WellShaped, Items, ItemShaped, this]
  | .sel _ l r _ _ rest, _, _, h => by
    obtain ⟨b, op, sm, -, -, -, -, -, -, -, -, hl, hr, hrest⟩ := h
    have h1 := toChain_shaped l hl
    have h2 := toChain_else r hr
    have h3 := toChains_shaped rest hrest
    simp [Program.toChain, WellShaped, Items, ItemShaped, h1, h2, h3]
  | .loop _ body _ rest, _, _, h => by
    obtain ⟨b, op, lm, -, -, -, -, -, -, hb, hrest⟩ := h
    have h1 := toChain_shaped body hb
    have h2 := toChains_shaped rest hrest
    simp only [Option.isSome_some] at h1
    simp [Program.toChain, WellShaped, Items, ItemShaped, h1, h2]
  | .exit _ brk _ rest, _, _, h => by
    obtain ⟨head, merge, b, op, rfl, -, -, -, -, -, -, -, hr⟩ := h
    have h1 := toChain_shaped rest hr
    cases brk <;> simpa [Program.toChain, WellShaped, ElseShaped] using h1
theorem toChain_else {blocks : List (BasicBlock X)} : ∀ (s : Program) {lp k}, s.SpelledBy blocks lp k →
    ElseShaped lp.isSome s.toChain
  | .done, _, _, _ => by simp [Program.toChain, ElseShaped, Items]
  | .ret _, _, _, _ => by simp [Program.toChain, ElseShaped]
  | .atom _ rest, _, _, h => by
    have := toChains_shaped rest h.2
    simp [Program.toChain, ElseShaped, Items, ItemShaped, this]
  | .sel _ l r _ _ rest, _, _, h => by
    obtain ⟨b, op, sm, -, -, -, -, -, -, -, -, hl, hr, hrest⟩ := h
    have h1 := toChain_shaped l hl
    have h2 := toChain_else r hr
    have h3 := toChains_shaped rest hrest
    simp [Program.toChain, ElseShaped, Items, ItemShaped, h1, h2, h3]
  | .loop _ body _ rest, _, _, h => by
    obtain ⟨b, op, lm, -, -, -, -, -, -, hb, hrest⟩ := h
    have h1 := toChain_shaped body hb
    have h2 := toChains_shaped rest hrest
    simp only [Option.isSome_some] at h1
    simp [Program.toChain, ElseShaped, Items, ItemShaped, h1, h2]
  | .exit _ brk _ rest, _, _, h => by
    obtain ⟨head, merge, b, op, rfl, -, -, -, -, -, -, -, hr⟩ := h
    have h1 := toChain_shaped rest hr
    cases brk <;> simpa [Program.toChain, ElseShaped] using h1
theorem toChains_shaped {blocks : List (BasicBlock X)} : ∀ (s : Program) {lp k}, s.SpelledBy blocks lp k →
    Items lp.isSome s.toChains
  | .done, _, _, _ => by simp [Program.toChains, Items]
  | .ret _, _, _, _ => by simp [Program.toChains, Items, ItemShaped]
  | .atom _ rest, _, _, h => by
    have := toChains_shaped rest h.2
    simp [Program.toChains, Items, ItemShaped, this]
  | .sel _ l r _ _ rest, _, _, h => by
    obtain ⟨b, op, sm, -, -, -, -, -, -, -, -, hl, hr, hrest⟩ := h
    have h1 := toChain_shaped l hl
    have h2 := toChain_else r hr
    have h3 := toChains_shaped rest hrest
    simp [Program.toChains, Items, ItemShaped, h1, h2, h3]
  | .loop _ body _ rest, _, _, h => by
    obtain ⟨b, op, lm, -, -, -, -, -, -, hb, hrest⟩ := h
    have h1 := toChain_shaped body hb
    have h2 := toChains_shaped rest hrest
    simp only [Option.isSome_some] at h1
    simp [Program.toChains, Items, ItemShaped, h1, h2]
  | .exit _ brk _ rest, _, _, h => by
    obtain ⟨head, merge, b, op, rfl, -, -, -, -, -, -, -, hr⟩ := h
    have h1 := toChain_shaped rest hr
    cases brk <;> simpa [Program.toChains, Items, ItemShaped, ElseShaped] using h1
end

/-! ### Description -/

theorem describesAll_append {blocks : List (BasicBlock X)} (as bs : List ControlFlowChain) :
    DescribesAll blocks (as ++ bs) ↔ DescribesAll blocks as ∧ DescribesAll blocks bs := by
  induction as with
  | nil => simp [DescribesAll]
  | cons a as ih => simp [DescribesAll, ih, and_assoc]

theorem describesAll_mergeAll {blocks : List (BasicBlock X)} (cs : List ControlFlowChain) :
    DescribesAll blocks (ControlFlowChain.mergeAll cs) ↔ DescribesAll blocks cs := by
  induction cs with
  | nil => rfl
  | cons c cs ih =>
    cases c <;> simp [ControlFlowChain.mergeAll, DescribesAll, describesAll_append, Describes, ih]

theorem describes_block2 {blocks : List (BasicBlock X)} (a b : ControlFlowChain) :
    Describes blocks (.block [a, b]) ↔ Describes blocks a ∧ Describes blocks b := by
  simp [ControlFlowChain.block, Describes, describesAll_mergeAll, DescribesAll]

theorem found_describes {blocks : List (BasicBlock X)} {id : BlockId} {fl : FlowList} {c : ControlFlowChain}
    {n : Continue} (h : Found (blockOf blocks) id fl c n) : Describes blocks c := by
  induction h with
  | merged hm => simp [Describes, DescribesAll]
  | ret hm hg hb =>
    obtain ⟨h1, h2⟩ := blockOf_some hg
    rw [Describes]
    exact ⟨_, h1, h2, .inr (by simp [endOf, hb])⟩
  | branch hm hg hb hmg _ ih =>
    obtain ⟨h1, h2⟩ := blockOf_some hg
    rw [describes_block2, Describes]
    exact ⟨⟨_, h1, h2, .inl ⟨_, by simp only [endOf, hb, hmg]; rfl⟩⟩, ih⟩
  | loop hm hg hb hmg _ _ ih1 ih2 =>
    obtain ⟨h1, h2⟩ := blockOf_some hg
    rw [describes_block2, Describes]
    exact ⟨⟨⟨_, h1, h2, rfl, _, _, by simp only [endOf, hb, hmg]; rfl⟩, ih1⟩, ih2⟩
  | sel hm hg hb hmg _ _ _ ih1 ih2 ih3 =>
    obtain ⟨h1, h2⟩ := blockOf_some hg
    rw [describes_block2, Describes]
    exact ⟨⟨⟨_, h1, h2, .inl ⟨_, _, _, by simp only [endOf, hb, hmg]; rfl⟩⟩, ih1, ih2⟩, ih3⟩
  | @exit id fl b op head merge c hm hg hb hmg hi hbr _ ih =>
    obtain ⟨h1, h2⟩ := blockOf_some hg
    rw [Describes]
    refine ⟨⟨_, h1, h2, .inr ⟨_, _, by simp only [endOf, hb, hmg]; rfl, rfl, ?_⟩⟩, ih, ?_⟩
    · by_cases h : (⟨op.false_label.val⟩ : BlockId) = merge <;> simp [h]
    · by_cases h : (⟨op.false_label.val⟩ : BlockId) = merge <;> simp [h, Describes]

end Magma
