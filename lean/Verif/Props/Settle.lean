import Verif.Proofs.Settle
import Verif.Proofs.Size
import Verif.Props.Replace
import Verif.Props.Uniform
/-! C124: conditional branches that always go the same way. -/

namespace Magma.Props
open Spec Magma.Excerpt Magma.Settle
variable {X S V W : Type}

theorem settle_label (known : UInt32 → Option Bool) (b : BasicBlock X) : labelId (settleBlock known b) = labelId b := by
  unfold settleBlock
  split <;> rfl

theorem settle_end (known : UInt32 → Option Bool) (b : BasicBlock X) :
    endOf (settleBlock known b) = settleEnd (known (labelId b)) (endOf b) := by
  unfold settleBlock
  cases hk : known (labelId b) with
  | none => simp only [settleEnd]
  | some d =>
    unfold endOf
    rcases hb : b.branch with op | op | op <;> rcases hm : b.merge with _ | m | m <;> cases d <;> simp [settleEnd, hb]

theorem settle_blockOf (known : UInt32 → Option Bool) (blocks : List (BasicBlock X)) (id : BlockId) :
    blockOf (blocks.map (settleBlock known)) id = (blockOf blocks id).map (settleBlock known) := by
  unfold blockOf
  rw [List.find?_map]
  congr 1
  refine congrArg (List.find? · blocks) (funext fun b => ?_)
  exact congrArg (· == id.val) (settle_label known b)

theorem settle_ends (known : UInt32 → Option Bool) {f : FunctionDefinition X} {y : BlockId} {e : BlockEnd}
    (hy : endsOf f.blocks y = some e) :
    endsOf (settleFunction known f).blocks y = some (settleEnd (known y.val) e) := by
  obtain ⟨b, hb, rfl⟩ := endsOf_iff.mp hy
  refine endsOf_iff.mpr ⟨settleBlock known b, ?_, ?_⟩
  · show blockOf (f.blocks.map _) y = _
    rw [settle_blockOf, hb]
    rfl
  · rw [settle_end, (blockOf_some hb).2]

/-- C124: control flow is recovered from the function with plain branches, for all branches at once but those that always
leave a loop. It is the recovered control flow with one arm for each of the selections. -/
theorem C124_flow {known : UInt32 → Option Bool} {f : FunctionDefinition X} {fuel : Nat} {chain : ControlFlowChain}
    (h : findControlFlow fuel f = .ok chain)
    (hx : ∀ y inner hint w, PartOf (.Selection y inner .Break hint w) chain → known y.val ≠ some false) :
    ∃ fuel', findControlFlow fuel' (settleFunction known f) = .ok (settle known chain) := by
  obtain ⟨s, first, more, hb, hn, hs, he, hnest, rfl⟩ := C30_accepted_iff.mp ⟨fuel, h⟩
  have hs := (spelt_iff s _ _).mp hs
  have ho := fun y e => settle_ends (f := f) known (y := y) (e := e)
  have hx' : Exits (fun y brk => brk = true → known y.val ≠ some false) s := by
    refine exits_of fun i hi id brk inner hint w hp => ?_
    rintro rfl
    exact hx id inner hint w (items_inside hi hp)
  rw [← (prune_toChain ho hs hnest nofun hx').1]
  refine C30_accepted_iff.mpr ⟨_, settleBlock known first, more.map (settleBlock known), ?_, ?_,
    (spelt_iff _ _ _).mpr (prune_spelt ho hs hnest nofun hx'), ?_, prune_nested hnest, rfl⟩
  · show f.blocks.map _ = _
    rw [hb]
    rfl
  · show ((f.blocks.map (settleBlock known)).map labelId).Nodup
    rw [List.map_map, show labelId ∘ settleBlock known = (labelId : BasicBlock X → UInt32) from
      funext (settle_label known)]
    exact hn
  · rw [prune_entry, he, settle_label]

theorem break_merge {f : FunctionDefinition X} {fuel : Nat} {chain inner : ControlFlowChain} {y : BlockId}
    {hint : SelectionControl} {w : Option BranchWeights} (h : findControlFlow fuel f = .ok chain)
    (hp : PartOf (.Selection y inner .Break hint w) chain) : ∃ b t e w, blockOf f.blocks y = some b ∧
      endOf b = .choose t e w ∧ ∃ l ∈ f.blocks, ∃ t' hint, endOf l = .gotoLoop t' e hint := by
  obtain ⟨s, first, more, hb, hn, hs, he, hnest, rfl⟩ := C30_accepted_iff.mp ⟨fuel, h⟩
  obtain ⟨t, e, w, hy, x, t', hint, hx⟩ := exits_at (brk := true) (exits_loop ((spelt_iff s _ _).mp hs) nofun)
    (inside_items (fun _ e => by cases e) hp) rfl
  obtain ⟨b, hb, hbe⟩ := endsOf_iff.mp hy
  obtain ⟨l, hl, hle⟩ := endsOf_iff.mp hx
  exact ⟨b, t, e, w, hb, hbe, l, (blockOf_some hl).1, t', hint, hle⟩

/-- C124: an execution that goes as is known is the same in the function with plain branches, for any number of visits. -/
theorem C124_computes {known : UInt32 → Option Bool} (M : Machine X S) (f : FunctionDefinition X) {id : BlockId}
    {c : Config S} (h : M.Heeds f.blocks known id c) (n : Nat) :
    runMachine M (settleFunction known f).blocks n id c = runMachine M f.blocks n id c := by
  induction n generalizing id c with
  | zero => rfl
  | succ n ih =>
    have hg : blockOf (settleFunction known f).blocks id = (blockOf f.blocks id).map (settleBlock known) :=
      settle_blockOf known f.blocks id
    unfold runMachine
    rw [hg]
    cases hb : blockOf f.blocks id with
    | none => rfl
    | some b =>
      have hl : labelId b = id.val := (blockOf_some hb).2
      have enter : M.enter (settleBlock known b) c = M.enter b c := by
        unfold settleBlock
        split <;> rfl
      simp only [Option.map_some]
      rw [enter]
      have next : ∀ {id' : BlockId}, (∀ k, runMachine M f.blocks (k + 1) id c =
          (id :: (runMachine M f.blocks k id' (M.enter b c)).1, (runMachine M f.blocks k id' (M.enter b c)).2)) →
          M.Heeds f.blocks known id' (M.enter b c) := by
        intro id' hr k trace x c' o d he hk hc
        refine h (k + 1) (id :: trace) x c' o d ?_ hk hc
        rw [hr k, he]
        rfl
      cases hbr : b.branch with
      | OpReturn op =>
        have : settleBlock known b = b := by
          unfold settleBlock
          rw [hbr]
          split
          · rename_i h2; cases h2
          · rfl
        rw [this, hbr]
      | OpBranch op =>
        have : settleBlock known b = b := by
          unfold settleBlock
          rw [hbr]
          split
          · rename_i h2; cases h2
          · rfl
        rw [this, hbr]
        simp only
        rw [ih (next fun k => by
          rw [runMachine, hb]
          simp only [hbr])]
      | OpBranchConditional op =>
        have hi := ih (next (id' := ⟨if M.holds op.condition (M.enter b c).state then op.true_label.val else
          op.false_label.val⟩) fun k => by
            rw [runMachine, hb]
            simp only [hbr])
        cases hk : known (labelId b) with
        | none =>
          have : settleBlock known b = b := by
            unfold settleBlock
            rw [hk]
          rw [this, hbr]
          simp only
          rw [hi]
        | some d =>
          have hd : M.holds op.condition (M.enter b c).state = d := by
            have := h 1 [] id (M.enter b c) .running d (by
              rw [runMachine, hb]
              simp only [hbr, runMachine, List.nil_append]) (hl ▸ hk) ⟨b, op, hb, hbr⟩
            rw [Machine.decides, hb] at this
            simp only [hbr] at this
            exact this
          rw [hd] at hi
          have : (settleBlock known b).branch = .OpBranch ⟨if d then op.true_label else op.false_label⟩ := by
            unfold settleBlock
            rw [hk, hbr]
          rw [this]
          simp only
          rw [hd]
          cases d <;> simp only [Bool.false_eq_true, if_true, if_false] at hi ⊢ <;> rw [hi]

theorem armItems_ids (chain : ControlFlowChain) : chainIdsAll (armItems chain) = chainIds chain := by
  cases chain <;> simp [armItems, itemsOf, chainIds, chainIdsAll]

theorem itemsOf_ids (chain : ControlFlowChain) : chainIdsAll (itemsOf chain) = chainIds chain := by
  cases chain <;> simp [itemsOf, chainIds, chainIdsAll]

mutual
/-- C124: nothing is added to the control flow, and what is left is in the order it was. -/
theorem C124_less (known : UInt32 → Option Bool) : (chain : ControlFlowChain) →
    (chainIds (settle known chain)).Sublist (chainIds chain)
  | .Atom id => by simp only [settle, List.Sublist.refl]
  | .Block chains => by
    rw [settle, chainIds, chainIds]
    exact settleItems_ids known chains
  | .Loop id inner hint w => by
    rw [settle, chainIds, chainIds]
    exact (C124_less known inner).cons_cons _
  | .Break => by simp only [settle, List.Sublist.refl]
  | .Continue => by simp only [settle, List.Sublist.refl]
  | .Selection id left right hint w => by
    rw [settle, chainIds]
    split
    · rw [chainIds]
      exact ((C124_less known left).append (C124_less known right)).cons_cons _
    · rw [chainIds, chainIdsAll, armItems_ids]
      exact ((C124_less known left).trans (List.sublist_append_left _ _)).cons_cons _
    · rw [chainIds, chainIdsAll, armItems_ids]
      exact ((C124_less known right).trans (List.sublist_append_right _ _)).cons_cons _
theorem settleItems_ids (known : UInt32 → Option Bool) : (chains : List ControlFlowChain) →
    (chainIdsAll (settleItems known chains)).Sublist (chainIdsAll chains)
  | [] => by simp only [settleItems, List.Sublist.refl]
  | chain :: chains => by
    rw [settleItems, chainIdsAll, chainIdsAll_append, itemsOf_ids]
    exact (C124_less known chain).append (settleItems_ids known chains)
end

theorem fold_unwritten [DecidableEq V] {A : Access X V} {M : Machine X (V → W)} (hA : A.Right M) (last : Option UInt32)
    {v : V} : ∀ (code : List (GroupCode X)) (st : V → W), (∀ i ∈ code, v ∉ A.writes i) →
      code.foldl (fun s i => M.run last i s) st v = st v
  | [], _, _ => rfl
  | i :: code, st, h => by
    rw [List.foldl_cons, fold_unwritten hA last code _ fun j hj => h j (List.mem_cons_of_mem _ hj)]
    exact hA.keeps last i st v (h i List.mem_cons_self)

theorem run_unwritten [DecidableEq V] {A : Access X V} {M : Machine X (V → W)} (hA : A.Right M)
    {blocks : List (BasicBlock X)} {v : V} (h : ∀ b ∈ blocks, ∀ i ∈ b.code, v ∉ A.writes i) :
    ∀ (n : Nat) (id : BlockId) (c : Config (V → W)), (runMachine M blocks n id c).2.1.state v = c.state v
  | 0, _, _ => rfl
  | n + 1, id, c => by
    rw [runMachine]
    cases hb : blockOf blocks id with
    | none => rfl
    | some b =>
      have he : (M.enter b c).state v = c.state v := fold_unwritten hA c.last b.code c.state (h b (blockOf_some hb).1)
      cases hbr : b.branch with
      | OpReturn op => simpa only [hbr] using he
      | OpBranch op =>
        simp only [hbr]
        rw [run_unwritten hA h n, he]
      | OpBranchConditional op =>
        simp only [hbr]
        rw [run_unwritten hA h n, he]

theorem fixed_writes [DecidableEq V] {A : Access X V} {blocks : List (BasicBlock X)} {cond : OpId}
    (h : A.fixed blocks cond = true) : ∀ v ∈ A.tests cond, ∀ b ∈ blocks, ∀ i ∈ b.code, v ∉ A.writes i := by
  intro v hv b hb i hi hw
  have := List.all_eq_true.mp (List.all_eq_true.mp (List.all_eq_true.mp h v hv) b hb) i hi
  rw [List.contains_iff_mem.mpr hw] at this
  cases this

theorem specialise_heeds [DecidableEq V] {A : Access X V} {M : Machine X (V → W)} (hA : A.Right M)
    (blocks : List (BasicBlock X)) (id : BlockId) (c : Config (V → W)) :
    M.Heeds blocks (A.specialise blocks fun cond => M.holds cond c.state) id c := by
  rintro n trace x c' o d hr hk ⟨b, op, hb, hbr⟩
  have same : A.fixed blocks op.condition = true → M.holds op.condition c'.state = M.holds op.condition c.state := by
    intro hf
    refine hA.tests _ _ _ fun v hv => ?_
    have := run_unwritten hA (fixed_writes hf v hv) n id c
    rwa [hr] at this
  rw [Machine.decides, hb]
  simp only [hbr]
  unfold Access.specialise at hk
  rw [show (⟨x.val⟩ : BlockId) = x from rfl, hb] at hk
  simp only [hbr] at hk
  cases hm : b.merge with
  | none =>
    rw [hm] at hk
    simp only at hk
    split at hk
    · rename_i hc
      rw [Bool.and_eq_true] at hc
      cases hk
      exact same hc.1
    · cases hk
  | some m =>
    rw [hm] at hk
    simp only at hk
    split at hk
    · rename_i hc
      cases hk
      exact same hc
    · cases hk

/-- C124: the conditions that nothing in the function changes can be settled by what holds at the start: control flow is
recovered from the specialised function, with one arm for each of those selections, and it computes the same. -/
theorem C124_specialised [DecidableEq V] {f : FunctionDefinition X} {fuel : Nat} {chain : ControlFlowChain}
    (h : findControlFlow fuel f = .ok chain) {A : Access X V} {M : Machine X (V → W)} (hA : A.Right M)
    (id : BlockId) (c : Config (V → W)) :
    let known := A.specialise f.blocks fun cond => M.holds cond c.state
    (∃ fuel', findControlFlow fuel' (settleFunction known f) = .ok (settle known chain)) ∧
    ∀ n, runMachine M (settleFunction known f).blocks n id c = runMachine M f.blocks n id c := by
  intro known
  refine ⟨C124_flow h ?_, C124_computes M f (specialise_heeds hA f.blocks id c)⟩
  intro y inner hint' w' hp hk
  obtain ⟨b, t, e, w, hbo, he, l, hl, t', hint, hle⟩ := break_merge h hp
  simp only [known, Access.specialise, hbo] at hk
  unfold endOf at he
  split at hk
  · rename_i m hbr hm
    rw [hbr, hm] at he
    cases m <;> cases he
  · rename_i op hbr hm
    rw [hbr, hm] at he
    cases he
    split at hk
    · rename_i hc
      have hh := Option.some.inj hk
      rw [hh, Bool.false_or, Bool.and_eq_true] at hc
      have : isLoopMerge f.blocks op.false_label.val = true := by
        refine List.any_eq_true.mpr ⟨l, hl, ?_⟩
        unfold endOf at hle
        split at hle <;> first | cases hle | skip
        rename_i hlm
        rw [hlm]
        injection hle with _ hm _
        exact beq_iff_eq.mpr hm
      rw [this] at hc
      exact absurd hc.2 (by decide)
    · cases hk
  · cases hk

/-- C124 needs that no branch that always leaves a loop is replaced: the loop here is left when its condition does not hold;
with a plain branch to its end it is refused. -/
theorem C124_leaving :
    findControlFlow 9 (functionOf waitBlocks) = .ok waitChain ∧
    ∀ fuel chain, findControlFlow fuel (settleFunction (fun x => if x = 31 then some false else none)
      (functionOf waitBlocks)) ≠ .ok chain := by
  refine ⟨wait_found, fun fuel chain h => ?_⟩
  have settled : settleFunction (fun x => if x = 31 then some false else none) (functionOf waitBlocks) = functionOf [
      emptyBlock 30 (some (.OpLoopMerge ⟨⟨33⟩, ⟨32⟩, ⟨false, true, false, none⟩⟩)) (.OpBranch ⟨⟨31⟩⟩),
      emptyBlock 31 none (.OpBranch ⟨⟨33⟩⟩), emptyBlock 32 none (.OpBranch ⟨⟨30⟩⟩), emptyBlock 33 none (.OpReturn {}) ] := rfl
  rw [settled] at h
  obtain ⟨s, first, more, hb, -, hs, he, -, -⟩ := C30_accepted_iff.mp ⟨fuel, h⟩
  cases hb
  replace hs := (spelt_iff s _ _).mp hs
  cases s with
  | done => cases he
  | exit => obtain ⟨_, _, _, _, h, -⟩ := hs; cases h
  | ret id => cases he; cases hs.2
  | atom id => cases he; obtain ⟨⟨_, h, -⟩, -⟩ := hs; cases h
  | sel id => cases he; obtain ⟨_, _, _, h, -⟩ := hs; cases h
  | loop id body hint rest =>
    cases he
    obtain ⟨t, m, h, -, he, hs, -⟩ := hs
    cases h
    cases body with
    | done => cases he
    | exit => cases he; obtain ⟨_, _, _, _, -, -, h, -⟩ := hs; cases h
    | ret id => cases hs.1
    | sel id => cases he; obtain ⟨_, _, _, h, -⟩ := hs; cases h
    | loop id => cases he; obtain ⟨_, _, h, -⟩ := hs; cases h
    | atom id rest =>
      cases he
      obtain ⟨⟨_, h, he⟩, hs⟩ := hs
      cases h
      cases rest with
      | done => cases he
      | exit => cases he; obtain ⟨_, _, _, _, -, -, h, -⟩ := hs; cases h
      | ret id => cases hs.1
      | sel id => cases he; obtain ⟨_, _, _, h, -⟩ := hs; cases h
      | loop id => cases he; obtain ⟨_, _, h, -⟩ := hs; cases h
      | atom id => cases he; obtain ⟨⟨_, h, -⟩, -⟩ := hs; cases h

/-! ### Examples -/

/-- The rounds where 4 is false -/
def roundsLess : ControlFlowChain :=
  .Block [.Atom ⟨9⟩,
    .Loop ⟨10⟩ (.Selection ⟨11⟩ (.Block [.Atom ⟨12⟩, .Atom ⟨14⟩]) .Break SelectionControl.default none) LoopControl.default none,
    .Atom ⟨20⟩]

/-- Where the condition 4 does not hold at the start, it never holds; what the condition 5 of the loop is is not known. -/
example : let known := valueAccess.specialise roundsBlocks fun cond => numbers.machine.holds cond (started 0).state
    known 12 = some false ∧ known 11 = none ∧ settle known roundsChain = roundsLess ∧
    (runMachine numbers.machine roundsBlocks 20 ⟨9⟩ (started 0)).2.2 = .returned := by
  refine ⟨by decide, by decide, by rfl, by rfl⟩

example : ∃ fuel f, f = settleFunction (valueAccess.specialise roundsBlocks fun cond =>
      numbers.machine.holds cond (started 0).state) (shader roundsBlocks) ∧ findControlFlow fuel f = .ok roundsLess ∧
    ∀ n, runMachine numbers.machine f.blocks n ⟨9⟩ (started 0) = runMachine numbers.machine roundsBlocks n ⟨9⟩ (started 0) := by
  obtain ⟨⟨fuel, hf⟩, hr⟩ := C124_specialised rounds_found (C115_right numbers) ⟨9⟩ (started 0)
  exact ⟨fuel, _, rfl, hf, hr⟩

/-- One arm of the sample is left, and nothing is known about the loop in it. -/
example : ∃ fuel, findControlFlow fuel (settleFunction (fun x => if x = 10 then some false else none)
    (functionOf sampleBlocks)) = .ok (.Block [.Atom ⟨10⟩,
      .Loop ⟨12⟩ (.Selection ⟨13⟩ (.Selection ⟨14⟩ (.Block [.Atom ⟨15⟩]) .Continue ⟨false, false⟩ none)
        .Break ⟨false, false⟩ none) ⟨true, false, false, none⟩ none, .Atom ⟨16⟩, .Atom ⟨19⟩]) := by
  refine C124_flow sample_found ?_
  rintro ⟨y⟩ inner hint w hp hk
  obtain ⟨b, t, e, w, hb, he, -⟩ := break_merge sample_found hp
  simp only at hk
  split at hk
  · rename_i hy
    cases hy
    cases hb
    cases he
  · cases hk

/-- The loop is always continued early: what comes after that in it is gone. -/
example : ∃ fuel, findControlFlow fuel (settleFunction (fun x => if x = 14 then some false else none)
    (functionOf sampleBlocks)) = .ok (.Block [.Selection ⟨10⟩ (.Block [.Atom ⟨11⟩])
      (.Block [.Loop ⟨12⟩ (.Selection ⟨13⟩ (.Block [.Atom ⟨14⟩]) .Break ⟨false, false⟩ none) ⟨true, false, false, none⟩ none,
        .Atom ⟨16⟩]) ⟨true, false⟩ (some ⟨3, 4⟩), .Atom ⟨19⟩]) := by
  refine C124_flow sample_found ?_
  rintro ⟨y⟩ inner hint w hp hk
  obtain ⟨b, t, e, w, hb, he, l, hl, t', hint, hle⟩ := break_merge sample_found hp
  simp only at hk
  split at hk
  · rename_i hy
    cases hy
    cases hb
    cases he
    revert hle
    revert l
    simp only [functionOf, sampleBlocks, List.forall_mem_cons, List.not_mem_nil, false_imp_iff, implies_true, and_true]
    simp [emptyBlock, endOf]
  · cases hk

/-- Both exits of its loop are never taken: it goes on forever. -/
example : ∃ fuel, findControlFlow fuel (settleFunction (fun x => if x = 13 ∨ x = 14 then some true else none)
    (functionOf sampleBlocks)) = .ok (.Block [.Selection ⟨10⟩ (.Block [.Atom ⟨11⟩])
      (.Block [.Loop ⟨12⟩ (.Block [.Atom ⟨13⟩, .Atom ⟨14⟩, .Atom ⟨15⟩]) ⟨true, false, false, none⟩ none, .Atom ⟨16⟩])
      ⟨true, false⟩ (some ⟨3, 4⟩), .Atom ⟨19⟩]) := by
  refine C124_flow sample_found ?_
  rintro ⟨y⟩ inner hint w hp hk
  simp only at hk
  split at hk <;> cases hk

end Magma.Props
