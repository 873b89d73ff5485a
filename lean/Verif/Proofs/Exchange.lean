import Verif.Proofs.Flow
import Verif.Spec.Exchange
import Verif.Spec.Execution
/-! The search where the targets of selections are exchanged. -/

namespace Magma
open Spec
variable {X Y : Type}

theorem turnWeights_twice (w : Option BranchWeights) : (w.map turnWeights).map turnWeights = w := by
  cases w <;> rfl

theorem turn_twice (e : BlockEnd) : e.turn.turn = e := by
  cases e <;> simp only [BlockEnd.turn, turnWeights_twice]

theorem turnAt_twice (S : UInt32 → Bool) (id : UInt32) (e : BlockEnd) : turnAt S id (turnAt S id e) = e := by
  simp only [turnAt]
  cases S id <;> simp [turn_twice]

mutual
theorem turnChain_twice (S : UInt32 → Bool) : (c : ControlFlowChain) → turnChain S (turnChain S c) = c
  | .Atom id => rfl
  | .Block chains => by simp only [turnChain, turnChains_twice S chains]
  | .Selection id left right hint weights => by
    have h1 := turnChain_twice S left
    have h2 := turnChain_twice S right
    simp only [turnChain]
    by_cases h : S id.val = true
    · rw [if_pos h, turnChain, if_pos h, h1, h2, turnWeights_twice]
    · rw [if_neg h, turnChain, if_neg h, h1, h2]
  | .Loop id inner hint weights => by simp only [turnChain, turnChain_twice S inner]
  | .Break => rfl
  | .Continue => rfl
theorem turnChains_twice (S : UInt32 → Bool) : (cs : List ControlFlowChain) → turnChains S (turnChains S cs) = cs
  | [] => rfl
  | c :: cs => by simp only [turnChains, turnChain_twice S c, turnChains_twice S cs]
end

theorem turnChains_append (S : UInt32 → Bool) (as bs : List ControlFlowChain) :
    turnChains S (as ++ bs) = turnChains S as ++ turnChains S bs := by
  induction as with
  | nil => rfl
  | cons a as ih => simp only [List.cons_append, turnChains, ih]

theorem turnChains_mergeAll (S : UInt32 → Bool) (cs : List ControlFlowChain) :
    turnChains S (ControlFlowChain.mergeAll cs) = ControlFlowChain.mergeAll (turnChains S cs) := by
  induction cs with
  | nil => rfl
  | cons c cs ih =>
    cases c with
    | Selection id l r h w =>
      simp only [ControlFlowChain.mergeAll, turnChains, turnChain, ih]
      cases S id.val <;> rfl
    | _ => simp only [ControlFlowChain.mergeAll, turnChains, turnChain, turnChains_append, ih]

theorem turnChain_block2 (S : UInt32 → Bool) (a b : ControlFlowChain) :
    turnChain S (.block [a, b]) = .block [turnChain S a, turnChain S b] := by
  simp only [ControlFlowChain.block, turnChain, turnChains_mergeAll, turnChains]

theorem endStep_turn {S : UInt32 → Bool} {s s' : BlockId → FlowList → CF (ControlFlowChain × Continue)}
    (hs : ∀ id fl c n, s id fl = .ok (c, n) → s' id fl = .ok (turnChain S c, n)) (id : BlockId) (fl : FlowList)
    (e : Option BlockEnd) (he : S id.val = true → ∀ e', e = some e' → IsSelection e') {c : ControlFlowChain} {n : Continue}
    (h : endStep s id fl e = .ok (c, n)) :
    endStep s' id fl (e.map (turnAt S id.val)) = .ok (turnChain S c, n) := by
  cases e with
  | none => cases h
  | some e =>
    by_cases hS : S id.val = true
    · obtain ⟨t, f, w, m, hint, rfl⟩ := he hS e rfl
      simp only [Option.map_some, turnAt, hS, if_true, BlockEnd.turn, endStep] at h ⊢
      cases h1 : s ⟨t⟩ (.If ⟨m⟩ hint :: fl) with
      | error x => rw [h1] at h; cases h
      | ok r1 =>
        cases h2 : s ⟨f⟩ (.If ⟨m⟩ hint :: fl) with
        | error x => rw [h1, h2] at h; cases h
        | ok r2 =>
          rw [h1, h2, cok_bind, cok_bind] at h
          rw [hs _ _ _ _ h1, hs _ _ _ _ h2, cok_bind, cok_bind]
          by_cases hn : r1.2 = r2.2 ∧ r1.2 = .Next ⟨m⟩
          · rw [if_pos hn] at h
            rw [if_pos ⟨hn.1.symm, hn.1 ▸ hn.2⟩]
            cases h3 : s ⟨m⟩ fl with
            | error x => rw [h3] at h; cases h
            | ok r3 =>
              rw [h3, cok_bind] at h
              rw [hs _ _ _ _ h3, cok_bind]
              cases h
              show Except.ok _ = Except.ok _
              rw [turnChain_block2, turnChain, if_pos hS]
          · rw [if_neg hn] at h
            cases h
    · simp only [Option.map_some, turnAt, hS]
      cases e with
      | returns => cases h; rfl
      | gotoSelection t m hint => cases h
      | chooseLoop t f w m hint => cases h
      | goto t =>
        simp only [endStep] at h ⊢
        cases h1 : s ⟨t⟩ fl with
        | error x => rw [h1] at h; cases h
        | ok r =>
          rw [h1, cok_bind] at h
          simp only [Bool.false_eq_true, if_false]
          rw [hs _ _ _ _ h1, cok_bind]
          cases h
          show Except.ok _ = Except.ok _
          rw [turnChain_block2]
          rfl
      | gotoLoop t m hint =>
        simp only [endStep, Bool.false_eq_true, if_false] at h ⊢
        cases h1 : s ⟨t⟩ (.Loop id ⟨m⟩ hint :: fl) with
        | error x => rw [h1] at h; cases h
        | ok r =>
          rw [h1, cok_bind] at h
          rw [hs _ _ _ _ h1, cok_bind]
          by_cases hn : r.2 = .Next id
          · rw [if_pos hn] at h ⊢
            cases h3 : s ⟨m⟩ fl with
            | error x => rw [h3] at h; cases h
            | ok r3 =>
              rw [h3, cok_bind] at h
              rw [hs _ _ _ _ h3, cok_bind]
              cases h
              show Except.ok _ = Except.ok _
              rw [turnChain_block2]
              rfl
          · rw [if_neg hn] at h
            cases h
      | chooseSelection t f w m hint =>
        simp only [endStep, Bool.false_eq_true, if_false] at h ⊢
        cases h1 : s ⟨t⟩ (.If ⟨m⟩ hint :: fl) with
        | error x => rw [h1] at h; cases h
        | ok r1 =>
          cases h2 : s ⟨f⟩ (.If ⟨m⟩ hint :: fl) with
          | error x => rw [h1, h2] at h; cases h
          | ok r2 =>
            rw [h1, h2, cok_bind, cok_bind] at h
            rw [hs _ _ _ _ h1, hs _ _ _ _ h2, cok_bind, cok_bind]
            by_cases hn : r1.2 = r2.2 ∧ r1.2 = .Next ⟨m⟩
            · rw [if_pos hn] at h ⊢
              cases h3 : s ⟨m⟩ fl with
              | error x => rw [h3] at h; cases h
              | ok r3 =>
                rw [h3, cok_bind] at h
                rw [hs _ _ _ _ h3, cok_bind]
                cases h
                show Except.ok _ = Except.ok _
                rw [turnChain_block2, turnChain, if_neg hS]
            · rw [if_neg hn] at h
              cases h
      | choose t f w =>
        simp only [endStep, Bool.false_eq_true, if_false] at h ⊢
        cases hl : fl.innermostLoop with
        | none => rw [hl] at h; cases h
        | some p =>
          obtain ⟨a, m⟩ := p
          rw [hl] at h
          simp only at h ⊢
          by_cases hx : (⟨f⟩ : BlockId) = m ∨ (⟨f⟩ : BlockId) = a
          · rw [if_pos hx] at h ⊢
            cases h1 : s ⟨t⟩ fl with
            | error x => rw [h1] at h; cases h
            | ok r =>
              rw [h1, cok_bind] at h
              rw [hs _ _ _ _ h1, cok_bind]
              by_cases hn : r.2 = .Next a
              · rw [if_pos hn] at h ⊢
                cases h
                show Except.ok _ = Except.ok _
                rw [turnChain, if_neg hS]
                by_cases hb : (⟨f⟩ : BlockId) = m
                · simp only [if_pos hb, turnChain]
                · simp only [if_neg hb, turnChain]
              · rw [if_neg hn] at h
                cases h
          · rw [if_neg hx] at h
            cases h

theorem searchBlock_turn {S : UInt32 → Bool} {map : BlockMap X} {map' : BlockMap Y}
    (hm : ∀ id, (map'.get id).map endOf = ((map.get id).map endOf).map (turnAt S id.val))
    (hS : ∀ id b, map.get id = some b → S id.val = true → IsSelection (endOf b)) :
    ∀ fuel id fl c n, searchBlock map fuel id fl = .ok (c, n) →
      searchBlock map' fuel id fl = .ok (turnChain S c, n) := by
  intro fuel
  induction fuel with
  | zero => intro id fl c n h; cases h
  | succ fuel ih =>
    intro id fl c n h
    rw [searchBlock_succ, searchStep_eq] at h ⊢
    by_cases hg : fl.merges id = true
    · rw [if_pos hg] at h ⊢
      cases h
      rfl
    · rw [if_neg hg] at h ⊢
      rw [hm]
      refine endStep_turn ih id fl _ (fun hs e' he => ?_) h
      cases hb : map.get id with
      | none => rw [hb] at he; cases he
      | some b =>
        rw [hb] at he
        cases he
        exact hS id b hb hs

theorem find_turn {S : UInt32 → Bool} {f : FunctionDefinition X} {g : FunctionDefinition Y}
    (h : g.blocks.map (fun b => (labelId b, endOf b)) =
      f.blocks.map (fun b => (labelId b, turnAt S (labelId b) (endOf b))))
    (hS : ∀ b ∈ f.blocks, S (labelId b) = true → IsSelection (endOf b)) {fuel : Nat} {chain : ControlFlowChain}
    (hf : findControlFlow fuel f = .ok chain) : findControlFlow fuel g = .ok (turnChain S chain) := by
  have key : ∀ (bs : List (BasicBlock X)) (cs : List (BasicBlock Y)) (m : BlockMap X) (m' : BlockMap Y),
      (∀ b ∈ bs, S (labelId b) = true → IsSelection (endOf b)) →
      cs.map (fun b => (labelId b, endOf b)) = bs.map (fun b => (labelId b, turnAt S (labelId b) (endOf b))) →
      (∀ id, (m'.get id).map endOf = ((m.get id).map endOf).map (turnAt S id.val)) →
      (∀ id b, m.get id = some b → S id.val = true → IsSelection (endOf b)) →
      ∀ n, buildBlockMap bs m = .ok n →
      ∃ n', buildBlockMap cs m' = .ok n' ∧
        (∀ id, (n'.get id).map endOf = ((n.get id).map endOf).map (turnAt S id.val)) ∧
        ∀ id b, n.get id = some b → S id.val = true → IsSelection (endOf b) := by
    intro bs
    induction bs with
    | nil =>
      intro cs m m' hbs h hm hs n hn
      cases cs with
      | nil => cases hn; exact ⟨m', rfl, hm, hs⟩
      | cons c cs => cases h
    | cons b bs ih =>
      intro cs m m' hbs h hm hs n hn
      cases cs with
      | nil => cases h
      | cons c cs =>
        simp only [List.map_cons, List.cons.injEq, Prod.mk.injEq] at h
        obtain ⟨⟨hl, he⟩, h⟩ := h
        have hl' : c.label.result_id.val = b.label.result_id.val := hl
        simp only [buildBlockMap, hl'] at hn ⊢
        have hi := congrArg Option.isSome (hm ⟨b.label.result_id.val⟩)
        simp only [Option.isSome_map] at hi
        by_cases hd : (m.get ⟨b.label.result_id.val⟩).isSome = true
        · rw [if_pos hd] at hn
          cases hn
        · rw [if_neg hd] at hn
          rw [if_neg (fun h => hd (hi.symm.trans h))]
          refine ih cs _ _ (fun b' hb' => hbs b' (.tail _ hb')) h (fun id => ?_) (fun id b' hb' hS' => ?_) n hn
          · rw [get_cons, get_cons]
            by_cases hid : id = ⟨b.label.result_id.val⟩
            · rw [if_pos hid, if_pos hid]
              subst hid
              exact congrArg some he
            · rw [if_neg hid, if_neg hid]
              exact hm id
          · rw [get_cons] at hb'
            by_cases hid : id = ⟨b.label.result_id.val⟩
            · rw [if_pos hid] at hb'
              cases hb'
              subst hid
              exact hbs b (.head _) hS'
            · rw [if_neg hid] at hb'
              exact hs id b' hb' hS'
  rw [findControlFlow] at hf ⊢
  cases hb : buildBlockMap f.blocks [] with
  | error e => rw [hb] at hf; cases hf
  | ok n =>
    obtain ⟨n', hn', hm, hs⟩ := key f.blocks g.blocks [] [] hS h (fun _ => rfl) (fun _ _ h => by cases h) n hb
    rw [hb, cok_bind] at hf
    rw [hn', cok_bind]
    cases hfb : f.blocks with
    | nil => rw [hfb] at hf; cases hf
    | cons b bs =>
      rw [hfb] at h hf
      cases hgb : g.blocks with
      | nil => rw [hgb] at h; cases h
      | cons c cs =>
        rw [hgb] at h
        simp only [List.map_cons, List.cons.injEq, Prod.mk.injEq] at h
        have hl : c.label.result_id.val = b.label.result_id.val := h.1.1
        simp only [hl]
        simp only at hf
        cases hr : searchBlock n fuel ⟨b.label.result_id.val⟩ [] with
        | error e => rw [hr] at hf; cases hf
        | ok r =>
          obtain ⟨c', k⟩ := r
          rw [hr] at hf
          rw [searchBlock_turn hm hs fuel _ _ _ _ hr]
          cases k with
          | Next id => cases hf
          | Return => cases hf; rfl

/-- Where the end of a block leads to -/
def leadsTo (d : Bool) : BlockEnd → Option UInt32
  | .goto t | .gotoLoop t _ _ | .gotoSelection t _ _ => some t
  | .choose t f _ | .chooseLoop t f _ _ _ | .chooseSelection t f _ _ _ => some (if d then t else f)
  | .returns => none

theorem runBlocks_leadsTo (blocks : List (BasicBlock X)) (d : Bool) (ds : List Bool) (id : BlockId) :
    runBlocks blocks (d :: ds) id = match (blockOf blocks id).map (fun b => leadsTo d (endOf b)) with
      | none => ([], .stuck)
      | some none => ([id], .returned)
      | some (some t) => (id :: (runBlocks blocks ds ⟨t⟩).1, (runBlocks blocks ds ⟨t⟩).2) := by
  rw [runBlocks]
  cases blockOf blocks id with
  | none => rfl
  | some b =>
    obtain ⟨label, code, merge, branch⟩ := b
    cases branch with
    | OpReturn r => rfl
    | OpBranch op =>
      cases merge with
      | none => rfl
      | some m => cases m <;> rfl
    | OpBranchConditional op =>
      cases merge with
      | none => rfl
      | some m => cases m <;> rfl

theorem endOf_turnBlock (b : BasicBlock X) : endOf (turnBlock b) = (endOf b).turn := by
  obtain ⟨label, code, merge, branch⟩ := b
  cases branch with
  | OpReturn r => rfl
  | OpBranch op =>
    cases merge with
    | none => rfl
    | some m => cases m <;> rfl
  | OpBranchConditional op =>
    cases merge with
    | none => rfl
    | some m => cases m <;> rfl

theorem turnFunction_blocks (S : UInt32 → Bool) (f : FunctionDefinition X) :
    (turnFunction S f).blocks.map (fun b => (labelId b, endOf b)) =
      f.blocks.map (fun b => (labelId b, turnAt S (labelId b) (endOf b))) := by
  simp only [turnFunction, List.map_map]
  apply List.map_congr_left
  intro b _
  simp only [Function.comp, turnAt]
  by_cases h : S (labelId b) = true
  · rw [if_pos h, if_pos h, endOf_turnBlock]
    rfl
  · rw [if_neg h, if_neg h]

theorem leadsTo_turn (d : Bool) (e : BlockEnd) : leadsTo (!d) e.turn = leadsTo d e := by
  cases e <;> cases d <;> rfl

theorem blockOf_turn {S : UInt32 → Bool} {bs : List (BasicBlock X)} {cs : List (BasicBlock Y)}
    (h : cs.map (fun b => (labelId b, endOf b)) = bs.map (fun b => (labelId b, turnAt S (labelId b) (endOf b))))
    (id : BlockId) : (blockOf cs id).map endOf = ((blockOf bs id).map endOf).map (turnAt S id.val) := by
  induction bs generalizing cs with
  | nil =>
    cases cs with
    | nil => rfl
    | cons c cs => cases h
  | cons b bs ih =>
    cases cs with
    | nil => cases h
    | cons c cs =>
      simp only [List.map_cons, List.cons.injEq, Prod.mk.injEq] at h
      obtain ⟨⟨hl, he⟩, h⟩ := h
      have hl' : c.label.result_id.val = b.label.result_id.val := hl
      simp only [blockOf, List.find?_cons, hl']
      by_cases hid : b.label.result_id.val = id.val
      · simp only [hid, beq_self_eq_true, Option.map_some, he]
        have : labelId b = id.val := hid
        rw [this]
      · have : (b.label.result_id.val == id.val) = false := by simp [hid]
        simp only [this]
        exact ih h

theorem runBlocks_turn {S : UInt32 → Bool} {bs : List (BasicBlock X)} {cs : List (BasicBlock Y)}
    (h : cs.map (fun b => (labelId b, endOf b)) = bs.map (fun b => (labelId b, turnAt S (labelId b) (endOf b))))
    (ds : List Bool) : ∀ id, runBlocks cs (turnDecisions S (runBlocks bs ds id).1 ds) id = runBlocks bs ds id := by
  induction ds with
  | nil => intro id; rfl
  | cons d ds ih =>
    intro id
    have hb := blockOf_turn h id
    have e := runBlocks_leadsTo bs d ds id
    cases hf : blockOf bs id with
    | none =>
      rw [hf] at hb e
      have hg : blockOf cs id = none := by
        cases hg : blockOf cs id with
        | none => rfl
        | some c => rw [hg] at hb; cases hb
      simp only [Option.map_none] at e
      rw [e]
      simp only [turnDecisions]
      rw [runBlocks_leadsTo, hg]
      rfl
    | some b =>
      rw [hf] at hb e
      cases hg : blockOf cs id with
      | none => rw [hg] at hb; cases hb
      | some c =>
        rw [hg] at hb
        simp only [Option.map_some, Option.some.injEq] at hb
        simp only [Option.map_some] at e
        have hd : leadsTo (if S id.val then !d else d) (endOf c) = leadsTo d (endOf b) := by
          rw [hb, turnAt]
          by_cases hs : S id.val = true
          · rw [if_pos hs, if_pos hs, leadsTo_turn]
          · rw [if_neg hs, if_neg hs]
        cases ht : leadsTo d (endOf b) with
        | none =>
          rw [ht] at e hd
          rw [e]
          simp only [turnDecisions]
          rw [runBlocks_leadsTo, hg]
          simp only [Option.map_some, hd]
        | some t =>
          rw [ht] at e hd
          rw [e]
          simp only [turnDecisions]
          rw [runBlocks_leadsTo, hg]
          simp only [Option.map_some, hd, ih]

end Magma
