import Verif.Proofs.ControlFlow
import Verif.Spec.Flow
/-! Fuel, errors and termination of the search. -/

namespace Magma
open Spec
variable {X : Type}

/-- One unfolding of the search -/
def searchStep (get : BlockId → Option (BasicBlock X))
    (search : BlockId → FlowList → CF (ControlFlowChain × Continue)) (id : BlockId) (fl : FlowList) :
    CF (ControlFlowChain × Continue) :=
  if fl.merges id then .ok (.Block [], .Next id)
  else
    match get id with
    | none => .error (.err (.UnknownBlockId id))
    | some b =>
      match b.branch, b.merge with
      | .OpReturn _, _ => .ok (.Atom id, .Return)
      | .OpBranch op, none => do
        let r ← search ⟨op.target_label.val⟩ fl
        return (.block [.Atom id, r.1], r.2)
      | .OpBranch _, some (.OpSelectionMerge _) => .error (.panic "not yet implemented")
      | .OpBranch op, some (.OpLoopMerge lm) => do
        let r ← search ⟨op.target_label.val⟩ (.Loop id ⟨lm.merge_block.val⟩ lm.loop_control :: fl)
        if r.2 = .Next id then do
          let r' ← search ⟨lm.merge_block.val⟩ fl
          return (.block [.Loop id r.1 lm.loop_control none, r'.1], r'.2)
        else .error (.err (.InvalidConvergePrediction .Loop id))
      | .OpBranchConditional _, some (.OpLoopMerge _) => .error (.panic "not yet implemented")
      | .OpBranchConditional op, some (.OpSelectionMerge sm) => do
        let r1 ← search ⟨op.true_label.val⟩ (.If ⟨sm.merge_block.val⟩ sm.selection_control :: fl)
        let r2 ← search ⟨op.false_label.val⟩ (.If ⟨sm.merge_block.val⟩ sm.selection_control :: fl)
        if r1.2 = r2.2 ∧ r1.2 = .Next ⟨sm.merge_block.val⟩ then do
          let r3 ← search ⟨sm.merge_block.val⟩ fl
          return (.block [.Selection id r1.1 r2.1 sm.selection_control op.weights, r3.1], r3.2)
        else .error (.err (.InvalidConvergePrediction .Selection id))
      | .OpBranchConditional op, none =>
        match fl.innermostLoop with
        | none => .error (.err (.CouldNotPredictConverge id))
        | some (head, merge) =>
          if (⟨op.false_label.val⟩ : BlockId) = merge ∨ (⟨op.false_label.val⟩ : BlockId) = head then do
            let r ← search ⟨op.true_label.val⟩ fl
            if r.2 = .Next head then
              return (.Selection id r.1 (if (⟨op.false_label.val⟩ : BlockId) = merge then .Break else .Continue)
                SelectionControl.default op.weights, r.2)
            else .error (.err (.InvalidConvergePrediction .Loop id))
          else .error (.err (.CouldNotPredictConverge id))

theorem searchBlock_succ (map : BlockMap X) (fuel : Nat) (id : BlockId) (fl : FlowList) :
    searchBlock map (fuel + 1) id fl = searchStep map.get (searchBlock map fuel) id fl := by
  rw [searchBlock, searchStep]
  by_cases hm : fl.merges id = true
  · rw [if_pos hm, if_pos hm]; rfl
  · rw [if_neg hm, if_neg hm]
    cases map.get id with
    | none => rfl
    | some b =>
      obtain ⟨label, code, merge, branch⟩ := b
      cases branch with
      | OpReturn r => rfl
      | OpBranch op =>
        cases merge with
        | none => rfl
        | some mg => cases mg <;> rfl
      | OpBranchConditional op =>
        cases merge with
        | some mg => cases mg <;> rfl
        | none =>
          simp only
          cases fl.innermostLoop with
          | none => rfl
          | some hd => rfl

abbrev Diverges {α : Type} (x : CF α) : Prop := x = .error .diverge

theorem bind_mono {α β : Type} {x x' : CF α} {f f' : α → CF β} (hx : ¬ Diverges x → x' = x)
    (hf : ∀ a, x = .ok a → ¬ Diverges (f a) → f' a = f a) (h : ¬ Diverges (x >>= f)) :
    (x' >>= f') = (x >>= f) := by
  cases x with
  | error e =>
    rw [hx (fun hd => h (by rw [hd]; rfl))]
    rfl
  | ok a =>
    rw [hx (fun hd => by cases hd), cok_bind, cok_bind]
    exact hf a rfl h

theorem searchStep_mono {get : BlockId → Option (BasicBlock X)}
    {s s' : BlockId → FlowList → CF (ControlFlowChain × Continue)} {id : BlockId} {fl : FlowList}
    (hs : ∀ id fl, ¬ Diverges (s id fl) → s' id fl = s id fl)
    (h : ¬ Diverges (searchStep get s id fl)) : searchStep get s' id fl = searchStep get s id fl := by
  rw [searchStep] at h
  rw [searchStep, searchStep]
  by_cases hm : fl.merges id = true
  · rw [if_pos hm, if_pos hm]
  · rw [if_neg hm] at h
    rw [if_neg hm, if_neg hm]
    cases hg : get id with
    | none => rfl
    | some b =>
      rw [hg] at h
      obtain ⟨label, code, merge, branch⟩ := b
      cases branch with
      | OpReturn r => rfl
      | OpBranch op =>
        cases merge with
        | none => exact bind_mono (hs _ _) (fun _ _ _ => rfl) h
        | some mg =>
          cases mg with
          | OpSelectionMerge _ => rfl
          | OpLoopMerge lm =>
            refine bind_mono (hs _ _) (fun r _ hr => ?_) h
            by_cases hn : r.2 = .Next id
            · rw [if_pos hn] at hr
              rw [if_pos hn, if_pos hn]
              exact bind_mono (hs _ _) (fun _ _ _ => rfl) hr
            · rw [if_neg hn, if_neg hn]
      | OpBranchConditional op =>
        cases merge with
        | some mg =>
          cases mg with
          | OpLoopMerge _ => rfl
          | OpSelectionMerge sm =>
            refine bind_mono (hs _ _) (fun r1 _ hr => ?_) h
            refine bind_mono (hs _ _) (fun r2 _ hr => ?_) hr
            by_cases hn : r1.2 = r2.2 ∧ r1.2 = .Next ⟨sm.merge_block.val⟩
            · rw [if_pos hn] at hr
              rw [if_pos hn, if_pos hn]
              exact bind_mono (hs _ _) (fun _ _ _ => rfl) hr
            · rw [if_neg hn, if_neg hn]
        | none =>
          simp only at h ⊢
          cases hi : fl.innermostLoop with
          | none => rfl
          | some hd =>
            obtain ⟨head, merge⟩ := hd
            simp only [hi] at h ⊢
            by_cases hb : (⟨op.false_label.val⟩ : BlockId) = merge ∨ (⟨op.false_label.val⟩ : BlockId) = head
            · rw [if_pos hb] at h
              rw [if_pos hb, if_pos hb]
              exact bind_mono (hs _ _) (fun _ _ _ => rfl) h
            · rw [if_neg hb, if_neg hb]

theorem searchBlock_mono_succ {map : BlockMap X} : ∀ (fuel : Nat) (id : BlockId) (fl : FlowList),
    ¬ Diverges (searchBlock map fuel id fl) →
    searchBlock map (fuel + 1) id fl = searchBlock map fuel id fl := by
  intro fuel
  induction fuel with
  | zero => intro id fl h; exact absurd rfl h
  | succ fuel ih =>
    intro id fl h
    rw [searchBlock_succ] at h
    rw [searchBlock_succ, searchBlock_succ]
    exact searchStep_mono ih h

/-- More fuel does not change an outcome. -/
theorem searchBlock_mono {map : BlockMap X} {fuel fuel' : Nat} (hf : fuel ≤ fuel') {id : BlockId}
    {fl : FlowList} (h : ¬ Diverges (searchBlock map fuel id fl)) :
    searchBlock map fuel' id fl = searchBlock map fuel id fl := by
  obtain ⟨k, rfl⟩ : ∃ k, fuel' = fuel + k := ⟨fuel' - fuel, by omega⟩
  clear hf
  induction k with
  | zero => rfl
  | succ k ih =>
    rw [← Nat.add_assoc, searchBlock_mono_succ _ _ _ (by rw [ih]; exact h)]
    exact ih

theorem findControlFlow_mono {decl : FunctionDefinition X} {fuel fuel' : Nat} (hf : fuel ≤ fuel')
    (h : ¬ Diverges (findControlFlow fuel decl)) :
    findControlFlow fuel' decl = findControlFlow fuel decl := by
  refine bind_mono (fun _ => rfl) (fun map _ h => ?_) h
  cases hb : decl.blocks with
  | nil => rfl
  | cons b bs =>
    simp only [hb] at h ⊢
    exact bind_mono (fun h => searchBlock_mono hf h) (fun _ _ _ => rfl) h

theorem Found.unique {map : BlockMap X} {id : BlockId} {fl : FlowList} {c c' : ControlFlowChain}
    {n n' : Continue} (h : Found map.get id fl c n) (h' : Found map.get id fl c' n') :
    c = c' ∧ n = n' := by
  obtain ⟨f, h⟩ := search_of_found h
  obtain ⟨f', h'⟩ := search_of_found h'
  have := (h (f + f') (by omega)).symm.trans (h' (f + f') (by omega))
  cases this
  exact ⟨rfl, rfl⟩

/-! ### Errors -/

/-- A block the search gives up at with a panic -/
def Unsupported (b : BasicBlock X) : Prop :=
  (∃ op lm, b.branch = .OpBranchConditional op ∧ b.merge = some (.OpLoopMerge lm)) ∨
  (∃ op sm, b.branch = .OpBranch op ∧ b.merge = some (.OpSelectionMerge sm))

/-- A block names another block, as the target of a branch or as the block where a construct merges. -/
def Names (b : BasicBlock X) (t : BlockId) : Prop := t.val ∈ (endOf b).names

/-- Why the search fails -/
def Reason (get : BlockId → Option (BasicBlock X)) (id : BlockId) : Fault ControlFlowError → Prop
  | .diverge => True
  | .panic _ => ∃ t b, get t = some b ∧ Unsupported b
  | .err (.UnknownBlockId t) => get t = none ∧ (t = id ∨ ∃ s b, get s = some b ∧ Names b t)
  | .err (.CouldNotPredictConverge t) =>
    ∃ b op, get t = some b ∧ b.branch = .OpBranchConditional op ∧ b.merge = none
  | .err (.InvalidConvergePrediction .Selection t) =>
    ∃ b op sm, get t = some b ∧ b.branch = .OpBranchConditional op ∧ b.merge = some (.OpSelectionMerge sm)
  | .err (.InvalidConvergePrediction .Loop t) =>
    ∃ b, get t = some b ∧ ((∃ op lm, b.branch = .OpBranch op ∧ b.merge = some (.OpLoopMerge lm)) ∨
      (∃ op, b.branch = .OpBranchConditional op ∧ b.merge = none))
  | .err _ => False

theorem Reason.of_named {get : BlockId → Option (BasicBlock X)} {id t : BlockId} {b : BasicBlock X}
    {e : Fault ControlFlowError} (hg : get id = some b) (hn : Names b t) (h : Reason get t e) :
    Reason get id e := by
  cases e with
  | diverge => trivial
  | panic s => exact h
  | err e =>
    cases e with
    | UnknownBlockId t' =>
      refine ⟨h.1, ?_⟩
      rcases h.2 with rfl | h
      · exact .inr ⟨id, b, hg, hn⟩
      · exact .inr h
    | InvalidConvergePrediction ty t => cases ty <;> exact h
    | _ => exact h

theorem search_reason {map : BlockMap X} : ∀ {fuel : Nat} {id : BlockId} {fl : FlowList}
    {e : Fault ControlFlowError}, searchBlock map fuel id fl = .error e → Reason map.get id e := by
  intro fuel
  induction fuel with
  | zero => intro id fl e h; cases h; trivial
  | succ fuel ih =>
    intro id fl e h
    rw [searchBlock_succ, searchStep] at h
    by_cases hm : fl.merges id = true
    · rw [if_pos hm] at h; cases h
    · rw [if_neg hm] at h
      cases hg : map.get id with
      | none =>
        rw [hg] at h
        cases h
        exact ⟨hg, .inl rfl⟩
      | some b =>
        simp only [hg] at h
        cases hb : b.branch with
        | OpReturn r => simp only [hb] at h; cases h
        | OpBranch op =>
          cases hmg : b.merge with
          | none =>
            have n1 : Names b ⟨op.target_label.val⟩ := by simp [Names, endOf, hb, hmg, BlockEnd.names]
            simp only [hb, hmg, cbind_error] at h
            rcases h with h | ⟨a, -, h⟩
            · exact .of_named hg n1 (ih h)
            · cases h
          | some mg =>
            cases mg with
            | OpSelectionMerge sm =>
              simp only [hb, hmg] at h
              cases h
              exact ⟨id, b, hg, .inr ⟨op, sm, hb, hmg⟩⟩
            | OpLoopMerge lm =>
              have n1 : Names b ⟨op.target_label.val⟩ := by simp [Names, endOf, hb, hmg, BlockEnd.names]
              have n2 : Names b ⟨lm.merge_block.val⟩ := by simp [Names, endOf, hb, hmg, BlockEnd.names]
              simp only [hb, hmg, cbind_error] at h
              rcases h with h | ⟨a, -, h⟩
              · exact .of_named hg n1 (ih h)
              · by_cases hn : a.2 = .Next id
                · rw [if_pos hn, cbind_error] at h
                  rcases h with h | ⟨a, -, h⟩
                  · exact .of_named hg n2 (ih h)
                  · cases h
                · rw [if_neg hn] at h
                  cases h
                  exact ⟨b, hg, .inl ⟨op, lm, hb, hmg⟩⟩
        | OpBranchConditional op =>
          cases hmg : b.merge with
          | none =>
            have n1 : Names b ⟨op.true_label.val⟩ := by simp [Names, endOf, hb, hmg, BlockEnd.names]
            simp only [hb, hmg] at h
            cases hi : fl.innermostLoop with
            | none =>
              simp only [hi] at h
              cases h
              exact ⟨b, op, hg, hb, hmg⟩
            | some hd =>
              obtain ⟨head, merge⟩ := hd
              simp only [hi] at h
              by_cases hbr : (⟨op.false_label.val⟩ : BlockId) = merge ∨ (⟨op.false_label.val⟩ : BlockId) = head
              · rw [if_pos hbr, cbind_error] at h
                rcases h with h | ⟨a, -, h⟩
                · exact .of_named hg n1 (ih h)
                · by_cases hn : a.2 = .Next head
                  · rw [if_pos hn] at h; cases h
                  · rw [if_neg hn] at h
                    cases h
                    exact ⟨b, hg, .inr ⟨op, hb, hmg⟩⟩
              · rw [if_neg hbr] at h
                cases h
                exact ⟨b, op, hg, hb, hmg⟩
          | some mg =>
            cases mg with
            | OpLoopMerge lm =>
              simp only [hb, hmg] at h
              cases h
              exact ⟨id, b, hg, .inl ⟨op, lm, hb, hmg⟩⟩
            | OpSelectionMerge sm =>
              have n1 : Names b ⟨op.true_label.val⟩ := by simp [Names, endOf, hb, hmg, BlockEnd.names]
              have n2 : Names b ⟨op.false_label.val⟩ := by simp [Names, endOf, hb, hmg, BlockEnd.names]
              have n3 : Names b ⟨sm.merge_block.val⟩ := by simp [Names, endOf, hb, hmg, BlockEnd.names]
              simp only [hb, hmg, cbind_error] at h
              rcases h with h | ⟨a1, -, h | ⟨a2, -, h⟩⟩
              · exact .of_named hg n1 (ih h)
              · exact .of_named hg n2 (ih h)
              · by_cases hn : a1.2 = a2.2 ∧ a1.2 = .Next ⟨sm.merge_block.val⟩
                · rw [if_pos hn, cbind_error] at h
                  rcases h with h | ⟨a3, -, h⟩
                  · exact .of_named hg n3 (ih h)
                  · cases h
                · rw [if_neg hn] at h
                  cases h
                  exact ⟨b, op, sm, hg, hb, hmg⟩

end Magma
