import Verif.Proofs.Flow
import Verif.Spec.Rename
/-! The search commutes with renaming. -/

namespace Magma
open Spec
variable {X Y : Type}

/-- Rename a block id. -/
def reId (σ : UInt32 → UInt32) (id : BlockId) : BlockId := ⟨σ id.val⟩

/-- Rename where the search goes on. -/
def reNext (σ : UInt32 → UInt32) : Continue → Continue
  | .Next id => .Next (reId σ id)
  | .Return => .Return

/-- Rename a construct. -/
def reConverge (σ : UInt32 → UInt32) : Converge → Converge
  | .If m h => .If (reId σ m) h
  | .Loop a m h => .Loop (reId σ a) (reId σ m) h

/-- Rename a fault. -/
def reFault (σ : UInt32 → UInt32) : Fault ControlFlowError → Fault ControlFlowError
  | .err e => .err (renameError σ e)
  | .panic s => .panic s
  | .diverge => .diverge

/-- Rename the result of a search. -/
def reResult (σ : UInt32 → UInt32) : CF (ControlFlowChain × Continue) → CF (ControlFlowChain × Continue)
  | .ok (c, n) => .ok (renameChain σ c, reNext σ n)
  | .error e => .error (reFault σ e)

theorem renameChains_append (σ : UInt32 → UInt32) (as bs : List ControlFlowChain) :
    renameChains σ (as ++ bs) = renameChains σ as ++ renameChains σ bs := by
  induction as with
  | nil => rfl
  | cons a as ih => simp only [List.cons_append, renameChains, ih]

theorem renameChains_mergeAll (σ : UInt32 → UInt32) (cs : List ControlFlowChain) :
    renameChains σ (ControlFlowChain.mergeAll cs) = ControlFlowChain.mergeAll (renameChains σ cs) := by
  induction cs with
  | nil => rfl
  | cons c cs ih =>
    cases c <;> simp only [ControlFlowChain.mergeAll, renameChains, renameChain, renameChains_append, ih]

theorem renameChain_block2 (σ : UInt32 → UInt32) (a b : ControlFlowChain) :
    renameChain σ (.block [a, b]) = .block [renameChain σ a, renameChain σ b] := by
  simp only [ControlFlowChain.block, renameChain, renameChains_mergeAll, renameChains]

section
variable {σ : UInt32 → UInt32} (hσ : ∀ a b, σ a = σ b → a = b)
include hσ

theorem reId_inj {a b : BlockId} : reId σ a = reId σ b ↔ a = b := by
  constructor
  · intro h
    obtain ⟨a⟩ := a
    obtain ⟨b⟩ := b
    rw [hσ a b (congrArg BlockId.val h)]
  · intro h; rw [h]

theorem reNext_inj {a b : Continue} : reNext σ a = reNext σ b ↔ a = b := by
  cases a <;> cases b <;> simp [reNext, reId_inj hσ]

theorem merges_rename (fl : FlowList) (id : BlockId) :
    FlowList.merges (fl.map (reConverge σ)) (reId σ id) = fl.merges id := by
  induction fl with
  | nil => rfl
  | cons c fl ih =>
    cases c <;> simp only [List.map_cons, reConverge, FlowList.merges, reId_inj hσ, ih]

omit hσ in
theorem innermostLoop_rename (fl : FlowList) : FlowList.innermostLoop (fl.map (reConverge σ)) =
    fl.innermostLoop.map fun p => (reId σ p.1, reId σ p.2) := by
  induction fl with
  | nil => rfl
  | cons c fl ih =>
    cases c with
    | If m h => simp only [List.map_cons, reConverge, FlowList.innermostLoop, ih]
    | Loop a m h => rfl

theorem endStep_rename {s s' : BlockId → FlowList → CF (ControlFlowChain × Continue)}
    (hs : ∀ id fl, s' (reId σ id) (fl.map (reConverge σ)) = reResult σ (s id fl)) (id : BlockId) (fl : FlowList)
    (e : Option BlockEnd) : endStep s' (reId σ id) (fl.map (reConverge σ)) (e.map (BlockEnd.rename σ)) =
      reResult σ (endStep s id fl e) := by
  have hs' : ∀ (t : UInt32) fl, s' ⟨σ t⟩ (fl.map (reConverge σ)) = reResult σ (s ⟨t⟩ fl) := fun t fl => hs ⟨t⟩ fl
  have hl : ∀ (t m : UInt32) h fl, s' ⟨σ t⟩ (.Loop (reId σ id) ⟨σ m⟩ h :: fl.map (reConverge σ)) =
      reResult σ (s ⟨t⟩ (.Loop id ⟨m⟩ h :: fl)) := fun t m h fl => hs ⟨t⟩ (.Loop id ⟨m⟩ h :: fl)
  have hi : ∀ (t m : UInt32) h fl, s' ⟨σ t⟩ (.If ⟨σ m⟩ h :: fl.map (reConverge σ)) =
      reResult σ (s ⟨t⟩ (.If ⟨m⟩ h :: fl)) := fun t m h fl => hs ⟨t⟩ (.If ⟨m⟩ h :: fl)
  cases e with
  | none => rfl
  | some e =>
    cases e with
    | returns => rfl
    | gotoSelection t m h => rfl
    | chooseLoop t f w m h => rfl
    | goto t =>
      simp only [Option.map_some, BlockEnd.rename, endStep, hs']
      cases s ⟨t⟩ fl with
      | error e => rfl
      | ok r =>
        simp only [reResult, cok_bind]
        show Except.ok _ = Except.ok _
        rw [renameChain_block2]
        rfl
    | gotoLoop t m h =>
      simp only [Option.map_some, BlockEnd.rename, endStep, hs', hl]
      cases s ⟨t⟩ (.Loop id ⟨m⟩ h :: fl) with
      | error e => rfl
      | ok r =>
        simp only [reResult, cok_bind]
        have hc : reNext σ r.2 = .Next (reId σ id) ↔ r.2 = .Next id := reNext_inj hσ (b := .Next id)
        by_cases hn : r.2 = .Next id
        · rw [if_pos hn, if_pos (hc.mpr hn)]
          cases s ⟨m⟩ fl with
          | error e => rfl
          | ok r' =>
            simp only [cok_bind]
            show Except.ok _ = Except.ok _
            rw [renameChain_block2]
            rfl
        · rw [if_neg hn, if_neg (fun h => hn (hc.mp h))]
          rfl
    | chooseSelection t f w m h =>
      simp only [Option.map_some, BlockEnd.rename, endStep, hs', hi]
      cases s ⟨t⟩ (.If ⟨m⟩ h :: fl) with
      | error e => rfl
      | ok r =>
        simp only [reResult, cok_bind]
        cases s ⟨f⟩ (.If ⟨m⟩ h :: fl) with
        | error e => rfl
        | ok r2 =>
          simp only [cok_bind]
          have hc : reNext σ r.2 = .Next ⟨σ m⟩ ↔ r.2 = .Next ⟨m⟩ := reNext_inj hσ (b := .Next ⟨m⟩)
          by_cases hn : r.2 = r2.2 ∧ r.2 = .Next ⟨m⟩
          · rw [if_pos hn, if_pos ⟨(reNext_inj hσ).mpr hn.1, hc.mpr hn.2⟩]
            cases s ⟨m⟩ fl with
            | error e => rfl
            | ok r' =>
              simp only [cok_bind]
              show Except.ok _ = Except.ok _
              rw [renameChain_block2]
              rfl
          · rw [if_neg hn, if_neg (fun h => hn ⟨(reNext_inj hσ).mp h.1, hc.mp h.2⟩)]
            rfl
    | choose t f w =>
      simp only [Option.map_some, BlockEnd.rename, endStep, hs', innermostLoop_rename]
      cases fl.innermostLoop with
      | none => rfl
      | some p =>
        obtain ⟨a, m⟩ := p
        simp only [Option.map_some]
        have hf : ∀ x : BlockId, (⟨σ f⟩ : BlockId) = reId σ x ↔ (⟨f⟩ : BlockId) = x := fun x => reId_inj hσ (a := ⟨f⟩)
        by_cases hx : (⟨f⟩ : BlockId) = m ∨ (⟨f⟩ : BlockId) = a
        · rw [if_pos hx, if_pos (hx.imp (hf m).mpr (hf a).mpr)]
          cases s ⟨t⟩ fl with
          | error e => rfl
          | ok r =>
            simp only [reResult, cok_bind]
            have hc : reNext σ r.2 = .Next (reId σ a) ↔ r.2 = .Next a := reNext_inj hσ (b := .Next a)
            by_cases hn : r.2 = .Next a
            · rw [if_pos hn, if_pos (hc.mpr hn)]
              by_cases hb : (⟨f⟩ : BlockId) = m
              · rw [if_pos hb, if_pos ((hf m).mpr hb)]
                rfl
              · rw [if_neg hb, if_neg (fun h => hb ((hf m).mp h))]
                rfl
            · rw [if_neg hn, if_neg (fun h => hn (hc.mp h))]
              rfl
        · rw [if_neg hx, if_neg (fun h => hx (h.imp (hf m).mp (hf a).mp))]
          rfl

theorem searchBlock_rename {map : BlockMap X} {map' : BlockMap Y}
    (hm : ∀ id, (map'.get (reId σ id)).map endOf = ((map.get id).map endOf).map (BlockEnd.rename σ)) :
    ∀ fuel id fl, searchBlock map' fuel (reId σ id) (fl.map (reConverge σ)) = reResult σ (searchBlock map fuel id fl) := by
  intro fuel
  induction fuel with
  | zero => intros; rfl
  | succ fuel ih =>
    intro id fl
    rw [searchBlock_succ, searchBlock_succ, searchStep_eq, searchStep_eq, merges_rename hσ]
    by_cases h : fl.merges id = true
    · rw [if_pos h, if_pos h]
      rfl
    · rw [if_neg h, if_neg h, hm, endStep_rename hσ ih]

theorem find_rename {f : FunctionDefinition X} {g : FunctionDefinition Y}
    (h : g.blocks.map (fun b => (labelId b, endOf b)) =
      f.blocks.map (fun b => (σ (labelId b), (endOf b).rename σ))) (fuel : Nat) :
    findControlFlow fuel g = renameOutcome σ (findControlFlow fuel f) := by
  have key : ∀ (bs : List (BasicBlock X)) (cs : List (BasicBlock Y)) (m : BlockMap X) (m' : BlockMap Y),
      cs.map (fun b => (labelId b, endOf b)) = bs.map (fun b => (σ (labelId b), (endOf b).rename σ)) →
      (∀ id, (m'.get (reId σ id)).map endOf = ((m.get id).map endOf).map (BlockEnd.rename σ)) →
      (∃ e, buildBlockMap bs m = .error e ∧ buildBlockMap cs m' = .error (reFault σ e)) ∨
      (∃ n n', buildBlockMap bs m = .ok n ∧ buildBlockMap cs m' = .ok n' ∧
        ∀ id, (n'.get (reId σ id)).map endOf = ((n.get id).map endOf).map (BlockEnd.rename σ)) := by
    intro bs
    induction bs with
    | nil =>
      intro cs m m' h hm
      cases cs with
      | nil => exact .inr ⟨m, m', rfl, rfl, hm⟩
      | cons c cs => cases h
    | cons b bs ih =>
      intro cs m m' h hm
      cases cs with
      | nil => cases h
      | cons c cs =>
        simp only [List.map_cons, List.cons.injEq, Prod.mk.injEq] at h
        obtain ⟨⟨hl, he⟩, h⟩ := h
        have hl' : c.label.result_id.val = σ b.label.result_id.val := hl
        simp only [buildBlockMap, hl']
        have hs := congrArg Option.isSome (hm ⟨b.label.result_id.val⟩)
        simp only [Option.isSome_map] at hs
        have hs : (m'.get ⟨σ b.label.result_id.val⟩).isSome = (m.get ⟨b.label.result_id.val⟩).isSome := hs
        by_cases hd : (m.get ⟨b.label.result_id.val⟩).isSome = true
        · rw [if_pos hd, if_pos (hs.trans hd)]
          exact .inl ⟨_, rfl, rfl⟩
        · rw [if_neg hd, if_neg (fun h => hd (hs.symm.trans h))]
          refine ih cs _ _ h fun id => ?_
          rw [get_cons, get_cons]
          have hc : reId σ id = ⟨σ b.label.result_id.val⟩ ↔ id = ⟨b.label.result_id.val⟩ :=
            reId_inj hσ (b := ⟨b.label.result_id.val⟩)
          by_cases hid : id = ⟨b.label.result_id.val⟩
          · rw [if_pos hid, if_pos (hc.mpr hid)]
            exact congrArg some he
          · rw [if_neg hid, if_neg (fun h => hid (hc.mp h))]
            exact hm id
  rcases key f.blocks g.blocks [] [] h (fun _ => rfl) with ⟨e, h1, h2⟩ | ⟨n, n', h1, h2, hn⟩
  · rw [findControlFlow, findControlFlow, h1, h2]
    cases e <;> rfl
  · rw [findControlFlow, findControlFlow, h1, h2, cok_bind, cok_bind]
    cases hf : f.blocks with
    | nil =>
      rw [hf] at h
      cases hg : g.blocks with
      | nil => rfl
      | cons c cs => rw [hg] at h; cases h
    | cons b bs =>
      rw [hf] at h
      cases hg : g.blocks with
      | nil => rw [hg] at h; cases h
      | cons c cs =>
        rw [hg] at h
        simp only [List.map_cons, List.cons.injEq, Prod.mk.injEq] at h
        have hl : c.label.result_id.val = σ b.label.result_id.val := h.1.1
        simp only [hl]
        have e := searchBlock_rename hσ hn fuel ⟨b.label.result_id.val⟩ []
        have e : searchBlock n' fuel ⟨σ b.label.result_id.val⟩ [] =
          reResult σ (searchBlock n fuel ⟨b.label.result_id.val⟩ []) := e
        rw [e]
        cases searchBlock n fuel ⟨b.label.result_id.val⟩ [] with
        | error e => cases e <;> rfl
        | ok r =>
          obtain ⟨c, n⟩ := r
          cases n <;> rfl

end
end Magma
