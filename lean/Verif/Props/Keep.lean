import Verif.Proofs.Keep
import Verif.Props.Hoare
import Verif.Props.Own
import Verif.Props.Settle
/-! C126: the blocks that are mentioned are all that matters. -/

namespace Magma.Props
open Spec Magma.Excerpt Magma.Keep
variable {X S : Type}

theorem keep_blockOf (keep : UInt32 → Bool) (f : FunctionDefinition X) (id : BlockId) :
    blockOf (keepBlocks keep f).blocks id = if keep id.val then blockOf f.blocks id else none := by
  show (f.blocks.filter _).find? _ = _
  rw [List.find?_filter]
  unfold blockOf
  by_cases hk : keep id.val = true
  · rw [if_pos hk]
    refine congrArg (List.find? · f.blocks) (funext fun b => ?_)
    rw [Bool.eq_iff_iff]
    simp only [decide_eq_true_eq, beq_iff_eq]
    exact ⟨fun h => h.2, fun h => ⟨by rw [h]; exact hk, h⟩⟩
  · rw [if_neg hk]
    refine List.find?_eq_none.mpr fun b _ hb => ?_
    simp only [decide_eq_true_eq, beq_iff_eq] at hb
    exact hk (hb.2 ▸ hb.1)

theorem keep_nodup (keep : UInt32 → Bool) {f : FunctionDefinition X} (hn : (f.blocks.map labelId).Nodup) :
    ((keepBlocks keep f).blocks.map labelId).Nodup :=
  hn.sublist (List.filter_sublist.map _)

theorem keep_first {keep : UInt32 → Bool} {f : FunctionDefinition X} {first : BasicBlock X} {more : List (BasicBlock X)}
    (hb : f.blocks = first :: more) (hk : keep (labelId first) = true) :
    (keepBlocks keep f).blocks = first :: more.filter fun b => keep b.label.result_id.val := by
  show f.blocks.filter _ = _
  rw [hb]
  exact List.filter_cons_of_pos hk

/-- C126: where blocks other than the first are removed, the outcome is the same, or else one of these is missing. -/
theorem C126_removed {keep : UInt32 → Bool} {f : FunctionDefinition X} {first : BasicBlock X} {more : List (BasicBlock X)}
    (hb : f.blocks = first :: more) (hn : (f.blocks.map labelId).Nodup) (hk : keep (labelId first) = true) (fuel : Nat) :
    findControlFlow fuel (keepBlocks keep f) = findControlFlow fuel f ∨
    ∃ b ∈ f.blocks, keep (labelId b) = false ∧
      findControlFlow fuel (keepBlocks keep f) = .error (.err (.UnknownBlockId ⟨labelId b⟩)) := by
  obtain ⟨m, hm, hmg⟩ := build_iff _ hn
  obtain ⟨m', hm', hmg'⟩ := build_iff _ (keep_nodup keep hn)
  have hs := search_less (gone := fun x => ∃ b ∈ f.blocks, labelId b = x.val ∧ keep x.val = false) (map := m) (map' := m')
    (by
      intro id
      rw [hmg, hmg', keep_blockOf]
      split
      · exact .inl rfl
      · rename_i hki
        cases hbo : blockOf f.blocks id with
        | none => exact .inl rfl
        | some b =>
          exact .inr ⟨⟨b, (blockOf_some hbo).1, (blockOf_some hbo).2, Bool.not_eq_true _ ▸ hki⟩, rfl⟩) fuel ⟨labelId first⟩ []
  have h := hs.bind (k := fun r => match r.2 with | .Return => .ok r.1 | _ => .error (.err .Failed)) fun _ => .rfl
  have e1 : findControlFlow fuel f = searchBlock m fuel ⟨labelId first⟩ [] >>=
      fun r => match r.2 with | .Return => .ok r.1 | _ => .error (.err .Failed) := by
    rw [findControlFlow, hm, cok_bind]
    simp only [hb]
    rfl
  have e2 : findControlFlow fuel (keepBlocks keep f) = searchBlock m' fuel ⟨labelId first⟩ [] >>=
      fun r => match r.2 with | .Return => .ok r.1 | _ => .error (.err .Failed) := by
    rw [findControlFlow, hm', cok_bind]
    simp only [keep_first hb hk]
    rfl
  rw [e1, e2]
  refine h.imp id ?_
  rintro ⟨x, ⟨b, hb, hl, hg⟩, hr⟩
  refine ⟨b, hb, hl ▸ hg, ?_⟩
  rw [hl]
  exact hr

theorem first_mentioned {f : FunctionDefinition X} {fuel : Nat} {chain : ControlFlowChain}
    (h : findControlFlow fuel f = .ok chain) {first : BasicBlock X} {more : List (BasicBlock X)}
    (hb : f.blocks = first :: more) : labelId first ∈ chainIds chain := by
  obtain ⟨s, first', more', hb', hn, hs, he, hnest, rfl⟩ := C30_accepted_iff.mp ⟨fuel, h⟩
  rw [hb] at hb'
  cases hb'
  rcases Own.entry_mem he with rfl | hm
  · cases he
  · exact (val_mem (x := ⟨labelId first⟩)).mpr hm

theorem keep_accepted {keep : UInt32 → Bool} {f : FunctionDefinition X} {fuel : Nat} {chain : ControlFlowChain}
    (h : findControlFlow fuel f = .ok chain) (hk : ∀ x ∈ chainIds chain, keep x = true) :
    findControlFlow fuel (keepBlocks keep f) = .ok chain := by
  have h1 := @first_mentioned _ f fuel chain h
  have h0 := h
  obtain ⟨s, first, more, hb, hn, hs, he, hnest, rfl⟩ := C30_accepted_iff.mp ⟨fuel, h⟩
  have hkf := hk _ (h1 hb)
  obtain ⟨fuel', h'⟩ : ∃ fuel', findControlFlow fuel' (keepBlocks keep f) = .ok s.toChain := by
    refine C30_accepted_iff.mpr ⟨s, first, _, keep_first hb hkf, keep_nodup keep hn, (spelt_iff _ _ _).mpr ?_, he, hnest, rfl⟩
    refine spelt_sub ?_ ((spelt_iff s _ _).mp hs)
    intro x hx e hxe
    obtain ⟨b, hbo, hbe⟩ := endsOf_iff.mp hxe
    refine endsOf_iff.mpr ⟨b, ?_, hbe⟩
    rw [keep_blockOf, if_pos (hk _ (val_mem.mpr hx))]
    exact hbo
  rcases C126_removed hb hn hkf fuel with e | ⟨b, hbm, hkb, e⟩
  · rw [e, h0]
  · exfalso
    have a1 := findControlFlow_mono (Nat.le_max_left fuel fuel') (decl := keepBlocks keep f) (by rw [e]; nofun)
    have a2 := findControlFlow_mono (Nat.le_max_right fuel fuel') (decl := keepBlocks keep f) (by rw [h']; nofun)
    rw [a1, e, h'] at a2
    cases a2

/-- C126: the control flow that is recovered from a function is recovered from some of its blocks exactly if those include
all blocks it mentions. -/
theorem C126_exact {keep : UInt32 → Bool} {f : FunctionDefinition X} {fuel : Nat} {chain : ControlFlowChain}
    (h : findControlFlow fuel f = .ok chain) :
    findControlFlow fuel (keepBlocks keep f) = .ok chain ↔ ∀ x ∈ chainIds chain, keep x = true := by
  refine ⟨fun hg x hx => ?_, keep_accepted h⟩
  obtain ⟨b, hb, rfl⟩ := describes_ids chain (C35_blocks_and_hints hg) x hx
  exact (List.mem_filter.mp hb).2

/-- C126: where a block it mentions is missing, and the first one is not, that is the error. -/
theorem C126_missing {keep : UInt32 → Bool} {f : FunctionDefinition X} {fuel : Nat} {chain : ControlFlowChain}
    (h : findControlFlow fuel f = .ok chain) {first : BasicBlock X} {more : List (BasicBlock X)}
    (hb : f.blocks = first :: more) (hk : keep (labelId first) = true) {y : UInt32} (hy : y ∈ chainIds chain)
    (hky : keep y = false) :
    ∃ x ∈ chainIds chain, keep x = false ∧ findControlFlow fuel (keepBlocks keep f) = .error (.err (.UnknownBlockId ⟨x⟩)) := by
  obtain ⟨s, first', more', hb', hn, -⟩ := C30_accepted_iff.mp ⟨fuel, h⟩
  have hall := keep_accepted (keep := fun x => keep x || decide (x ∈ chainIds chain)) h fun x hx => by simp [hx]
  have htwo : keepBlocks keep (keepBlocks (fun x => keep x || decide (x ∈ chainIds chain)) f) = keepBlocks keep f := by
    refine congrArg (FunctionDefinition.mk f.function f.parameters) ?_
    show (f.blocks.filter _).filter _ = f.blocks.filter _
    rw [List.filter_filter]
    refine List.filter_congr fun b _ => ?_
    cases hb : keep b.label.result_id.val <;> simp [hb]
  have hkf : (keep (labelId first) || decide (labelId first ∈ chainIds chain)) = true := by rw [hk]; rfl
  rcases C126_removed (keep := keep) (keep_first (keep := fun x => keep x || decide (x ∈ chainIds chain)) hb hkf)
    (keep_nodup _ hn) hk fuel with e | ⟨b, hbm, hkb, e⟩
  · rw [htwo, hall] at e
    have := (C126_exact h).mp e y hy
    rw [hky] at this
    cases this
  · rw [htwo] at e
    refine ⟨labelId b, ?_, hkb, e⟩
    have hm := (List.mem_filter.mp hbm).2
    change (keep (labelId b) || decide (labelId b ∈ chainIds chain)) = true at hm
    rw [hkb, Bool.false_or] at hm
    exact of_decide_eq_true hm

/-- C126: and with all blocks that are mentioned, every execution is the same. -/
theorem C126_computes {keep : UInt32 → Bool} {f : FunctionDefinition X} {fuel : Nat} {chain : ControlFlowChain}
    (h : findControlFlow fuel f = .ok chain) {first : BasicBlock X} {more : List (BasicBlock X)}
    (hb : f.blocks = first :: more) (hk : ∀ x ∈ chainIds chain, keep x = true) (M : Machine X S) (n : Nat) (c : Config S) :
    runMachine M (keepBlocks keep f).blocks n ⟨labelId first⟩ c = runMachine M f.blocks n ⟨labelId first⟩ c := by
  have hg := keep_accepted h hk
  have hf := keep_first hb (hk _ (first_mentioned h hb))
  refine run_more ?_ n _ c ?_
  · intro id b hbo
    rw [keep_blockOf] at hbo
    split at hbo
    · exact hbo
    · cases hbo
  · rw [← C92_meaning hg hf]
    exact run_not_stuck hg M n c

/-! ### Examples -/

/-- Where block 10 of the sample always goes to block 12, block 11 is not mentioned any more and can be removed. -/
example : ∃ fuel chain, chainIds chain = [10, 12, 13, 14, 15, 16, 19] ∧
    findControlFlow fuel (keepBlocks (· != 11) (settleFunction (fun x => if x = 10 then some false else none)
      (functionOf sampleBlocks))) = .ok chain := by
  obtain ⟨fuel, h⟩ := C124_flow (known := fun x => if x = 10 then some false else none) sample_found (by
    intro y inner hint w hp
    unfold sampleChain at hp
    repeat' first | cases ‹_ ∈ _ :: _› | cases ‹_ ∈ []› | cases ‹PartOf _ _›
    decide)
  exact ⟨fuel, _, by rfl, (C126_exact h).mpr (by decide)⟩

/-- Without block 16 it is missing. -/
example : ∃ x ∈ chainIds sampleChain, (x != 16) = false ∧
    findControlFlow 9 (keepBlocks (· != 16) (functionOf sampleBlocks)) = .error (.err (.UnknownBlockId ⟨x⟩)) :=
  C126_missing sample_found rfl rfl (y := 16) (by decide) rfl

/-- A loop that never ends: what comes after it is mentioned, and cannot be removed, even if nothing comes there. -/
def onwardBlocks : List (BasicBlock Empty) :=
  [ emptyBlock 10 (some (.OpLoopMerge ⟨⟨12⟩, ⟨11⟩, LoopControl.default⟩)) (.OpBranch ⟨⟨11⟩⟩),
    emptyBlock 11 none (.OpBranch ⟨⟨10⟩⟩), emptyBlock 12 none (.OpReturn {}), emptyBlock 13 none (.OpReturn {}) ]

theorem onward_found : findControlFlow 9 (functionOf onwardBlocks) =
    .ok (.Block [.Loop ⟨10⟩ (.Block [.Atom ⟨11⟩]) LoopControl.default none, .Atom ⟨12⟩]) := by rfl

example : findControlFlow 9 (keepBlocks (· != 13) (functionOf onwardBlocks)) =
    .ok (.Block [.Loop ⟨10⟩ (.Block [.Atom ⟨11⟩]) LoopControl.default none, .Atom ⟨12⟩]) ∧
    findControlFlow 9 (keepBlocks (· != 12) (functionOf onwardBlocks)) ≠
      .ok (.Block [.Loop ⟨10⟩ (.Block [.Atom ⟨11⟩]) LoopControl.default none, .Atom ⟨12⟩]) ∧
    ∀ {S : Type} (M : Machine Empty S) n c, runMachine M (keepBlocks (· != 13) (functionOf onwardBlocks)).blocks n ⟨10⟩ c =
      runMachine M onwardBlocks n ⟨10⟩ c :=
  ⟨(C126_exact onward_found).mpr (by decide), fun h => absurd ((C126_exact onward_found).mp h) (by decide),
    fun M n c => C126_computes onward_found rfl (by decide) M n c⟩

/-- Without blocks 12 and 13 -/
example : findControlFlow 9 (keepBlocks (· < 12) (functionOf onwardBlocks)) = findControlFlow 9 (functionOf onwardBlocks) ∨
    ∃ b ∈ onwardBlocks, decide (labelId b < 12) = false ∧
      findControlFlow 9 (keepBlocks (· < 12) (functionOf onwardBlocks)) = .error (.err (.UnknownBlockId ⟨labelId b⟩)) :=
  C126_removed rfl (by decide) rfl 9

end Magma.Props
