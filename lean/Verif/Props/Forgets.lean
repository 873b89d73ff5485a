import Verif.Proofs.Forgets
import Verif.Props.ControlFlow
import Verif.Props.Samples
/-! C81: exactly what the recovered control flow depends on. -/

namespace Magma.Props
open Spec
variable {X Y : Type}

/-- C81: a function has the same control flow as one whose control flow is recovered exactly if it starts with the block of
the same label, has no label twice, and the blocks in the control flow end in the same way. The order of the other
blocks, what they are, the code, the conditions and the continue targets of loops are not looked at. -/
theorem C81_exact {f : FunctionDefinition X} {fuel : Nat} {chain : ControlFlowChain} {first : BasicBlock X}
    {more : List (BasicBlock X)} (hf : findControlFlow fuel f = .ok chain) (hb : f.blocks = first :: more)
    (g : FunctionDefinition Y) :
    (∃ fuel, findControlFlow fuel g = .ok chain) ↔
      (∃ first' more', g.blocks = first' :: more' ∧ labelId first' = labelId first) ∧ (g.blocks.map labelId).Nodup ∧
      ∀ id ∈ chainIds chain, (blockOf g.blocks ⟨id⟩).map endOf = (blockOf f.blocks ⟨id⟩).map endOf := by
  obtain ⟨s, first', more', hb', -, hs, he, hne, rfl⟩ := C30_accepted_iff.mp ⟨fuel, hf⟩
  rw [hb] at hb'
  obtain ⟨rfl, rfl⟩ := List.cons.inj hb'
  rw [(Program.chainIds_toChain s).1]
  constructor
  · intro h
    obtain ⟨s', first', more', hb', hn', hs', he', -, hc⟩ := C30_accepted_iff.mp h
    obtain rfl := (Forgets.chain_inj s s' _ _ _ _ hs hs' rfl).1 hc
    refine ⟨⟨first', more', hb', ?_⟩, hn', ?_⟩
    · rw [he] at he'
      injection he' with he'
      injection he' with he'
      exact he'.symm
    · intro id hid
      obtain ⟨id, hid', rfl⟩ := List.mem_map.mp hid
      exact Forgets.ends_eq s _ _ hs' hs id hid'
  · rintro ⟨⟨first', more', hb', hl⟩, hn', hends⟩
    refine C30_accepted_iff.mpr ⟨s, first', more', hb', hn', ?_, by rw [hl]; exact he, hne, rfl⟩
    exact Forgets.spelled_congr s _ _ hs fun id hid => hends id.val (List.mem_map.mpr ⟨id, hid, rfl⟩)

/-- C81: if two functions have the same control flow, their executions and how their blocks end are the same; nothing else is
determined. -/
theorem C81_determined {f : FunctionDefinition X} {g : FunctionDefinition Y} {fuel fuel' : Nat} {chain : ControlFlowChain}
    (hf : findControlFlow fuel f = .ok chain) (hg : findControlFlow fuel' g = .ok chain) {b : BasicBlock X}
    {b' : BasicBlock Y} (hb : b ∈ f.blocks) (hb' : b' ∈ g.blocks) (hl : labelId b = labelId b')
    (hc : labelId b ∈ chainIds chain) : endOf b = endOf b' := by
  obtain ⟨-, first, more, he, hn, -⟩ := C30_accepted_iff.mp ⟨fuel, hf⟩
  obtain ⟨⟨_, _, he', _⟩, hn', h⟩ := (C81_exact hf he g).mp ⟨fuel', hg⟩
  have h := h _ hc
  rw [blockOf_mem hn hb, hl, blockOf_mem hn' hb'] at h
  exact (Option.some.inj h).symm

/-- C81: the blocks in the control flow are enough: the others can be left out. -/
theorem C81_enough {f : FunctionDefinition X} {fuel : Nat} {chain : ControlFlowChain}
    (hf : findControlFlow fuel f = .ok chain) :
    ∃ fuel, findControlFlow fuel { f with blocks := f.blocks.filter fun b => (chainIds chain).contains (labelId b) } =
      .ok chain := by
  obtain ⟨s, first, more, hb, hn, hs, he, -, hc⟩ := C30_accepted_iff.mp ⟨fuel, hf⟩
  have hin : labelId first ∈ chainIds chain := by
    subst hc
    rw [(Program.chainIds_toChain s).1]
    refine List.mem_map.mpr ⟨⟨labelId first⟩, ?_, rfl⟩
    cases s <;> simp only [Program.entry, Option.some.injEq, reduceCtorEq] at he <;> subst he <;> exact List.mem_cons_self
  refine (C81_exact hf hb _).mpr ⟨⟨first, more.filter fun b => (chainIds chain).contains (labelId b), ?_, rfl⟩, ?_, ?_⟩
  · rw [hb, List.filter_cons_of_pos (by simpa using hin)]
  · exact hn.sublist (List.Sublist.map _ List.filter_sublist)
  · intro id hid
    show (blockOf (f.blocks.filter _) ⟨id⟩).map endOf = _
    rw [blockOf, blockOf, List.find?_filter]
    congr 2
    funext b
    by_cases h : b.label.result_id.val = id
    · simp [labelId, h, hid]
    · simp [h]

/-- C81: and all of them are needed. -/
theorem C81_needed {g : FunctionDefinition X} {fuel : Nat} {chain : ControlFlowChain}
    (hg : findControlFlow fuel g = .ok chain) : ∀ id ∈ chainIds chain, id ∈ g.blocks.map labelId := by
  obtain ⟨s, first, more, hb, hn, hs, he, -, rfl⟩ := C30_accepted_iff.mp ⟨fuel, hg⟩
  intro id hid
  rw [(Program.chainIds_toChain s).1] at hid
  obtain ⟨id, hid', rfl⟩ := List.mem_map.mp hid
  obtain ⟨e, h⟩ := Forgets.ends_some s _ _ hs id hid'
  obtain ⟨b, h, -⟩ := Forgets.endAt_iff.mp h
  obtain ⟨h1, h2⟩ := blockOf_some h
  exact List.mem_map.mpr ⟨b, h1, h2⟩

/-! The loop of the sample with another condition, another continue target, other code, the blocks in another order and one
more block has the same control flow. -/

def loopFn' : FunctionDefinition Empty :=
  { function := ⟨⟨2⟩, ⟨12⟩, ⟨false, false, false, false⟩, ⟨3⟩⟩, parameters := []
    blocks :=
      [ { label := ⟨⟨20⟩⟩, code := [.OpNop {}]
          merge := some (.OpLoopMerge ⟨⟨23⟩, ⟨99⟩, ⟨true, false, false, none⟩⟩), branch := .OpBranch ⟨⟨21⟩⟩ },
        { label := ⟨⟨23⟩⟩, code := [], merge := none, branch := .OpReturn {} },
        { label := ⟨⟨98⟩⟩, code := [], merge := none, branch := .OpBranch ⟨⟨98⟩⟩ },
        { label := ⟨⟨22⟩⟩, code := [], merge := none, branch := .OpBranch ⟨⟨20⟩⟩ },
        { label := ⟨⟨21⟩⟩, code := [], merge := none, branch := .OpBranchConditional ⟨⟨16⟩, ⟨22⟩, ⟨23⟩, none⟩ } ] }

def loopChain : ControlFlowChain :=
  .Block [.Loop ⟨20⟩ (.Selection ⟨21⟩ (.Block [.Atom ⟨22⟩]) .Break ⟨false, false⟩ none) ⟨true, false, false, none⟩ none,
    .Atom ⟨23⟩]

theorem loopFn_chain : findControlFlow 9 Samples.loopFn = .ok loopChain := by rfl

example : ∃ fuel, findControlFlow fuel loopFn' = .ok loopChain :=
  (C81_exact loopFn_chain rfl loopFn').mpr ⟨⟨_, _, rfl, rfl⟩, by decide, by
    intro id h
    simp [loopChain, chainIds, chainIdsAll] at h
    rcases h with rfl | rfl | rfl | rfl <;> rfl⟩
/-- With another merge block it has not. -/
example : ¬ ∃ fuel, findControlFlow fuel { loopFn' with blocks := (loopFn'.blocks.map fun b =>
    { b with merge := b.merge.map fun _ => .OpLoopMerge ⟨⟨24⟩, ⟨99⟩, ⟨true, false, false, none⟩⟩ }) } = .ok loopChain := by
  rw [C81_exact loopFn_chain rfl]
  rintro ⟨-, -, h⟩
  have h : some (BlockEnd.gotoLoop 21 24 ⟨true, false, false, none⟩) = some (.gotoLoop 21 23 ⟨true, false, false, none⟩) :=
    h 20 (by decide)
  simp at h
example : endOf Samples.loopFn.blocks[1] = endOf loopFn'.blocks[4] :=
  (C81_determined loopFn_chain (show findControlFlow 9 loopFn' = _ by rfl) (List.getElem_mem _) (List.getElem_mem _)
    rfl (by decide))
example := C81_enough (show findControlFlow 9 loopFn' = .ok loopChain by rfl)
example : (22 : UInt32) ∈ loopFn'.blocks.map labelId :=
  C81_needed (show findControlFlow 9 loopFn' = .ok loopChain by rfl) 22 (by decide)

end Magma.Props
