import Verif.Proofs.Leave
import Verif.Props.Settle
import Verif.Props.Own
/-! C124: branches that always leave a loop. -/

namespace Magma.Props
open Spec Magma.Excerpt Magma.Settle
variable {X : Type}

theorem part_ids {c chain : ControlFlowChain} (hp : PartOf c chain) {x : UInt32} (hx : x ∈ chainIds c) :
    x ∈ chainIds chain := by
  induction hp with
  | whole => exact hx
  | item hm _ ih =>
    rename_i chain chains _
    rw [chainIds]
    induction chains with
    | nil => cases hm
    | cons d ds ihc =>
      rw [chainIdsAll]
      rcases List.mem_cons.mp hm with rfl | hm
      · exact List.mem_append_left _ ih
      · exact List.mem_append_right _ (ihc hm)
  | left _ ih => rw [chainIds]; exact List.mem_cons_of_mem _ (List.mem_append_left _ ih)
  | right _ ih => rw [chainIds]; exact List.mem_cons_of_mem _ (List.mem_append_right _ ih)
  | inner _ ih => rw [chainIds]; exact List.mem_cons_of_mem _ ih

/-- C124: with a plain branch in place of a conditional branch that leaves a loop, the function is refused, if the
conditional branch did not also go on with the next round of another loop. -/
theorem C124_refused {f : FunctionDefinition X} {fuel : Nat} {chain inner : ControlFlowChain} {y : BlockId}
    {hint : SelectionControl} {w : Option BranchWeights} (h : findControlFlow fuel f = .ok chain)
    (hp : PartOf (.Selection y inner .Break hint w) chain)
    (hc : ∀ inner hint w, ¬ PartOf (.Selection y inner .Continue hint w) chain) (fuel' : Nat) (chain' : ControlFlowChain) :
    findControlFlow fuel' (settleFunction (fun x => if x = y.val then some false else none) f) ≠ .ok chain' := by
  intro h'
  obtain ⟨b, t, e, wt, hbo, he, -⟩ := break_merge h hp
  obtain ⟨s, first, more, hb, hn, hs, hse, hnest, rfl⟩ := C30_accepted_iff.mp ⟨fuel, h⟩
  obtain ⟨s', first', more', hb', hn', hs', hse', hnest', -⟩ := C30_accepted_iff.mp ⟨fuel', h'⟩
  have hf : first' :: more' = (first :: more).map (settleBlock fun x => if x = y.val then some false else none) := by
    rw [← hb, ← hb']
    rfl
  rw [List.map_cons] at hf
  cases hf
  rw [settle_label] at hse'
  have ho := fun x e => settle_ends (f := f) (fun x => if x = y.val then some false else none) (y := x) (e := e)
  have hy := endsOf_iff.mpr ⟨b, hbo, he⟩
  refine leave_refused (p := s) hy (by rw [ho _ _ hy, if_pos rfl]; rfl) ?_ ((spelt_iff s _ _).mp hs) hnest nofun
    ((spelt_iff s' _ _).mp hs') hnest' nofun (hse.trans hse'.symm) ?_ nofun ?_
  · intro x e hne hx
    rw [ho _ _ hx, if_neg fun hv => hne (by cases x; cases y; cases hv; rfl)]
    rfl
  · refine exits_of fun i hi id brk inner hint w hi' => ?_
    rintro rfl
    cases brk with
    | true => rfl
    | false => exact absurd (items_inside hi hi') (hc inner hint w)
  · have : y.val ∈ chainIds s.toChain := by
      have hm : y.val ∈ chainIds (.Selection y inner .Break hint w) := by
        rw [chainIds]
        exact List.mem_cons_self
      exact part_ids hp hm
    exact val_mem.mp this

theorem settle_twice (known : UInt32 → Option Bool) {y : UInt32} {d : Bool} (hy : known y = some d) (f : FunctionDefinition X) :
    settleFunction (fun x => if x = y then some d else none) (settleFunction (fun x => if x = y then none else known x) f) =
      settleFunction known f := by
  refine congrArg (FunctionDefinition.mk f.function f.parameters) ?_
  show (f.blocks.map _).map _ = f.blocks.map _
  rw [List.map_map]
  refine List.map_congr_left fun b _ => ?_
  show settleBlock _ (settleBlock _ b) = _
  by_cases hb : labelId b = y
  · have : settleBlock (fun x => if x = y then none else known x) b = b := by
      unfold settleBlock
      simp only [hb, if_true]
    rw [this]
    unfold settleBlock
    simp only [hb, if_true, hy]
  · have : settleBlock (fun x => if x = y then none else known x) b = settleBlock known b := by
      unfold settleBlock
      simp only [hb, if_false]
    rw [this]
    have hl := settle_label known b
    generalize settleBlock known b = b' at hl ⊢
    unfold settleBlock
    simp only [hl, hb, if_false]

/-- C124: and so it is where any other branches are replaced as well, if the one that leaves a loop is still there. -/
theorem C124_refused_with {known : UInt32 → Option Bool} {f : FunctionDefinition X} {fuel : Nat}
    {chain inner : ControlFlowChain} {y : BlockId} {hint : SelectionControl} {w : Option BranchWeights}
    (h : findControlFlow fuel f = .ok chain) (hy : known y.val = some false)
    (hx : ∀ z inner hint w, PartOf (.Selection z inner .Break hint w) chain → z ≠ y → known z.val ≠ some false)
    (hp : PartOf (.Selection y inner .Break hint w) (settle (fun x => if x = y.val then none else known x) chain))
    (hc : ∀ inner hint w, ¬ PartOf (.Selection y inner .Continue hint w)
      (settle (fun x => if x = y.val then none else known x) chain)) (fuel' : Nat) (chain' : ControlFlowChain) :
    findControlFlow fuel' (settleFunction known f) ≠ .ok chain' := by
  obtain ⟨n, hn⟩ := C124_flow (known := fun x => if x = y.val then none else known x) h (by
    intro z inner hint w hz
    split
    · nofun
    · rename_i hne
      exact hx z inner hint w hz fun e => hne (congrArg BlockId.val e))
  rw [← settle_twice known hy f]
  exact C124_refused hn hp hc fuel' chain'

/-- C124 needs that the branch does not also go on with the next round of another loop: block 11 here does so, and leaves
the loop in what it chooses, which is gone. -/
theorem C124_mixed :
    findControlFlow 9 (functionOf againBlocks) = .ok (.Block [.Loop ⟨10⟩
      (.Selection ⟨11⟩ (.Block [.Loop ⟨12⟩ (.Selection ⟨11⟩ (.Block []) .Break SelectionControl.default none)
        LoopControl.default none]) .Continue SelectionControl.default none) LoopControl.default none, .Atom ⟨19⟩]) ∧
    findControlFlow 9 (settleFunction (fun x => if x = 11 then some false else none) (functionOf againBlocks)) =
      .ok (.Block [.Loop ⟨10⟩ (.Block [.Atom ⟨11⟩]) LoopControl.default none, .Atom ⟨19⟩]) := by
  exact ⟨by rfl, by rfl⟩

/-! ### Examples -/

/-- The loop of the sample is left from block 13. -/
example (fuel : Nat) (chain : ControlFlowChain) : findControlFlow fuel (settleFunction
    (fun x => if x = 13 then some false else none) (functionOf sampleBlocks)) ≠ .ok chain := by
  refine C124_refused (y := ⟨13⟩) sample_found
    (.item List.mem_cons_self (.right (.item List.mem_cons_self (.inner .whole)))) (fun inner hint w hp => ?_) fuel chain
  unfold sampleChain at hp
  repeat' first | cases ‹_ ∈ _ :: _› | cases ‹_ ∈ []› | cases ‹PartOf _ _›

/-- It is refused too where it is also known that the loop is not continued from block 14, and where block 10 goes. -/
example (fuel : Nat) (chain : ControlFlowChain) : findControlFlow fuel (settleFunction
    (fun x => if x = 13 then some false else if x = 14 then some true else if x = 10 then some false else none)
    (functionOf sampleBlocks)) ≠ .ok chain := by
  have hs : settle (fun x => if x = 13 then none else if x = 13 then some false else if x = 14 then some true else
      if x = 10 then some false else none) sampleChain = .Block [.Atom ⟨10⟩, .Loop ⟨12⟩ (.Selection ⟨13⟩
        (.Block [.Atom ⟨14⟩, .Atom ⟨15⟩]) .Break ⟨false, false⟩ none) ⟨true, false, false, none⟩ none, .Atom ⟨16⟩, .Atom ⟨19⟩] := by
    rfl
  refine C124_refused_with (y := ⟨13⟩) (inner := .Block [.Atom ⟨14⟩, .Atom ⟨15⟩]) (hint := ⟨false, false⟩) (w := none)
    sample_found rfl ?_ ?_ ?_ fuel chain
  · intro z inner hint w hp hz
    unfold sampleChain at hp
    repeat' first | cases ‹_ ∈ _ :: _› | cases ‹_ ∈ []› | cases ‹PartOf _ _›
    exact absurd rfl hz
  · rw [hs]
    exact .item (List.mem_cons_of_mem _ List.mem_cons_self) (.inner .whole)
  · intro inner hint w hp
    rw [hs] at hp
    repeat' first | cases ‹_ ∈ _ :: _› | cases ‹_ ∈ []› | cases ‹PartOf _ _›

end Magma.Props
