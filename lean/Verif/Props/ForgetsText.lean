import Verif.Proofs.ForgetsText
import Verif.Props.Forgets
import Verif.Props.FlowText
import Verif.Props.FunctionText
/-! C82: exactly what the text of a function depends on. -/

namespace Magma.Props
open Spec
variable {X : Type} [Display X]

/-- C82: a function is printed as another one, each with the control flow recovered from it, exactly if it starts with the
block of the same label, has no label twice, and its blocks in the control flow have the same code, the same branch and
end in the same way. So the function instruction, the parameters, other blocks, the order of the blocks after the first,
and the continue targets of loops are not in the text, and everything else is. -/
theorem C82_exact (hp : ∀ x : X, ∀ c ∈ Display.fmt x, Plain c) (hx : ∀ x y : X, Display.fmt x = Display.fmt y → x = y)
    {f : FunctionDefinition X} {fuel : Nat} {chain : ControlFlowChain} {text : Text} {first : BasicBlock X}
    {more : List (BasicBlock X)} (hf : findControlFlow fuel f = .ok chain) (ht : fmtFunction f chain = .ok text)
    (hb : f.blocks = first :: more) (g : FunctionDefinition X) :
    (∃ fuel chain', findControlFlow fuel g = .ok chain' ∧ fmtFunction g chain' = .ok text) ↔
      (∃ first' more', g.blocks = first' :: more' ∧ labelId first' = labelId first) ∧ (g.blocks.map labelId).Nodup ∧
      ∀ id ∈ chainIds chain, (blockOf g.blocks ⟨id⟩).map (fun b => (b.code, b.branch, endOf b)) =
        (blockOf f.blocks ⟨id⟩).map fun b => (b.code, b.branch, endOf b) := by
  obtain ⟨-, _, _, -, hn, -⟩ := C30_accepted_iff.mp ⟨fuel, hf⟩
  have found {g : FunctionDefinition X} {n : Nat} (hg : findControlFlow n g = .ok chain) {id : UInt32}
      (hid : id ∈ chainIds chain) : ∃ b, blockOf g.blocks ⟨id⟩ = some b := by
    obtain ⟨b, hb, rfl⟩ := List.mem_map.mp (C81_needed hg id hid)
    obtain ⟨-, _, _, -, hn, -⟩ := C30_accepted_iff.mp ⟨n, hg⟩
    exact ⟨b, blockOf_mem hn hb⟩
  constructor
  · rintro ⟨n, chain', hg, ht'⟩
    obtain rfl := C61_chain hp hx hf hg ht ht'
    obtain ⟨h1, h2, h3⟩ := (C81_exact hf hb g).mp ⟨n, hg⟩
    refine ⟨h1, h2, fun id hid => ?_⟩
    obtain ⟨b, hb⟩ := found hf hid
    obtain ⟨b', hb'⟩ := found hg hid
    obtain ⟨m, l⟩ := blockOf_some hb
    obtain ⟨m', l'⟩ := blockOf_some hb'
    obtain ⟨e, e'⟩ := C61_blocks hp hx hf hg ht ht' m m' (l.trans l'.symm) (l ▸ hid)
    have := h3 id hid
    rw [hb, hb'] at this ⊢
    simp only [Option.map_some, Option.some.injEq] at this ⊢
    rw [e, e', this]
  · rintro ⟨h1, h2, h3⟩
    obtain ⟨n, hg⟩ := (C81_exact hf hb g).mpr ⟨h1, h2, fun id hid => by
      have := congrArg (Option.map fun t => t.2.2) (h3 id hid)
      rw [Option.map_map, Option.map_map] at this
      exact this⟩
    refine ⟨n, chain, hg, ?_⟩
    rw [C67_recovered hf] at ht
    rw [C67_recovered hg, ← ht, functionRows_congr chain fun id hid => ?_]
    obtain ⟨b, hb⟩ := found hf hid
    obtain ⟨b', hb'⟩ := found hg hid
    have := h3 id hid
    rw [hb, hb'] at this
    simp only [Option.map_some, Option.some.injEq, Prod.mk.injEq] at this
    rw [blockAt, blockAt, Program.blocksAt_of hn hb, Program.blocksAt_of h2 hb', List.flatMap_singleton, List.flatMap_singleton,
      shownInsts, shownInsts, this.1, this.2.1]

/-! The loop of the sample with another function instruction, another continue target, the blocks in another order and one
more block is printed in the same way. -/

def loopFn'' : FunctionDefinition Empty :=
  { function := ⟨⟨7⟩, ⟨77⟩, ⟨true, false, false, false⟩, ⟨3⟩⟩, parameters := [⟨⟨7⟩, ⟨78⟩⟩]
    blocks := (Samples.loopFn.blocks.head?.toList.map fun b =>
        { b with merge := some (.OpLoopMerge ⟨⟨23⟩, ⟨99⟩, ⟨true, false, false, none⟩⟩) }) ++
      { label := ⟨⟨98⟩⟩, code := [], merge := none, branch := .OpBranch ⟨⟨98⟩⟩ } :: Samples.loopFn.blocks.tail.reverse }

example : Samples.loopFn.blocks.length = 4 ∧ loopFn''.blocks.length = 5 := ⟨rfl, rfl⟩
example : ∃ text, fmtFunction Samples.loopFn loopChain = .ok text ∧
    ∃ fuel chain', findControlFlow fuel loopFn'' = .ok chain' ∧ fmtFunction loopFn'' chain' = .ok text :=
  ⟨_, rfl, (C82_exact nofun nofun loopFn_chain rfl rfl loopFn'').mpr ⟨⟨_, _, rfl, rfl⟩, by decide, by
    intro id h
    simp [loopChain, chainIds, chainIdsAll] at h
    rcases h with rfl | rfl | rfl | rfl <;> rfl⟩⟩
/-- With other code in one of its blocks it is not. -/
example : ∃ text, fmtFunction Samples.loopFn loopChain = .ok text ∧
    ¬ ∃ fuel chain', findControlFlow fuel loopFn' = .ok chain' ∧ fmtFunction loopFn' chain' = .ok text := by
  refine ⟨_, rfl, ?_⟩
  rw [C82_exact nofun nofun loopFn_chain rfl rfl]
  rintro ⟨-, -, h⟩
  have h := congrArg (Option.map fun t => t.1.length) (h 21 (by decide))
  revert h
  decide
example := C82_exact (X := Glsl.Inst) glsl_plain

end Magma.Props
