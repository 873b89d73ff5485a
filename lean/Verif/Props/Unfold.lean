import Verif.Proofs.Unfold
import Verif.Proofs.Meaning
import Verif.Props.Expressible
import Verif.Props.Copies
/-! C107: every function whose control flow is recovered unfolds into one whose chain mentions no block twice. -/

namespace Magma.Props
open Spec
variable {X S : Type}

/-! ### C107 -/

theorem numbers_nodup {n : Nat} (h : n ≤ 4294967296) : ((List.range' 0 n).map UInt32.ofNat).Nodup := by
  refine List.Nodup.map_on ?_ List.nodup_range'
  intro a ha b hb e
  have ha := (List.mem_range'_1.mp ha).2
  have hb := (List.mem_range'_1.mp hb).2
  have e := congrArg UInt32.toNat e
  rw [UInt32.toNat_ofNat', UInt32.toNat_ofNat', Nat.mod_eq_of_lt (by omega), Nat.mod_eq_of_lt (by omega)] at e
  exact e

/-- C107: if control flow is recovered from a function, and the chain does not mention more blocks than there are ids, then
there is a function made of copies of its blocks whose chain is the same with the blocks in place of their copies, but
mentions no block twice. It has just the blocks that its chain mentions, in the order in which they are mentioned. -/
theorem C107_unfold {g : FunctionDefinition X} {fuel : Nat} {chain : ControlFlowChain}
    (h : findControlFlow fuel g = .ok chain) (hs : (chainIds chain).length ≤ 4294967296) :
    ∃ (σ : UInt32 → UInt32) (f : FunctionDefinition X) (chain' : ControlFlowChain),
      (∃ n, ∀ n', n ≤ n' → findControlFlow n' f = .ok chain') ∧ (chainIds chain').Nodup ∧ renameChain σ chain' = chain ∧
      f.blocks.map labelId = chainIds chain' ∧ (∀ b ∈ f.blocks, ∃ b' ∈ g.blocks, CopyOf σ b b') ∧
      f.blocks.head?.map (fun b => σ (labelId b)) = g.blocks.head?.map labelId := by
  obtain ⟨s, first, more, hb, hn, hsp, he, hne, rfl⟩ := C30_accepted_iff.mp ⟨fuel, h⟩
  have hw : s.WellFormed false false :=
    Program.wellFormed_of_spelled s false none none [] hsp hne (fun p hp => by cases hp)
  rw [(Program.chainIds_toChain s).1, List.length_map] at hs
  let σ : UInt32 → UInt32 := fun x => ((s.ids.map BlockId.val)[x.toNat]?).getD 0
  have hσ : (List.range' 0 s.ids.length).map (fun i => σ (UInt32.ofNat i)) = s.ids.map BlockId.val := by
    refine List.ext_getElem (by simp) fun i h1 h2 => ?_
    simp only [List.length_map] at h2
    simp only [List.getElem_map, List.getElem_range', Nat.zero_add, Nat.one_mul, σ, UInt32.toNat_ofNat']
    rw [Nat.mod_eq_of_lt (by omega), List.getElem?_eq_getElem (by simpa using h2), Option.getD_some, List.getElem_map]
  let t := Unfold.number 0 s
  have hr : Unfold.rename σ t = s := Unfold.rename_number σ s 0 hσ
  have hwt : t.WellFormed false false := Unfold.number_wellFormed s 0 _ _ hw
  have hids : t.ids.map BlockId.val = (List.range' 0 s.ids.length).map UInt32.ofNat := Unfold.number_ids s 0
  have hdt : (t.ids.map BlockId.val).Nodup := by
    rw [hids]
    exact numbers_nodup hs
  have hends : s.ends none none = (t.ends none none).map fun p => (Unfold.image σ p.1, p.2.rename σ) := by
    have := Unfold.rename_ends σ t none none false hwt (fun h => by cases h)
    rw [hr] at this
    exact this
  -- the blocks
  let copy : BlockId × BlockEnd → BasicBlock X := fun p =>
    Unfold.copyBlock ((blockOf g.blocks (Unfold.image σ p.1)).getD first) p.1 p.2
  let f : FunctionDefinition X := { g with blocks := (t.ends none none).map copy }
  have hlabels : f.blocks.map labelId = chainIds t.toChain := by
    rw [(Program.chainIds_toChain t).1, ← Program.ends_ids t none none]
    simp only [f, List.map_map]
    exact List.map_congr_left fun p _ => Unfold.copy_label _ _ _
  have hfind : ∃ n, ∀ n', n ≤ n' → findControlFlow n' f = .ok t.toChain := by
    let f0 : FunctionDefinition X := { g with blocks := t.blocks none none }
    have hn0 : (f0.blocks.map labelId).Nodup := by
      show ((t.blocks (X := X) none none).map labelId).Nodup
      rw [Program.blocks_labels]
      exact hdt
    have hs0 := Program.spelled_blocks (all := t.blocks (X := X) none none) t false none none hwt (by simp)
      (fun b hb => Magma.blockOf_mem hn0 hb)
    obtain ⟨e, hee⟩ := Program.entry_some t (k := none) hwt
    have key : ∃ b0 m0, t.blocks (X := X) none none = b0 :: m0 ∧ t.entry none = some ⟨labelId b0⟩ := by
      cases ht : t with
      | done => rw [ht] at hee; cases hee
      | ret => exact ⟨_, _, rfl, rfl⟩
      | atom => exact ⟨_, _, rfl, rfl⟩
      | sel => exact ⟨_, _, rfl, rfl⟩
      | loop => exact ⟨_, _, rfl, rfl⟩
      | exit => exact ⟨_, _, rfl, rfl⟩
    obtain ⟨b0, m0, hb0, he0⟩ := key
    obtain ⟨n, hfn⟩ := C30_complete (f := f0) hb0 hn0 hs0 he0 (ids_nodup_vals.mp hdt)
    refine ⟨n, fun n' hn' => ?_⟩
    rw [← hfn n' hn']
    refine C32_contents ?_ n'
    show ((t.ends none none).map copy).map _ = (t.blocks none none).map _
    rw [Program.blocks_ends, List.map_map, List.map_map]
    refine List.map_congr_left fun p _ => ?_
    simp only [Function.comp, copy, Unfold.copy_label, Unfold.copy_end, blockFor_label, Unfold.blockFor_end]
  have hcopy : ∀ p ∈ t.ends none none, ∃ b' ∈ g.blocks, CopyOf σ (copy p) b' := by
    intro p hp
    have hm : (Unfold.image σ p.1, p.2.rename σ) ∈ s.ends none none := by
      rw [hends]
      exact List.mem_map.mpr ⟨p, hp, rfl⟩
    obtain ⟨b', hb', he'⟩ := Program.ends_spelled s none none hsp _ hm
    obtain ⟨hm', hl'⟩ := Magma.blockOf_some hb'
    refine ⟨b', hm', ?_⟩
    simp only [copy, hb', Option.getD_some]
    exact Unfold.copy_of hl' he'
  refine ⟨σ, f, t.toChain, hfind, ?_, ?_, hlabels, ?_, ?_⟩
  · rw [(Program.chainIds_toChain t).1]
    exact hdt
  · rw [← (Unfold.rename_toChain σ t).1, hr]
  · intro b hbm
    obtain ⟨p, hp, rfl⟩ := List.mem_map.mp hbm
    exact hcopy p hp
  · rw [hb]
    have h1 := congrArg (Option.map σ) (congrArg List.head? hlabels)
    rw [List.head?_map, Option.map_map] at h1
    refine h1.trans ?_
    rw [(Program.chainIds_toChain t).1, List.head?_map, Option.map_map]
    have e1 : (Unfold.rename σ t).entry none = some ⟨labelId first⟩ := by rw [hr]; exact he
    cases ht : t <;> rw [ht] at e1 <;> first
      | (have := Option.some.inj e1
         simp only [Program.ids, List.head?_cons, Option.map_some, Function.comp, List.head?_cons]
         exact congrArg (fun b : BlockId => some b.val) this)
      | cases e1

/-- C107: functions made of copies of blocks compute what the blocks compute, whatever meaning is given to the
instructions: both make the same visits, and get to the same states and conclusions. -/
theorem C107_computes {f g : FunctionDefinition X} {σ : UInt32 → UInt32} {n : Nat} {chain : ControlFlowChain}
    (h : findControlFlow n f = .ok chain) (hg : (g.blocks.map labelId).Nodup)
    (hc : ∀ b ∈ f.blocks, ∃ b' ∈ g.blocks, CopyOf σ b b') {bf : BasicBlock X} {mf : List (BasicBlock X)}
    (hf : f.blocks = bf :: mf) (M : Machine X S) (visits : Nat) (c : Config S) :
    runMachine M g.blocks visits ⟨σ (labelId bf)⟩ (c.through σ) =
      throughRun σ (runMachine (M.through σ) f.blocks visits ⟨labelId bf⟩ c) := by
  refine Unfold.run_copies hg hc visits ⟨labelId bf⟩ c ?_
  obtain ⟨ds, -, -, hr⟩ := machine_run (M.through σ) f.blocks visits ⟨labelId bf⟩ c
  rw [hr]
  obtain ⟨first, more, hb, hns⟩ := C27_never_stuck h
  cases hf.symm.trans hb
  exact hns ds

/-- C107: so a function whose control flow is recovered computes what a function with a chain that mentions no block
twice computes. -/
theorem C107_same {g : FunctionDefinition X} {fuel : Nat} {chain : ControlFlowChain}
    (h : findControlFlow fuel g = .ok chain) (hs : (chainIds chain).length ≤ 4294967296) :
    ∃ (σ : UInt32 → UInt32) (f : FunctionDefinition X) (n : Nat) (chain' : ControlFlowChain) (bf bg : BasicBlock X),
      findControlFlow n f = .ok chain' ∧ (chainIds chain').Nodup ∧ renameChain σ chain' = chain ∧
      f.blocks.head? = some bf ∧ g.blocks.head? = some bg ∧
      ∀ (S : Type) (M : Machine X S) (visits : Nat) (c : Config S),
        runMachine M g.blocks visits ⟨labelId bg⟩ (c.through σ) =
          throughRun σ (runMachine (M.through σ) f.blocks visits ⟨labelId bf⟩ c) := by
  obtain ⟨σ, f, chain', ⟨n, hn⟩, hd, hr, -, hc, hh⟩ := C107_unfold h hs
  obtain ⟨_, first, more, hb, hg, -⟩ := C30_accepted_iff.mp ⟨fuel, h⟩
  obtain ⟨bf, mf, hf, -⟩ := C27_never_stuck (hn n (Nat.le_refl n))
  rw [hb, hf] at hh
  have e : σ (labelId bf) = labelId first := Option.some.inj hh
  refine ⟨σ, f, n, chain', bf, first, hn n (Nat.le_refl n), hd, hr, by rw [hf]; rfl, by rw [hb]; rfl, ?_⟩
  intro S M visits c
  have := C107_computes (hn n (Nat.le_refl n)) hg hc hf M visits c
  rw [e] at this
  exact this

/-! A selection both branches of which are the same block -/

example : (∃ chain, findControlFlow 9 shared = .ok chain ∧ (chainIds chain).length = 4 ∧ ¬ (chainIds chain).Nodup) ∧
    (∃ chain, findControlFlow 9 unshared = .ok chain ∧ (chainIds chain).Nodup) :=
  ⟨⟨_, rfl, rfl, by decide⟩, ⟨_, rfl, by decide⟩⟩

theorem unshared_copy : ∀ b ∈ unshared.blocks, ∃ b' ∈ shared.blocks, CopyOf unshare b b' := by
  intro b hb
  simp only [unshared, functionOf, List.mem_cons, List.not_mem_nil, or_false] at hb
  rcases hb with rfl | rfl | rfl | rfl
  · exact ⟨_, .head _, rfl, rfl, rfl, rfl⟩
  · exact ⟨_, .tail _ (.head _), rfl, rfl, rfl, rfl⟩
  · exact ⟨_, .tail _ (.head _), rfl, rfl, rfl, rfl⟩
  · exact ⟨_, .tail _ (.tail _ (.head _)), rfl, rfl, rfl, rfl⟩

example (M : Machine Empty S) (visits : Nat) (c : Config S) :
    runMachine M shared.blocks visits ⟨1⟩ (c.through unshare) =
      throughRun unshare (runMachine (M.through unshare) unshared.blocks visits ⟨1⟩ c) :=
  C107_computes (n := 9) (chain := _) rfl (by decide) unshared_copy rfl M visits c

end Magma.Props
