import Verif.Proofs.ChainText
import Verif.Proofs.Doubling
import Verif.Proofs.LiveExact
import Verif.Proofs.PrintFunction
import Verif.Props.ControlFlow
/-! C45, C49 and C50: recovered control flow chains. -/

namespace Magma.Props
open Spec
variable {X Y : Type}

/-! ### C45 -/

/-- C45: the printed text of the control flow recovered from a function determines it, among all that is
recovered from any function -/
theorem C45_text_unambiguous {f : FunctionDefinition X} {g : FunctionDefinition Y} {m n : Nat}
    {chain chain' : ControlFlowChain} (hf : findControlFlow m f = .ok chain)
    (hg : findControlFlow n g = .ok chain') (h : (Display.fmt chain : Text) = Display.fmt chain') : chain = chain' := by
  obtain ⟨s, _, _, -, -, hs, -, -, rfl⟩ := C30_accepted_iff.mp ⟨m, hf⟩
  obtain ⟨s', _, _, -, -, hs', -, -, rfl⟩ := C30_accepted_iff.mp ⟨n, hg⟩
  have h : s.toChain.fmtIndent 0 = s'.toChain.fmtIndent 0 := h
  have h := congrArg lines h
  rw [lines_chain, lines_chain, (Program.lines_toChain s 0).1, (Program.lines_toChain s' 0).1] at h
  have e := (Program.lines_inj s (Program.ends_of_spelled s hs) (Program.ends_of_spelled s' hs')
    (r := []) (r' := []) (.inl rfl) (.inl rfl) (by rw [h])).1
  rw [e]

/-- C45 does not hold for chains in general: a block of one chain prints as that chain. -/
theorem C45_only_recovered : ∃ chain chain' : ControlFlowChain, chain ≠ chain' ∧
    (Display.fmt chain : Text) = Display.fmt chain' :=
  ⟨.Atom ⟨1⟩, .Block [.Atom ⟨1⟩], (fun h => by cases h), by rfl⟩

example : findControlFlow 9 (functionOf sampleBlocks) = .ok sampleChain := sample_found
example : (Display.fmt (ControlFlowChain.Loop ⟨12⟩ (.Selection ⟨13⟩ (.Block []) .Break ⟨false, false⟩ (some ⟨3, 4⟩))
      ⟨true, false, false, none⟩ none) : Text) =
    ("loop %12 [Unroll] {\n    selection %13 [3 4] {\n    } else {\n        break;\n    }\n}\n").toList := by
  decide +kernel

/-! ### C49 -/

/-- C49: every block that some execution of a function visits is in the control flow recovered from it -/
theorem C49_covers {f : FunctionDefinition X} {fuel : Nat} {chain : ControlFlowChain}
    (h : findControlFlow fuel f = .ok chain) {first : BasicBlock X} {more : List (BasicBlock X)}
    (hb : f.blocks = first :: more) (ds : List Bool) {id : BlockId}
    (hid : id ∈ (runBlocks f.blocks ds ⟨labelId first⟩).1) : id.val ∈ chainIds chain := by
  obtain ⟨first', more', hb', he⟩ := C27_executions h
  rw [hb] at hb'
  cases hb'
  rw [← he ds] at hid
  exact Program.visited_mem chain ds id hid

/-- C49 as stated is false: the merge block of a loop without a break is in the chain, and is never
visited. -/
theorem C49_violated : ∃ (f : FunctionDefinition Empty) (first : BasicBlock Empty) (more : List (BasicBlock Empty))
    (chain : ControlFlowChain) (id : UInt32), f.blocks = first :: more ∧ findControlFlow 9 f = .ok chain ∧
      id ∈ chainIds chain ∧ ∀ ds : List Bool, (⟨id⟩ : BlockId) ∉ (runBlocks f.blocks ds ⟨labelId first⟩).1 := by
  refine ⟨functionOf [emptyBlock 10 (some (.OpLoopMerge ⟨⟨12⟩, ⟨11⟩, ⟨false, false, false, none⟩⟩)) (.OpBranch ⟨⟨11⟩⟩),
    emptyBlock 11 none (.OpBranch ⟨⟨10⟩⟩), emptyBlock 12 none (.OpReturn {})], _, _,
    .Block [.Loop ⟨10⟩ (.Block [.Atom ⟨11⟩]) ⟨false, false, false, none⟩ none, .Atom ⟨12⟩], 12, rfl, by rfl, by decide, ?_⟩
  have key : ∀ (ds : List Bool) (id : BlockId), id = ⟨10⟩ ∨ id = ⟨11⟩ → (⟨12⟩ : BlockId) ∉ (runBlocks
      [emptyBlock 10 (some (.OpLoopMerge ⟨⟨12⟩, ⟨11⟩, ⟨false, false, false, none⟩⟩)) (.OpBranch ⟨⟨11⟩⟩),
       emptyBlock 11 none (.OpBranch ⟨⟨10⟩⟩), emptyBlock 12 none (.OpReturn {})] ds id).1 := by
    intro ds
    induction ds with
    | nil => intro id _ h; cases h
    | cons d ds ih =>
      rintro id (rfl | rfl) h
      · rcases List.mem_cons.mp h with h | h
        · cases h
        · exact ih _ (.inr rfl) h
      · rcases List.mem_cons.mp h with h | h
        · cases h
        · exact ih _ (.inl rfl) h
  exact fun ds => key ds _ (.inl rfl)

/-- C49, what holds instead: the blocks that some execution visits are exactly those of the chain that do not
come after a construct that never ends. -/
theorem C49_visited {f : FunctionDefinition X} {fuel : Nat} {chain : ControlFlowChain}
    (h : findControlFlow fuel f = .ok chain) {first : BasicBlock X} {more : List (BasicBlock X)}
    (hb : f.blocks = first :: more) (id : BlockId) :
    (∃ ds, id ∈ (runBlocks f.blocks ds ⟨labelId first⟩).1) ↔ id ∈ reached chain := by
  obtain ⟨first', more', hb', he⟩ := C27_executions h
  rw [hb] at hb'
  cases hb'
  refine ⟨fun ⟨ds, hv⟩ => ?_, fun hr => ?_⟩
  · rw [← he ds] at hv
    exact exec_reached chain ds hv
  · obtain ⟨ds, hv⟩ := reached_exec chain hr
    exact ⟨ds, by rw [← he ds]; exact hv⟩

/-- C49, what holds instead: some execution returns exactly if the chain can end normally. -/
theorem C49_returned {f : FunctionDefinition X} {fuel : Nat} {chain : ControlFlowChain}
    (h : findControlFlow fuel f = .ok chain) {first : BasicBlock X} {more : List (BasicBlock X)}
    (hb : f.blocks = first :: more) :
    (∃ ds, (runBlocks f.blocks ds ⟨labelId first⟩).2 = .returned) ↔ mayEnd .next chain = true := by
  obtain ⟨first', more', hb', he⟩ := C27_executions h
  rw [hb] at hb'
  cases hb'
  refine ⟨fun ⟨ds, hv⟩ => ?_, fun hr => ?_⟩
  · rw [← he ds] at hv
    refine exec_mayEnd chain (fun h => by cases h) ds ?_
    simp only [runProgram] at hv
    generalize (exec chain ds).signal = s at hv
    cases s <;> first | rfl | cases hv
  · obtain ⟨ds, tr, hd⟩ := mayEnd_exec chain (fun h => by cases h) hr
    refine ⟨ds ++ [], ?_⟩
    rw [← he]
    simp only [runProgram]
    rw [hd]

/-- A loop that is never left, and what follows it -/
example : reached (.Block [.Loop ⟨10⟩ (.Block [.Atom ⟨11⟩]) ⟨false, false, false, none⟩ none, .Atom ⟨12⟩]) =
    [⟨10⟩, ⟨11⟩] ∧ mayEnd .next (.Block [.Loop ⟨10⟩ (.Block [.Atom ⟨11⟩]) ⟨false, false, false, none⟩ none, .Atom ⟨12⟩]) =
    false := by decide
example : (reached sampleChain).map (·.val) = chainIds sampleChain ∧ mayEnd .next sampleChain = true := by decide

/-- C49, for functions in which every loop has a break: every block of the chain is visited by some
execution. Missing are the functions with a loop that is never left. -/
theorem C49_live_partial {f : FunctionDefinition X} {fuel : Nat} {chain : ControlFlowChain}
    (h : findControlFlow fuel f = .ok chain) (hl : LoopsEnd chain) {first : BasicBlock X}
    {more : List (BasicBlock X)} (hb : f.blocks = first :: more) {id : UInt32} (hid : id ∈ chainIds chain) :
    ∃ ds, (⟨id⟩ : BlockId) ∈ (runBlocks f.blocks ds ⟨labelId first⟩).1 := by
  obtain ⟨first', more', hb', he⟩ := C27_executions h
  rw [hb] at hb'
  cases hb'
  obtain ⟨s, _, _, -, -, hs, -, -, rfl⟩ := C30_accepted_iff.mp ⟨fuel, h⟩
  rw [(Program.chainIds_toChain s).1] at hid
  obtain ⟨id', hid', rfl⟩ := List.mem_map.mp hid
  obtain ⟨ds, hv⟩ := Program.visits s ((Program.loopsEnd_toChain s).mp hl) hid'
  refine ⟨ds, ?_⟩
  rw [← he ds]
  show id' ∈ (exec s.toChain ds).trace
  rw [Program.exec_toChain]
  exact hv

/-- C49: such a function has an execution that returns -/
theorem C49_returns_partial {f : FunctionDefinition X} {fuel : Nat} {chain : ControlFlowChain}
    (h : findControlFlow fuel f = .ok chain) (hl : LoopsEnd chain) {first : BasicBlock X}
    {more : List (BasicBlock X)} (hb : f.blocks = first :: more) :
    ∃ ds, (runBlocks f.blocks ds ⟨labelId first⟩).2 = .returned := by
  obtain ⟨first', more', hb', he⟩ := C27_executions h
  rw [hb] at hb'
  cases hb'
  obtain ⟨s, _, _, -, -, hs, -, -, rfl⟩ := C30_accepted_iff.mp ⟨fuel, h⟩
  obtain ⟨ds, tr, hr⟩ := (Program.runs s ((Program.loopsEnd_toChain s).mp hl)).1
  refine ⟨ds ++ [], ?_⟩
  rw [← he]
  simp only [runProgram]
  rw [Program.exec_toChain, hr]

example : LoopsEnd sampleChain := by simp [LoopsEnd, LoopsEndAll, sampleChain, canBreak, canBreakAny]
example : (15 : UInt32) ∈ chainIds sampleChain := by decide

/-! ### C50 -/

/-- C50 is false: a function may be much smaller than its control flow. Of `n + 1` selections inside each
other with equal targets, the chain mentions at least `2 ^ (n + 1)` blocks, where the function has
`2 n + 3`. -/
theorem C50_violated (n : Nat) (hn : 2 * n + 3 ≤ 2 ^ 32) : ∃ (f : FunctionDefinition Empty) (fuel : Nat)
    (chain : ControlFlowChain), f.blocks.length = 2 * n + 3 ∧ findControlFlow fuel f = .ok chain ∧
      2 ^ (n + 1) ≤ (chainIds chain).length := by
  have hs := Doubling.spelled_program (n := n + 1) (by omega) (n + 1) 0 (by omega) (by omega)
  have hne := Doubling.nested_program (n := n + 1) (by omega) (n + 1) 0 (by omega) (by omega) [] (by intro a h; cases h)
  have hb : (functionOf (Doubling.blocks (n + 1))).blocks = Doubling.block (n + 1) 0 ::
      ((List.range (2 * (n + 1))).map (Doubling.block (n + 1) ∘ Nat.succ)) := by
    show (List.range (2 * (n + 1) + 1)).map _ = _
    rw [List.range_succ_eq_map, List.map_cons, List.map_map]
  obtain ⟨fuel, h⟩ := C30_accepted_iff.mpr ⟨_, _, _, hb, Doubling.nodup (by omega), hs,
    by rw [Doubling.entry_program, Doubling.label], hne, rfl⟩
  refine ⟨_, fuel, _, ?_, h, ?_⟩
  · show (Doubling.blocks (n + 1)).length = _
    rw [Doubling.blocks, List.length_map, List.length_range]
    omega
  · rw [(Program.chainIds_toChain _).1, List.length_map]
    exact Doubling.size_program (n + 1) 0

/-- C50, for functions whose blocks spell a program in which every block occurs once: the chain mentions
every block at most once, so it is not larger than the function. Missing are functions in which a block
is reached in several ways without being where a construct merges. -/
theorem C50_distinct_partial {f : FunctionDefinition X} {fuel : Nat} {chain : ControlFlowChain}
    (h : findControlFlow fuel f = .ok chain) {s : Program} {first : BasicBlock X} {more : List (BasicBlock X)}
    (hb : f.blocks = first :: more) (hs : s.SpelledBy f.blocks none none)
    (he : s.entry none = some ⟨labelId first⟩) (hd : s.ids.Nodup) :
    (chainIds chain).Nodup ∧ (chainIds chain).length ≤ f.blocks.length := by
  obtain ⟨_, _, -, hn, hf⟩ := find_ok h
  obtain ⟨n, hn'⟩ := C30_complete hb hn hs he hd
  have e : chain = s.toChain := by
    have h1 := findControlFlow_mono (Nat.le_max_left fuel n) (by rw [h]; intro e; cases e)
    rw [hn' _ (Nat.le_max_right fuel n), h] at h1
    exact (Except.ok.inj h1).symm
  have hnd : (chainIds chain).Nodup := by
    rw [e, (Program.chainIds_toChain s).1, List.nodup_iff_pairwise_ne, List.pairwise_map]
    refine hd.imp ?_
    intro a b hab h
    cases a
    cases b
    exact hab (congrArg _ h)
  refine ⟨hnd, ?_⟩
  have := nodup_le (m := f.blocks.map labelId) hnd (by
    intro id hid
    obtain ⟨b, hb, rfl⟩ := describes_ids chain (found_describes hf) id hid
    exact List.mem_map_of_mem hb)
  rwa [List.length_map] at this

example : sampleProgram.SpelledBy sampleBlocks none none ∧ sampleProgram.ids.Nodup ∧
    sampleProgram.entry none = some ⟨10⟩ := ⟨sample_spelled, by decide, rfl⟩

/-- C49 for the sample: block 16 is visited by some execution, and no execution visits block 20. -/
example : (∃ ds, (⟨16⟩ : BlockId) ∈ (runBlocks sampleBlocks ds ⟨10⟩).1) ∧
    ¬ ∃ ds, (⟨20⟩ : BlockId) ∈ (runBlocks sampleBlocks ds ⟨10⟩).1 :=
  ⟨(C49_visited sample_found rfl ⟨16⟩).mpr (by decide), fun h => absurd ((C49_visited sample_found rfl ⟨20⟩).mp h) (by decide)⟩
example (ds : List Bool) (id : BlockId) (h : id ∈ (runBlocks sampleBlocks ds ⟨10⟩).1) :
    id.val ∈ [10, 11, 12, 13, 14, 15, 16, 19] := C49_covers sample_found rfl ds h
example : ∃ ds, (⟨15⟩ : BlockId) ∈ (runBlocks sampleBlocks ds ⟨10⟩).1 :=
  C49_live_partial sample_found (by simp [LoopsEnd, LoopsEndAll, sampleChain, canBreak]) rfl (by decide)

end Magma.Props
