import Verif.Proofs.PrintFunction
import Verif.Props.ControlFlow
/-! C36, C37 and C44: printed control flow. -/

namespace Magma.Props
open Spec

/-- Extended instructions of GLSL.std.450 print without line breaks and braces -/
theorem glsl_plain (x : Glsl.Inst) : ∀ c ∈ Display.fmt x, Plain c := by
  cases x with
  | Sin s => exact plain_append (by decide) (display_plain s.x)
  | Cos s => exact plain_append (by decide) (display_plain s.x)

/-! ### C36 -/

/-- The function printer succeeds exactly if every block the chain mentions exists once in the function,
so these are all its panics. -/
theorem C36_panics {X : Type} [Display X] (f : FunctionDefinition X) (chain : ControlFlowChain) :
    (∃ text, fmtFunction f chain = .ok text) ↔ ∀ id ∈ chainIds chain, (blocksAt f.blocks id).length = 1 :=
  fmtFunction_ok f chain 0

/-- C36: printing a function along its recovered control flow does not panic -/
theorem C36_no_panic {X : Type} [Display X] {fuel : Nat} {f : FunctionDefinition X} {chain : ControlFlowChain}
    (h : findControlFlow fuel f = .ok chain) : ∃ text, fmtFunction f chain = .ok text := by
  obtain ⟨first, more, -, hn, hf⟩ := find_ok h
  rw [C36_panics]
  intro id hid
  obtain ⟨b, hb, rfl⟩ := describes_ids chain (found_describes hf) id hid
  exact filter_unique hn hb

example : findControlFlow 9 (functionOf sampleBlocks) = .ok sampleChain := sample_found
-- a chain of another function: the missing and the doubled block
example : fmtFunction (functionOf sampleBlocks) (.Atom ⟨99⟩) =
    .error (.panic "Basic block with given id does not exist") := by rfl
example : fmtFunction (functionOf (sampleBlocks ++ sampleBlocks)) sampleChain =
    .error (.panic "Multiple basic blocks with the same id") := by rfl

/-! ### C37 -/

/-- C37: every line of a printed chain is indented by four spaces per open brace, and all braces are closed
at the end -/
theorem C37_indented (chain : ControlFlowChain) : wellIndented 0 (lines (Display.fmt chain)) = some 0 := by
  have : (Display.fmt chain : Text) = chain.fmtIndent 0 := rfl
  rw [this, lines_chain]
  have := chain_indented chain 0 []
  rw [List.append_nil] at this
  exact this

/-- C37: the braces of a printed chain are balanced -/
theorem C37_balanced (chain : ControlFlowChain) {before after : Text} (h : Display.fmt chain = before ++ after) :
    before.count '}' ≤ before.count '{' ∧
    (Display.fmt chain : Text).count '{' = (Display.fmt chain : Text).count '}' := by
  have e : (Display.fmt chain : Text) = unlines (lines (Display.fmt chain)) := by
    have : (Display.fmt chain : Text) = chain.fmtIndent 0 := rfl
    rw [this, lines_chain, fmtIndent_eq]
  have hd := wellIndented_depth (C37_indented chain)
  rw [← e] at hd
  constructor
  · rw [h] at hd
    obtain ⟨d, hd⟩ := depthAfter_prefix hd
    have := depthAfter_count hd
    omega
  · have := depthAfter_count hd
    omega

-- what these say about the sample: nested constructs, an `else`, and lines at different depths
example : (lines (Display.fmt sampleChain)).length = 17 := by decide +kernel
example : wellIndented 0 ["selection %1 {".toList, "%2".toList, "}".toList] = none := by decide +kernel
example : wellIndented 0 ["selection %1 {".toList, "    %2".toList, "    }".toList] = none := by decide +kernel
example : wellIndented 0 ["selection %1 {".toList, "    %2".toList, "}".toList] = some 0 := by decide +kernel

/-! ### C44 -/

/-- C44: the lines of a printed function that belong to blocks are the instructions of the blocks of the
chain, in the order of the chain, as the disassembler prints them -/
theorem C44_listing {X : Type} [Display X] (hx : ∀ x : X, ∀ c ∈ Display.fmt x, Plain c)
    {f : FunctionDefinition X} {chain : ControlFlowChain} {text : Text} (h : fmtFunction f chain = .ok text) :
    listed (lines text) = (chainIds chain).flatMap (fun id => (blocksAt f.blocks id).flatMap blockListing) := by
  rw [(lines_function hx h).2, fn_listed]

/-- C44: the braces of a printed function are balanced -/
theorem C44_balanced {X : Type} [Display X] (hx : ∀ x : X, ∀ c ∈ Display.fmt x, Plain c)
    {f : FunctionDefinition X} {chain : ControlFlowChain} {text : Text} (h : fmtFunction f chain = .ok text)
    {before after : Text} (hb : text = before ++ after) :
    before.count '}' ≤ before.count '{' ∧ text.count '{' = text.count '}' := by
  have hd : depthAfter 0 text = some 0 := by
    have := fn_balanced hx f chain 0 0 []
    rw [List.append_nil, ← (lines_function hx h).1] at this
    exact this
  constructor
  · rw [hb] at hd
    obtain ⟨d, hd⟩ := depthAfter_prefix hd
    have := depthAfter_count hd
    omega
  · have := depthAfter_count hd
    omega

/-- C44: the lines of a printed function are indented by four spaces per open brace, exactly if no construct
has a hint or weights. Missing from the claim: those that have, see `C44_violated`. -/
theorem C44_indented_partial {X : Type} [Display X] (hx : ∀ x : X, ∀ c ∈ Display.fmt x, Plain c)
    {f : FunctionDefinition X} {chain : ControlFlowChain} {text : Text} (h : fmtFunction f chain = .ok text) :
    (Unadorned chain → wellIndented 0 (lines text) = some 0) ∧
    (¬ Unadorned chain → wellIndented 0 (lines text) = none) := by
  rw [(lines_function hx h).2]
  refine ⟨fun hu => ?_, fun hu => ?_⟩
  · have := fn_indented hx f chain hu 0 []
    rw [List.append_nil] at this
    exact this
  · have := fn_adorned hx f chain hu 0 []
    rw [List.append_nil] at this
    exact this

/-- A selection with a hint -/
def hinted : FunctionDefinition Empty := functionOf [
  emptyBlock 10 (some (.OpSelectionMerge ⟨⟨12⟩, ⟨true, false⟩⟩)) (.OpBranchConditional ⟨⟨1⟩, ⟨11⟩, ⟨12⟩, none⟩),
  emptyBlock 11 none (.OpBranch ⟨⟨12⟩⟩),
  emptyBlock 12 none (.OpReturn ⟨⟩)]

def hintedChain : ControlFlowChain :=
  .Block [.Selection ⟨10⟩ (.Block [.Atom ⟨11⟩]) (.Block []) ⟨true, false⟩ none, .Atom ⟨12⟩]

/-- C44 as claimed is false: the hint is printed on the line of the opening brace, before its indentation,
and not on the line of the block. -/
theorem C44_violated :
    findControlFlow 4 hinted = .ok hintedChain ∧
    ∃ text, fmtFunction hinted hintedChain = .ok text ∧ " [Flatten]{".toList ∈ lines text ∧
      wellIndented 0 (lines text) = none := by
  refine ⟨by rfl, _, rfl, ?_, ?_⟩ <;> decide +kernel

-- the hypotheses of the theorems above hold here
example : ∃ text, fmtFunction (functionOf sampleBlocks) sampleChain = .ok text ∧ (lines text).length = 37 :=
  ⟨_, rfl, by decide +kernel⟩
example : ∀ x : Glsl.Inst, ∀ c ∈ Display.fmt x, Plain c := glsl_plain
example : Unadorned (.Block [.Selection ⟨10⟩ (.Block [.Atom ⟨11⟩]) (.Block []) ⟨false, false⟩ none, .Atom ⟨12⟩]) := by
  simp only [Unadorned, UnadornedAll, and_self]

/-- C44 for the sample -/
example {text : Text} (h : fmtFunction (functionOf sampleBlocks) sampleChain = .ok text) :
    text.count '{' = text.count '}' :=
  (C44_balanced (fun x => nomatch x) h (before := text) (after := []) (List.append_nil _).symm).2
example {text : Text} (h : fmtFunction (functionOf sampleBlocks) sampleChain = .ok text) :
    listed (lines text) = (chainIds sampleChain).flatMap (fun id => (blocksAt sampleBlocks id).flatMap blockListing) :=
  C44_listing (fun x => nomatch x) h
/-- The sample has hints, so its lines are not well indented. -/
example {text : Text} (h : fmtFunction (functionOf sampleBlocks) sampleChain = .ok text) :
    wellIndented 0 (lines text) = none :=
  (C44_indented_partial (fun x => nomatch x) h).2 (by simp [sampleChain, Unadorned, UnadornedAll])

end Magma.Props
