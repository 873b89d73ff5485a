import Verif.Proofs.FunctionText
import Verif.Proofs.Live
import Verif.Props.ControlFlow
import Verif.Props.Printing
import Verif.Props.Disassembly
/-! C61: printed functions are unambiguous. -/

namespace Magma.Props
open Spec
variable {X : Type} [Display X]

/-! ### C61 -/

theorem function_text (hp : ∀ x : X, ∀ c ∈ Display.fmt x, Plain c) (hx : ∀ x y : X, Display.fmt x = Display.fmt y → x = y)
    {f g : FunctionDefinition X} {m n : Nat} {chain chain' : ControlFlowChain} {text : Text}
    (hf : findControlFlow m f = .ok chain) (hg : findControlFlow n g = .ok chain')
    (ht : fmtFunction f chain = .ok text) (ht' : fmtFunction g chain' = .ok text) :
    chain = chain' ∧ ∃ s : Program, s.toChain = chain ∧ s.Agree f g := by
  obtain ⟨s, _, _, -, hn, hs, -, -, rfl⟩ := C30_accepted_iff.mp ⟨m, hf⟩
  obtain ⟨s', _, _, -, hn', hs', -, -, rfl⟩ := C30_accepted_iff.mp ⟨n, hg⟩
  have h := (lines_function hp ht).2.symm.trans (lines_function hp ht').2
  rw [(Program.flines_toChain f s 0).1, (Program.flines_toChain g s' 0).1] at h
  obtain ⟨e, -, ha⟩ := Program.flines_inj (fun a b h => Core.fmt_inj hx h) s (Program.fits_of_spelled hn s hs)
    (Program.fits_of_spelled hn' s' hs') (r := []) (r' := []) (.inl rfl) (.inl rfl) (by rw [h])
  exact ⟨by rw [e], s, rfl, ha⟩

/-- C61: the printed text of a function determines the control flow recovered from it. -/
theorem C61_chain (hp : ∀ x : X, ∀ c ∈ Display.fmt x, Plain c) (hx : ∀ x y : X, Display.fmt x = Display.fmt y → x = y)
    {f g : FunctionDefinition X} {m n : Nat} {chain chain' : ControlFlowChain} {text : Text}
    (hf : findControlFlow m f = .ok chain) (hg : findControlFlow n g = .ok chain')
    (ht : fmtFunction f chain = .ok text) (ht' : fmtFunction g chain' = .ok text) : chain = chain' :=
  (function_text hp hx hf hg ht ht').1

/-- C61: and the code and the branch of every block in it. -/
theorem C61_blocks (hp : ∀ x : X, ∀ c ∈ Display.fmt x, Plain c) (hx : ∀ x y : X, Display.fmt x = Display.fmt y → x = y)
    {f g : FunctionDefinition X} {m n : Nat} {chain chain' : ControlFlowChain} {text : Text}
    (hf : findControlFlow m f = .ok chain) (hg : findControlFlow n g = .ok chain')
    (ht : fmtFunction f chain = .ok text) (ht' : fmtFunction g chain' = .ok text)
    {b b' : BasicBlock X} (hb : b ∈ f.blocks) (hb' : b' ∈ g.blocks) (hl : labelId b = labelId b')
    (hc : labelId b ∈ chainIds chain) : b.code = b'.code ∧ b.branch = b'.branch := by
  obtain ⟨-, s, rfl, ha⟩ := function_text hp hx hf hg ht ht'
  have hid : (⟨labelId b⟩ : BlockId) ∈ s.ids := by
    rw [(Program.chainIds_toChain s).1] at hc
    obtain ⟨⟨i⟩, hi, e⟩ := List.mem_map.mp hc
    have e : i = labelId b := e
    exact e ▸ hi
  obtain ⟨a, a', h1, h2, h3, h4⟩ := ha _ hid
  have e : b = a := List.mem_singleton.mp (h1 ▸ List.mem_filter.mpr ⟨hb, beq_self_eq_true _⟩)
  have e' : b' = a' := List.mem_singleton.mp (h2 ▸ List.mem_filter.mpr ⟨hb', by rw [← hl]; exact beq_self_eq_true _⟩)
  rw [e, e']
  exact ⟨h3, h4⟩

/-- C61: so functions that print the same have the same executions. -/
theorem C61_executions (hp : ∀ x : X, ∀ c ∈ Display.fmt x, Plain c)
    (hx : ∀ x y : X, Display.fmt x = Display.fmt y → x = y)
    {f g : FunctionDefinition X} {m n : Nat} {chain chain' : ControlFlowChain} {text : Text}
    (hf : findControlFlow m f = .ok chain) (hg : findControlFlow n g = .ok chain')
    (ht : fmtFunction f chain = .ok text) (ht' : fmtFunction g chain' = .ok text)
    {first first' : BasicBlock X} {more more' : List (BasicBlock X)} (hb : f.blocks = first :: more)
    (hb' : g.blocks = first' :: more') (ds : List Bool) :
    runBlocks f.blocks ds ⟨labelId first⟩ = runBlocks g.blocks ds ⟨labelId first'⟩ := by
  obtain ⟨a, as, h1, h2⟩ := C27_executions hf
  obtain ⟨a', as', h3, h4⟩ := C27_executions hg
  cases hb.symm.trans h1
  cases hb'.symm.trans h3
  rw [← h2, ← h4, C61_chain hp hx hf hg ht ht']

/-- A loop with a body of one block and a copy of it with another continue target -/
def continuing (target : UInt32) : FunctionDefinition Empty := functionOf [
  emptyBlock 10 (some (.OpLoopMerge ⟨⟨12⟩, ⟨target⟩, ⟨false, false, false, none⟩⟩)) (.OpBranch ⟨⟨11⟩⟩),
  emptyBlock 11 none (.OpBranchConditional ⟨⟨5⟩, ⟨10⟩, ⟨12⟩, none⟩),
  emptyBlock 12 none (.OpReturn ⟨⟩)]

/-- C61: the merge instruction itself is not determined: its continue target is not printed. -/
theorem C61_continue_target_lost : ∃ chain text,
    findControlFlow 5 (continuing 11) = .ok chain ∧ findControlFlow 5 (continuing 77) = .ok chain ∧
    fmtFunction (continuing 11) chain = .ok text ∧ fmtFunction (continuing 77) chain = .ok text :=
  ⟨_, _, rfl, rfl, rfl, rfl⟩

-- the hypotheses hold of these functions
example : ∀ x : Glsl.Inst, ∀ c ∈ Display.fmt x, Plain c := glsl_plain
example : ∀ x y : Glsl.Inst, Display.fmt x = Display.fmt y → x = y := glsl_inj
example : findControlFlow 9 (functionOf sampleBlocks) = .ok sampleChain ∧
    ∃ text, fmtFunction (functionOf sampleBlocks) sampleChain = .ok text := ⟨sample_found, _, rfl⟩
-- and different branches print differently
example : ∃ text text', fmtFunction (continuing 11) (.Atom ⟨10⟩) = .ok text ∧
    fmtFunction (functionOf sampleBlocks) (.Atom ⟨10⟩) = .ok text' ∧ text ≠ text' :=
  ⟨_, _, rfl, rfl, by decide +kernel⟩

/-- C61 for the two functions above, which print the same text -/
example (text : Text) (chain chain' : ControlFlowChain) (h : findControlFlow 9 (continuing 11) = .ok chain)
    (h' : findControlFlow 9 (continuing 13) = .ok chain') (ht : fmtFunction (continuing 11) chain = .ok text)
    (ht' : fmtFunction (continuing 13) chain' = .ok text) : chain = chain' :=
  C61_chain (fun x => nomatch x) (fun x => nomatch x) h h' ht ht'

end Magma.Props
