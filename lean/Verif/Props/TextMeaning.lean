import Verif.Proofs.TextMeaning
import Verif.Props.ForgetsText
import Verif.Props.WordMeaning
/-! C104: the text of a function determines what it computes. -/

namespace Magma.Props
open Spec
variable {X S : Type} [Display X]

/-! ### C104 -/

theorem chain_of_text (hp : ∀ x : X, ∀ c ∈ Display.fmt x, Plain c) (hx : ∀ x y : X, Display.fmt x = Display.fmt y → x = y)
    {f g : FunctionDefinition X} {m n : Nat} {chain chain' : ControlFlowChain} {text : Text}
    (hf : findControlFlow m f = .ok chain) (hg : findControlFlow n g = .ok chain')
    (ht : fmtFunction f chain = .ok text) (ht' : fmtFunction g chain' = .ok text) (M : Machine X S) (k : Nat)
    (c : Config S) : runChain M f.blocks chain k c = runChain M g.blocks chain' k c := by
  obtain rfl := C61_chain hp hx hf hg ht ht'
  obtain ⟨first, more, hb, -⟩ := C27_executions hf
  obtain ⟨-, -, h⟩ := (C82_exact hp hx hf ht hb g).mp ⟨n, _, hg, ht'⟩
  rw [runChain, runChain, execOn_same chain fun id hid => meansSame_of (fun b hb => (blockOf_some hb).2)
    (fun b hb => (blockOf_some hb).2) ?_]
  have := congrArg (Option.map fun t => (t.1, t.2.1)) (h id hid)
  simpa only [Option.map_map, Function.comp_def] using this

/-- C104: if two functions are printed alike, each with the control flow recovered from it, then they compute the same
from the same start, visit by visit, whatever the instructions mean. -/
theorem C104_text (hp : ∀ x : X, ∀ c ∈ Display.fmt x, Plain c) (hx : ∀ x y : X, Display.fmt x = Display.fmt y → x = y)
    {f g : FunctionDefinition X} {m n : Nat} {chain chain' : ControlFlowChain} {text : Text}
    (hf : findControlFlow m f = .ok chain) (hg : findControlFlow n g = .ok chain')
    (ht : fmtFunction f chain = .ok text) (ht' : fmtFunction g chain' = .ok text)
    {first first' : BasicBlock X} {more more' : List (BasicBlock X)} (hb : f.blocks = first :: more)
    (hb' : g.blocks = first' :: more') (M : Machine X S) (k : Nat) (c : Config S) :
    runMachine M f.blocks k ⟨labelId first⟩ c = runMachine M g.blocks k ⟨labelId first'⟩ c := by
  rw [← C92_meaning hf hb, ← C92_meaning hg hb', chain_of_text hp hx hf hg ht ht']

/-- C104 for binaries: if functions of two binaries are printed alike, then to run the words of the one in its binary is
to run the words of the other in its. -/
theorem C104_words (hp : ∀ x : X, ∀ c ∈ Display.fmt x, Plain c) (hx : ∀ x y : X, Display.fmt x = Display.fmt y → x = y)
    {known : List (ExtInstSet X)} {bytes bytes' : List UInt8} {raw raw' : RawModule X} {m m' : LogicalModule X}
    {d d' : FunctionDefinition X} {fuel fuel' : Nat} {chain chain' : ControlFlowChain} {text : Text}
    (hr : readModule bytes known = .ok raw) (hv : validate raw = .ok m) (hd : d ∈ m.function_definitions)
    (hf : findControlFlow fuel d = .ok chain) (ht : fmtFunction d chain = .ok text)
    (hr' : readModule bytes' known = .ok raw') (hv' : validate raw' = .ok m') (hd' : d' ∈ m'.function_definitions)
    (hf' : findControlFlow fuel' d' = .ok chain') (ht' : fmtFunction d' chain' = .ok text) :
    ∃ le before ws after le' before' ws' after', bytes = bytesOf le (before ++ ws ++ after) ∧
      bytes' = bytesOf le' (before' ++ ws' ++ after') ∧
      (∃ insts, SpellsBody known insts (definitionInsts d) ws) ∧
      (∃ insts, SpellsBody known insts (definitionInsts d') ws') ∧
      ∀ (S : Type) (W : WordMeaning S) (M : Machine X S), SameMeaning known raw.instructions W M →
        SameMeaning known raw'.instructions W M → ∀ (n : Nat) (c : Config S), W.runWords ws n c = W.runWords ws' n c := by
  obtain ⟨le, before, ws, after, e, hs, h⟩ := C93_words hr hv hd hf
  obtain ⟨le', before', ws', after', e', hs', h'⟩ := C93_words hr' hv' hd' hf'
  refine ⟨le, before, ws, after, le', before', ws', after', e, e', hs, hs', fun S W M hm hm' n c => ?_⟩
  rw [h S W M hm, h' S W M hm', chain_of_text hp hx hf hf' ht ht']

/-- The functions of the sample of C82, which differ in much that is not printed -/
example (M : Machine Empty S) (k : Nat) (c : Config S) :
    ∃ text, fmtFunction Samples.loopFn loopChain = .ok text ∧ fmtFunction loopFn'' loopChain = .ok text ∧
      runMachine M Samples.loopFn.blocks k ⟨20⟩ c = runMachine M loopFn''.blocks k ⟨20⟩ c :=
  ⟨_, rfl, rfl, C104_text nofun nofun loopFn_chain (g := loopFn'') (n := 20) (chain' := loopChain) (by rfl) rfl rfl rfl rfl M k c⟩
example : Samples.loopFn.blocks.map labelId ≠ loopFn''.blocks.map labelId := by decide
/-- The conditions hold for GLSL.std.450. -/
example : (∀ x : Glsl.Inst, ∀ c ∈ Display.fmt x, Plain c) ∧ ∀ x y : Glsl.Inst, Display.fmt x = Display.fmt y → x = y :=
  ⟨glsl_plain, glsl_inj⟩

/-- The function of the sample of C93 with another id and to be inlined -/
def countingInline : FunctionDefinition Empty :=
  { functionOf counting with function := ⟨⟨2⟩, ⟨15⟩, ⟨true, false, false, false⟩, ⟨3⟩⟩ }

/-- Another binary, with the words the other way round -/
def countingInlineBytes : List UInt8 :=
  bytesOf false ([0x07230203, 0x00010000, 0x00080001, 20, 0, 0x0003000E, 0, 1, 0x00050036, 2, 15, 1, 3] ++
    countingWords.drop 5)

def countingInlineRaw : RawModule Empty := {
  countingRaw with instructions := .OpMemoryModel ⟨.Logical, .Glsl450⟩ :: definitionInsts countingInline }

set_option maxRecDepth 2000 in
example : readModule countingInlineBytes [] = .ok countingInlineRaw := by rfl
example : validate countingInlineRaw =
    .ok ⟨[], [], [], ⟨.Logical, .Glsl450⟩, [], [], [], [], [], [], [countingInline]⟩ := by rfl
example : ∃ chain text, findControlFlow 20 (functionOf counting) = .ok chain ∧ findControlFlow 20 countingInline = .ok chain ∧
    fmtFunction (functionOf counting) chain = .ok text ∧ fmtFunction countingInline chain = .ok text :=
  ⟨_, _, rfl, rfl, rfl, rfl⟩

end Magma.Props
