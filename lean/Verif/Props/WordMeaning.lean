import Verif.Proofs.WordMeaning
import Verif.Proofs.FunctionText
import Verif.Props.EndToEnd
import Verif.Props.Meaning
/-! C93: recovered control flow computes what the words of the binary compute. -/

namespace Magma.Props
open Spec
variable {X : Type}

/-- C93: let a function of the binary have its control flow recovered. Somewhere in the input are the words of the
function, and whatever instructions and their words mean, as long as words mean what the instruction means that they
spell: to run the words is to run the recovered control flow with the code of the blocks in the logical module. -/
theorem C93_words {known : List (ExtInstSet X)} {bytes : List UInt8} {raw : RawModule X} {m : LogicalModule X}
    {d : FunctionDefinition X} {fuel : Nat} {chain : ControlFlowChain}
    (hr : readModule bytes known = .ok raw) (hv : validate raw = .ok m) (hd : d ∈ m.function_definitions)
    (hf : findControlFlow fuel d = .ok chain) :
    ∃ le before ws after, bytes = bytesOf le (before ++ ws ++ after) ∧
      (∃ insts, SpellsBody known insts (definitionInsts d) ws) ∧
      ∀ (S : Type) (W : WordMeaning S) (M : Machine X S), SameMeaning known raw.instructions W M →
        ∀ (n : Nat) (c : Config S), W.runWords ws n c = some (runChain M d.blocks chain n c) := by
  obtain ⟨le, before, ws, insts, rfl, hi, hs⟩ := C43_tail_partial hr hv
  obtain ⟨ds1, ds2, hds⟩ := List.append_of_mem hd
  rw [hds, List.flatMap_append, List.flatMap_cons] at hi hs
  rw [SpellsBody_append] at hs
  obtain ⟨u, v, rfl, -, hs⟩ := hs
  rw [SpellsBody_append] at hs
  obtain ⟨w, r, rfl, hs, -⟩ := hs
  obtain ⟨first, more, hb, -⟩ := C27_executions hf
  refine ⟨le, before ++ u, w, r, by simp only [List.append_assoc], ⟨_, hs⟩, fun S W M hm n c => ?_⟩
  rw [C92_meaning hf hb, runWords_machine hm hs ?_ ?_ hb]
  · intro i h
    rw [hi, ← List.append_assoc]
    exact List.mem_append_left _ h
  · intro i h
    rw [hi]
    exact List.mem_append_right _ (List.mem_append_right _ (List.mem_append_left _ h))

/-- The instructions of a module that was read, and what its words spell -/
theorem words_unique {known : List (ExtInstSet X)} {bytes : List UInt8} {raw : RawModule X}
    (hr : readModule bytes known = .ok raw) {i j : Core X} {head head' : UInt32} {ops : List UInt32}
    (hi : SpellsInst known raw.instructions i (head :: ops)) (hj : SpellsInst known raw.instructions j (head' :: ops))
    (he : head.toNat % 65536 = head'.toNat % 65536) : i = j := by
  obtain ⟨le, header, body, -, -, hb⟩ := words_of_read hr
  obtain ⟨bound, hinv⟩ := inv_after _ [] [] body (Inv.nil known) hb
  exact spellsInst_unique hinv hi hj he

/-- C93: every meaning of instructions is the meaning of words: in a module that was read, words spell one instruction. -/
theorem C93_every {known : List (ExtInstSet X)} {bytes : List UInt8} {raw : RawModule X}
    (hr : readModule bytes known = .ok raw) {S : Type} (M : Machine X S) :
    ∃ W : WordMeaning S, SameMeaning known raw.instructions W M := by
  classical
  refine ⟨⟨fun p f s => if h : ∃ i : GroupCode X, ∃ head : UInt32, head.toNat % 65536 = f.1 ∧
    SpellsInst known raw.instructions (codeInst i) (head :: f.2) then M.run p h.choose s else s,
    fun id s => M.holds ⟨id⟩ s⟩, ?_, fun _ _ => rfl⟩
  intro i head ops hs p s
  have h : ∃ i : GroupCode X, ∃ head' : UInt32, head'.toNat % 65536 = head.toNat % 65536 ∧
      SpellsInst known raw.instructions (codeInst i) (head' :: ops) := ⟨i, head, rfl, hs⟩
  dsimp only
  rw [dif_pos h]
  obtain ⟨head', e, hs'⟩ := h.choose_spec
  rw [codeInst_inj (words_unique hr hs' hs e)]

/-- C93: and a meaning of words is one of instructions exactly if it does not tell words apart that spell the same
instruction (they can differ in what the reader does not look at, C80). -/
theorem C93_respects {known : List (ExtInstSet X)} {all : List (Core X)} {S : Type} (W : WordMeaning S) :
    (∃ M : Machine X S, SameMeaning known all W M) ↔
      ∀ (i : GroupCode X) (head head' : UInt32) (ops ops' : List UInt32),
        SpellsInst known all (codeInst i) (head :: ops) → SpellsInst known all (codeInst i) (head' :: ops') →
        ∀ p s, W.run p (head.toNat % 65536, ops) s = W.run p (head'.toNat % 65536, ops') s := by
  classical
  constructor
  · rintro ⟨M, hm⟩ i head head' ops ops' h h' p s
    rw [hm.run i head ops h, hm.run i head' ops' h']
  · intro hw
    refine ⟨⟨fun p i s => if h : ∃ f : UInt32 × List UInt32, SpellsInst known all (codeInst i) (f.1 :: f.2) then
      W.run p (h.choose.1.toNat % 65536, h.choose.2) s else s, fun id s => W.holds id.val s⟩, ?_, fun _ _ => rfl⟩
    intro i head ops hs p s
    have h : ∃ f : UInt32 × List UInt32, SpellsInst known all (codeInst i) (f.1 :: f.2) := ⟨(head, ops), hs⟩
    dsimp only
    rw [dif_pos h]
    exact hw i _ _ _ _ hs h.choose_spec p s
/-! ### The loop that counts, as a binary -/

def countingWords : List UInt32 := [
  0x00050036, 2, 12, 0, 3,             -- %12 = OpFunction %2 None %3
  0x000200F8, 10, 0x000200F9, 11,      -- %10 = OpLabel, OpBranch %11
  0x000200F8, 11,                      -- %11 = OpLabel
  0x000400F6, 14, 13, 0,               -- OpLoopMerge %14 %13 None
  0x000200F9, 12,                      -- OpBranch %12
  0x000200F8, 12,                      -- %12 = OpLabel
  0x000400FA, 7, 13, 14,               -- OpBranchConditional %7 %13 %14
  0x000200F8, 13,                      -- %13 = OpLabel
  0x00050080, 2, 6, 6, 3,              -- %6 = OpIAdd %2 %6 %3
  0x000200F9, 11,                      -- OpBranch %11
  0x000200F8, 14,                      -- %14 = OpLabel
  0x000100FD, 0x00010038]              -- OpReturn, OpFunctionEnd

def countingBytes : List UInt8 :=
  bytesOf true ([0x07230203, 0x00010000, 0x00080001, 20, 0, 0x0003000E, 0, 1] ++ countingWords)

def countingRaw : RawModule Empty := {
  version := ⟨1, 0⟩, generator := ⟨.KhronosGlslang, 1⟩, bound := 20,
  instructions := .OpMemoryModel ⟨.Logical, .Glsl450⟩ :: definitionInsts (functionOf counting) }

/-- What `adding` means, for words: opcode 128 is OpIAdd -/
def addingWords : WordMeaning Nat where
  run _ f s := if f.1 = 128 then s + 1 else s
  holds id s := id == 7 && s < 3

set_option maxRecDepth 2000 in
example : readModule countingBytes [] = .ok countingRaw := by rfl
example : validate countingRaw =
    .ok ⟨[], [], [], ⟨.Logical, .Glsl450⟩, [], [], [], [], [], [], [functionOf counting]⟩ := by rfl
example (all : List (Core Empty)) : SameMeaning [] all addingWords adding := by
  constructor
  · rintro i head ops ⟨-, a, b, e, ⟨wc, h1, h2, -⟩, -⟩ p s
    cases e
    have h : head.toNat % 65536 = opcode (codeInst i) := by omega
    show (if head.toNat % 65536 = 128 then s + 1 else s) = _
    rw [h]
    cases i <;> rfl
  · intro id s
    have h : (id == 7) = ((⟨id⟩ : OpId) == ⟨7⟩) := by
      rw [Bool.eq_iff_iff, beq_iff_eq, beq_iff_eq, OpId.mk.injEq]
    exact congrArg (· && decide (s < 3)) h
example : addingWords.runWords countingWords 20 ⟨none, 1⟩ =
    some ([10, 11, 12, 13, 11, 12, 13, 11, 12, 14].map BlockId.mk, ⟨some 14, 3⟩, .returned) := by rfl

example {S : Type} (M : Machine Empty S) : ∃ W : WordMeaning S, SameMeaning [] shaderRaw.instructions W M :=
  C93_every (shader_read true) M
example : ∃ le before ws after, shaderBytes true = bytesOf le (before ++ ws ++ after) ∧
    (∃ insts, SpellsBody [] insts (definitionInsts shaderFn) ws) ∧
    ∀ (S : Type) (W : WordMeaning S) (M : Machine Empty S), SameMeaning [] shaderRaw.instructions W M →
      ∀ (n : Nat) (c : Config S), W.runWords ws n c = some (runChain M shaderFn.blocks shaderChain n c) :=
  C93_words (shader_read true) shader_validate (List.mem_singleton.mpr rfl) shader_found

end Magma.Props
