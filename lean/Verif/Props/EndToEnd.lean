import Verif.Proofs.EndToEnd
import Verif.Proofs.Serialise
import Verif.Props.Validate
import Verif.Props.ControlFlow
/-! C43: from the bytes to the recovered program. -/

namespace Magma.Props
open Spec
variable {X : Type}

/-- The words of a module that was read -/
theorem words_of_read {known : List (ExtInstSet X)} {bytes : List UInt8} {m : RawModule X}
    (h : readModule bytes known = .ok m) :
    ∃ le header body, header.length = 5 ∧ bytes = bytesOf le (header ++ body) ∧ SpellsBody known [] m.instructions body := by
  obtain ⟨ws, ⟨ver, gen, body, rfl, -, -, -, h4⟩, hd⟩ := (readModule_iff _ _ _).mp h
  rcases hd with rfl | rfl
  · exact ⟨true, [0x07230203, ver, gen, m.bound, 0], body, rfl, rfl, h4⟩
  · exact ⟨false, [0x07230203, ver, gen, m.bound, 0], body, rfl, rfl, h4⟩

/-- C43, the functions: the input ends with words that spell the function definitions that `validate`
returns. They need not be the canonical words, see `C43_violated`. -/
theorem C43_tail_partial {known : List (ExtInstSet X)} {bytes : List UInt8} {raw : RawModule X} {m : LogicalModule X}
    (hr : readModule bytes known = .ok raw) (hv : validate raw = .ok m) :
    ∃ le before ws insts, bytes = bytesOf le (before ++ ws) ∧
      raw.instructions = insts ++ m.function_definitions.flatMap definitionInsts ∧
      SpellsBody known insts (m.function_definitions.flatMap definitionInsts) ws := by
  obtain ⟨le, header, body, -, rfl, hb⟩ := words_of_read hr
  have hl := C20_lossless hv
  rw [layout] at hl
  rw [← hl, SpellsBody_append] at hb
  obtain ⟨u, v, rfl, -, h2⟩ := hb
  exact ⟨le, header ++ u, v, _, by rw [List.append_assoc], hl.symm, h2⟩

/-- C43, the functions: if the input is the canonical serialisation, it ends with the canonical words of the
function definitions. -/
theorem C43_canonical_tail_partial {encX : X → UInt32 × List UInt32} {le : Bool}
    {bytes : List UInt8} {raw : RawModule X} {m : LogicalModule X}
    (hc : bytes = encodeModule encX le raw) (hv : validate raw = .ok m) :
    ∃ before, bytes = bytesOf le (before ++
      (m.function_definitions.flatMap definitionInsts).flatMap (encodeInst encX)) := by
  have hl := C20_lossless hv
  rw [layout] at hl
  rw [hc, encodeModule, encodeWords, ← hl, List.flatMap_append, ← List.append_assoc]
  exact ⟨_, rfl⟩

/-- C43, the executions: for every function whose control flow is recovered, the recovered program visits the
same blocks as the words of the function in the input, for all decisions. -/
theorem C43_executions {known : List (ExtInstSet X)} {bytes : List UInt8} {raw : RawModule X} {m : LogicalModule X}
    {d : FunctionDefinition X} {fuel : Nat} {chain : ControlFlowChain}
    (hr : readModule bytes known = .ok raw) (hv : validate raw = .ok m) (hd : d ∈ m.function_definitions)
    (hf : findControlFlow fuel d = .ok chain) :
    ∃ le before ws after, bytes = bytesOf le (before ++ ws ++ after) ∧
      (∃ insts, SpellsBody known insts (definitionInsts d) ws) ∧
      ∀ ds, runWords ws ds = some (runProgram chain ds) := by
  obtain ⟨le, before, ws, insts, rfl, -, hs⟩ := C43_tail_partial hr hv
  obtain ⟨ds1, ds2, hds⟩ := List.append_of_mem hd
  rw [hds, List.flatMap_append, List.flatMap_cons, SpellsBody_append] at hs
  obtain ⟨u, v, rfl, -, hs⟩ := hs
  rw [SpellsBody_append] at hs
  obtain ⟨w, r, rfl, hs, -⟩ := hs
  obtain ⟨first, more, hb, hrun⟩ := C27_executions hf
  refine ⟨le, before ++ u, w, r, by simp only [List.append_assoc], ⟨_, hs⟩, fun ds => ?_⟩
  rw [runWords_definition hs hb, hrun]

/-! ### A module for the examples -/

/-- A shader without interface: the memory model and one function with a selection. The word count of the
OpReturn is 0 if `lax`. -/
def shaderBytes (lax : Bool) : List UInt8 := bytesOf true [
  0x07230203, 0x00010000, 0x00080001, 20, 0,
  0x0003000E, 0, 1,                    -- OpMemoryModel Logical GLSL450
  0x00050036, 2, 4, 0, 3,              -- %4 = OpFunction %2 None %3
  0x000200F8, 10,                      -- %10 = OpLabel
  0x000300F7, 12, 1,                   -- OpSelectionMerge %12 Flatten
  0x000400FA, 5, 11, 12,               -- OpBranchConditional %5 %11 %12
  0x000200F8, 11,                      -- %11 = OpLabel
  0x000200F9, 12,                      -- OpBranch %12
  0x000200F8, 12,                      -- %12 = OpLabel
  if lax then 0x000000FD else 0x000100FD, -- OpReturn
  0x00010038]                          -- OpFunctionEnd

def shaderFn : FunctionDefinition Empty := {
  function := ⟨⟨2⟩, ⟨4⟩, ⟨false, false, false, false⟩, ⟨3⟩⟩,
  parameters := [],
  blocks := [
    emptyBlock 10 (some (.OpSelectionMerge ⟨⟨12⟩, ⟨true, false⟩⟩)) (.OpBranchConditional ⟨⟨5⟩, ⟨11⟩, ⟨12⟩, none⟩),
    emptyBlock 11 none (.OpBranch ⟨⟨12⟩⟩),
    emptyBlock 12 none (.OpReturn ⟨⟩)] }

def shaderRaw : RawModule Empty := {
  version := ⟨1, 0⟩, generator := ⟨.KhronosGlslang, 1⟩, bound := 20,
  instructions := .OpMemoryModel ⟨.Logical, .Glsl450⟩ :: definitionInsts shaderFn }

def shaderLogical : LogicalModule Empty :=
  ⟨[], [], [], ⟨.Logical, .Glsl450⟩, [], [], [], [], [], [], [shaderFn]⟩

def shaderChain : ControlFlowChain :=
  .Block [.Selection ⟨10⟩ (.Block [.Atom ⟨11⟩]) (.Block []) ⟨true, false⟩ none, .Atom ⟨12⟩]

theorem shader_read (lax : Bool) : readModule (shaderBytes lax) [] = .ok shaderRaw := by cases lax <;> rfl
theorem shader_validate : validate shaderRaw = .ok shaderLogical := by rfl
theorem shader_found : findControlFlow 4 shaderFn = .ok shaderChain := by rfl

example : shaderFn ∈ shaderLogical.function_definitions := List.mem_singleton.mpr rfl
example : runProgram shaderChain [true, false, false] = ([⟨10⟩, ⟨11⟩, ⟨12⟩], .returned) ∧
    runProgram shaderChain [false, false] = ([⟨10⟩, ⟨12⟩], .returned) := by decide +kernel
example : runWords ([0x00050036, 2, 4, 0, 3, 0x000200F8, 10, 0x000300F7, 12, 1, 0x000400FA, 5, 11, 12,
    0x000200F8, 11, 0x000200F9, 12, 0x000200F8, 12, 0x000000FD, 0x00010038]) [false, false] =
    some ([⟨10⟩, ⟨12⟩], .returned) := by decide +kernel
example : shaderBytes false = encodeModule (fun e => nomatch e) true shaderRaw := by decide +kernel

/-- C43 as claimed is false: written back to words, the functions need not be the end of the input in either
byte order, since the reader accepts a word count of 0 for 1. -/
theorem C43_violated : ∃ (bytes : List UInt8) (raw : RawModule Empty) (m : LogicalModule Empty),
    readModule bytes [] = .ok raw ∧ validate raw = .ok m ∧
    ∀ le before, bytes ≠ before ++
      bytesOf le ((m.function_definitions.flatMap definitionInsts).flatMap (encodeInst (fun e => nomatch e))) := by
  refine ⟨shaderBytes true, shaderRaw, shaderLogical, shader_read true, shader_validate, ?_⟩
  intro le before h
  have h1 := congrArg (fun l => l.reverse.take 8) h
  simp only [List.reverse_append] at h1
  cases le
  · have h2 : ((bytesOf false ((shaderLogical.function_definitions.flatMap definitionInsts).flatMap
        (encodeInst (fun e => nomatch e)))).reverse ++ before.reverse).take 8 =
        [0x38, 0, 1, 0, 0xFD, 0, 1, 0] := by rfl
    rw [h2] at h1
    exact absurd h1 (by decide +kernel)
  · have h2 : ((bytesOf true ((shaderLogical.function_definitions.flatMap definitionInsts).flatMap
        (encodeInst (fun e => nomatch e)))).reverse ++ before.reverse).take 8 =
        [0, 1, 0, 0x38, 0, 1, 0, 0xFD] := by rfl
    rw [h2] at h1
    exact absurd h1 (by decide +kernel)

/-- C43 for the shader -/
example (lax : Bool) : ∃ le before ws insts, shaderBytes lax = bytesOf le (before ++ ws) ∧
    shaderRaw.instructions = insts ++ shaderLogical.function_definitions.flatMap definitionInsts ∧
    SpellsBody [] insts (shaderLogical.function_definitions.flatMap definitionInsts) ws :=
  C43_tail_partial (shader_read lax) shader_validate
example : ∃ before, shaderBytes false = bytesOf true (before ++
    (shaderLogical.function_definitions.flatMap definitionInsts).flatMap (encodeInst fun e => nomatch e)) :=
  C43_canonical_tail_partial (by decide +kernel) shader_validate

end Magma.Props
