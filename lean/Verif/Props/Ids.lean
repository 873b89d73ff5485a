import Verif.Props.ControlFlow
import Verif.Proofs.Ids
import Verif.Proofs.IdsLogical
import Verif.Proofs.ModuleBytes
import Verif.Props.Samples
/-! C64: ids are only names. -/

namespace Magma.Props
open Spec
variable {X : Type} [Renames X]

/-! ### C64 -/

/-- C64: other ids in the operand words, different where they were different, give the same outcome with the
same change of ids. Which words are ids is what the standard says (`parts`); all others stay as they are. The
input may be anything after the header, and the outcome may be an error. -/
theorem C64_read {σ : UInt32 → UInt32} (hσ : ∀ a b, σ a = σ b → a = b) {known : List (ExtInstSet X)}
    (hk : ∀ s ∈ known, TakesIds σ s) (le : Bool) (ver gen bound schema : UInt32) (ws : List UInt32) {t : List UInt8}
    (ht : t.length < 4) :
    readModule (bytesOf le (0x07230203 :: ver :: gen :: bound :: schema :: renameWords σ ws) ++ t) known =
      renameRead σ (renameModule σ)
        (readModule (bytesOf le (0x07230203 :: ver :: gen :: bound :: schema :: ws) ++ t) known) := by
  rw [readModule_bytesOf ht, readModule_bytesOf ht]
  exact headerW_ren hσ hk t ver gen bound schema ws

/-- C64: the instructions of GLSL.std.450 take their operands for ids. -/
theorem C64_glsl (σ : UInt32 → UInt32) : TakesIds σ Glsl.instSet := by
  intro n ws
  show Glsl.readInst n (ws.map σ) = renameRead σ _ (Glsl.readInst n ws)
  simp only [Glsl.readInst]
  split
  · cases ws <;> rfl
  · split
    · cases ws <;> rfl
    · rfl

/-- GLSL.std.450, imported twice -/
def importedTwice : List UInt32 :=
  [0x6000B, 1, 0x4C534C47, 0x6474732E, 0x3035342E, 0, 0x6000B, 2, 0x4C534C47, 0x6474732E, 0x3035342E, 0]

theorem importedTwice_ren : renameWords (fun _ => 7) importedTwice =
    [0x6000B, 7, 0x4C534C47, 0x6474732E, 0x3035342E, 0, 0x6000B, 7, 0x4C534C47, 0x6474732E, 0x3035342E, 0] := by
  simp [renameWords, importedTwice, parts, renameParts]

/-- C64: different ids have to stay different. -/
theorem C64_injective : ∃ (σ : UInt32 → UInt32) (ws : List UInt32),
    (∃ m, readModule (bytesOf true (0x07230203 :: 0x10000 :: 0 :: 9 :: 0 :: ws)) [Glsl.instSet] = .ok m) ∧
    readModule (bytesOf true (0x07230203 :: 0x10000 :: 0 :: 9 :: 0 :: renameWords σ ws)) [Glsl.instSet] =
      .error (.err (.DuplicateResultId ⟨7⟩)) :=
  ⟨fun _ => 7, importedTwice, ⟨_, rfl⟩, by rw [importedTwice_ren]; rfl⟩

/-- C64: `validate` does not look at ids, and its errors have none. -/
theorem C64_validate (σ : UInt32 → UInt32) (raw : RawModule X) :
    validate (renameModule σ raw) = (validate raw).map (ren σ) :=
  validate_ren raw

/-- C64: the control flow of a function with other ids is that of the function with the same change of ids. -/
theorem C64_control_flow {σ : UInt32 → UInt32} (hσ : ∀ a b, σ a = σ b → a = b) (f : FunctionDefinition X)
    (fuel : Nat) : findControlFlow fuel (ren σ f) = renameOutcome σ (findControlFlow fuel f) :=
  find_rename hσ (blocks_ren f) fuel

/-- C64: from the bytes to the control flow of each function -/
theorem C64_all {σ : UInt32 → UInt32} (hσ : ∀ a b, σ a = σ b → a = b) {known : List (ExtInstSet X)}
    (hk : ∀ s ∈ known, TakesIds σ s) {le : Bool} {ver gen bound schema : UInt32} {ws : List UInt32}
    {raw : RawModule X} {m : LogicalModule X}
    (hr : readModule (bytesOf le (0x07230203 :: ver :: gen :: bound :: schema :: ws)) known = .ok raw)
    (hv : validate raw = .ok m) :
    ∃ raw' m',
      readModule (bytesOf le (0x07230203 :: ver :: gen :: bound :: schema :: renameWords σ ws)) known = .ok raw' ∧
      validate raw' = .ok m' ∧
      ∀ fuel, m'.function_definitions.map (findControlFlow fuel) =
        m.function_definitions.map (fun f => renameOutcome σ (findControlFlow fuel f)) := by
  refine ⟨renameModule σ raw, ren σ m, ?_, ?_, fun fuel => ?_⟩
  · have := C64_read hσ hk le ver gen bound schema ws (t := []) (by decide)
    rw [List.append_nil, List.append_nil, hr] at this
    exact this
  · rw [C64_validate, hv]; rfl
  · show (m.function_definitions.map (ren σ)).map _ = _
    rw [List.map_map]
    exact List.map_congr_left fun f _ => C64_control_flow hσ f fuel

/-- An import, a memory model, a name, a type, a constant, and a use of the import -/
def idWords : List UInt32 :=
  [0x6000B, 1, 0x4C534C47, 0x6474732E, 0x3035342E, 0, 0x3000E, 0, 1, 0x30005, 4, 0x61, 0x30016, 2, 32,
    0x4002B, 2, 3, 2, 0x6000C, 2, 4, 1, 13, 3]

theorem idWords_ren : renameWords (· + 100) idWords =
    [0x6000B, 101, 0x4C534C47, 0x6474732E, 0x3035342E, 0, 0x3000E, 0, 1, 0x30005, 104, 0x61, 0x30016, 102, 32,
      0x4002B, 102, 103, 2, 0x6000C, 102, 104, 101, 13, 103] := by
  simp [renameWords, idWords, parts, renameParts]

example : (∀ a b : UInt32, a + 100 = b + 100 → a = b) ∧ (∀ s ∈ [Glsl.instSet], TakesIds (· + 100) s) :=
  ⟨fun _ _ h => (UInt32.add_left_inj 100).mp h, by simpa using C64_glsl _⟩
example : ∃ raw m, readModule (bytesOf true (0x07230203 :: 0x10000 :: 0 :: 5 :: 0 :: idWords)) [Glsl.instSet] = .ok raw ∧
    validate { raw with instructions := raw.instructions.take 5 } = .ok m ∧ m.globals ≠ [] :=
  ⟨_, _, rfl, rfl, (fun h => by cases h)⟩
example : ∃ raw, readModule (bytesOf true (0x07230203 :: 0x10000 :: 0 :: 5 :: 0 :: idWords)) [Glsl.instSet] = .ok raw ∧
    readModule (bytesOf true (0x07230203 :: 0x10000 :: 0 :: 5 :: 0 :: renameWords (· + 100) idWords)) [Glsl.instSet] =
      .ok (renameModule (· + 100) raw) ∧ renameModule (· + 100) raw ≠ raw :=
  ⟨_, rfl, by rw [idWords_ren]; rfl, (fun h => by cases h)⟩
example : readModule (bytesOf true (0x07230203 :: 0x10000 :: 0 :: 5 :: 0 :: [0x5000C, 2, 4, 1, 13])) [Glsl.instSet] =
    .error (.err (.UnknownInstSetId ⟨1⟩)) := by rfl
example : readModule (bytesOf true (0x07230203 :: 0x10000 :: 0 :: 5 :: 0 :: [0x5000C, 102, 104, 101, 13])) [Glsl.instSet] =
    .error (.err (.UnknownInstSetId ⟨101⟩)) := by rfl

/-- C64 for the sample: all ids are moved by 100. -/
example : readModule (bytesOf true (0x07230203 :: 0x10000 :: 0 :: 5 :: 0 :: renameWords (· + 100) idWords) ++ []) [Glsl.instSet] =
    renameRead (· + 100) (renameModule (· + 100))
      (readModule (bytesOf true (0x07230203 :: 0x10000 :: 0 :: 5 :: 0 :: idWords) ++ []) [Glsl.instSet]) :=
  C64_read (fun _ _ h => (UInt32.add_left_inj 100).mp h) (by simpa using C64_glsl _) true 0x10000 0 5 0 idWords (by decide)
example (fuel : Nat) : findControlFlow fuel (ren (· + 100) (functionOf sampleBlocks)) =
    renameOutcome (· + 100) (findControlFlow fuel (functionOf sampleBlocks)) :=
  C64_control_flow (fun _ _ h => (UInt32.add_left_inj 100).mp h) _ fuel

end Magma.Props
