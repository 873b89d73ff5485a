import Verif.Proofs.StackDepth
import Verif.Proofs.StackCalls
import Verif.Props.Validate
/-! C68: the stack and the time the layout validator takes. -/

namespace Magma.Props
open Spec
variable {X : Type}

/-- C68: on a module that is accepted, the calls of `read_rest` nest exactly as deep as the sections
of the module say: with room for that many frames the validator returns the module, and with less it
overflows the stack. -/
theorem C68_depth {raw : RawModule X} {m : LogicalModule X} (h : validate raw = .ok m) (d : Nat) :
    (validateC raw d).1 = if moduleDepth m ≤ d then .ok m else .error .diverge := by
  obtain ⟨s1, s2, hm⟩ := exists_moduleOf m
  rw [hm] at h ⊢
  obtain ⟨h1, h2⟩ := isLayout_iff.mp ((validate_iff _ _).mp h)
  by_cases hd : moduleDepth (moduleOf s1 m.memory_model s2 m.function_declarations m.function_definitions) ≤ d
  · rw [if_pos hd, (validateC_takes h1 h2).enough d hd]
  · rw [if_neg hd, (validateC_takes h1 h2).short d (by omega)]

/-- C68: and the number of calls is then exactly what the sections say: one for every item, one for
the end of every list, and the parameters of the first function with a body over again. -/
theorem C68_calls_exact {raw : RawModule X} {m : LogicalModule X} (h : validate raw = .ok m) {d : Nat}
    (hd : moduleDepth m ≤ d) : (validateC raw d).2 = moduleCalls m := by
  obtain ⟨s1, s2, hm⟩ := exists_moduleOf m
  rw [hm] at h hd ⊢
  obtain ⟨h1, h2⟩ := isLayout_iff.mp ((validate_iff _ _).mp h)
  rw [(validateC_takes h1 h2).enough d hd]

/-- C68: for every module, accepted or not, one frame per instruction and one more are enough. -/
theorem C68_enough (raw : RawModule X) {d : Nat} (h : raw.instructions.length < d) :
    (validateC raw d).1 = validate raw :=
  (fine_validate raw).same d (by rwa [List.length_map])

/-- C68: so an accepted module is never deeper than that. -/
theorem C68_depth_le {raw : RawModule X} {m : LogicalModule X} (h : validate raw = .ok m) :
    moduleDepth m ≤ raw.instructions.length + 1 := by
  apply Classical.byContradiction
  intro hn
  have h1 := C68_enough raw (Nat.lt_succ_self raw.instructions.length)
  rw [C68_depth h, if_neg hn, h] at h1
  cases h1

theorem le_nested {T : Type} (need : T → Nat) (stop : Nat) {t : T} :
    ∀ {ts : List T}, t ∈ ts → need t ≤ nested need stop ts
  | _ :: ts, h => by
    simp only [nested]
    rcases List.mem_cons.mp h with rfl | h
    · omega
    · have := le_nested need stop h
      omega

theorem le_foldr_max {x : Nat} : ∀ {l : List Nat}, x ∈ l → x ≤ l.foldr max 0
  | _ :: l, h => by
    simp only [List.foldr]
    rcases List.mem_cons.mp h with rfl | h
    · omega
    · have := le_foldr_max h
      omega

/-- C68: in particular a block that is longer than the stack has room for overflows it, however
little else is in the module. -/
theorem C68_long_block {raw : RawModule X} {m : LogicalModule X} (h : validate raw = .ok m)
    {f : FunctionDefinition X} (hf : f ∈ m.function_definitions) {b : BasicBlock X}
    (hb : b ∈ f.blocks) {d : Nat} (hd : d ≤ b.code.length) : (validateC raw d).1 = .error .diverge := by
  have h1 : blockDepth b ≤ nested blockDepth 0 f.blocks := le_nested _ _ hb
  have h2 : definitionDepth f ≤ nested definitionDepth 0 m.function_definitions := le_nested _ _ hf
  have h3 : nested definitionDepth 0 m.function_definitions ≤ moduleDepth m := by
    exact le_foldr_max (by simp)
  have h4 : nested blockDepth 0 f.blocks ≤ definitionDepth f := Nat.le_max_right _ _
  rw [C68_depth h, if_neg]
  simp only [blockDepth] at h1
  omega

/-- A module of which the only function has one block of `n` instructions -/
def longModule (n : Nat) : LogicalModule Empty :=
  { capabilities := [], extensions := [], ext_inst_imports := [],
    memory_model := { addressing_model := .Logical, memory_model := .Simple }, entry_points := [],
    execution_modes := [], debug := [], annotations := [], globals := [], function_declarations := [],
    function_definitions :=
      [{ function := { result_id := ⟨4⟩, result_type := ⟨2⟩, function_control := ⟨false, false, false, false⟩, function_type := ⟨3⟩ },
         parameters := [],
         blocks := [{ label := { result_id := ⟨5⟩ },
                      code := List.replicate n (.OpUndef { result_id := ⟨6⟩, result_type := ⟨2⟩ }),
                      merge := none, branch := .OpReturn {} }] }] }

theorem longModule_layout (n : Nat) : IsLayout (layout (longModule n)) (longModule n) := by
  refine ⟨rfl, ⟨?_, ?_⟩, ?_⟩
  · simp [longModule]
  · simp [longModule]
  · simp [longModule]

/-- C68: no number of frames serves every module: for each there is a module that has the layout the
validator accepts and overflows the stack. -/
theorem C68_unbounded (d : Nat) : ∃ (raw : RawModule Empty) (m : LogicalModule Empty),
    validate raw = .ok m ∧ (validateC raw d).1 = .error .diverge := by
  have h : validate ⟨⟨1, 0⟩, ⟨.Valve, 0⟩, 9, layout (longModule d)⟩ = .ok (longModule d) :=
    (C21_layout_iff _ _).mpr (longModule_layout d)
  exact ⟨_, _, h, C68_long_block h (List.mem_singleton.mpr rfl) (List.mem_singleton.mpr rfl)
    (by simp)⟩

/-- C68: on any module and any stack the number of calls of `read_rest` is at most three for every
instruction and ten more: nothing is read over and over. -/
theorem C68_calls (raw : RawModule X) (d : Nat) :
    (validateC raw d).2 ≤ 3 * raw.instructions.length + 10 := by
  have := (fine_validate raw).calls d
  rwa [List.length_map] at this

/-! The sample module of a function with a loop takes seven frames: one for the function, four for its blocks
and two for the instruction in the last -/

example : moduleDepth Samples.logical = 7 := by rfl
example : (validateC Samples.logicalRaw 7).1 = .ok Samples.logical := by
  rw [C68_depth ((C21_layout_iff _ _).mpr sample_layout)]
  exact if_pos (by decide)
example : (validateC Samples.logicalRaw 6).1 = .error .diverge := by
  rw [C68_depth ((C21_layout_iff _ _).mpr sample_layout)]
  exact if_neg (by decide)
example : (validateC (X := Empty) ⟨⟨1, 0⟩, ⟨.Valve, 0⟩, 0, [.OpReturn {}]⟩ 2).1 =
    .error (.err .MemoryModelMissing) := by rfl
example : (validateC Samples.logicalRaw 6).2 ≤ 3 * Samples.logicalRaw.instructions.length + 10 :=
  C68_calls _ _
example : moduleCalls Samples.logical = 40 := by rfl
example : (validateC Samples.logicalRaw 9).2 = moduleCalls Samples.logical :=
  C68_calls_exact ((C21_layout_iff _ _).mpr sample_layout) (by decide)
example : moduleDepth (longModule 10) = 13 := by rfl

example : moduleDepth Samples.logical ≤ Samples.logicalRaw.instructions.length + 1 := C68_depth_le rfl
example : (validateC Samples.logicalRaw 1000).1 = validate Samples.logicalRaw := C68_enough _ (by decide)

end Magma.Props
