import Verif.Proofs.ListingModule
import Verif.Props.Samples
/-! C66: the text of every module. -/

namespace Magma.Props
open Spec
variable {X : Type}

/-! ### C66 -/

/-- C66: the disassembly of a module that was read is the text that the reference gives for its bytes. -/
theorem C66_text [Display X] {ext : ExtText} {known : List (ExtInstSet X)} (hx : ShowsSets ext known) {bytes : List UInt8}
    {m : RawModule X} (h : readModule bytes known = .ok m) : m.fmt = disassembly ext bytes :=
  readModule_lists hx h

/-- C66: together with C65, the whole way from bytes to text, or to an error, is what the two references say. -/
theorem C66_outcome [Display X] {ext : ExtText} {known : List (ExtInstSet X)} (hx : ShowsSets ext known)
    (bytes : List UInt8) :
    (readModule bytes known).map RawModule.fmt = (reference known bytes).map fun _ => disassembly ext bytes := by
  rw [← readModule_reference]
  cases h : readModule bytes known with
  | error e => rfl
  | ok m => exact congrArg Except.ok (C66_text hx h)

/-- C66: the set of the crate is printed as `glslText` says, so that nothing is assumed about the module. -/
theorem C66_glsl (bytes : List UInt8) :
    (readModule bytes [Glsl.instSet]).map RawModule.fmt =
      (reference [Glsl.instSet] bytes).map fun _ => disassembly glslText bytes := by
  refine C66_outcome ?_ bytes
  intro s hs number args x h
  cases hs with
  | tail _ h => cases h
  | head =>
    have h : Glsl.readInst number args = .ok ([], x) := h
    unfold Glsl.readInst at h
    unfold glslText
    by_cases h13 : number = 13
    · subst h13
      rw [if_pos rfl] at h
      match args, h with
      | [w], h =>
        cases h
        show "Sin ".toList ++ Display.fmt (OpId.mk w) = "Sin".toList ++ inLine [idText w]
        rw [inLine_one, idText_eq]
        rfl
    · rw [if_neg h13] at h
      by_cases h14 : number = 14
      · subst h14
        rw [if_pos rfl] at h
        match args, h with
        | [w], h =>
          cases h
          show "Cos ".toList ++ Display.fmt (OpId.mk w) = "Cos".toList ++ inLine [idText w]
          rw [inLine_one, idText_eq]
          rfl
      · rw [if_neg h14] at h
        cases h

/-- Lines of the reference -/
example : lineOf 62 [6, 8, 1] = "               OpStore %6 %8 Volatile".toList ∧
    lineOf 54 [2, 4, 3, 9] = "          %4 = OpFunction %2 Inline | DontInline %9".toList ∧
    lineOf 5 [4, 0x6e69616d, 0] = "               OpName %4 \"main\"".toList ∧
    lineOf 246 [7, 8, 12, 3] = "               OpLoopMerge %7 %8 DependencyInfinite | DependencyLength(3)".toList ∧
    lineOf 71 [3, 41, 0x66, 1] = "               OpDecorate %3 LinkageAttributes f Import".toList ∧
    lineOf 16 [4, 17, 8, 4, 1] = "               OpExecutionMode %4 LocalSize 8 4 1".toList ∧
    lineOf 250 [5, 6, 7] = "               OpBranchConditional %5 %6 %7".toList ∧
    lineOf 250 [5, 6, 7, 1, 2] = "               OpBranchConditional %5 %6 %7 1 2".toList ∧
    lineOf 3 [9, 450] = "               OpSource Unknown(9) 450".toList := by
  decide +kernel

example : extLine glslText [(1, "GLSL.std.450")] [6, 10, 1, 13, 9] = "         %10 = OpExtInst %6 %1 Sin %9".toList := by
  decide +kernel

/-- A module with an import and an instruction of the set -/
def sinBytes : List UInt8 :=
  Samples.header ++ bytesOf true [0x6000B, 1, 0x4C534C47, 0x6474732E, 0x3035342E, 0, 0x6000C, 6, 10, 1, 13, 9]

example : ∃ m, readModule sinBytes [Glsl.instSet] = .ok m ∧ m.instructions.length = 2 ∧
    m.fmt = disassembly glslText sinBytes := by
  have hr : ∃ m, readModule sinBytes [Glsl.instSet] = .ok m ∧ m.instructions.length = 2 := ⟨_, rfl, rfl⟩
  obtain ⟨m, h, hl⟩ := hr
  refine ⟨m, h, hl, ?_⟩
  have := C66_glsl sinBytes
  rw [← readModule_reference, h] at this
  exact Except.ok.inj this

end Magma.Props
