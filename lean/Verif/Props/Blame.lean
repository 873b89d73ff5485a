import Verif.Proofs.BlameInst
import Verif.Props.Header
import Verif.Props.Samples
/-! C53: errors of the reader are justified. -/

namespace Magma.Props
open Spec
variable {X : Type}

/-! ### C53 -/

/-- C53: an error that is not about the header or an early end is about the first instruction that cannot be
read, and what it says is true of that instruction -/
theorem C53_justified {known : List (ExtInstSet X)} (hk : ∀ s ∈ known, OwnErrors s) {bytes : List UInt8} {e : ReadError}
    (h : readModule bytes known = .error (.err e)) :
    AboutStream e ∨ ∃ before head ops rest tail, Continues known before (head :: (ops ++ rest)) tail bytes ∧
      ops.length = head.toNat / 65536 - 1 ∧ (∀ inst, ¬ SpellsInst known before inst (head :: ops)) ∧
      Justifies known before head ops e := by
  rcases readModule_error h with ⟨x, hx, hh⟩ | he | ⟨before, head, ops, rest, tail, b, hc, hl, hinv, -, hd⟩
  · cases hx
    refine .inl ?_
    have hk' : ∀ s ∈ known, OnlyOperandErrors s := by
      intro s hs n ws e he
      rcases (hk s hs).1 n ws e he with rfl | rfl <;> trivial
    cases e <;> first | exact trivial | exact absurd h (C10_unknown_version hk' bytes _) | exact (nomatch hh)
  · rcases he with he | he <;> cases he <;> exact .inl trivial
  · refine .inr ⟨before, head, ops, rest, tail, hc, hl, ?_, decode_justified hinv hk hd⟩
    rintro inst ⟨h1, head', ops', he, h2, h3⟩
    cases he
    obtain ⟨b', h3⟩ := (OpsRel_iff hinv inst _).mpr h3
    rw [decode_iff.mpr ⟨h1, (isHead_opWords h2).2.symm, h3⟩] at hd
    cases hd

/-- The errors of GLSL.std.450 are its own. -/
theorem glsl_own : OwnErrors Glsl.instSet := by
  refine ⟨fun n ws e h => ?_, fun n ws rest i h => ?_⟩
  · simp only [Glsl.instSet, Glsl.readInst] at h
    split at h
    · cases ws <;> cases h
      exact .inl rfl
    · split at h
      · cases ws <;> cases h
        exact .inl rfl
      · cases h
        exact .inr rfl
  · simp only [Glsl.instSet, Glsl.readInst] at h
    split at h
    · cases ws <;> cases h
      exact List.suffix_cons _ _
    · split at h
      · cases ws <;> cases h
        exact List.suffix_cons _ _
      · cases h

/-- C53 with GLSL.std.450 as the only known set -/
theorem C53_justified_glsl {bytes : List UInt8} {e : ReadError}
    (h : readModule bytes [Glsl.instSet] = .error (.err e)) :
    AboutStream e ∨ ∃ before head ops rest tail, Continues [Glsl.instSet] before (head :: (ops ++ rest)) tail bytes ∧
      ops.length = head.toNat / 65536 - 1 ∧ (∀ inst, ¬ SpellsInst [Glsl.instSet] before inst (head :: ops)) ∧
      Justifies [Glsl.instSet] before head ops e :=
  C53_justified (fun s hs => by cases hs with | head => exact glsl_own | tail _ h => cases h) h

example : readModule (Samples.header ++ Samples.voidWords ++ bytesOf true [0x00020011, 77]) [Glsl.instSet] =
    .error (.err (.UnknownCapability 77)) := by rfl
example : Justifies (X := Glsl.Inst) [Glsl.instSet] [.OpTypeVoid ⟨⟨2⟩⟩] 0x00020011 [77] (.UnknownCapability 77) :=
  ⟨List.mem_cons_self, fun a => by cases a <;> decide⟩
example : readModule (Samples.header ++ bytesOf true [0x00020007, 1, 0xFF]) [Glsl.instSet] =
    .error (.err .UnexpectedEndOfInstruction) := by rfl
example : Justifies (X := Glsl.Inst) [Glsl.instSet] [] 0x00020007 [1] .UnexpectedEndOfInstruction :=
  .inr (.inl ⟨by decide, [0x64636261, 0], by simp, .OpString ⟨⟨1⟩, "abcd"⟩, rfl, _, rfl, _, [], (List.append_nil _).symm,
    ⟨[0, 0, 0], by decide +kernel, by decide, by decide +kernel⟩, rfl⟩)
example : readModule (Samples.header ++ bytesOf true [0x00030007, 1, 0xFF]) [Glsl.instSet] =
    .error (.err .InvalidString) := by rfl

end Magma.Props
