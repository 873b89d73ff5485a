import Verif.Proofs.ReferenceModule
import Verif.Props.Samples
/-! C65: every outcome of reading. -/

namespace Magma.Props
open Spec
variable {X : Type}

/-! ### C65 -/

/-- C65: whether the bytes are accepted, and the error if not, is what the reference says. There are no
hypotheses: the bytes and the sets may be anything. -/
theorem C65_outcome (known : List (ExtInstSet X)) (bytes : List UInt8) :
    (readModule bytes known).map (fun _ => ()) = reference known bytes :=
  readModule_reference known bytes

/-- C65: the reader accepts exactly what the reference accepts. -/
theorem C65_accepted (known : List (ExtInstSet X)) (bytes : List UInt8) :
    (∃ m, readModule bytes known = .ok m) ↔ reference known bytes = .ok () := by
  rw [← C65_outcome]
  cases readModule bytes known with
  | error e => exact ⟨fun ⟨_, h⟩ => (by cases h), fun h => (by cases h)⟩
  | ok m => exact ⟨fun _ => rfl, fun _ => ⟨m, rfl⟩⟩

/-- C65: the reader fails exactly where the reference does, in the same way. -/
theorem C65_error (known : List (ExtInstSet X)) (bytes : List UInt8) (e : Fault ReadError) :
    readModule bytes known = .error e ↔ reference known bytes = .error e := by
  rw [← C65_outcome]
  cases readModule bytes known with
  | error e' => exact ⟨fun h => (by cases h; rfl), fun h => (by cases h; rfl)⟩
  | ok m => exact ⟨fun h => (by cases h), fun h => (by cases h)⟩

/-- C65: the same for the instructions of `GLSL.std.450`. -/
theorem C65_glsl (number : UInt32) (args : List UInt32) :
    (Glsl.instSet.readInstruction number args).map Prod.fst = checkGlsl number args := by
  show (Glsl.readInst number args).map Prod.fst = _
  have h (k : Nat) (hk : k < 4294967296) : number = UInt32.ofNat k ↔ number.toNat = k := by
    rw [← UInt32.toNat_inj, UInt32.toNat_ofNat', Nat.mod_eq_of_lt hk]
  unfold Glsl.readInst checkGlsl
  by_cases h13 : number = 13
  · subst h13
    cases args <;> rfl
  · rw [if_neg h13]
    by_cases h14 : number = 14
    · subst h14
      cases args <;> rfl
    · rw [if_neg h14, if_neg]
      · rfl
      · have a := fun e => h13 ((h 13 (by decide)).mpr e)
        have b := fun e => h14 ((h 14 (by decide)).mpr e)
        simp only [List.mem_cons, List.not_mem_nil, or_false]
        rintro (e | e)
        · exact a e
        · exact b e

/-- A module for the reference, after the header: `OpMemoryModel` and `OpTypeInt`, and then an `OpTypePointer`
with `extra` words more than it should have -/
def pointerWords (extra : List UInt32) : List UInt8 :=
  Samples.header ++ bytesOf true ([0x3000E, 0, 1, 0x40015, 3, 32, 1, 0x40020 + 0x10000 * UInt32.ofNat extra.length, 4, 7, 3] ++ extra)

theorem reference_pointer : reference (X := Empty) [] (pointerWords []) = .ok () ∧
    reference (X := Empty) [] (pointerWords [5]) = .error (.err .InstructionHadExcessData) := by
  constructor
  · show checkBody [] [] [] [0x3000E, 0, 1, 0x40015, 3, 32, 1, 0x40020, 4, 7, 3] = _
    rw [checkBody]
    show checkBody [] [] [] [0x40015, 3, 32, 1, 0x40020, 4, 7, 3] = _
    rw [checkBody]
    show checkBody [] [] [] [0x40020, 4, 7, 3] = _
    rw [checkBody]
    show checkBody [] [] [] [] = _
    rw [checkBody]
    rfl
  · show checkBody [] [] [] [0x3000E, 0, 1, 0x40015, 3, 32, 1, 0x50020, 4, 7, 3, 5] = _
    rw [checkBody]
    show checkBody [] [] [] [0x40015, 3, 32, 1, 0x50020, 4, 7, 3, 5] = _
    rw [checkBody]
    show checkBody [] [] [] [0x50020, 4, 7, 3, 5] = _
    rw [checkBody]
    rfl

example : ∃ m, readModule (X := Empty) (pointerWords []) [] = .ok m :=
  (C65_accepted [] _).mpr reference_pointer.1
example : readModule (X := Empty) (pointerWords [5]) [] = .error (.err .InstructionHadExcessData) :=
  (C65_error [] _ _).mpr reference_pointer.2

end Magma.Props
