import Verif.Proofs.FirstInst
import Verif.Props.Blame
/-! C62: operand errors are about the first operand that is wrong. -/

namespace Magma.Props
open Spec
variable {X : Type}

/-! ### C62 -/

/-- C62: a refused word or string stands in the first instruction that cannot be read, and is the first of its
operands that is wrong: the words before it are the start of the operands of an instruction with this opcode, with
it they are the start of none. Whatever stands behind it, in the instruction and in the module, the error is the
same. -/
theorem C62_first {known : List (ExtInstSet X)} (hk : ∀ s ∈ known, OwnErrors s) {bytes : List UInt8} {e : ReadError}
    (he : refusedWord e ≠ none ∨ e = .InvalidString) (h : readModule bytes known = .error (.err e)) :
    ∃ before head good bad more rest tail,
      Continues known before (head :: (good ++ bad ++ more ++ rest)) tail bytes ∧
      (good ++ bad ++ more).length = head.toNat / 65536 - 1 ∧ Refused e bad ∧
      CanGoOn X (head.toNat % 65536) good ∧ ¬ CanGoOn X (head.toNat % 65536) (good ++ bad) ∧
      ∀ head' more' rest' tail' bytes', head'.toNat % 65536 = head.toNat % 65536 →
        (good ++ bad ++ more').length = head'.toNat / 65536 - 1 →
        Continues known before (head' :: (good ++ bad ++ more' ++ rest')) tail' bytes' →
        readModule bytes' known = .error (.err e) := by
  rcases readModule_error h with ⟨x, hx, hh⟩ | hs | ⟨before, head, ops, rest, tail, b, hc, hl, hinv, -, hd⟩
  · cases hx
    exfalso
    rcases he with he | rfl
    · cases e <;> first | exact he rfl | cases hh
    · cases hh
  · exfalso
    rcases hs with hs | hs <;> cases hs <;> rcases he with he | he <;> first | exact he rfl | cases he
  · obtain ⟨u, q, more, rfl, h1, h2, h3, h4⟩ := decode_first hinv hk he hd
    exact ⟨before, head, u, q, more, rest, tail, hc, hl, h1, h2, h3, fun head' more' rest' tail' bytes' g1 g2 g3 =>
      Continues_error g3 g2 (fun b' _ => h4 head' more' known b' g1)⟩

/-- The refused part is determined: no other word of the instruction could be the first that is wrong. -/
theorem C62_unique {op : Nat} {ops good good' more more' : List UInt32} {w w' : UInt32}
    (h1 : ops = good ++ [w] ++ more) (h2 : CanGoOn X op good) (h3 : ¬ CanGoOn X op (good ++ [w]))
    (h1' : ops = good' ++ [w'] ++ more') (h2' : CanGoOn X op good') (h3' : ¬ CanGoOn X op (good' ++ [w'])) :
    good = good' ∧ w = w' := by
  have shorter {a b c : List UInt32} (h : CanGoOn X op a) (e : a = b ++ c) : CanGoOn X op b := by
    obtain ⟨more, inst, g1, g2⟩ := h
    subst e
    exact ⟨c ++ more, inst, g1, by rwa [← List.append_assoc]⟩
  subst h1
  rcases Nat.lt_trichotomy good.length good'.length with hl | hl | hl
  · exfalso
    have : good ++ [w] <+: good' := List.prefix_of_prefix_length_le (List.prefix_append _ more)
      (h1' ▸ List.append_assoc good' [w'] more' ▸ List.prefix_append _ _) (by simp; omega)
    obtain ⟨c, hc⟩ := this
    exact h3 (shorter h2' hc.symm)
  · simp only [List.append_assoc] at h1'
    obtain ⟨rfl, h⟩ := List.append_inj h1' hl
    cases h
    exact ⟨rfl, rfl⟩
  · exfalso
    have : good' ++ [w'] <+: good := List.prefix_of_prefix_length_le (h1' ▸ List.prefix_append _ more')
      (List.append_assoc good [w] more ▸ List.prefix_append _ _) (by simp; omega)
    obtain ⟨c, hc⟩ := this
    exact h3' (shorter h2 hc.symm)

-- `OpMemoryModel` with two wrong operands: the first is reported, and a change to the second does not matter
example : readModule (Samples.header ++ bytesOf true [0x0003000E, 7, 9]) [Glsl.instSet] =
    .error (.err (.UnknownAddressingModel 7)) := by rfl
example : readModule (Samples.header ++ bytesOf true [0x0003000E, 7, 1, 0xFFFFFFFF]) [Glsl.instSet] =
    .error (.err (.UnknownAddressingModel 7)) := by rfl
example : readModule (Samples.header ++ bytesOf true [0x0003000E, 0, 9]) [Glsl.instSet] =
    .error (.err (.UnknownMemoryModel 9)) := by rfl
example : CanGoOn Glsl.Inst 14 [0] :=
  ⟨[1], .OpMemoryModel ⟨.Logical, .Glsl450⟩, rfl, by simp [operands, enc, Reads]; decide⟩
example : ¬ CanGoOn Glsl.Inst 14 [0, 9] := by
  rintro ⟨more, inst, h1, h2⟩
  have hi : ∃ op, inst = .OpMemoryModel op := by
    cases inst <;> first | exact ⟨_, rfl⟩ | exact absurd h1 (by simp [opcode])
  obtain ⟨⟨a, m⟩, rfl⟩ := hi
  cases m <;> simp [operands, enc, Reads, memoryModelCode] at h2

end Magma.Props
