import Verif.Proofs.Unread
/-! Lemmas: the text of an instruction that is printed but not read determines it. -/

namespace Magma
open Spec

theorem unreadNames_spaceless : ∀ p ∈ unreadNames, ' ' ∉ p.2.toList := by decide +kernel

theorem Unread.code_of_fmt {a b : Unread} (h : Display.fmt a = Display.fmt b) : unreadCode a = unreadCode b := by
  obtain ⟨na, sa, ma, ha, ra, ea⟩ := Unread.layout a
  obtain ⟨nb, sb, mb, hb, rb, eb⟩ := Unread.layout b
  rw [ea, eb] at h
  have h := (List.append_inj h (by rw [leftColumn_length, leftColumn_length])).2
  have h := congrArg (List.takeWhile (· != ' ')) h
  rw [takeWhile_spaced (unreadNames_spaceless _ ma) ha, takeWhile_spaced (unreadNames_spaceless _ mb) hb] at h
  have hn : (unreadNames.map Prod.snd).Nodup := by decide +kernel
  exact congrArg Prod.fst (nodup_map_inj hn ma mb (String.ext_iff.mpr h))

/-- The opcodes in the order of the constructors -/
def Unread.codes : List Nat :=
  [8, 317, 73, 74, 36, 41, 42, 45, 46, 48, 49, 50, 51, 60, 63, 64, 66, 67, 68, 69, 70, 57, 86, 109, 110, 111, 113, 114, 115,
   116, 117, 118, 119, 120, 121, 122, 123, 77, 78, 79, 80, 81, 82, 83, 84, 126, 127, 142, 143, 144, 145, 146, 147, 148, 194, 195, 196, 200]

theorem Unread.code_idx (u : Unread) : Unread.codes[u.ctorIdx]? = some (unreadCode u) := by cases u <;> rfl

theorem Unread.ctorIdx_eq {a b : Unread} (h : unreadCode a = unreadCode b) : a.ctorIdx = b.ctorIdx := by
  have hn : Unread.codes.Nodup := by decide +kernel
  have ha := Unread.code_idx a
  have hb := Unread.code_idx b
  have hlt : a.ctorIdx < Unread.codes.length := by
    rcases Nat.lt_or_ge a.ctorIdx Unread.codes.length with h' | h'
    · exact h'
    · rw [List.getElem?_eq_none h'] at ha
      cases ha
  rw [h] at ha
  exact (List.getElem?_inj hlt hn).mp (ha.trans hb.symm)

theorem Unread.fmt_inj {a b : Unread} (h : Display.fmt a = Display.fmt b) : a = b :=
  Unread.fmt_inj' (Unread.ctorIdx_eq (Unread.code_of_fmt h)) h

theorem words_ids (cs : List MemberIndex) : words (cs.map fun c => OpId.mk c.val) = words cs := by
  induction cs with
  | nil => rfl
  | cons c cs ih => exact congrArg (c.val :: ·) ih

theorem composite_only {t : OpId} {r : ResultId} {cs : List MemberIndex}
    (h : Display.fmt (Unread.OpCompositeConstruct ⟨t, r, cs⟩) =
      unreadLine 80 (words t ++ words r ++ words cs)) : cs = [] := by
  have h : fmtResult r ++ "OpCompositeConstruct".toList ++ FormatArg.formatArg t ++ FormatArg.formatArg cs =
      unreadLine 80 (words t ++ words r ++ words cs) := h
  have e := line_typed 80 "OpCompositeConstruct" t r (ss := [theIds]) rfl rfl
    (shown_all (cs.map fun c => OpId.mk c.val))
  rw [words_ids] at e
  rw [append3 (a := words t), ← e, assoc2] at h
  have h := List.append_cancel_left (List.append_cancel_left (List.append_cancel_left h))
  cases cs with
  | nil => rfl
  | cons c cs =>
    rw [List.map_cons, formatArg_cons, formatArg_cons] at h
    have h : ' ' :: (fmtNat c.val.toNat ++ FormatArg.formatArg cs) = ' ' :: ('%' :: _) := h
    injection h with _ h
    cases hf : fmtNat c.val.toNat with
    | nil => exact absurd hf Nat.toDigits_ne_nil
    | cons d ds =>
      rw [hf] at h
      injection h with h _
      have := fmtNat_digit (n := c.val.toNat) (c := d) (by rw [hf]; exact List.mem_cons_self)
      exact absurd h (digit_ne this (by decide))

end Magma
