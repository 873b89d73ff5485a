import Verif.Spec.Utf8
/-! The strings of Lean and the table of well-formed UTF-8 sequences: they have the same bytes. -/

namespace Magma
open Spec

theorem stringBytes_eq (s : String) : stringBytes s = s.toList.flatMap String.utf8EncodeChar := by
  rw [stringBytes, ← String.utf8Encode_toList, List.utf8Encode]
  simp

theorem u8 {n : Nat} (h : n < 256) : (UInt8.ofNat n).toNat = n := by
  rw [UInt8.toNat_ofNat']; exact Nat.mod_eq_of_lt h

theorem u8_eq {n : Nat} {b : UInt8} (h : n = b.toNat) : UInt8.ofNat n = b := by
  subst h; exact UInt8.ofNat_toNat

theorem codePoint1 (a : UInt8) : codePoint [a] = a.toNat := rfl
theorem codePoint2 (a b : UInt8) : codePoint [a, b] = (a.toNat - 0xC0) * 64 + (b.toNat - 0x80) := rfl
theorem codePoint3 (a b c : UInt8) :
    codePoint [a, b, c] = (a.toNat - 0xE0) * 4096 + (b.toNat - 0x80) * 64 + (c.toNat - 0x80) := rfl
theorem codePoint4 (a b c d : UInt8) : codePoint [a, b, c, d] =
    (a.toNat - 0xF0) * 262144 + (b.toNat - 0x80) * 4096 + (c.toNat - 0x80) * 64 + (d.toNat - 0x80) := rfl

/-- The bytes of a character, by its number -/
def encodeNat (v : Nat) : List UInt8 :=
  if v ≤ 0x7f then [UInt8.ofNat v]
  else if v ≤ 0x7ff then [UInt8.ofNat (v / 64 % 32 + 192), UInt8.ofNat (v % 64 + 128)]
  else if v ≤ 0xffff then
    [UInt8.ofNat (v / 4096 % 16 + 224), UInt8.ofNat (v / 64 % 64 + 128), UInt8.ofNat (v % 64 + 128)]
  else
    [UInt8.ofNat (v / 262144 % 8 + 240), UInt8.ofNat (v / 4096 % 64 + 128), UInt8.ofNat (v / 64 % 64 + 128),
      UInt8.ofNat (v % 64 + 128)]

theorem encodeChar_eq (c : Char) : String.utf8EncodeChar c = encodeNat c.toNat := rfl

/-- The encoding of a character is in a row of the table, and stands for the character. -/
theorem encode_row (c : Char) : ∃ row ∈ utf8Table, InRow (String.utf8EncodeChar c) row ∧
    codePoint (String.utf8EncodeChar c) = c.toNat := by
  have hv : c.val.toNat < 0xD800 ∨ 0xDFFF < c.val.toNat ∧ c.val.toNat < 0x110000 := c.valid
  rw [encodeChar_eq]
  change c.toNat < 0xD800 ∨ 0xDFFF < c.toNat ∧ c.toNat < 0x110000 at hv
  generalize c.toNat = v at hv
  unfold encodeNat
  by_cases h1 : v ≤ 0x7f
  · rw [if_pos h1]
    refine ⟨[(0x00, 0x7F)], by simp [utf8Table], ?_, ?_⟩
    · simp only [InRow, and_true, u8 (n := v) (by omega)]; omega
    · simp only [codePoint1, u8 (n := v) (by omega)]
  rw [if_neg h1]
  by_cases h2 : v ≤ 0x7ff
  · rw [if_pos h2]
    have a1 := u8 (n := v / 64 % 32 + 0xc0) (by omega)
    have a2 := u8 (n := v % 64 + 0x80) (by omega)
    refine ⟨[(0xC2, 0xDF), (0x80, 0xBF)], by simp [utf8Table], ?_, ?_⟩
    · simp only [InRow, and_true, a1, a2]; omega
    · simp only [codePoint2, a1, a2]; omega
  rw [if_neg h2]
  by_cases h3 : v ≤ 0xffff
  · rw [if_pos h3]
    have a1 := u8 (n := v / 4096 % 16 + 0xe0) (by omega)
    have a2 := u8 (n := v / 64 % 64 + 0x80) (by omega)
    have a3 := u8 (n := v % 64 + 0x80) (by omega)
    simp only [codePoint3, a1, a2, a3]
    by_cases k1 : v < 0x1000
    · exact ⟨[(0xE0, 0xE0), (0xA0, 0xBF), (0x80, 0xBF)], by simp [utf8Table], by simp only [InRow, and_true, a1, a2, a3]; omega, by omega⟩
    by_cases k2 : v < 0xD000
    · exact ⟨[(0xE1, 0xEC), (0x80, 0xBF), (0x80, 0xBF)], by simp [utf8Table], by simp only [InRow, and_true, a1, a2, a3]; omega, by omega⟩
    by_cases k3 : v < 0xE000
    · exact ⟨[(0xED, 0xED), (0x80, 0x9F), (0x80, 0xBF)], by simp [utf8Table], by simp only [InRow, and_true, a1, a2, a3]; omega, by omega⟩
    · exact ⟨[(0xEE, 0xEF), (0x80, 0xBF), (0x80, 0xBF)], by simp [utf8Table], by simp only [InRow, and_true, a1, a2, a3]; omega, by omega⟩
  rw [if_neg h3]
  have a1 := u8 (n := v / 262144 % 8 + 0xf0) (by omega)
  have a2 := u8 (n := v / 4096 % 64 + 0x80) (by omega)
  have a3 := u8 (n := v / 64 % 64 + 0x80) (by omega)
  have a4 := u8 (n := v % 64 + 0x80) (by omega)
  simp only [codePoint4, a1, a2, a3, a4]
  by_cases k1 : v < 0x40000
  · exact ⟨[(0xF0, 0xF0), (0x90, 0xBF), (0x80, 0xBF), (0x80, 0xBF)], by simp [utf8Table], by simp only [InRow, and_true, a1, a2, a3, a4]; omega, by omega⟩
  by_cases k2 : v < 0x100000
  · exact ⟨[(0xF1, 0xF3), (0x80, 0xBF), (0x80, 0xBF), (0x80, 0xBF)], by simp [utf8Table], by simp only [InRow, and_true, a1, a2, a3, a4]; omega, by omega⟩
  · exact ⟨[(0xF4, 0xF4), (0x80, 0x8F), (0x80, 0xBF), (0x80, 0xBF)], by simp [utf8Table], by simp only [InRow, and_true, a1, a2, a3, a4]; omega, by omega⟩

/-- The code point of a row of the table is a scalar value. -/
theorem scalar_of_row {bs : List UInt8} {row : List (Nat × Nat)} (h : row ∈ utf8Table) (hb : InRow bs row) :
    IsScalar (codePoint bs) := by
  simp only [utf8Table, List.mem_cons, List.not_mem_nil, or_false] at h
  unfold IsScalar
  rcases h with rfl | rfl | rfl | rfl | rfl | rfl | rfl | rfl | rfl <;>
  rcases bs with _ | ⟨a, _ | ⟨b, _ | ⟨c, _ | ⟨d, _ | ⟨e, bs⟩⟩⟩⟩⟩ <;>
  simp only [InRow, and_false, and_true] at hb <;>
  simp only [codePoint1, codePoint2, codePoint3, codePoint4] <;> omega

/-- The bytes of a row of the table are the encoding of its code point. -/
theorem encode_of_row {bs : List UInt8} {row : List (Nat × Nat)} (h : row ∈ utf8Table) (hb : InRow bs row)
    {c : Char} (hc : c.toNat = codePoint bs) : String.utf8EncodeChar c = bs := by
  rw [encodeChar_eq]
  generalize c.toNat = v at hc
  unfold encodeNat
  simp only [utf8Table, List.mem_cons, List.not_mem_nil, or_false] at h
  rcases h with rfl | rfl | rfl | rfl | rfl | rfl | rfl | rfl | rfl <;>
  rcases bs with _ | ⟨a, _ | ⟨b, _ | ⟨c, _ | ⟨d, _ | ⟨e, bs⟩⟩⟩⟩⟩ <;>
  simp only [InRow, and_false, and_true] at hb <;>
  simp only [codePoint1, codePoint2, codePoint3, codePoint4] at hc
  · rw [if_pos (by omega), u8_eq hc]
  · rw [if_neg (by omega), if_pos (by omega), u8_eq (b := a) (by omega), u8_eq (b := b) (by omega)]
  · rw [if_neg (by omega), if_neg (by omega), if_pos (by omega), u8_eq (b := a) (by omega),
      u8_eq (b := b) (by omega), u8_eq (b := c) (by omega)]
  · rw [if_neg (by omega), if_neg (by omega), if_pos (by omega), u8_eq (b := a) (by omega),
      u8_eq (b := b) (by omega), u8_eq (b := c) (by omega)]
  · rw [if_neg (by omega), if_neg (by omega), if_pos (by omega), u8_eq (b := a) (by omega),
      u8_eq (b := b) (by omega), u8_eq (b := c) (by omega)]
  · rw [if_neg (by omega), if_neg (by omega), if_pos (by omega), u8_eq (b := a) (by omega),
      u8_eq (b := b) (by omega), u8_eq (b := c) (by omega)]
  · rw [if_neg (by omega), if_neg (by omega), if_neg (by omega), u8_eq (b := a) (by omega),
      u8_eq (b := b) (by omega), u8_eq (b := c) (by omega), u8_eq (b := d) (by omega)]
  · rw [if_neg (by omega), if_neg (by omega), if_neg (by omega), u8_eq (b := a) (by omega),
      u8_eq (b := b) (by omega), u8_eq (b := c) (by omega), u8_eq (b := d) (by omega)]
  · rw [if_neg (by omega), if_neg (by omega), if_neg (by omega), u8_eq (b := a) (by omega),
      u8_eq (b := b) (by omega), u8_eq (b := c) (by omega), u8_eq (b := d) (by omega)]

theorem exists_char {n : Nat} (h : IsScalar n) : ∃ c : Char, c.toNat = n :=
  ⟨Char.ofNatAux n h, by
    unfold Char.ofNatAux Char.toNat; rfl⟩

theorem char_inj {c d : Char} (h : c.toNat = d.toNat) : c = d :=
  Char.ext (UInt32.toNat_inj.mp h)

theorem utf8_of_chars : ∀ l : List Char, Utf8 (l.flatMap String.utf8EncodeChar) (l.map Char.toNat)
  | [] => .nil
  | c :: l => by
    obtain ⟨row, h1, h2, h3⟩ := encode_row c
    rw [List.flatMap_cons, List.map_cons, ← h3]
    exact .cons h1 h2 (utf8_of_chars l)

theorem chars_of_utf8 {bs : List UInt8} {cs : List Nat} (h : Utf8 bs cs) :
    ∃ l : List Char, l.map Char.toNat = cs ∧ l.flatMap String.utf8EncodeChar = bs := by
  induction h with
  | nil => exact ⟨[], rfl, rfl⟩
  | cons h1 h2 _ ih =>
    obtain ⟨l, hl, hb⟩ := ih
    obtain ⟨c, hc⟩ := exists_char (scalar_of_row h1 h2)
    exact ⟨c :: l, by rw [List.map_cons, hl, hc], by rw [List.flatMap_cons, hb, encode_of_row h1 h2 hc]⟩

theorem map_toNat_inj {l l' : List Char} (h : l.map Char.toNat = l'.map Char.toNat) : l = l' := by
  induction l generalizing l' with
  | nil => cases l' with
    | nil => rfl
    | cons => cases h
  | cons c l ih => cases l' with
    | nil => cases h
    | cons c' l' =>
      rw [List.map_cons, List.map_cons] at h
      injection h with h1 h2
      rw [char_inj h1, ih h2]

/-- The bytes of a string are those of its characters by the table. -/
theorem stringBytes_iff {s : String} {bs : List UInt8} :
    stringBytes s = bs ↔ Utf8 bs (s.toList.map Char.toNat) := by
  constructor
  · rintro rfl
    rw [stringBytes_eq]
    exact utf8_of_chars _
  · intro h
    obtain ⟨l, hl, hb⟩ := chars_of_utf8 h
    rw [stringBytes_eq, ← map_toNat_inj hl, hb]

theorem exists_string_iff {bs : List UInt8} : (∃ s, stringBytes s = bs) ↔ ∃ cs, Utf8 bs cs := by
  constructor
  · rintro ⟨s, h⟩
    exact ⟨_, stringBytes_iff.mp h⟩
  · rintro ⟨cs, h⟩
    obtain ⟨l, rfl, hb⟩ := chars_of_utf8 h
    refine ⟨String.ofList l, ?_⟩
    rw [stringBytes_eq, String.toList_ofList, hb]

theorem utf8_unique {bs : List UInt8} {cs cs' : List Nat} (h : Utf8 bs cs) (h' : Utf8 bs cs') : cs = cs' := by
  obtain ⟨l, rfl, hb⟩ := chars_of_utf8 h
  obtain ⟨l', rfl, hb'⟩ := chars_of_utf8 h'
  have e1 : stringBytes (String.ofList l) = bs := by rw [stringBytes_eq, String.toList_ofList, hb]
  have e2 : stringBytes (String.ofList l') = bs := by rw [stringBytes_eq, String.toList_ofList, hb']
  have e : String.ofList l = String.ofList l' := by
    apply String.toByteArray_inj.mp
    have := e1.trans e2.symm
    rw [stringBytes, stringBytes] at this
    exact ByteArray.ext (Array.ext' this)
  rw [String.ofList_injective e]

/-- A NUL byte occurs only as the character NUL. -/
theorem zero_of_utf8 {bs : List UInt8} {cs : List Nat} (h : Utf8 bs cs) (h0 : 0 ∈ bs) : 0 ∈ cs := by
  induction h with
  | nil => cases h0
  | @cons a rest row cs h1 h2 _ ih =>
    rcases List.mem_append.mp h0 with h0 | h0
    · have : codePoint a = 0 := by
        simp only [utf8Table, List.mem_cons, List.not_mem_nil, or_false] at h1
        rcases h1 with rfl | rfl | rfl | rfl | rfl | rfl | rfl | rfl | rfl <;>
        rcases a with _ | ⟨a, _ | ⟨b, _ | ⟨c, _ | ⟨d, _ | ⟨e, bs⟩⟩⟩⟩⟩ <;>
        simp only [InRow, and_false, and_true] at h2 <;>
        simp only [List.mem_cons, List.not_mem_nil, or_false, ← UInt8.toNat_inj,
          show (0 : UInt8).toNat = 0 from rfl] at h0 <;>
        (try simp only [codePoint1]) <;> omega
      rw [this]
      exact List.mem_cons_self
    · exact List.mem_cons_of_mem _ (ih h0)

theorem exists_chars : ∀ cs : List Nat, (∀ c ∈ cs, IsScalar c) → ∃ l : List Char, l.map Char.toNat = cs
  | [], _ => ⟨[], rfl⟩
  | c :: cs, h => by
    obtain ⟨x, hx⟩ := exists_char (h c List.mem_cons_self)
    obtain ⟨l, hl⟩ := exists_chars cs fun c hc => h c (List.mem_cons_of_mem _ hc)
    exact ⟨x :: l, by rw [List.map_cons, hx, hl]⟩

end Magma
