import Verif.Proofs.Reads
/-! Lemmas: literal strings. -/

namespace Magma
open Spec

theorem wordChars_eq (w : UInt32) : wordChars w = wordBytes w := by
  have h (k : Nat) : k &&& 255 = k % 256 := Nat.and_two_pow_sub_one_eq_mod k 8
  simp only [wordChars, wordBytes, List.cons.injEq, and_true]
  refine ⟨?_, ?_, ?_, ?_⟩ <;> apply UInt8.toNat_inj.mp <;>
    simp [h, Nat.shiftRight_eq_div_pow]

theorem wordBytes_length (w : UInt32) : (wordBytes w).length = 4 := rfl

theorem pushChars_true {cs : List UInt8} : ∀ {acc r : List UInt8},
    pushChars cs acc = (r, true) ↔ ∃ p q, cs = p ++ 0 :: q ∧ 0 ∉ p ∧ r = p.reverse ++ acc := by
  induction cs with
  | nil => simp [pushChars]
  | cons c cs ih =>
    intro acc r
    simp only [pushChars]
    split
    · rename_i hc
      subst hc
      constructor
      · intro h
        simp only [Prod.mk.injEq, and_true] at h
        exact ⟨[], cs, by simp [h]⟩
      · rintro ⟨p, q, h, hp, rfl⟩
        cases p with
        | nil => simp
        | cons x p => simp at h; simp [← h.1] at hp
    · rename_i hc
      rw [ih]
      constructor
      · rintro ⟨p, q, rfl, hp, rfl⟩
        exact ⟨c :: p, q, by simp, by simp [hp, Ne.symm hc], by simp⟩
      · rintro ⟨p, q, h, hp, rfl⟩
        cases p with
        | nil => simp at h; exact absurd h.1 hc
        | cons x p =>
          simp at h
          obtain ⟨rfl, rfl⟩ := h
          exact ⟨p, q, rfl, fun h => hp (List.mem_cons_of_mem _ h), by simp⟩

theorem pushChars_false {cs : List UInt8} : ∀ {acc r : List UInt8},
    pushChars cs acc = (r, false) ↔ 0 ∉ cs ∧ r = cs.reverse ++ acc := by
  induction cs with
  | nil => simp [pushChars, eq_comm]
  | cons c cs ih =>
    intro acc r
    simp only [pushChars]
    split
    · rename_i hc
      simp [hc]
    · rename_i hc
      rw [ih]
      simp [Ne.symm hc]

/-- The bytes of the words `u` are `bs`, a NUL and at most three more bytes. -/
def StringWords (bs : List UInt8) (u : List UInt32) : Prop :=
  ∃ pad : List UInt8, u.flatMap wordBytes = bs ++ 0 :: pad ∧ pad.length ≤ 3 ∧ 0 ∉ bs

theorem flatMap_wordBytes_length (u : List UInt32) : (u.flatMap wordBytes).length = 4 * u.length := by
  induction u with
  | nil => rfl
  | cons w u ih => simp [ih, wordBytes_length]; omega

theorem StringWords_nil {bs : List UInt8} : ¬ StringWords bs [] := by
  rintro ⟨pad, h, _⟩; simp at h

/-- The first word of a string either holds the terminator, or four bytes of the string. -/
theorem StringWords_cons {bs : List UInt8} {w : UInt32} {u : List UInt32} :
    StringWords bs (w :: u) ↔
      (u = [] ∧ ∃ q, wordBytes w = bs ++ 0 :: q ∧ 0 ∉ bs) ∨
      (0 ∉ wordBytes w ∧ ∃ bs', bs = wordBytes w ++ bs' ∧ StringWords bs' u) := by
  constructor
  · rintro ⟨pad, h, hl, hb⟩
    simp only [List.flatMap_cons] at h
    by_cases hlen : bs.length < 4
    · left
      have hu : u = [] := by
        have h1 := congrArg List.length h
        simp only [List.length_append, flatMap_wordBytes_length, wordBytes_length,
          List.length_cons] at h1
        cases u with
        | nil => rfl
        | cons _ _ => simp at h1; omega
      subst hu
      exact ⟨rfl, pad, by simpa using h, hb⟩
    · right
      have hlen : 4 ≤ bs.length := by omega
      rw [← List.take_append_drop 4 bs, List.append_assoc] at h
      obtain ⟨h1, h2⟩ := List.append_inj h (by simp [wordBytes_length]; omega)
      refine ⟨?_, bs.drop 4, ?_, pad, h2, hl, ?_⟩
      · rw [h1]; exact fun hm => hb (List.mem_of_mem_take hm)
      · rw [h1, List.take_append_drop]
      · exact fun hm => hb (List.mem_of_mem_drop hm)
  · rintro (⟨rfl, q, h, hb⟩ | ⟨h0, bs', rfl, pad, h, hl, hb⟩)
    · refine ⟨q, by simpa using h, ?_, hb⟩
      have h1 := congrArg List.length h
      simp only [List.length_append, wordBytes_length, List.length_cons] at h1
      omega
    · exact ⟨pad, by simp [h], hl, by simp [h0, hb]⟩

theorem readStringLoop_iff {ws : List UInt32} : ∀ {acc bs : List UInt8} {rest : List UInt32},
    readStringLoop ws acc = .ok (rest, bs) ↔
      ∃ u bs', ws = u ++ rest ∧ bs = acc.reverse ++ bs' ∧ StringWords bs' u := by
  induction ws with
  | nil =>
    intro acc bs rest
    simp only [readStringLoop, fail_ok, false_iff]
    rintro ⟨u, bs', h, -, hs⟩
    simp at h
    rw [h.1] at hs
    exact StringWords_nil hs
  | cons w ws ih =>
    intro acc bs rest
    simp only [readStringLoop, wordChars_eq]
    split
    · rename_i r h
      obtain ⟨p, q, hw, hp, rfl⟩ := pushChars_true.mp h
      simp only [ok_ok, Prod.mk.injEq]
      constructor
      · rintro ⟨rfl, rfl⟩
        exact ⟨[w], p, by simp, by simp, StringWords_cons.mpr (.inl ⟨rfl, q, hw, hp⟩)⟩
      · rintro ⟨u, bs', hu, rfl, hs⟩
        cases u with
        | nil => exact absurd hs StringWords_nil
        | cons x u =>
          simp only [List.cons_append, List.cons.injEq] at hu
          obtain ⟨rfl, rfl⟩ := hu
          rcases StringWords_cons.mp hs with ⟨rfl, q', hw', hp'⟩ | ⟨h0, _⟩
          · have h2 : pushChars (wordBytes w) acc = (bs'.reverse ++ acc, true) :=
              pushChars_true.mpr ⟨bs', q', hw', hp', rfl⟩
            rw [h] at h2
            have h3 : p = bs' := by
              have := congrArg Prod.fst h2
              simpa using this
            subst h3
            simp
          · rw [hw] at h0; simp at h0
    · rename_i r h
      obtain ⟨h0, rfl⟩ := pushChars_false.mp h
      rw [ih]
      constructor
      · rintro ⟨u, bs', rfl, rfl, hs⟩
        exact ⟨w :: u, wordBytes w ++ bs', by simp, by simp,
          StringWords_cons.mpr (.inr ⟨h0, bs', rfl, hs⟩)⟩
      · rintro ⟨u, bs', hu, rfl, hs⟩
        cases u with
        | nil => exact absurd hs StringWords_nil
        | cons x u =>
          simp only [List.cons_append, List.cons.injEq] at hu
          obtain ⟨rfl, rfl⟩ := hu
          rcases StringWords_cons.mp hs with ⟨rfl, q', hw', hp'⟩ | ⟨_, bs'', rfl, hs'⟩
          · rw [hw'] at h0; simp at h0
          · exact ⟨u, bs'', rfl, by simp, hs'⟩

theorem readStringLoop_safe {ws : List UInt32} : ∀ acc, Safe (readStringLoop ws acc) := by
  induction ws with
  | nil => intro acc; exact .fail _
  | cons w ws ih =>
    intro acc
    simp only [readStringLoop]
    split
    · exact .ok _
    · exact ih _

theorem fromUTF8?_iff {b : ByteArray} {s : String} :
    String.fromUTF8? b = some s ↔ b = s.toByteArray := by
  unfold String.fromUTF8?
  split
  · rename_i h
    constructor
    · intro h'
      simp at h'
      rw [← h']
      rfl
    · rintro rfl
      rfl
  · rename_i h
    constructor
    · simp
    · rintro rfl
      exact absurd s.isValidUTF8 h

theorem fromUTF8?_bytes {bs : List UInt8} {s : String} :
    String.fromUTF8? ⟨bs.toArray⟩ = some s ↔ bs = stringBytes s := by
  rw [fromUTF8?_iff, stringBytes]
  constructor
  · intro h; rw [← h]
  · intro h
    rw [h]

instance : Lawful String where
  iff ws rest s := by
    simp only [MemoryBlockRead.read, bind_ok, Prod.exists, enc, Reads]
    constructor
    · rintro ⟨r, bs, h, h2⟩
      obtain ⟨u, bs', rfl, hb, hs⟩ := readStringLoop_iff.mp h
      simp only [List.reverse_nil, List.nil_append] at hb
      subst hb
      split at h2
      · rename_i s' hs'
        simp only [ok_ok, Prod.mk.injEq] at h2
        obtain ⟨rfl, rfl⟩ := h2
        rw [fromUTF8?_bytes] at hs'
        subst hs'
        exact ⟨u, r, rfl, hs, rfl⟩
      · simp at h2
    · rintro ⟨u, ws', rfl, hs, rfl⟩
      refine ⟨ws', stringBytes s, readStringLoop_iff.mpr ⟨u, stringBytes s, rfl, rfl, hs⟩, ?_⟩
      rw [fromUTF8?_bytes.mpr rfl]
  safe ws := by
    refine Safe.bind (readStringLoop_safe []) fun p _ => ?_
    dsimp only
    split
    · exact .ok _
    · exact .fail _

end Magma
