import Verif.Model.Debug
import Verif.Proofs.Text
import Mathlib.Data.List.Nodup
/-! Debug output can be read back: what is written for a value ends where it ends. -/

namespace Magma.Dbg
open Magma

/-- The characters of names and numbers -/
def word (c : Char) : Bool := c.isAlphanum || c == '_'

/-- What comes next does not go on with a name or number. -/
def Ends (s : Text) : Prop := ∀ c r, s = c :: r → word c = false

/-- A name -/
def ident (n : String) : Bool := !n.toList.isEmpty && n.toList.all word

/-- What is written for a value determines the value, whatever comes next. It is not empty, does not start with a closing
bracket, and is on one line. -/
class Law (α : Type) [Debug α] : Prop where
  law : ∀ (shown : Char → Bool) (x y : α) (s t : Text), Ends s → Ends t →
    Debug.debug shown x ++ s = Debug.debug shown y ++ t → x = y ∧ s = t
  start : ∀ (shown : Char → Bool) (x : α), ∃ c r, Debug.debug shown x = c :: r ∧ c ≠ ']'
  line : ∀ (shown : Char → Bool) (x : α), '\n' ∉ Debug.debug shown x

theorem ends_nil : Ends [] := fun c r h => by cases h

theorem ends_cons {c : Char} {r : Text} (h : word c = false) : Ends (c :: r) := fun d q e => by cases e; exact h

/-- Words end where no character of a word follows. -/
theorem words {a b u v : Text} (ha : ∀ c ∈ a, word c = true) (hb : ∀ c ∈ b, word c = true) (hu : Ends u) (hv : Ends v)
    (h : a ++ u = b ++ v) : a = b ∧ u = v := by
  induction a generalizing b with
  | nil =>
    cases b with
    | nil => exact ⟨rfl, h⟩
    | cons d b =>
      have := hu d (b ++ v) h
      rw [hb d (.head _)] at this
      cases this
  | cons c a ih =>
    cases b with
    | nil =>
      have := hv c (a ++ u) h.symm
      rw [ha c (.head _)] at this
      cases this
    | cons d b =>
      obtain ⟨rfl, h1⟩ := List.cons.inj h
      obtain ⟨rfl, h2⟩ := ih (fun c hc => ha c (.tail _ hc)) (fun c hc => hb c (.tail _ hc)) h1
      exact ⟨rfl, h2⟩

theorem digit_word {c : Char} (h : c.isDigit = true) : word c = true := by
  simp [word, Char.isAlphanum, h]

theorem ident_word {n : String} (h : ident n = true) : ∀ c ∈ n.toList, word c = true := by
  have := (Bool.and_eq_true _ _ ▸ h).2
  exact fun c hc => List.all_eq_true.mp this c hc

theorem ident_start {n : String} (h : ident n = true) (s : Text) : ∃ c r, n.toList ++ s = c :: r ∧ c ≠ ']' := by
  have h1 := (Bool.and_eq_true _ _ ▸ h).1
  have h2 := ident_word h
  cases e : n.toList with
  | nil => rw [e] at h1; cases h1
  | cons c r =>
    refine ⟨c, r ++ s, rfl, ?_⟩
    rintro rfl
    have := h2 ']' (by rw [e]; exact .head _)
    cases this

theorem word_line {s : Text} (h : ∀ c ∈ s, word c = true) : '\n' ∉ s := fun hm => by
  have := h _ hm
  cases this

theorem ident_line {n : String} (h : ident n = true) : '\n' ∉ n.toList := word_line (ident_word h)

/-! ### Numbers -/

theorem number_law {m n : Nat} {s t : Text} (hs : Ends s) (ht : Ends t) (h : fmtNat m ++ s = fmtNat n ++ t) :
    m = n ∧ s = t := by
  obtain ⟨h1, h2⟩ := words (fun c hc => digit_word (fmtNat_digit hc)) (fun c hc => digit_word (fmtNat_digit hc)) hs ht h
  exact ⟨fmtNat_inj h1, h2⟩

theorem number_start (n : Nat) : ∃ c r, fmtNat n = c :: r ∧ c ≠ ']' := by
  obtain ⟨c, r, h, -⟩ := fmtNat_head n
  refine ⟨c, r, h, ?_⟩
  rintro rfl
  have : (']').isDigit = true := fmtNat_digit (n := n) (by rw [h]; exact .head _)
  cases this

theorem number_line (n : Nat) : '\n' ∉ fmtNat n := word_line fun _ hc => digit_word (fmtNat_digit hc)

instance : Law Nat where
  law _ _ _ _ _ hs ht h := number_law hs ht h
  start _ x := number_start x
  line _ x := number_line x

instance : Law UInt32 where
  law _ _ _ _ _ hs ht h := (number_law hs ht h).imp UInt32.toNat_inj.mp id
  start _ x := number_start x.toNat
  line _ x := number_line x.toNat

instance : Law UInt16 where
  law _ _ _ _ _ hs ht h := (number_law hs ht h).imp UInt16.toNat_inj.mp id
  start _ x := number_start x.toNat
  line _ x := number_line x.toNat

instance : Law UInt8 where
  law _ _ _ _ _ hs ht h := (number_law hs ht h).imp UInt8.toNat_inj.mp id
  start _ x := number_start x.toNat
  line _ x := number_line x.toNat

instance : Law Empty where
  law _ x := nomatch x
  start _ x := nomatch x
  line _ x := nomatch x

instance : Law Bool where
  law _ x y s t hs ht h := by
    cases x <;> cases y
    · exact ⟨rfl, List.append_cancel_left h⟩
    · exact absurd (List.cons.inj h).1 (by decide)
    · exact absurd (List.cons.inj h).1 (by decide)
    · exact ⟨rfl, List.append_cancel_left h⟩
  start _ x := by cases x <;> exact ⟨_, _, rfl, by decide⟩
  line _ x := by
    cases x
    · exact show '\n' ∉ "false".toList by decide
    · exact show '\n' ∉ "true".toList by decide

/-! ### Strings -/

theorem hexDigit_word {n : Nat} (h : n < 16) : word n.digitChar = true := by
  revert n
  decide

theorem hexDigit_inj {m n : Nat} (hm : m < 16) (hn : n < 16) (h : m.digitChar = n.digitChar) : m = n := by
  have key : ∀ m < 16, ∀ n < 16, m.digitChar = n.digitChar → m = n := by decide
  exact key m hm n hn h

theorem hex_word (n : Nat) : ∀ c ∈ Nat.toDigits 16 n, word c = true := by
  induction n using Nat.strongRecOn with
  | ind n ih =>
    intro c hc
    by_cases h : n < 16
    · rw [Nat.toDigits_of_lt_base h] at hc
      cases List.mem_singleton.mp hc
      exact hexDigit_word h
    · rw [Nat.toDigits_of_base_le (by omega) (by omega)] at hc
      rcases List.mem_append.mp hc with hc | hc
      · exact ih (n / 16) (by omega) c hc
      · cases List.mem_singleton.mp hc
        exact hexDigit_word (Nat.mod_lt _ (by omega))

theorem hex_inj {m n : Nat} (h : Nat.toDigits 16 m = Nat.toDigits 16 n) : m = n := by
  induction m using Nat.strongRecOn generalizing n with
  | ind m ih =>
    by_cases hm : m < 16 <;> by_cases hn : n < 16
    · rw [Nat.toDigits_of_lt_base hm, Nat.toDigits_of_lt_base hn] at h
      exact hexDigit_inj hm hn (List.cons.inj h).1
    · rw [Nat.toDigits_of_lt_base hm, Nat.toDigits_of_base_le (by omega) (by omega : 16 ≤ n)] at h
      have h1 := congrArg List.length h
      have h2 : 0 < (Nat.toDigits 16 (n / 16)).length := Nat.length_toDigits_pos
      simp only [List.length_append, List.length_singleton] at h1
      omega
    · rw [Nat.toDigits_of_lt_base hn, Nat.toDigits_of_base_le (by omega) (by omega : 16 ≤ m)] at h
      have h1 := congrArg List.length h
      have h2 : 0 < (Nat.toDigits 16 (m / 16)).length := Nat.length_toDigits_pos
      simp only [List.length_append, List.length_singleton] at h1
      omega
    · rw [Nat.toDigits_of_base_le (by omega) (by omega : 16 ≤ m),
        Nat.toDigits_of_base_le (by omega) (by omega : 16 ≤ n)] at h
      obtain ⟨h1, h2⟩ := List.append_inj' h rfl
      have h1 := ih (m / 16) (by omega) h1
      have h2 := hexDigit_inj (Nat.mod_lt _ (by omega)) (Nat.mod_lt _ (by omega)) (List.cons.inj h2).1
      omega

/-- What a character is written as -/
inductive Escape (shown : Char → Bool) (c : Char) : Text → Prop where
  | letter (d : Char) (h : (d, c) ∈ [('0', '\x00'), ('t', '\t'), ('r', '\r'), ('n', '\n'), ('\\', '\\'), ('"', '"')]) :
    Escape shown c ['\\', d]
  | plain (h : c ≠ '\\' ∧ c ≠ '"' ∧ c ≠ '\n') : Escape shown c [c]
  | number : Escape shown c ('\\' :: 'u' :: '{' :: (Nat.toDigits 16 c.toNat ++ ['}']))

theorem escape_cases (shown : Char → Bool) (c : Char) : Escape shown c (escapeChar shown c) := by
  unfold escapeChar
  split
  · rename_i h; exact .letter _ (by rw [h]; decide)
  split
  · rename_i h; exact .letter _ (by rw [h]; decide)
  split
  · rename_i h; exact .letter _ (by rw [h]; decide)
  split
  · rename_i h; exact .letter _ (by rw [h]; decide)
  split
  · rename_i h; exact .letter _ (by rw [h]; decide)
  split
  · rename_i h; exact .letter _ (by rw [h]; decide)
  split
  · exact .plain ⟨by assumption, by assumption, by assumption⟩
  · exact .number

theorem char_toNat_inj {c d : Char} (h : c.toNat = d.toNat) : c = d := by
  apply Char.ext
  exact UInt32.toNat_inj.mp h

theorem letters {a b c d : Char} (ha : (a, c) ∈ [('0', '\x00'), ('t', '\t'), ('r', '\r'), ('n', '\n'), ('\\', '\\'), ('"', '"')])
    (hb : (b, d) ∈ [('0', '\x00'), ('t', '\t'), ('r', '\r'), ('n', '\n'), ('\\', '\\'), ('"', '"')]) (h : a = b) :
    c = d ∧ a ≠ 'u' := by
  simp only [List.mem_cons, List.not_mem_nil, or_false, Prod.mk.injEq] at ha hb
  rcases ha with ⟨rfl, rfl⟩ | ⟨rfl, rfl⟩ | ⟨rfl, rfl⟩ | ⟨rfl, rfl⟩ | ⟨rfl, rfl⟩ | ⟨rfl, rfl⟩ <;>
    rcases hb with ⟨rfl, rfl⟩ | ⟨rfl, rfl⟩ | ⟨rfl, rfl⟩ | ⟨rfl, rfl⟩ | ⟨rfl, rfl⟩ | ⟨rfl, rfl⟩ <;>
    first | exact ⟨rfl, by decide⟩ | exact absurd h (by decide)

theorem escape_law {shown : Char → Bool} {c d : Char} {u v s t : Text} (hc : Escape shown c u) (hd : Escape shown d v)
    (h : u ++ s = v ++ t) : c = d ∧ s = t := by
  cases hc with
  | letter a ha =>
    cases hd with
    | letter b hb =>
      obtain ⟨-, h⟩ := List.cons.inj h
      obtain ⟨h1, h2⟩ := List.cons.inj h
      exact ⟨(letters ha hb h1).1, h2⟩
    | plain hb => exact absurd (List.cons.inj h).1.symm hb.1
    | number =>
      obtain ⟨-, h⟩ := List.cons.inj h
      exact absurd (List.cons.inj h).1 (letters ha ha rfl).2
  | plain ha =>
    cases hd with
    | letter b hb => exact absurd (List.cons.inj h).1 ha.1
    | plain hb => exact List.cons.inj h
    | number => exact absurd (List.cons.inj h).1 ha.1
  | number =>
    cases hd with
    | letter b hb =>
      obtain ⟨-, h⟩ := List.cons.inj h
      exact absurd (List.cons.inj h).1.symm (letters hb hb rfl).2
    | plain hb => exact absurd (List.cons.inj h).1.symm hb.1
    | number =>
      simp only [List.cons_append, List.append_assoc, List.cons.injEq, true_and, List.nil_append] at h
      obtain ⟨h1, h2⟩ := words (hex_word _) (hex_word _) (ends_cons (by decide)) (ends_cons (by decide)) h
      exact ⟨char_toNat_inj (hex_inj h1), (List.cons.inj h2).2⟩

theorem escape_quote {shown : Char → Bool} {c : Char} {u s t : Text} (hc : Escape shown c u) : u ++ s ≠ '"' :: t := by
  intro h
  cases hc with
  | letter a ha => exact absurd (List.cons.inj h).1 (by decide)
  | plain ha => exact ha.2.1 (List.cons.inj h).1
  | number => exact absurd (List.cons.inj h).1 (by decide)

theorem escape_line {shown : Char → Bool} {c : Char} {u : Text} (hc : Escape shown c u) : '\n' ∉ u := by
  intro h
  cases hc with
  | letter a ha =>
    simp only [List.mem_cons, List.not_mem_nil, or_false, Prod.mk.injEq] at ha
    rcases ha with ⟨rfl, -⟩ | ⟨rfl, -⟩ | ⟨rfl, -⟩ | ⟨rfl, -⟩ | ⟨rfl, -⟩ | ⟨rfl, -⟩ <;> revert h <;> decide
  | plain ha => exact ha.2.2 (List.mem_singleton.mp h).symm
  | number =>
    simp only [List.mem_cons, List.mem_append, List.not_mem_nil, or_false] at h
    rcases h with h | h | h | h | h
    · exact absurd h (by decide)
    · exact absurd h (by decide)
    · exact absurd h (by decide)
    · exact word_line (hex_word _) h
    · exact absurd h (by decide)

theorem text_law {shown : Char → Bool} {x y s t : Text}
    (h : x.flatMap (escapeChar shown) ++ '"' :: s = y.flatMap (escapeChar shown) ++ '"' :: t) : x = y ∧ s = t := by
  induction x generalizing y with
  | nil =>
    cases y with
    | nil => exact ⟨rfl, (List.cons.inj h).2⟩
    | cons d y =>
      rw [List.flatMap_cons, List.append_assoc] at h
      exact absurd h.symm (escape_quote (escape_cases shown d))
  | cons c x ih =>
    cases y with
    | nil =>
      rw [List.flatMap_cons, List.append_assoc] at h
      exact absurd h (escape_quote (escape_cases shown c))
    | cons d y =>
      rw [List.flatMap_cons, List.flatMap_cons, List.append_assoc, List.append_assoc] at h
      obtain ⟨rfl, h1⟩ := escape_law (escape_cases shown c) (escape_cases shown d) h
      obtain ⟨rfl, h2⟩ := ih h1
      exact ⟨rfl, h2⟩

instance : Law String where
  law shown x y s t _ _ h := by
    have h : '"' :: (x.toList.flatMap (escapeChar shown) ++ ['"']) ++ s =
      '"' :: (y.toList.flatMap (escapeChar shown) ++ ['"']) ++ t := h
    simp only [List.cons_append, List.append_assoc, List.cons.injEq, true_and, List.nil_append] at h
    exact (text_law h).imp String.toList_inj.mp id
  start _ _ := ⟨_, _, rfl, by decide⟩
  line shown x := by
    intro h
    rcases List.mem_cons.mp h with h | h
    · exact absurd h (by decide)
    rcases List.mem_append.mp h with h | h
    · obtain ⟨c, -, h⟩ := List.mem_flatMap.mp h
      exact escape_line (escape_cases shown c) h
    · exact absurd h (by decide)

/-! ### Builders -/

variable {α β : Type} [Debug α] [Law α] [Debug β] [Law β] {shown : Char → Bool}

theorem ends_more (fs : List Text) (c : Char) (hc : word c = false) (s : Text) : Ends (moreFields fs ++ c :: s) := by
  cases fs with
  | nil => exact ends_cons hc
  | cons f fs => exact ends_cons (by decide)

theorem ends_fields {s : Text} (fs : List Text) (hs : Ends s) : Ends (tupleFields fs ++ s) := by
  cases fs with
  | nil => exact hs
  | cons f fs => exact ends_cons (by decide)

theorem ends_named (fs : List (String × Text)) (s : Text) : Ends (moreNamed fs ++ ' ' :: '}' :: s) := by
  cases fs with
  | nil => exact ends_cons (by decide)
  | cons f fs => exact ends_cons (by decide)

/-- The first field of a tuple -/
theorem tuple_first {a b : α} {fs gs : List Text} {s t : Text}
    (h : tupleFields (Debug.debug shown a :: fs) ++ s = tupleFields (Debug.debug shown b :: gs) ++ t) :
    a = b ∧ moreFields fs ++ ')' :: s = moreFields gs ++ ')' :: t := by
  simp only [tupleFields, List.append_assoc, List.cons_append, List.nil_append, List.cons.injEq, true_and] at h
  exact Law.law shown _ _ _ _ (ends_more _ _ (by decide) _) (ends_more _ _ (by decide) _) h

/-- A further field -/
theorem tuple_next {c : Char} (hc : word c = false) {a b : α} {fs gs : List Text} {s t : Text}
    (h : moreFields (Debug.debug shown a :: fs) ++ c :: s = moreFields (Debug.debug shown b :: gs) ++ c :: t) :
    a = b ∧ moreFields fs ++ c :: s = moreFields gs ++ c :: t := by
  simp only [moreFields, List.append_assoc, List.cons_append, List.cons.injEq, true_and] at h
  exact Law.law shown _ _ _ _ (ends_more _ _ hc _) (ends_more _ _ hc _) h

/-- The end of a tuple -/
theorem tuple_last {c : Char} {s t : Text} (h : moreFields [] ++ c :: s = moreFields [] ++ c :: t) : s = t :=
  (List.cons.inj h).2

/-- Names of variants, and then fields -/
theorem tuple_name {n m : String} {fs gs : List Text} {s t : Text} (hn : ident n = true) (hm : ident m = true)
    (hs : Ends s) (ht : Ends t) (h : debugTuple n fs ++ s = debugTuple m gs ++ t) :
    n = m ∧ tupleFields fs ++ s = tupleFields gs ++ t := by
  rw [debugTuple, debugTuple, List.append_assoc, List.append_assoc] at h
  exact (words (ident_word hn) (ident_word hm) (ends_fields _ hs) (ends_fields _ ht) h).imp String.toList_inj.mp id

/-- The same name, and then fields -/
theorem tuple_same {n : String} {fs gs : List Text} {s t : Text} (h : debugTuple n fs ++ s = debugTuple n gs ++ t) :
    tupleFields fs ++ s = tupleFields gs ++ t := by
  rw [debugTuple, debugTuple, List.append_assoc, List.append_assoc] at h
  exact List.append_cancel_left h

theorem tuple_start {n : String} (hn : ident n = true) (fs : List Text) : ∃ c r, debugTuple n fs = c :: r ∧ c ≠ ']' :=
  ident_start hn _

theorem more_line {fs : List Text} (h : ∀ f ∈ fs, '\n' ∉ f) : '\n' ∉ moreFields fs := by
  induction fs with
  | nil => exact List.not_mem_nil
  | cons f fs ih =>
    intro hm
    simp only [moreFields, List.mem_cons, List.mem_append] at hm
    rcases hm with hm | hm | hm | hm
    · exact absurd hm (by decide)
    · exact absurd hm (by decide)
    · exact h f (.head _) hm
    · exact ih (fun f hf => h f (.tail _ hf)) hm

theorem fields_line {fs : List Text} (h : ∀ f ∈ fs, '\n' ∉ f) : '\n' ∉ tupleFields fs := by
  cases fs with
  | nil => exact List.not_mem_nil
  | cons f fs =>
    intro hm
    simp only [tupleFields, List.mem_cons, List.mem_append, List.not_mem_nil, or_false] at hm
    rcases hm with hm | hm | hm | hm
    · exact absurd hm (by decide)
    · exact h f (.head _) hm
    · exact more_line (fun f hf => h f (.tail _ hf)) hm
    · exact absurd hm (by decide)

theorem tuple_line {n : String} (hn : ident n = true) {fs : List Text} (h : ∀ f ∈ fs, '\n' ∉ f) :
    '\n' ∉ debugTuple n fs := fun hm =>
  (List.mem_append.mp hm).elim (ident_line hn) (fields_line h)

/-- The first field of a struct -/
theorem struct_first {n f : String} {a b : α} {fs gs : List (String × Text)} {s t : Text}
    (h : debugStruct n ((f, Debug.debug shown a) :: fs) ++ s = debugStruct n ((f, Debug.debug shown b) :: gs) ++ t) :
    a = b ∧ moreNamed fs ++ ' ' :: '}' :: s = moreNamed gs ++ ' ' :: '}' :: t := by
  simp only [debugStruct, structFields, List.append_assoc, List.cons_append, List.nil_append, List.append_cancel_left_eq,
    List.cons.injEq, true_and] at h
  exact Law.law shown _ _ _ _ (ends_named _ _) (ends_named _ _) h

/-- A further field -/
theorem struct_next {f : String} {a b : α} {fs gs : List (String × Text)} {s t : Text}
    (h : moreNamed ((f, Debug.debug shown a) :: fs) ++ ' ' :: '}' :: s =
      moreNamed ((f, Debug.debug shown b) :: gs) ++ ' ' :: '}' :: t) :
    a = b ∧ moreNamed fs ++ ' ' :: '}' :: s = moreNamed gs ++ ' ' :: '}' :: t := by
  simp only [moreNamed, List.append_assoc, List.cons_append, List.append_cancel_left_eq, List.cons.injEq, true_and] at h
  exact Law.law shown _ _ _ _ (ends_named _ _) (ends_named _ _) h

/-- The end of a struct -/
theorem struct_last {s t : Text} (h : moreNamed [] ++ ' ' :: '}' :: s = moreNamed [] ++ ' ' :: '}' :: t) : s = t :=
  (List.cons.inj (List.cons.inj h).2).2

/-- A struct without fields -/
theorem struct_none {n : String} {s t : Text} (h : debugStruct n [] ++ s = debugStruct n [] ++ t) : s = t :=
  List.append_cancel_left h

theorem struct_start {n : String} (hn : ident n = true) (fs : List (String × Text)) :
    ∃ c r, debugStruct n fs = c :: r ∧ c ≠ ']' :=
  ident_start hn _

theorem named_line {fs : List (String × Text)} (h : ∀ f ∈ fs, ident f.1 = true ∧ '\n' ∉ f.2) : '\n' ∉ moreNamed fs := by
  induction fs with
  | nil => exact List.not_mem_nil
  | cons f fs ih =>
    intro hm
    simp only [moreNamed, List.mem_cons, List.mem_append] at hm
    rcases hm with hm | hm | hm | hm | hm | hm | hm
    · exact absurd hm (by decide)
    · exact absurd hm (by decide)
    · exact ident_line (h f (.head _)).1 hm
    · exact absurd hm (by decide)
    · exact absurd hm (by decide)
    · exact (h f (.head _)).2 hm
    · exact ih (fun f hf => h f (.tail _ hf)) hm

theorem struct_line {n : String} (hn : ident n = true) {fs : List (String × Text)}
    (h : ∀ f ∈ fs, ident f.1 = true ∧ '\n' ∉ f.2) : '\n' ∉ debugStruct n fs := by
  refine fun hm => (List.mem_append.mp hm).elim (ident_line hn) ?_
  cases fs with
  | nil => exact List.not_mem_nil
  | cons f fs =>
    intro hm
    simp only [structFields, List.mem_cons, List.mem_append, List.not_mem_nil, or_false] at hm
    rcases hm with hm | hm | hm | hm | hm | hm | hm | hm | hm | hm
    · exact absurd hm (by decide)
    · exact absurd hm (by decide)
    · exact absurd hm (by decide)
    · exact ident_line (h f (.head _)).1 hm
    · exact absurd hm (by decide)
    · exact absurd hm (by decide)
    · exact (h f (.head _)).2 hm
    · exact named_line (fun f hf => h f (.tail _ hf)) hm
    · exact absurd hm (by decide)
    · exact absurd hm (by decide)

theorem none_line : ∀ f ∈ ([] : List Text), '\n' ∉ f := fun _ h => nomatch h

theorem cons_line {a : α} {fs : List Text} (h : ∀ f ∈ fs, '\n' ∉ f) : ∀ f ∈ Debug.debug shown a :: fs, '\n' ∉ f :=
  List.forall_mem_cons.mpr ⟨Law.line shown a, h⟩

theorem none_named : ∀ f ∈ ([] : List (String × Text)), ident f.1 = true ∧ '\n' ∉ f.2 := fun _ h => nomatch h

theorem cons_named {n : String} (hn : ident n = true) {a : α} {fs : List (String × Text)}
    (h : ∀ f ∈ fs, ident f.1 = true ∧ '\n' ∉ f.2) : ∀ f ∈ (n, Debug.debug shown a) :: fs, ident f.1 = true ∧ '\n' ∉ f.2 :=
  List.forall_mem_cons.mpr ⟨⟨hn, Law.line shown a⟩, h⟩

/-! ### Options, vectors, pairs -/

instance : Law (Option α) where
  law shown x y s t hs ht h := by
    cases x with
    | none =>
      cases y with
      | none => exact ⟨rfl, tuple_same h⟩
      | some b => exact absurd (tuple_name (by decide) (by decide) hs ht h).1 (by decide)
    | some a =>
      cases y with
      | none => exact absurd (tuple_name (by decide) (by decide) hs ht h).1 (by decide)
      | some b =>
        obtain ⟨rfl, h1⟩ := tuple_first (tuple_same h)
        exact ⟨rfl, tuple_last h1⟩
  start shown x := by cases x <;> exact tuple_start (by decide) _
  line shown x := by
    cases x with
    | none => exact tuple_line (by decide) none_line
    | some a => exact tuple_line (by decide) (cons_line none_line)

instance : Law (α × β) where
  law shown x y s t hs ht h := by
    obtain ⟨a, b⟩ := x
    obtain ⟨c, d⟩ := y
    obtain ⟨rfl, h1⟩ := tuple_first (tuple_same h)
    obtain ⟨rfl, h2⟩ := tuple_next (by decide) h1
    exact ⟨rfl, tuple_last h2⟩
  start shown x := ⟨_, _, rfl, by decide⟩
  line shown x := by
    intro hm
    rcases List.mem_append.mp hm with hm | hm
    · exact absurd hm (by decide)
    · exact fields_line (cons_line (cons_line none_line)) hm

theorem more_law {x y : List α} {s t : Text} (h : moreFields (x.map (Debug.debug shown)) ++ ']' :: s =
    moreFields (y.map (Debug.debug shown)) ++ ']' :: t) : x = y ∧ s = t := by
  induction x generalizing y with
  | nil =>
    cases y with
    | nil => exact ⟨rfl, tuple_last h⟩
    | cons d y => exact absurd (List.cons.inj h).1 (by decide)
  | cons c x ih =>
    cases y with
    | nil => exact absurd (List.cons.inj h).1 (by decide)
    | cons d y =>
      obtain ⟨rfl, h1⟩ := tuple_next (by decide) h
      obtain ⟨rfl, h2⟩ := ih h1
      exact ⟨rfl, h2⟩

instance : Law (List α) where
  law shown x y s t _ _ h := by
    cases x with
    | nil =>
      cases y with
      | nil => exact ⟨rfl, List.append_cancel_left h⟩
      | cons d y =>
        obtain ⟨c, r, e, hc⟩ := Law.start shown d
        have h : '[' :: ']' :: s = '[' :: (Debug.debug shown d ++ (moreFields (y.map (Debug.debug shown)) ++ [']'])) ++ t := h
        rw [e] at h
        exact absurd (List.cons.inj (List.cons.inj h).2).1.symm hc
    | cons a x =>
      cases y with
      | nil =>
        obtain ⟨c, r, e, hc⟩ := Law.start shown a
        have h : '[' :: (Debug.debug shown a ++ (moreFields (x.map (Debug.debug shown)) ++ [']'])) ++ s = '[' :: ']' :: t := h
        rw [e] at h
        exact absurd (List.cons.inj (List.cons.inj h).2).1 hc
      | cons b y =>
        have h : '[' :: (Debug.debug shown a ++ (moreFields (x.map (Debug.debug shown)) ++ [']'])) ++ s =
          '[' :: (Debug.debug shown b ++ (moreFields (y.map (Debug.debug shown)) ++ [']'])) ++ t := h
        simp only [List.append_assoc, List.cons_append, List.nil_append, List.cons.injEq, true_and] at h
        obtain ⟨rfl, h1⟩ := Law.law shown _ _ _ _ (ends_more _ _ (by decide) _) (ends_more _ _ (by decide) _) h
        obtain ⟨rfl, h2⟩ := more_law h1
        exact ⟨rfl, h2⟩
  start shown x := by cases x <;> exact ⟨_, _, rfl, by decide⟩
  line shown x := by
    cases x with
    | nil => exact show '\n' ∉ ['[', ']'] by decide
    | cons a x =>
      intro hm
      have hm : '\n' ∈ '[' :: (Debug.debug shown a ++ (moreFields (x.map (Debug.debug shown)) ++ [']'])) := hm
      simp only [List.mem_cons, List.mem_append, List.not_mem_nil, or_false] at hm
      rcases hm with hm | hm | hm | hm
      · exact absurd hm (by decide)
      · exact Law.line shown a hm
      · refine more_line ?_ hm
        intro f hf
        obtain ⟨b, -, rfl⟩ := List.mem_map.mp hf
        exact Law.line shown b
      · exact absurd hm (by decide)

/-! ### Enums -/

/-- Variants have different names, so the name tells which one it is. -/
theorem same_variant {n : String} {names : List String} (hd : names.Nodup) {i j : Nat} (hi : names[i]? = some n)
    (hj : names[j]? = some n) : i = j := by
  obtain ⟨h1, e1⟩ := List.getElem?_eq_some_iff.mp hi
  obtain ⟨h2, e2⟩ := List.getElem?_eq_some_iff.mp hj
  exact (List.Nodup.getElem_inj_iff hd).mp (e1.trans e2.symm)

end Magma.Dbg
