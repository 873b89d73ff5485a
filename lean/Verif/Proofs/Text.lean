import Verif.Model.Printer
/-! Printed text: which characters occur in it, and when it determines what was printed. -/

namespace Magma

/-- A character that neither ends a line nor is a brace -/
def Plain (c : Char) : Prop := c ≠ '\n' ∧ c ≠ '{' ∧ c ≠ '}'

instance (c : Char) : Decidable (Plain c) := inferInstanceAs (Decidable (_ ∧ _))

/-- What follows an argument: nothing, or a space and an argument -/
def Follows (s : Text) : Prop := s = [] ∨ ∃ c cs, s = ' ' :: c :: cs ∧ c ≠ '|'

/-- What cannot follow an argument -/
def Inside (u : Text) : Prop := (∃ c cs, u = c :: cs ∧ c ≠ ' ') ∨ ∃ cs, u = ' ' :: '|' :: cs

theorem follows_nil : Follows [] := .inl rfl

theorem Inside.not_follows {u t : Text} (hu : Inside u) : ¬ Follows (u ++ t) := by
  rcases hu with ⟨c, cs, rfl, hc⟩ | ⟨cs, rfl⟩
  · rintro (h | ⟨c', cs', h, -⟩)
    · cases h
    · exact hc (List.cons.inj h).1
  · rintro (h | ⟨c', cs', h, h'⟩)
    · cases h
    · cases h
      exact h' rfl

theorem delimited {α : Type} {f : α → Text} (hinj : ∀ a b, f a = f b → a = b)
    (hp : ∀ a b u, f b = f a ++ u → u = [] ∨ Inside u) {a b : α} {s t : Text} (hs : Follows s)
    (ht : Follows t) (h : f a ++ s = f b ++ t) : a = b ∧ s = t := by
  rcases List.append_eq_append_iff.mp h with ⟨u, h1, h2⟩ | ⟨u, h1, h2⟩
  · rcases hp a b u h1 with rfl | hu
    · rw [List.append_nil] at h1
      exact ⟨hinj a b h1.symm, h2⟩
    · exact absurd (h2 ▸ hs) hu.not_follows
  · rcases hp b a u h1 with rfl | hu
    · rw [List.append_nil] at h1
      exact ⟨hinj a b h1, h2.symm⟩
    · exact absurd (h2 ▸ ht) hu.not_follows

theorem inside_of_word {α : Type} {f : α → Text} (hw : ∀ a, ' ' ∉ f a) (a b : α) (u : Text)
    (h : f b = f a ++ u) : u = [] ∨ Inside u := by
  cases u with
  | nil => exact .inl rfl
  | cons c cs =>
    refine .inr (.inl ⟨c, cs, rfl, ?_⟩)
    rintro rfl
    exact hw b (by rw [h]; simp)

/-- A printed argument: it determines the value, even if more arguments follow; and it consists of
plain characters. -/
class Token (α : Type) [DisplayArg α] : Prop where
  inj : ∀ {a b : α} {s t : Text}, Follows s → Follows t →
    DisplayArg.displayArg a ++ s = DisplayArg.displayArg b ++ t → a = b ∧ s = t
  head : ∀ a : α, ∃ c cs, DisplayArg.displayArg a = c :: cs ∧ c ≠ '|'
  plain : ∀ a : α, ∀ c ∈ DisplayArg.displayArg a, Plain c

/-- A printed argument that determines the value when nothing follows -/
class Arg (α : Type) [FormatArg α] : Prop where
  inj : ∀ {a b : α}, FormatArg.formatArg a = FormatArg.formatArg b → a = b
  follows : ∀ a : α, Follows (FormatArg.formatArg a)

/-- A printed argument without line ends and braces -/
class PlainArg (α : Type) [FormatArg α] : Prop where
  plain : ∀ a : α, ∀ c ∈ FormatArg.formatArg a, Plain c

theorem Token.follows {α : Type} [DisplayArg α] [Token α] (a : α) (s : Text) :
    Follows (' ' :: (DisplayArg.displayArg a ++ s)) := by
  obtain ⟨c, cs, h, hc⟩ := Token.head a
  exact .inr ⟨c, cs ++ s, by rw [h]; rfl, hc⟩

/-- An argument that is followed by others -/
theorem arg_inj {α : Type} [DisplayArg α] [Token α] {a b : α} {s t : Text} (hs : Follows s)
    (ht : Follows t)
    (h : (FormatArg.formatArg a : Text) ++ s = FormatArg.formatArg b ++ t) : a = b ∧ s = t := by
  have h : ' ' :: (DisplayArg.displayArg a ++ s) = ' ' :: (DisplayArg.displayArg b ++ t) := h
  exact Token.inj hs ht (List.cons.inj h).2

theorem arg_follows {α : Type} [DisplayArg α] [Token α] (a : α) (s : Text) :
    Follows ((FormatArg.formatArg a : Text) ++ s) := Token.follows a s

instance {α : Type} [DisplayArg α] [Token α] : Arg α where
  inj {a b} h := by
    have : (FormatArg.formatArg a : Text) ++ [] = FormatArg.formatArg b ++ [] := by rw [h]
    exact (arg_inj follows_nil follows_nil this).1
  follows a := by simpa using arg_follows a []

instance {α : Type} [DisplayArg α] [Token α] : PlainArg α where
  plain a c h := by
    have h : c ∈ ' ' :: DisplayArg.displayArg a := h
    rcases List.mem_cons.mp h with rfl | h
    · decide
    · exact Token.plain a c h

instance {α : Type} [DisplayArg α] [Token α] : Arg (Option α) where
  inj {a b} h := by
    cases a with
    | none =>
      cases b with
      | none => rfl
      | some b => exact absurd (h : ([] : Text) = ' ' :: DisplayArg.displayArg b) (by rintro ⟨⟩)
    | some a =>
      cases b with
      | none => exact absurd (h : ' ' :: DisplayArg.displayArg a = ([] : Text)) (by rintro ⟨⟩)
      | some b => exact congrArg some (Arg.inj (α := α) h)
  follows a := by
    cases a with
    | none => exact follows_nil
    | some a => exact Arg.follows (α := α) a

instance {α : Type} [DisplayArg α] [Token α] : PlainArg (Option α) where
  plain a c h := by
    cases a with
    | none => cases h
    | some a => exact PlainArg.plain (α := α) a c h

theorem formatArg_cons {α : Type} [DisplayArg α] (a : α) (as : List α) :
    (FormatArg.formatArg (a :: as) : Text) = FormatArg.formatArg a ++ FormatArg.formatArg as := rfl

theorem list_follows {α : Type} [DisplayArg α] [Token α] (as : List α) :
    Follows (FormatArg.formatArg as : Text) := by
  cases as with
  | nil => exact follows_nil
  | cons a as => exact arg_follows a _

instance {α : Type} [DisplayArg α] [Token α] : Arg (List α) where
  inj {a b} h := by
    induction a generalizing b with
    | nil =>
      cases b with
      | nil => rfl
      | cons b bs =>
        rw [formatArg_cons] at h
        exact absurd (h : ([] : Text) = ' ' :: (DisplayArg.displayArg b ++ _)) (by rintro ⟨⟩)
    | cons a as ih =>
      cases b with
      | nil =>
        rw [formatArg_cons] at h
        exact absurd (h : ' ' :: (DisplayArg.displayArg a ++ _) = ([] : Text)) (by rintro ⟨⟩)
      | cons b bs =>
        rw [formatArg_cons, formatArg_cons] at h
        obtain ⟨h1, h2⟩ := arg_inj (list_follows as) (list_follows bs) h
        rw [h1, ih h2]
  follows := list_follows

instance {α : Type} [DisplayArg α] [Token α] : PlainArg (List α) where
  plain a c h := by
    induction a with
    | nil => cases h
    | cons a as ih =>
      rw [formatArg_cons] at h
      rcases List.mem_append.mp h with h | h
      · exact PlainArg.plain (α := α) a c h
      · exact ih h

/-! ### Numbers and ids -/

theorem fmtNat_inj {m n : Nat} (h : fmtNat m = fmtNat n) : m = n := by
  have := congrArg (fun l => Nat.ofDigitChars 10 l 0) h
  simpa [fmtNat] using this

theorem fmtNat_digit {n : Nat} {c : Char} (h : c ∈ fmtNat n) : c.isDigit = true :=
  Nat.isDigit_of_mem_toDigits (by omega) (by omega) h

theorem digit_ne {c d : Char} (h : c.isDigit = true) (hd : d.isDigit = false) : c ≠ d := by
  rintro rfl; rw [h] at hd; cases hd

theorem fmtNat_plain {n : Nat} {c : Char} (h : c ∈ fmtNat n) : Plain c :=
  ⟨digit_ne (fmtNat_digit h) (by decide), digit_ne (fmtNat_digit h) (by decide),
    digit_ne (fmtNat_digit h) (by decide)⟩

theorem fmtNat_head (n : Nat) : ∃ c cs, fmtNat n = c :: cs ∧ c ≠ '|' := by
  cases h : fmtNat n with
  | nil => exact absurd h Nat.toDigits_ne_nil
  | cons c cs =>
    exact ⟨c, cs, rfl, digit_ne (fmtNat_digit (n := n) (by rw [h]; simp)) (by decide)⟩

theorem fmtNat_space (n : Nat) : ' ' ∉ fmtNat n := by
  intro h
  exact digit_ne (fmtNat_digit h) (d := ' ') (by decide) rfl

/-- A type printed as one word -/
theorem Token.word {α : Type} [Display α] (hinj : ∀ a b : α, Display.fmt a = Display.fmt b → a = b)
    (hs : ∀ a : α, ' ' ∉ Display.fmt a) (hh : ∀ a : α, ∃ c cs, Display.fmt a = c :: cs ∧ c ≠ '|')
    (hp : ∀ a : α, ∀ c ∈ Display.fmt a, Plain c) : @Token α instDisplayArgOfDisplay where
  inj hs' ht h := delimited hinj (inside_of_word hs) hs' ht h
  head := hh
  plain := hp

theorem display_u32_inj {a b : UInt32} (h : Display.fmt a = Display.fmt b) : a = b :=
  UInt32.toNat_inj.mp (fmtNat_inj h)

instance : Token UInt32 := Token.word (fun _ _ => display_u32_inj) (fun _ => fmtNat_space _)
  (fun _ => fmtNat_head _) (fun _ _ => fmtNat_plain)

theorem display_id_inj {a b : OpId} (h : Display.fmt a = Display.fmt b) : a = b := by
  obtain ⟨a⟩ := a
  obtain ⟨b⟩ := b
  have h : '%' :: fmtNat a.toNat = '%' :: fmtNat b.toNat := h
  rw [display_u32_inj (List.cons.inj h).2]

theorem mem_display_id {a : OpId} {c : Char} (h : c ∈ Display.fmt a) : c = '%' ∨ c.isDigit = true := by
  have h : c ∈ '%' :: fmtNat a.val.toNat := h
  rcases List.mem_cons.mp h with rfl | h
  · exact .inl rfl
  · exact .inr (fmtNat_digit h)

instance : Token OpId := Token.word (fun _ _ => display_id_inj)
  (fun a h => by
    rcases mem_display_id h with h | h
    · exact absurd h (by decide)
    · exact absurd h (by decide))
  (fun a => ⟨'%', fmtNat a.val.toNat, rfl, by decide⟩)
  (fun a c h => by
    rcases mem_display_id h with rfl | h
    · decide
    · exact ⟨digit_ne h (by decide), digit_ne h (by decide), digit_ne h (by decide)⟩)

instance : Token SourceVersion := Token.word
  (fun a b h => by cases a; cases b; exact congrArg _ (display_u32_inj h))
  (fun _ => fmtNat_space _) (fun _ => fmtNat_head _) (fun _ _ => fmtNat_plain)

instance : Token MemberIndex := Token.word
  (fun a b h => by cases a; cases b; exact congrArg _ (display_u32_inj h))
  (fun _ => fmtNat_space _) (fun _ => fmtNat_head _) (fun _ _ => fmtNat_plain)

/-! ### Columns -/

theorem display_id_length (a : OpId) : (Display.fmt a).length ≤ 11 := by
  have h : (Nat.toDigits 10 a.val.toNat).length ≤ 10 :=
    (Nat.length_toDigits_le_iff (by omega) (by omega)).mpr (by have := a.val.toNat_lt; omega)
  show ('%' :: Nat.toDigits 10 a.val.toNat).length ≤ 11
  simp only [List.length_cons]
  omega

theorem fmtResult_length (r : ResultId) : (fmtResult r).length = 15 := by
  have := display_id_length ⟨r.val⟩
  simp only [fmtResult, padLeft, List.length_append, List.length_replicate]
  have h : (" = ".toList).length = 3 := rfl
  omega

theorem fmtResult_inj {a b : ResultId} {s t : Text} (h : fmtResult a ++ s = fmtResult b ++ t) :
    a = b ∧ s = t := by
  obtain ⟨h1, h2⟩ := List.append_inj h (by rw [fmtResult_length, fmtResult_length])
  refine ⟨?_, h2⟩
  have h1 := List.append_cancel_right h1
  have key (r : ResultId) : (padLeft 12 (Display.fmt (OpId.mk r.val))).dropWhile (· == ' ') =
      Display.fmt (OpId.mk r.val) := by
    simp only [padLeft]
    rw [List.dropWhile_append_of_pos (by
      intro a ha
      rw [List.eq_of_mem_replicate ha]
      rfl)]
    rfl
  have := congrArg (List.dropWhile (· == ' ')) h1
  rw [key, key] at this
  have := display_id_inj this
  cases a
  cases b
  cases this
  rfl

theorem fmtResult_plain (r : ResultId) : ∀ c ∈ fmtResult r, Plain c := by
  intro c h
  simp only [fmtResult, padLeft, List.mem_append] at h
  rcases h with (h | h) | h
  · rw [List.eq_of_mem_replicate h]; decide
  · exact Token.plain (OpId.mk r.val) c h
  · have : ∀ c ∈ " = ".toList, Plain c := by decide
    exact this c h

theorem fmtNoResult_plain : ∀ c ∈ fmtNoResult, Plain c := by decide

/-! ### Enumerations -/

theorem enum_inj {α : Type} (idx : α → Nat) (of : Nat → α) (hof : ∀ a, of (idx a) = a) (n : Nat)
    (hlt : ∀ a, idx a < n) {f : α → Text} (hn : ((List.range n).map (fun i => f (of i))).Nodup) (a b : α)
    (h : f a = f b) : a = b := by
  have ha : ((List.range n).map (fun i => f (of i)))[idx a]? = some (f a) := by
    simp [hlt a, hof]
  have hb : ((List.range n).map (fun i => f (of i)))[idx b]? = some (f b) := by
    simp [hlt b, hof]
  have := (List.getElem?_inj (by simpa using hlt a) hn).mp (ha.trans (h ▸ hb.symm))
  rw [← hof a, ← hof b, this]

/-- One word of plain characters -/
def isWord (t : Text) : Bool :=
  match t with
  | [] => false
  | c :: cs => c != '|' && (c :: cs).all fun c => c != ' ' && decide (Plain c)

theorem Token.enum {α : Type} [Display α] (idx : α → Nat) (of : Nat → α) (hof : ∀ a, of (idx a) = a)
    (n : Nat) (hlt : ∀ a, idx a < n)
    (hn : ((List.range n).map (fun i => Display.fmt (of i))).Nodup)
    (hw : ((List.range n).all (fun i => isWord (Display.fmt (of i)))) = true) :
    @Token α instDisplayArgOfDisplay := by
  have key (a : α) : isWord (Display.fmt a) = true := by
    have := (List.all_eq_true.mp hw) (idx a) (by simp [hlt a])
    simpa only [hof] using this
  have mem (a : α) (c : Char) (h : c ∈ Display.fmt a) : c ≠ ' ' ∧ Plain c := by
    have k := key a
    cases ht : Display.fmt a with
    | nil => rw [ht] at h; cases h
    | cons d ds =>
      rw [ht] at k h
      simp only [isWord, Bool.and_eq_true, bne_iff_ne, decide_eq_true_eq, List.all_eq_true] at k
      exact k.2 c h
  refine Token.word (enum_inj idx of hof n hlt hn) (fun a h => (mem a _ h).1 rfl) (fun a => ?_)
    (fun a c h => (mem a c h).2)
  have k := key a
  cases ht : Display.fmt a with
  | nil => rw [ht] at k; cases k
  | cons d ds =>
    rw [ht] at k
    simp only [isWord, Bool.and_eq_true, bne_iff_ne] at k
    exact ⟨d, ds, rfl, k.1⟩

end Magma
