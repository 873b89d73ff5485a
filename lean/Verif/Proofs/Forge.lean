import Verif.Proofs.Disassembly
/-! The disassembly tells its instructions apart unless a string has a newline followed by what an instruction begins
with. -/

namespace Magma.Forge
open Spec

/-- The text begins as an instruction does -/
def Begins (t : Text) : Prop := ∃ id after, t = leftColumn id ++ 'O' :: 'p' :: after

/-- Nothing after a newline in it begins as an instruction does -/
def Clean (t : Text) : Prop := ∀ u v, t = u ++ '\n' :: v → ¬ Begins v

theorem leftColumn_chars (id : Option UInt32) : ∀ c ∈ leftColumn id, c = ' ' ∨ c = '%' ∨ c = '=' ∨ c.isDigit = true := by
  cases id with
  | none => exact fun c h => .inl (List.mem_replicate.mp h).2
  | some id =>
    intro c h
    simp only [leftColumn, List.mem_append, List.mem_cons, List.not_mem_nil, or_false, List.mem_replicate] at h
    rcases h with (⟨-, h⟩ | h | h) | h | h | h
    · exact .inl h
    · exact .inr (.inl h)
    · exact .inr (.inr (.inr (fmtNat_digit (decimal_eq id.toNat ▸ h))))
    · exact .inl h
    · exact .inr (.inr (.inl h))
    · exact .inl h

theorem leftColumn_not {c : Char} (h1 : c ≠ ' ') (h2 : c ≠ '%') (h3 : c ≠ '=') (h4 : c.isDigit = false)
    (id : Option UInt32) : c ∉ leftColumn id := by
  intro h
  rcases leftColumn_chars id c h with h | h | h | h
  · exact h1 h
  · exact h2 h
  · exact h3 h
  · rw [h4] at h; cases h

/-- The beginning of an instruction ends in the part `q` of `q ++ t` if `t` is what follows a string. -/
theorem begins_left {q t : Text} (ht : (∃ t', t = '"' :: t') ∨ t = " Export".toList ∨ t = " Import".toList)
    (h : Begins (q ++ t)) : Begins q := by
  obtain ⟨id, w, h⟩ := h
  have h : q ++ t = (leftColumn id ++ ['O', 'p']) ++ w := by rw [h, List.append_assoc]; rfl
  rcases List.append_eq_append_iff.mp h with ⟨u, e, e'⟩ | ⟨u, e, e'⟩
  · -- the beginning reaches into `t`
    cases u with
    | nil => exact ⟨id, [], by rw [List.append_nil] at e; rw [← e]⟩
    | cons a u =>
      exfalso
      have hin : a ∈ leftColumn id ++ ['O', 'p'] := e ▸ List.mem_append_right _ List.mem_cons_self
      rcases ht with ⟨t', rfl⟩ | ht
      · obtain ⟨rfl, -⟩ := List.cons.inj e'
        rcases List.mem_append.mp hin with h | h
        · exact leftColumn_not (by decide) (by decide) (by decide) (by decide) id h
        · revert h; decide
      · have hO : 'O' ∉ a :: u := fun hm => by
          have : 'O' ∈ t := by rw [e']; exact List.mem_append_left _ hm
          rcases ht with rfl | rfl <;> revert this <;> decide
        have e2 : leftColumn id ++ ['O', 'p'] = (leftColumn id ++ ['O']) ++ ['p'] := by rw [List.append_assoc]; rfl
        cases List.eq_nil_or_concat u with
        | inl hu =>
          subst hu
          rw [e2] at e
          have := (List.append_inj' e rfl).2
          obtain ⟨rfl, -⟩ := List.cons.inj this
          rcases ht with rfl | rfl <;> · have := (List.cons.inj e').1; revert this; decide
        | inr hu =>
          obtain ⟨us, x, rfl⟩ := hu
          rw [e2, show q ++ a :: (us.concat x) = (q ++ a :: us) ++ [x] by simp] at e
          have e3 := (List.append_inj' e rfl).1
          cases List.eq_nil_or_concat us with
          | inl hu =>
            subst hu
            have := (List.append_inj' e3 rfl).2
            exact hO (by rw [← (List.cons.inj this).1]; exact List.mem_cons_self)
          | inr hu =>
            obtain ⟨vs, y, rfl⟩ := hu
            rw [show q ++ a :: (vs.concat y) = (q ++ a :: vs) ++ [y] by simp] at e3
            have := (List.append_inj' e3 rfl).2
            exact hO (by rw [(List.cons.inj this).1]; simp)
  · exact ⟨id, u, by rw [e, List.append_assoc]; rfl⟩

/-- A newline in a text whose first and last part have none is in the part between them. -/
theorem between {a s t u v : Text} (ha : '\n' ∉ a) (ht : '\n' ∉ t) (h0 : a ++ (s ++ t) = u ++ '\n' :: v) :
    ∃ p q, s = p ++ '\n' :: q ∧ v = q ++ t := by
  rcases List.append_eq_append_iff.mp h0 with ⟨w, -, h⟩ | ⟨w, e, h⟩
  · rcases List.append_eq_append_iff.mp h with ⟨z, -, h'⟩ | ⟨z, e, h'⟩
    · exact absurd (h' ▸ List.mem_append_right _ List.mem_cons_self) ht
    · cases z with
      | nil =>
        have h' : '\n' :: v = t := h'
        exact absurd (h' ▸ List.mem_cons_self) ht
      | cons c z =>
        obtain ⟨rfl, e'⟩ := List.cons.inj h'
        exact ⟨w, z, e, e'⟩
  · cases w with
    | nil =>
      cases s with
      | nil =>
        have h : '\n' :: v = t := h
        exact absurd (h ▸ List.mem_cons_self) ht
      | cons c s =>
        obtain ⟨rfl, e'⟩ := List.cons.inj h
        exact ⟨[], s, rfl, e'⟩
    | cons c w =>
      obtain ⟨rfl, -⟩ := List.cons.inj h
      exact absurd (e ▸ List.mem_append_right _ List.mem_cons_self) ha

theorem clean_part {a t : Text} {s : String} (hs : ¬ Forges s) (ha : '\n' ∉ a) (ht : '\n' ∉ t)
    (hn : (∃ t', t = '"' :: t') ∨ t = " Export".toList ∨ t = " Import".toList) : Clean (a ++ (s.toList ++ t)) := by
  intro u v h hb
  obtain ⟨p, q, e, rfl⟩ := between ha ht h
  obtain ⟨id, w, rfl⟩ := begins_left hn hb
  exact hs ⟨p, id, w, e⟩

theorem clean_line {t : Text} (h : '\n' ∉ t) : Clean t :=
  fun _ _ e => absurd (e ▸ List.mem_append_right _ List.mem_cons_self) h

/-- A string as the last operand, or with operands after it -/
theorem clean_string {a t : Text} {s : String} (hs : ¬ Forges s) (ha : '\n' ∉ a) (ht : '\n' ∉ t) :
    Clean (a ++ (FormatArg.formatArg s : Text) ++ t) := by
  have e : a ++ (FormatArg.formatArg s : Text) ++ t = (a ++ " \"".toList) ++ (s.toList ++ ('"' :: t)) := by
    show a ++ (" ".toList ++ ("\"".toList ++ s.toList ++ "\"".toList)) ++ t = _
    simp only [List.append_assoc]
    rfl
  rw [e]
  exact clean_part hs (line_append ha (by decide)) (fun h => (List.mem_cons.mp h).elim (by decide) ht) (.inl ⟨_, rfl⟩)

theorem clean_string' {a : Text} {s : String} (hs : ¬ Forges s) (ha : '\n' ∉ a) :
    Clean (a ++ (FormatArg.formatArg s : Text)) := by
  have := clean_string (t := []) hs ha (by decide)
  rwa [List.append_nil] at this

theorem clean_decoration {a : Text} {d : Decoration} (hs : ∀ s ∈ decorationStrings d, ¬ Forges s) (ha : '\n' ∉ a) :
    Clean (a ++ (FormatArg.formatArg d : Text)) := by
  by_cases h : ∃ s l, d = .LinkageAttributes s l
  · obtain ⟨s, l, rfl⟩ := h
    have e : a ++ (FormatArg.formatArg (Decoration.LinkageAttributes s l) : Text) =
        (a ++ " LinkageAttributes ".toList) ++ (s.toList ++ (' ' :: Display.fmt l)) := by
      show a ++ (" ".toList ++ ("LinkageAttributes ".toList ++ s.toList ++ " ".toList ++ Display.fmt l)) = _
      simp only [List.append_assoc]
      rfl
    rw [e]
    refine clean_part (hs s List.mem_cons_self) (line_append ha (by decide)) ?_ (.inr ?_)
    · cases l <;> exact (by decide)
    · cases l
      · exact .inl rfl
      · exact .inr rfl
  · exact clean_line (line_append ha (line_decoration fun s l e => absurd ⟨s, l, e⟩ h))

/-- The text of an instruction none of whose strings forge an instruction -/
theorem clean_core {X : Type} [Display X] (hx : ∀ x : X, '\n' ∉ Display.fmt x) (c : Core X)
    (hs : ∀ s ∈ strings c, ¬ Forges s) : Clean (Display.fmt c) := by
  cases c with
  | OpSourceContinued op =>
    exact clean_string' (hs _ List.mem_cons_self) (line_append (line_of_plain fmtNoResult_plain) (by decide))
  | OpSource op =>
    obtain ⟨language, version, file, source⟩ := op
    have ha := line_append (line_append (line_append (line_append (line_of_plain fmtNoResult_plain)
      (by decide : '\n' ∉ "OpSource".toList)) (line_of_plain (PlainArg.plain language)))
      (line_of_plain (PlainArg.plain version))) (line_of_plain (PlainArg.plain file))
    cases source with
    | none => exact clean_line (line_append ha (by decide : '\n' ∉ ([] : Text)))
    | some s => exact clean_string' (hs s List.mem_cons_self) ha
  | OpSourceExtension op =>
    exact clean_string' (hs _ List.mem_cons_self) (line_append (line_of_plain fmtNoResult_plain) (by decide))
  | OpName op =>
    exact clean_string' (hs _ List.mem_cons_self) (line_append (line_append (line_of_plain fmtNoResult_plain) (by decide))
      (line_of_plain (PlainArg.plain op.target)))
  | OpMemberName op =>
    exact clean_string' (hs _ List.mem_cons_self) (line_append (line_append (line_append (line_of_plain fmtNoResult_plain)
      (by decide)) (line_of_plain (PlainArg.plain op.struct_type))) (line_of_plain (PlainArg.plain op.member)))
  | OpString op =>
    exact clean_string' (hs _ List.mem_cons_self) (line_append (line_of_plain (fmtResult_plain _)) (by decide))
  | OpExtension op =>
    exact clean_string' (hs _ List.mem_cons_self) (line_append (line_of_plain fmtNoResult_plain) (by decide))
  | OpExtInstImport op =>
    exact clean_string' (hs _ List.mem_cons_self) (line_append (line_of_plain (fmtResult_plain _)) (by decide))
  | OpEntryPoint op =>
    exact clean_string (hs _ List.mem_cons_self) (line_append (line_append (line_append (line_of_plain fmtNoResult_plain)
      (by decide)) (line_of_plain (PlainArg.plain op.execution_model))) (line_of_plain (PlainArg.plain op.entry_point)))
      (line_of_plain (PlainArg.plain op.interface))
  | OpTypeOpaque op =>
    exact clean_string' (hs _ List.mem_cons_self) (line_append (line_of_plain (fmtResult_plain _)) (by decide))
  | OpDecorate op =>
    exact clean_decoration hs (line_append (line_append (line_of_plain fmtNoResult_plain) (by decide))
      (line_of_plain (PlainArg.plain op.target)))
  | OpMemberDecorate op =>
    exact clean_decoration hs (line_append (line_append (line_append (line_of_plain fmtNoResult_plain) (by decide))
      (line_of_plain (PlainArg.plain op.structure_type))) (line_of_plain (PlainArg.plain op.member)))
  | _ => exact clean_line (Core.fmt_line hx _ nofun)

theorem begins_line {id : Option UInt32} : '\n' ∉ leftColumn id ++ ['O', 'p'] :=
  line_append (leftColumn_not (by decide) (by decide) (by decide) (by decide) id) (by decide)

theorem unlines_cons (a : Text) (as : List Text) : unlines (a :: as) = a ++ '\n' :: unlines as := by
  show (a ++ ['\n']) ++ unlines as = _
  rw [List.append_assoc]; rfl

/-- A text is not longer than another one if what follows both is the same. -/
theorem no_longer {a b : Text} {as bs : List Text} (ha : ∀ x ∈ as, Begins x) (hb : Clean b) {w : Text}
    (e : b = a ++ w) (h : '\n' :: unlines as = w ++ '\n' :: unlines bs) : w = [] := by
  cases w with
  | nil => rfl
  | cons c w =>
    exfalso
    obtain ⟨rfl, h0⟩ := List.cons.inj h
    cases as with
    | nil => exact absurd (congrArg List.length h0) (by simp [unlines])
    | cons x as =>
      obtain ⟨id, z, rfl⟩ := ha x List.mem_cons_self
      rw [unlines_cons, show (leftColumn id ++ 'O' :: 'p' :: z) ++ '\n' :: unlines as =
        (leftColumn id ++ ['O', 'p']) ++ (z ++ '\n' :: unlines as) by simp] at h0
      rcases List.append_eq_append_iff.mp h0 with ⟨y, rfl, h'⟩ | ⟨y, e', h'⟩
      · exact hb a _ e ⟨id, y, by simp⟩
      · cases y with
        | nil => exact hb a _ e ⟨id, [], by rw [List.append_nil] at e'; exact e'.symm⟩
        | cons d y =>
          obtain ⟨rfl, -⟩ := List.cons.inj h'
          exact begins_line (id := id) (by rw [e']; exact List.mem_append_right _ List.mem_cons_self)

theorem unlines_inj : ∀ {as bs : List Text}, (∀ x ∈ as, Begins x ∧ Clean x) → (∀ x ∈ bs, Begins x ∧ Clean x) →
    unlines as = unlines bs → as = bs
  | [], [], _, _, _ => rfl
  | [], b :: bs, _, _, h => by rw [unlines_cons] at h; exact absurd (congrArg List.length h) (by simp [unlines])
  | a :: as, [], _, _, h => by rw [unlines_cons] at h; exact absurd (congrArg List.length h) (by simp [unlines])
  | a :: as, b :: bs, ha, hb, h => by
    rw [unlines_cons, unlines_cons] at h
    have e : a = b := by
      rcases List.append_eq_append_iff.mp h with ⟨w, e, h⟩ | ⟨w, e, h⟩
      · have := no_longer (fun x hx => (ha x (List.mem_cons_of_mem _ hx)).1) (hb b List.mem_cons_self).2 e h
        rw [e, this, List.append_nil]
      · have := no_longer (fun x hx => (hb x (List.mem_cons_of_mem _ hx)).1) (ha a List.mem_cons_self).2 e h
        rw [e, this, List.append_nil]
    subst e
    rw [unlines_inj (fun x hx => ha x (List.mem_cons_of_mem _ hx)) (fun x hx => hb x (List.mem_cons_of_mem _ hx))
      (List.cons.inj (List.append_cancel_left h)).2]

theorem header_inj : ∀ {as bs : List Text} {t t' : Text}, as.length = bs.length → (∀ x ∈ as, '\n' ∉ x) →
    (∀ x ∈ bs, '\n' ∉ x) → unlines as ++ t = unlines bs ++ t' → as = bs ∧ t = t'
  | [], [], _, _, _, _, _, h => ⟨rfl, h⟩
  | [], _ :: _, _, _, hl, _, _, _ => by cases hl
  | _ :: _, [], _, _, hl, _, _, _ => by cases hl
  | a :: as, b :: bs, t, t', hl, ha, hb, h => by
    rw [unlines_cons, unlines_cons, List.append_assoc, List.append_assoc] at h
    have e : a = b := by
      rcases List.append_eq_append_iff.mp h with ⟨w, e, h'⟩ | ⟨w, e, h'⟩
      · cases w with
        | nil => rw [e, List.append_nil]
        | cons c w =>
          obtain ⟨rfl, -⟩ := List.cons.inj h'
          exact absurd (e ▸ List.mem_append_right _ List.mem_cons_self) (hb b List.mem_cons_self)
      · cases w with
        | nil => rw [e, List.append_nil]
        | cons c w =>
          obtain ⟨rfl, -⟩ := List.cons.inj h'
          exact absurd (e ▸ List.mem_append_right _ List.mem_cons_self) (ha a List.mem_cons_self)
    subst e
    obtain ⟨e, e'⟩ := header_inj (Nat.succ.inj hl) (fun x hx => ha x (List.mem_cons_of_mem _ hx))
      (fun x hx => hb x (List.mem_cons_of_mem _ hx)) (List.cons.inj (List.append_cancel_left h)).2
    exact ⟨by rw [e], e'⟩

theorem mnemonics_op : ∀ n ∈ mnemonics, n.2.toList.take 2 = ['O', 'p'] := by decide +kernel

theorem not_forges_line {s : String} (h : '\n' ∉ s.toList) : ¬ Forges s := by
  rintro ⟨p, id, q, e⟩
  exact h (e ▸ List.mem_append_right _ List.mem_cons_self)

theorem not_forges_of {s : String} (h : 'O' ∉ s.toList) : ¬ Forges s := by
  rintro ⟨p, id, q, e⟩
  exact h (by rw [e]; simp)

end Magma.Forge
