import Verif.Proofs.TextCore
/-! The disassembly of a whole module, line by line. -/

namespace Magma
open Spec

/-- Lines, each ended by a newline -/
def unlines (ls : List Text) : Text := ls.flatMap (· ++ ['\n'])

theorem unlines_append (as bs : List Text) : unlines (as ++ bs) = unlines as ++ unlines bs :=
  List.flatMap_append

theorem lines_line {l : Text} (hl : '\n' ∉ l) (t : Text) : lines (l ++ '\n' :: t) = l :: lines t := by
  induction l with
  | nil => rw [List.nil_append, lines, if_pos rfl]
  | cons c cs ih =>
    have hc : c ≠ '\n' := by rintro rfl; exact hl List.mem_cons_self
    rw [List.cons_append, lines, if_neg hc, ih (fun m => hl (List.mem_cons_of_mem _ m))]

theorem lines_unlines {ls : List Text} (h : ∀ l ∈ ls, '\n' ∉ l) : lines (unlines ls) = ls := by
  induction ls with
  | nil => rfl
  | cons l ls ih =>
    have e : unlines (l :: ls) = l ++ '\n' :: unlines ls := by
      show (l ++ ['\n']) ++ unlines ls = _
      rw [List.append_assoc]; rfl
    rw [e, lines_line (h l List.mem_cons_self), ih (fun x hx => h x (List.mem_cons_of_mem _ hx))]

theorem genName_eq (t : Tool) : t.genName = (generatorName t).toList := by cases t <;> rfl

theorem fmt_eq_unlines {X : Type} [Display X] (m : RawModule X) :
    m.fmt = unlines (headerLines m ++ m.instructions.map Display.fmt) := by
  rw [unlines_append]
  have e1 : m.fmtHeader = unlines (headerLines m) := by
    have d8 (n : UInt8) : Display.fmt n = decimal n.toNat := (decimal_eq _).symm
    have d16 (n : UInt16) : Display.fmt n = decimal n.toNat := (decimal_eq _).symm
    have d32 (n : UInt32) : Display.fmt n = decimal n.toNat := (decimal_eq _).symm
    have l1 : "; SPIR-V\n".toList = "; SPIR-V".toList ++ ['\n'] := by decide
    have l5 : "; Schema: 0\n".toList = "; Schema: 0".toList ++ ['\n'] := by decide
    have nl : "\n".toList = ['\n'] := by decide
    have shape (a b v0 c v1 d g e gv f bd h : Text) (nl : Text) :
        (a ++ nl) ++ (b ++ v0 ++ c ++ v1 ++ nl) ++ (d ++ g ++ e ++ gv ++ nl) ++ (f ++ bd ++ nl) ++ (h ++ nl) =
        [a, b ++ v0 ++ c ++ v1, d ++ g ++ e ++ gv, f ++ bd, h].flatMap (· ++ nl) := by simp
    have e := shape "; SPIR-V".toList "; Version: ".toList (decimal m.version.f0.toNat) ".".toList
      (decimal m.version.f1.toNat) "; Generator: ".toList (generatorName m.generator.tool).toList "; ".toList
      (decimal m.generator.version.toNat) "; Bound: ".toList (decimal m.bound.toNat) "; Schema: 0".toList ['\n']
    refine Eq.trans ?_ e
    rw [← d8, ← d8, ← d16, ← d32, ← genName_eq, ← l1, ← l5]
    rfl
  have e2 : m.instructions.flatMap (fun inst => Display.fmt inst ++ "\n".toList) =
      unlines (m.instructions.map Display.fmt) := by
    rw [unlines, List.flatMap_map]
    rfl
  rw [RawModule.fmt, e1, e2]

theorem decimal_line (n : Nat) : '\n' ∉ decimal n := by
  rw [decimal_eq]
  exact line_of_plain fun _ => fmtNat_plain

theorem generatorName_line (t : Tool) : '\n' ∉ (generatorName t).toList ∧ ';' ∉ (generatorName t).toList := by
  cases t with
  | Other n => exact (by decide : '\n' ∉ "Unknown".toList ∧ ';' ∉ "Unknown".toList)
  | _ => decide

theorem headerLines_line {X : Type} (m : RawModule X) : ∀ l ∈ headerLines m, '\n' ∉ l := by
  intro l hl
  simp only [headerLines, List.mem_cons, List.not_mem_nil, or_false] at hl
  rcases hl with rfl | rfl | rfl | rfl | rfl
  · decide
  · exact line_append (line_append (line_append (by decide) (decimal_line _)) (by decide)) (decimal_line _)
  · exact line_append (line_append (line_append (by decide) (generatorName_line _).1) (by decide))
      (decimal_line _)
  · exact line_append (by decide) (decimal_line _)
  · decide

theorem lines_fmt {X : Type} [Display X] (hx : ∀ x : X, '\n' ∉ Display.fmt x) (m : RawModule X)
    (hs : ∀ c ∈ m.instructions, ∀ s ∈ strings c, '\n' ∉ s.toList) :
    lines m.fmt = headerLines m ++ m.instructions.map Display.fmt := by
  rw [fmt_eq_unlines, lines_unlines]
  intro l hl
  rcases List.mem_append.mp hl with hl | hl
  · exact headerLines_line m l hl
  · obtain ⟨c, hc, rfl⟩ := List.mem_map.mp hl
    exact Core.fmt_line hx c (hs c hc)

theorem decimal_inj {m n : Nat} (h : decimal m = decimal n) : m = n := by
  rw [decimal_eq, decimal_eq] at h
  exact fmtNat_inj h

theorem decimal_notin {d : Char} (hd : d.isDigit = false) (n : Nat) : d ∉ decimal n := by
  rw [decimal_eq]
  intro h
  exact digit_ne (fmtNat_digit h) hd rfl

theorem generatorName_inj {a b : Tool} (h : generatorName a = generatorName b) :
    a = b ∨ ∃ m n, a = .Other m ∧ b = .Other n := by
  have o (n : UInt16) : generatorName (.Other n) = "Unknown" := rfl
  cases a with
  | Other m => cases b with
    | Other n => exact .inr ⟨m, n, rfl, rfl⟩
    | _ => rw [o] at h; exact absurd h (by decide)
  | _ => cases b with
    | Other n => rw [o] at h; exact absurd h (by decide)
    | _ => first
      | exact .inl rfl
      | exact absurd h (by decide)

theorem headerLines_inj {X : Type} {m m' : RawModule X} (h : headerLines m = headerLines m') :
    m.version = m'.version ∧ m.generator.version = m'.generator.version ∧ m.bound = m'.bound ∧
      generatorName m.generator.tool = generatorName m'.generator.tool := by
  simp only [headerLines, List.cons.injEq] at h
  obtain ⟨-, h1, h2, h3, -⟩ := h
  have dot : ".".toList = ['.'] := rfl
  have semi : "; ".toList = [';', ' '] := rfl
  rw [dot, List.append_assoc, List.append_assoc, List.append_assoc, List.append_assoc] at h1
  have h1 := List.append_cancel_left h1
  obtain ⟨h1, h1'⟩ := split_inj (decimal_notin (by decide) _) (decimal_notin (by decide) _) h1
  rw [semi, List.append_assoc, List.append_assoc, List.append_assoc, List.append_assoc] at h2
  obtain ⟨h2, h2'⟩ := split_inj (generatorName_line _).2 (generatorName_line _).2 (List.append_cancel_left h2)
  have h2' := (List.cons.inj h2').2
  refine ⟨?_, UInt16.toNat_inj.mp (decimal_inj h2'),
    UInt32.toNat_inj.mp (decimal_inj (List.append_cancel_left h3)), String.ext_iff.mpr h2⟩
  have a := UInt8.toNat_inj.mp (decimal_inj h1)
  have b := UInt8.toNat_inj.mp (decimal_inj h1')
  obtain ⟨⟨v0, v1⟩, _, _, _⟩ := m
  obtain ⟨⟨w0, w1⟩, _, _, _⟩ := m'
  cases a
  cases b
  rfl

end Magma
