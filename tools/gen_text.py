#!/usr/bin/env python3
"""Write lean/Verif/Proofs/TextTypes.lean and TextOps.lean: the per-type and per-instruction cases
of the lemmas about printed text, from the model sources."""
import re, pathlib
root = pathlib.Path(__file__).resolve().parent.parent / "lean/Verif"
types = (root / "Model/Types.lean").read_text()
disp = (root / "Model/Display.lean").read_text()

inds = {}
for m in re.finditer(r"^inductive (\w+) where\n((?:  \|.*\n)+)", types, re.M):
    inds[m.group(1)] = [l.strip()[2:] for l in m.group(2).splitlines()]

out = ["""import Verif.Proofs.Text
/-! Generated by `tools/gen_text.py`: printed operands determine the operand. -/

namespace Magma
"""]
enums = [t for t, cs in inds.items() if all("(" not in c for c in cs)]
for t in enums:
    n = len(inds[t])
    out.append(f"""instance : Token {t} := Token.enum {t}.ctorIdx {t}.ofNat {t}.ofNat_ctorIdx {n}
  (fun a => by cases a <;> decide) (by decide +kernel) (by decide +kernel)
""")
out.append("""/-- Printed flags, as one argument -/
def isFlags (t : Text) : Bool :=
  match t with
  | [] => false
  | c :: cs => c != '|' && (c :: cs).all fun c => decide (Plain c)

/-- The rest of a printed argument after another one -/
def isInside (u : Text) : Bool :=
  match u with
  | [] => true
  | ' ' :: '|' :: _ => true
  | c :: _ => c != ' '

theorem inside_of_isInside {u : Text} (h : isInside u = true) : u = [] ∨ Inside u := by
  unfold isInside at h
  split at h
  · exact .inl rfl
  · exact .inr (.inr ⟨_, rfl⟩)
  · exact .inr (.inl ⟨_, _, rfl, by simpa using h⟩)

/-- Different flags print differently, and neither is the start of the other. -/
def flagsOk {α : Type} [DecidableEq α] [Display α] (a b : α) : Bool :=
  (decide (Display.fmt a = Display.fmt b → a = b)) &&
  (!(Display.fmt a).isPrefixOf (Display.fmt b) || isInside ((Display.fmt b).drop (Display.fmt a).length))

theorem Token.flags {α : Type} [DecidableEq α] [Display α] (h : ∀ a b : α, flagsOk a b = true)
    (hf : ∀ a : α, isFlags (Display.fmt a) = true) : @Token α instDisplayArgOfDisplay where
  inj hs ht e := by
    refine delimited (f := Display.fmt) (fun a b => ?_) (fun a b u hu => ?_) hs ht e
    · have := h a b
      simp only [flagsOk, Bool.and_eq_true, decide_eq_true_eq] at this
      exact this.1
    · have := h a b
      simp only [flagsOk, Bool.and_eq_true, Bool.or_eq_true, Bool.not_eq_true'] at this
      rcases this.2 with h' | h'
      · rw [hu] at h'
        have : (Display.fmt a).isPrefixOf (Display.fmt a ++ u) = true :=
          List.isPrefixOf_iff_prefix.mpr (List.prefix_append _ _)
        rw [this] at h'
        cases h'
      · rw [hu, List.drop_left] at h'
        exact inside_of_isInside h'
  head a := by
    have := hf a
    show ∃ c cs, Display.fmt a = c :: cs ∧ c ≠ '|'
    cases ht : Display.fmt a with
    | nil => rw [ht] at this; cases this
    | cons c cs =>
      rw [ht] at this
      simp only [isFlags, Bool.and_eq_true, bne_iff_ne] at this
      exact ⟨c, cs, rfl, this.1⟩
  plain a c hc := by
    have := hf a
    have hc : c ∈ Display.fmt a := hc
    cases ht : Display.fmt a with
    | nil => rw [ht] at hc; cases hc
    | cons d ds =>
      rw [ht] at this hc
      simp only [isFlags, Bool.and_eq_true, List.all_eq_true, decide_eq_true_eq] at this
      exact this.2 c hc
""")
structs = {}
for m in re.finditer(r"^structure (\w+) where\n((?:  (?!deriving).*\n)+)", types, re.M):
    structs[m.group(1)] = [tuple(x.strip() for x in l.split(":", 1)) for l in m.group(2).splitlines()]
for t, fs in structs.items():
    if len(fs) > 1 and all(ty == "Bool" for _, ty in fs):
        k = len(fs)
        va = " ".join(f"a{i}" for i in range(k)); vb = " ".join(f"b{i}" for i in range(k))
        ca = ", ".join(f"a{i}" for i in range(k)); cb = ", ".join(f"b{i}" for i in range(k))
        out.append(f"""instance : Token {t} := Token.flags
  (fun a b => by
    obtain ⟨{ca}⟩ := a
    obtain ⟨{cb}⟩ := b
    have : ∀ {va} {vb} : Bool, flagsOk ({t}.mk {va}) (.mk {vb}) = true := by decide +kernel
    exact this {va} {vb})
  (fun a => by
    obtain ⟨{ca}⟩ := a
    have : ∀ {va} : Bool, isFlags (Display.fmt ({t}.mk {va})) = true := by decide +kernel
    exact this {va})
""")

# inductives with payloads: (constructor, printed name, payload binders)
def arms(t):
    m = re.search(r"instance : Display %s where\n  fmt x := match x with\n((?:    \|.*\n)+)" % t, disp)
    res = []
    for l in m.group(1).splitlines():
        a = re.match(r'\s*\| \.(\w+)((?: \w+)*) => "([^"]*)"\.toList(.*)$', l)
        res.append((a.group(1), a.group(2).split(), a.group(3), a.group(4)))
    return res
for t in ["ExecutionMode", "Decoration"]:
    ar = arms(t)
    names = ", ".join('"%s".toList' % n.strip() for _, _, n, _ in ar)
    out.append(f"""/-- The first words of the printed {t} -/
def {t}.words : List Text := [{names}]

theorem {t}.word (a : {t}) :
    {t}.words[a.ctorIdx]? = some ((Display.fmt a).takeWhile (· != ' ')) := by
  cases a <;> rfl

theorem {t}.ctorIdx_eq {{a b : {t}}} (h : Display.fmt a = Display.fmt b) : a.ctorIdx = b.ctorIdx := by
  have hn : {t}.words.Nodup := by decide +kernel
  have ha := {t}.word a
  have hb := {t}.word b
  have hlt : a.ctorIdx < {t}.words.length := by
    rcases Nat.lt_or_ge a.ctorIdx {t}.words.length with h' | h'
    · exact h'
    · rw [List.getElem?_eq_none h'] at ha
      cases ha
  rw [h] at ha
  exact (List.getElem?_inj hlt hn).mp (ha.trans hb.symm)
""")
    lines = []
    for c, bs, n, rest in ar:
        k = len(bs)
        if k == 0:
            lines.append(f"  | {c} => exact {t}.{c}.elim b (Eq.symm hi) rfl")
        elif c == "LinkageAttributes":
            lines.append(f"""  | {c} x y =>
    refine {t}.{c}.elim (motive := fun b => Display.fmt ({t}.{c} x y) = Display.fmt b →
      {t}.{c} x y = b) b (Eq.symm hi) (fun x' y' h => ?_) h
    have h : "{n}".toList ++ x.toList ++ " ".toList ++ Display.fmt y =
      "{n}".toList ++ x'.toList ++ " ".toList ++ Display.fmt y' := h
    obtain ⟨h1, h2⟩ := List.append_inj' h (by cases y <;> cases y' <;> rfl)
    have h1 := List.append_cancel_left (List.append_cancel_right h1)
    rw [String.ext_iff.mpr h1, display_inj h2]""")
        elif k == 1:
            lines.append(f"""  | {c} x =>
    refine {t}.{c}.elim (motive := fun b => Display.fmt ({t}.{c} x) = Display.fmt b → {t}.{c} x = b) b
      (Eq.symm hi) (fun x' h => ?_) h
    have h : "{n}".toList ++ Display.fmt x = "{n}".toList ++ Display.fmt x' := h
    rw [display_inj (List.append_cancel_left h)]""")
        else:
            lines.append(f"""  | {c} x y z =>
    refine {t}.{c}.elim (motive := fun b => Display.fmt ({t}.{c} x y z) = Display.fmt b →
      {t}.{c} x y z = b) b (Eq.symm hi) (fun x' y' z' h => ?_) h
    have h : "{n}".toList ++ Display.fmt x ++ " ".toList ++ Display.fmt y ++ " ".toList ++ Display.fmt z =
      "{n}".toList ++ Display.fmt x' ++ " ".toList ++ Display.fmt y' ++ " ".toList ++ Display.fmt z' := h
    obtain ⟨h1, h2, h3⟩ := three_inj h
    rw [h1, h2, h3]""")
    head = []
    if t == "ExecutionMode":
        out.append("""theorem display_inj {α : Type} [Display α] [Token α] {a b : α} (h : Display.fmt a = Display.fmt b) :
    a = b := by
  have h : DisplayArg.displayArg a ++ [] = DisplayArg.displayArg b ++ [] := by
    rw [List.append_nil, List.append_nil]; exact h
  exact (Token.inj follows_nil follows_nil h).1

theorem three_inj {n : Text} {x y z x' y' z' : UInt32}
    (h : n ++ Display.fmt x ++ " ".toList ++ Display.fmt y ++ " ".toList ++ Display.fmt z =
      n ++ Display.fmt x' ++ " ".toList ++ Display.fmt y' ++ " ".toList ++ Display.fmt z') :
    x = x' ∧ y = y' ∧ z = z' := by
  have h : n ++ (DisplayArg.displayArg x ++ ((FormatArg.formatArg y : Text) ++ FormatArg.formatArg z)) =
      n ++ (DisplayArg.displayArg x' ++ ((FormatArg.formatArg y' : Text) ++ FormatArg.formatArg z')) := by
    simp only [List.append_assoc] at h
    exact h
  obtain ⟨h1, h⟩ := Token.inj (arg_follows _ _) (arg_follows _ _) (List.append_cancel_left h)
  obtain ⟨h2, h⟩ := arg_inj (Arg.follows _) (Arg.follows _) h
  exact ⟨h1, h2, Arg.inj h⟩
""")
    out.append(f"""theorem {t}.fmt_inj (a b : {t}) (h : Display.fmt a = Display.fmt b) : a = b := by
  have hi := {t}.ctorIdx_eq h
  cases a with
""" + "\n".join(lines) + "\n")
    out.append(f"""instance : Arg {t} where
  inj h := {t}.fmt_inj _ _ (List.cons.inj h).2
  follows a := by
    refine .inr ?_
    cases a <;> exact ⟨_, _, rfl, by decide⟩
""")
    if t == "ExecutionMode":
        out.append("""theorem plain_append {s t : Text} (hs : ∀ c ∈ s, Plain c) (ht : ∀ c ∈ t, Plain c) :
    ∀ c ∈ s ++ t, Plain c := by
  intro c h
  rcases List.mem_append.mp h with h | h
  · exact hs c h
  · exact ht c h

theorem display_plain {α : Type} [Display α] [Token α] (a : α) : ∀ c ∈ Display.fmt a, Plain c :=
  Token.plain a
""")
    pl = []
    for c, bs, n, rest in ar:
        k = len(bs)
        if k == 0:
            pl.append(f"  | {c} => exact (by decide : ∀ c ∈ \"{n}\".toList, Plain c)")
        elif c == "LinkageAttributes":
            pl.append(f"""  | {c} x y =>
    exact plain_append (plain_append (plain_append (by decide) (h x y rfl)) (by decide)) (display_plain y)""")
        elif k == 1:
            pl.append(f"  | {c} x => exact plain_append (by decide) (display_plain x)")
        else:
            pl.append(f"""  | {c} x y z => exact plain_append (plain_append (plain_append (plain_append
      (plain_append (by decide) (display_plain x)) (by decide)) (display_plain y)) (by decide)) (display_plain z)""")
    hyp = " (h : ∀ n l, a = .LinkageAttributes n l → ∀ c ∈ n.toList, Plain c)" if t == "Decoration" else ""
    out.append(f"""theorem {t}.fmt_plain (a : {t}){hyp} : ∀ c ∈ Display.fmt a, Plain c := by
  cases a with
""" + "\n".join(pl) + "\n")
out.append("""instance : PlainArg ExecutionMode where
  plain a := plain_append (s := [' ']) (by decide) (ExecutionMode.fmt_plain a)

/-! ### The remaining operand types -/

instance : Token PhiArg where
  inj {a b s t} hs ht h := by
    obtain ⟨av, ap⟩ := a
    obtain ⟨bv, bp⟩ := b
    have h : DisplayArg.displayArg av ++ ((FormatArg.formatArg ap : Text) ++ s) =
        DisplayArg.displayArg bv ++ ((FormatArg.formatArg bp : Text) ++ t) := by
      have h : Display.fmt av ++ " ".toList ++ Display.fmt ap ++ s =
        Display.fmt bv ++ " ".toList ++ Display.fmt bp ++ t := h
      simp only [List.append_assoc] at h
      exact h
    obtain ⟨h1, h⟩ := Token.inj (arg_follows _ _) (arg_follows _ _) h
    obtain ⟨h2, h⟩ := arg_inj hs ht h
    exact ⟨by rw [h1, h2], h⟩
  head a := by
    obtain ⟨c, cs, h, hc⟩ := Token.head a.«variable»
    refine ⟨c, cs ++ (" ".toList ++ Display.fmt a.parent), ?_, hc⟩
    show Display.fmt a.«variable» ++ " ".toList ++ Display.fmt a.parent = _
    have h : Display.fmt a.«variable» = c :: cs := h
    rw [h, List.append_assoc]
    rfl
  plain a := plain_append (plain_append (display_plain a.«variable») (by decide)) (display_plain a.parent)

instance : Token BranchWeights where
  inj {a b s t} hs ht h := by
    obtain ⟨av, ap⟩ := a
    obtain ⟨bv, bp⟩ := b
    have h : DisplayArg.displayArg av ++ ((FormatArg.formatArg ap : Text) ++ s) =
        DisplayArg.displayArg bv ++ ((FormatArg.formatArg bp : Text) ++ t) := by
      have h : Display.fmt av ++ " ".toList ++ Display.fmt ap ++ s =
        Display.fmt bv ++ " ".toList ++ Display.fmt bp ++ t := h
      simp only [List.append_assoc] at h
      exact h
    obtain ⟨h1, h⟩ := Token.inj (arg_follows _ _) (arg_follows _ _) h
    obtain ⟨h2, h⟩ := arg_inj hs ht h
    exact ⟨by rw [h1, h2], h⟩
  head a := by
    obtain ⟨c, cs, h, hc⟩ := Token.head a.true_weight
    refine ⟨c, cs ++ (" ".toList ++ Display.fmt a.false_weight), ?_, hc⟩
    show Display.fmt a.true_weight ++ " ".toList ++ Display.fmt a.false_weight = _
    have h : Display.fmt a.true_weight = c :: cs := h
    rw [h, List.append_assoc]
    rfl
  plain a := plain_append (plain_append (display_plain a.true_weight) (by decide)) (display_plain a.false_weight)

instance : Arg String where
  inj {a b} h := by
    have h : " \\"".toList ++ a.toList ++ "\\"".toList = " \\"".toList ++ b.toList ++ "\\"".toList := h
    exact String.ext_iff.mpr (List.append_cancel_left (List.append_cancel_right h))
  follows a := .inr ⟨'"', a.toList ++ ['"'], rfl, by decide⟩

instance : Arg (Option String) where
  inj {a b} h := by
    cases a with
    | none =>
      cases b with
      | none => rfl
      | some b => exact absurd (h : ([] : Text) = ' ' :: DisplayArg.displayArg b) (by rintro ⟨⟩)
    | some a =>
      cases b with
      | none => exact absurd (h : ' ' :: DisplayArg.displayArg a = ([] : Text)) (by rintro ⟨⟩)
      | some b => exact congrArg some (Arg.inj (α := String) h)
  follows a := by
    cases a with
    | none => exact follows_nil
    | some a => exact Arg.follows (α := String) a

theorem SourceLanguage.fmt_other (n : UInt32) (c : Char) (h : c ∈ Display.fmt (SourceLanguage.Other n)) :
    c ≠ ' ' ∧ Plain c := by
  have h : c ∈ "Unknown(".toList ++ Display.fmt n ++ ")".toList := h
  rcases List.mem_append.mp h with h | h
  · rcases List.mem_append.mp h with h | h
    · exact (by decide : ∀ c ∈ "Unknown(".toList, c ≠ ' ' ∧ Plain c) c h
    · exact ⟨fun e => fmtNat_space _ (e ▸ h), display_plain n c h⟩
  · exact (by decide : ∀ c ∈ ")".toList, c ≠ ' ' ∧ Plain c) c h

theorem SourceLanguage.fmt_mem (a : SourceLanguage) (c : Char) (h : c ∈ Display.fmt a) :
    c ≠ ' ' ∧ Plain c := by
  cases a with
  | Unknown => exact (by decide : ∀ c ∈ "Unknown".toList, c ≠ ' ' ∧ Plain c) c h
  | Essl => exact (by decide : ∀ c ∈ "ESSL".toList, c ≠ ' ' ∧ Plain c) c h
  | Glsl => exact (by decide : ∀ c ∈ "GLSL".toList, c ≠ ' ' ∧ Plain c) c h
  | OpenCL_C => exact (by decide : ∀ c ∈ "OpenCL_C".toList, c ≠ ' ' ∧ Plain c) c h
  | OpenCL_Cpp => exact (by decide : ∀ c ∈ "OpenCL_CPP".toList, c ≠ ' ' ∧ Plain c) c h
  | Other n => exact fmt_other n c h

/-- The text before a parenthesis -/
def SourceLanguage.words : List Text :=
  ["Unknown".toList, "ESSL".toList, "GLSL".toList, "OpenCL_C".toList, "OpenCL_CPP".toList, "Unknown(".toList]

theorem SourceLanguage.fmt_inj (a b : SourceLanguage) (h : Display.fmt a = Display.fmt b) : a = b := by
  have other (n : UInt32) : (Display.fmt (SourceLanguage.Other n)).take 8 = "Unknown(".toList := rfl
  cases a with
  | Other n =>
    cases b with
    | Other m =>
      have h : "Unknown(".toList ++ Display.fmt n ++ ")".toList =
        "Unknown(".toList ++ Display.fmt m ++ ")".toList := h
      rw [display_inj (List.append_cancel_left (List.append_cancel_right h))]
    | _ =>
      have h' := congrArg (List.take 8) h
      rw [other] at h'
      exact absurd h' (by decide)
  | _ =>
    cases b with
    | Other m =>
      have h' := congrArg (List.take 8) h
      rw [other] at h'
      exact absurd h' (by decide)
    | _ => first
      | rfl
      | exact absurd h (by decide)

instance : Token SourceLanguage := Token.word SourceLanguage.fmt_inj
  (fun a h => (SourceLanguage.fmt_mem a _ h).1 rfl)
  (fun a => by cases a <;> exact ⟨_, _, rfl, by decide⟩)
  (fun a c h => (SourceLanguage.fmt_mem a c h).2)

/-! #### Loop control -/

theorem mem_joinBar {ps : List Text} {c : Char} (h : c ∈ joinBar ps) :
    c = ' ' ∨ c = '|' ∨ ∃ p ∈ ps, c ∈ p := by
  induction ps using joinBar.induct with
  | case1 => cases h
  | case2 p => exact .inr (.inr ⟨p, by simp, h⟩)
  | case3 p ps hne ih =>
    cases ps with
    | nil => exact absurd rfl hne
    | cons q qs =>
      have h : c ∈ p ++ " | ".toList ++ joinBar (q :: qs) := h
      rcases List.mem_append.mp h with h | h
      · rcases List.mem_append.mp h with h | h
        · exact .inr (.inr ⟨p, by simp, h⟩)
        · have : ∀ c ∈ " | ".toList, c = ' ' ∨ c = '|' := by decide
          rcases this c h with h | h
          · exact .inl h
          · exact .inr (.inl h)
      · rcases ih h with h | h | ⟨p', hp', h⟩
        · exact .inl h
        · exact .inr (.inl h)
        · exact .inr (.inr ⟨p', List.mem_cons_of_mem _ hp', h⟩)

theorem split_inj {d : Char} {x y s t : Text} (hx : d ∉ x) (hy : d ∉ y) (h : x ++ d :: s = y ++ d :: t) :
    x = y ∧ s = t := by
  induction x generalizing y with
  | nil =>
    cases y with
    | nil => exact ⟨rfl, (List.cons.inj h).2⟩
    | cons c cs =>
      have := (List.cons.inj h).1
      subst this
      exact absurd (List.mem_cons_self) hy
  | cons c cs ih =>
    cases y with
    | nil =>
      have := (List.cons.inj h).1
      subst this
      exact absurd (List.mem_cons_self) hx
    | cons c' cs' =>
      obtain ⟨h0, h⟩ := List.cons.inj h
      obtain ⟨h1, h2⟩ := ih (fun m => hx (List.mem_cons_of_mem _ m))
        (fun m => hy (List.mem_cons_of_mem _ m)) h
      exact ⟨by rw [h0, h1], h2⟩

theorem joinBar_inj {ps qs : List Text} (hp : ∀ p ∈ ps, p ≠ [] ∧ '|' ∉ p) (hq : ∀ p ∈ qs, p ≠ [] ∧ '|' ∉ p)
    (h : joinBar ps = joinBar qs) : ps = qs := by
  have bar (p q : Text) (ps : List Text) : joinBar (p :: q :: ps) = p ++ [' '] ++ '|' :: ' ' :: joinBar (q :: ps) := by
    show p ++ " | ".toList ++ joinBar (q :: ps) = _
    rw [List.append_assoc, List.append_assoc]
    rfl
  have notin {p : Text} (h : '|' ∉ p) : '|' ∉ p ++ [' '] := by
    intro m
    rcases List.mem_append.mp m with m | m
    · exact h m
    · exact absurd m (by decide)
  induction ps generalizing qs with
  | nil =>
    cases qs with
    | nil => rfl
    | cons q qs =>
      cases qs with
      | nil => exact absurd h.symm (hq q (by simp)).1
      | cons q' qs =>
        rw [bar] at h
        exact absurd (congrArg List.length h) (by simp [joinBar])
  | cons p ps ih =>
    cases qs with
    | nil =>
      cases ps with
      | nil => exact absurd h (hp p (by simp)).1
      | cons q' qs =>
        rw [bar] at h
        exact absurd (congrArg List.length h) (by simp [joinBar])
    | cons q qs =>
      cases ps with
      | nil =>
        cases qs with
        | nil => have h : p = q := h; rw [h]
        | cons q' qs =>
          rw [bar] at h
          refine absurd ?_ (hp p (by simp)).2
          have h : p = _ := h
          rw [h]
          simp
      | cons p' ps =>
        cases qs with
        | nil =>
          rw [bar] at h
          refine absurd ?_ (hq q (by simp)).2
          have h : _ = q := h
          rw [← h]
          simp
        | cons q' qs =>
          rw [bar, bar] at h
          obtain ⟨h1, h2⟩ := split_inj (notin (hp p (by simp)).2) (notin (hq q (by simp)).2) h
          rw [List.append_cancel_right h1,
            ih (fun x hx => hp x (List.mem_cons_of_mem _ hx)) (fun x hx => hq x (List.mem_cons_of_mem _ hx))
              (List.cons.inj h2).2]

theorem joinParts_inj {ps qs : List Text} (hp : ∀ p ∈ ps, p ≠ [] ∧ '|' ∉ p ∧ p ≠ "None".toList)
    (hq : ∀ p ∈ qs, p ≠ [] ∧ '|' ∉ p ∧ p ≠ "None".toList) (h : joinParts ps = joinParts qs) : ps = qs := by
  have hp' : ∀ p ∈ ps, p ≠ [] ∧ '|' ∉ p := fun p m => ⟨(hp p m).1, (hp p m).2.1⟩
  have hq' : ∀ p ∈ qs, p ≠ [] ∧ '|' ∉ p := fun p m => ⟨(hq p m).1, (hq p m).2.1⟩
  have none (qs : List Text) (hq' : ∀ p ∈ qs, p ≠ [] ∧ '|' ∉ p) (h : joinBar ["None".toList] = joinBar qs) :
      qs = ["None".toList] :=
    (joinBar_inj (by intro p m; cases List.mem_singleton.mp m; decide) hq' h).symm
  cases ps with
  | nil =>
    cases qs with
    | nil => rfl
    | cons q qs =>
      have := none (q :: qs) hq' h
      exact absurd (List.cons.inj this).1 (hq q (by simp)).2.2
  | cons p ps =>
    cases qs with
    | nil =>
      have := none (p :: ps) hp' h.symm
      exact absurd (List.cons.inj this).1 (hp p (by simp)).2.2
    | cons q qs => exact joinBar_inj hp' hq' h

/-- The flags printed for a loop control -/
def LoopControl.parts (x : LoopControl) : List Text :=
  (if x.unroll then ["Unroll".toList] else []) ++
    (if x.dont_unroll then ["DontUnroll".toList] else []) ++
    (if x.dependency_infinite then ["DependencyInfinite".toList] else []) ++
    (match x.dependency_length with
      | some len => ["DependencyLength(".toList ++ Display.fmt len ++ ")".toList] | none => [])

/-- What a flag of a loop control looks like -/
def LoopControl.IsPart (p : Text) : Prop :=
  p = "Unroll".toList ∨ p = "DontUnroll".toList ∨ p = "DependencyInfinite".toList ∨
    ∃ len : UInt32, p = "DependencyLength(".toList ++ Display.fmt len ++ ")".toList

theorem LoopControl.part (x : LoopControl) : ∀ p ∈ x.parts, LoopControl.IsPart p := by
  intro p h
  obtain ⟨u, d, i, l⟩ := x
  simp only [parts, List.mem_append] at h
  rcases h with ((h | h) | h) | h
  · cases u
    · cases h
    · exact .inl (List.mem_singleton.mp h)
  · cases d
    · cases h
    · exact .inr (.inl (List.mem_singleton.mp h))
  · cases i
    · cases h
    · exact .inr (.inr (.inl (List.mem_singleton.mp h)))
  · cases l with
    | none => cases h
    | some n => exact .inr (.inr (.inr ⟨n, List.mem_singleton.mp h⟩))

theorem LoopControl.part_ok {p : Text} (h : LoopControl.IsPart p) :
    p ≠ [] ∧ '|' ∉ p ∧ p ≠ "None".toList ∧ ∀ c ∈ p, Plain c := by
  rcases h with rfl | rfl | rfl | ⟨n, rfl⟩
  · decide
  · decide
  · decide
  · refine ⟨by rintro ⟨⟩, ?_, ?_, plain_append (plain_append (by decide) (display_plain n)) (by decide)⟩
    · intro h
      rcases List.mem_append.mp h with h | h
      · rcases List.mem_append.mp h with h | h
        · exact absurd h (by decide)
        · exact digit_ne (fmtNat_digit h) (d := '|') (by decide) rfl
      · exact absurd h (by decide)
    · intro h
      exact absurd (List.cons.inj h).1 (by decide)

theorem mem_flag {b : Bool} {s t : Text} : t ∈ (if b then [s] else []) ↔ b = true ∧ t = s := by
  cases b <;> simp

theorem LoopControl.fmt_inj (a b : LoopControl) (h : Display.fmt a = Display.fmt b) : a = b := by
  have h : joinParts a.parts = joinParts b.parts := h
  have ok (x : LoopControl) (p : Text) (m : p ∈ x.parts) : p ≠ [] ∧ '|' ∉ p ∧ p ≠ "None".toList :=
    have := part_ok (part x p m)
    ⟨this.1, this.2.1, this.2.2.1⟩
  have h := joinParts_inj (ok a) (ok b) h
  have len (n m : UInt32) (h : "DependencyLength(".toList ++ Display.fmt n ++ ")".toList =
      "DependencyLength(".toList ++ Display.fmt m ++ ")".toList) : n = m :=
    display_inj (List.append_cancel_left (List.append_cancel_right h))
  obtain ⟨u, d, i, l⟩ := a
  obtain ⟨u', d', i', l'⟩ := b
  have first (s : Text) (n : UInt32) (hs : s[6]? ≠ some 'e' ∨ s[10]? ≠ some 'L') :
      s ≠ "DependencyLength(".toList ++ Display.fmt n ++ ")".toList := by
    rintro rfl
    rcases hs with hs | hs <;> exact hs rfl
  have mU (x : LoopControl) : x.unroll = true ↔ "Unroll".toList ∈ x.parts := by
    constructor
    · intro h
      exact (List.mem_append_left _ (List.mem_append_left _ (List.mem_append_left _ (mem_flag.mpr ⟨h, rfl⟩))))
    · intro h
      rcases List.mem_append.mp h with h | h
      · rcases List.mem_append.mp h with h | h
        · rcases List.mem_append.mp h with h | h
          · exact (mem_flag.mp h).1
          · exact absurd (mem_flag.mp h).2 (by decide)
        · exact absurd (mem_flag.mp h).2 (by decide)
      · cases hl : x.dependency_length with
        | none => rw [hl] at h; cases h
        | some n =>
          rw [hl] at h
          exact absurd (List.mem_singleton.mp h) (first _ n (by decide))
  have mD (x : LoopControl) : x.dont_unroll = true ↔ "DontUnroll".toList ∈ x.parts := by
    constructor
    · intro h
      exact (List.mem_append_left _ (List.mem_append_left _ (List.mem_append_right _ (mem_flag.mpr ⟨h, rfl⟩))))
    · intro h
      rcases List.mem_append.mp h with h | h
      · rcases List.mem_append.mp h with h | h
        · rcases List.mem_append.mp h with h | h
          · exact absurd (mem_flag.mp h).2 (by decide)
          · exact (mem_flag.mp h).1
        · exact absurd (mem_flag.mp h).2 (by decide)
      · cases hl : x.dependency_length with
        | none => rw [hl] at h; cases h
        | some n =>
          rw [hl] at h
          exact absurd (List.mem_singleton.mp h) (first _ n (by decide))
  have mI (x : LoopControl) : x.dependency_infinite = true ↔ "DependencyInfinite".toList ∈ x.parts := by
    constructor
    · intro h
      exact (List.mem_append_left _ (List.mem_append_right _ (mem_flag.mpr ⟨h, rfl⟩)))
    · intro h
      rcases List.mem_append.mp h with h | h
      · rcases List.mem_append.mp h with h | h
        · rcases List.mem_append.mp h with h | h
          · exact absurd (mem_flag.mp h).2 (by decide)
          · exact absurd (mem_flag.mp h).2 (by decide)
        · exact (mem_flag.mp h).1
      · cases hl : x.dependency_length with
        | none => rw [hl] at h; cases h
        | some n =>
          rw [hl] at h
          exact absurd (List.mem_singleton.mp h) (first _ n (by decide))
  have hu : u = u' := Bool.eq_iff_iff.mpr
    ((mU ⟨u, d, i, l⟩).trans (h ▸ (mU ⟨u', d', i', l'⟩).symm))
  have hd : d = d' := Bool.eq_iff_iff.mpr
    ((mD ⟨u, d, i, l⟩).trans (h ▸ (mD ⟨u', d', i', l'⟩).symm))
  have hi : i = i' := Bool.eq_iff_iff.mpr
    ((mI ⟨u, d, i, l⟩).trans (h ▸ (mI ⟨u', d', i', l'⟩).symm))
  cases hu
  cases hd
  cases hi
  have h := List.append_cancel_left h
  cases l with
  | none => cases l' with
    | none => rfl
    | some m => exact absurd (congrArg List.length h) (show ¬ 0 = 1 by decide)
  | some n => cases l' with
    | none => exact absurd (congrArg List.length h) (show ¬ 1 = 0 by decide)
    | some m => rw [len n m (List.cons.inj h).1]

theorem joinParts_plain {ps : List Text} (h : ∀ p ∈ ps, ∀ c ∈ p, Plain c) : ∀ c ∈ joinParts ps, Plain c := by
  intro c hc
  simp only [joinParts] at hc
  split at hc
  · exact (by decide : ∀ c ∈ "None".toList, Plain c) c hc
  · rcases mem_joinBar hc with rfl | rfl | ⟨p, hp, hc⟩
    · decide
    · decide
    · exact h p hp c hc

theorem LoopControl.fmt_plain (a : LoopControl) : ∀ c ∈ Display.fmt a, Plain c :=
  joinParts_plain (ps := a.parts) fun p hp => (part_ok (part a p hp)).2.2.2

instance : Arg LoopControl where
  inj h := LoopControl.fmt_inj _ _ (List.cons.inj h).2
  follows a := by
    refine .inr ?_
    obtain ⟨u, d, i, l⟩ := a
    cases u <;> cases d <;> cases i <;> cases l <;> exact ⟨_, _, rfl, by decide⟩

instance : PlainArg LoopControl where
  plain a := plain_append (s := [' ']) (by decide) (LoopControl.fmt_plain a)

end Magma
""")
(root / "Proofs/TextTypes.lean").write_text("\n".join(out))

# --- instructions ---
ops_src = (root / "Model/Op.lean").read_text()
fields = {}
for m in re.finditer(r"^structure (\w+)(?: \(X : Type\))? where\n((?:  (?!deriving).*\n)*)", ops_src, re.M):
    fields[m.group(1)] = [tuple(x.strip() for x in l.split(":", 1)) for l in m.group(2).splitlines()]
ops = []
for m in re.finditer(r"instance( \{X : Type\} \[Display X\])? : Display (?:\((\w+) X\)|(\w+)) where\n  fmt (?:op|_) := (fmtResult op\.result_id|fmtNoResult) \+\+ \"(\w+)\"\.toList(.*)\n", disp):
    name = m.group(2) or m.group(3)
    args = re.findall(r"op\.([\w«»]+)", m.group(6))
    ops.append((name, bool(m.group(1)), m.group(4).startswith("fmtResult"), m.group(5), args))
core = re.findall(r"^  \| \.(\w+) op => Display.fmt op", disp[disp.index("def Core.fmt"):], re.M)
assert [o[0] for o in ops] == core or sorted(o[0] for o in ops) == sorted(core)
byname = {o[0]: o for o in ops}
STR = {"String", "Option String"}
out = ["""import Verif.Proofs.TextTypes
/-! Generated by `tools/gen_text.py`: a printed instruction determines the instruction. -/

namespace Magma

/-- Nothing, or a space and more -/
def Spaced (s : Text) : Prop := s = [] ∨ ∃ t, s = ' ' :: t

theorem Spaced.append {s t : Text} (hs : Spaced s) (ht : Spaced t) : Spaced (s ++ t) := by
  rcases hs with rfl | ⟨s, rfl⟩
  · exact ht
  · exact .inr ⟨s ++ t, rfl⟩

/-- Arguments are preceded by a space. -/
class SpacedArg (α : Type) [FormatArg α] : Prop where
  spaced : ∀ a : α, Spaced (FormatArg.formatArg a)

instance {α : Type} [DisplayArg α] : SpacedArg α where
  spaced a := .inr ⟨DisplayArg.displayArg a, rfl⟩
instance {α : Type} [DisplayArg α] : SpacedArg (Option α) where
  spaced a := by
    cases a with
    | none => exact .inl rfl
    | some a => exact .inr ⟨DisplayArg.displayArg a, rfl⟩
instance {α : Type} [DisplayArg α] : SpacedArg (List α) where
  spaced a := by
    cases a with
    | nil => exact .inl rfl
    | cons a as => exact .inr ⟨_, rfl⟩

export SpacedArg (spaced)

theorem spaced_nil : Spaced [] := .inl rfl
"""]
mx = max(len(o[4]) for o in ops)
for k in range(1, mx + 1):
    vs = " ".join(f"x{i}" for i in range(k))
    rhs = f"x{k-1}"
    for i in range(k - 2, -1, -1):
        rhs = f"x{i} ++ ({rhs})" if " " in rhs else f"x{i} ++ {rhs}"
    lhs = " ++ ".join(f"x{i}" for i in range(k))
    out.append(f"""theorem assoc{k} {{p n {vs} : Text}} : p ++ n ++ {lhs} = p ++ (n ++ ({rhs})) := by
  simp only [List.append_assoc]
""")
out.append("""theorem assoc0 {p n : Text} : p ++ n = p ++ (n ++ []) := by rw [List.append_nil]
""")
def F(v, f): return f"FormatArg.formatArg {v}.{f}"
for name, poly, res, mn, args in ops:
    k = len(args)
    T = f"{name} X" if poly else name
    bind = "{X : Type} [Display X] " if poly else ""
    pre = "fmtResult op.result_id" if res else "fmtNoResult"
    sp = "spaced_nil" if k == 0 else None
    for i, f in enumerate(reversed(args)):
        sp = f"(spaced op.{f})" if i == 0 else f"(Spaced.append (spaced op.{f}) {sp})"
    out.append(f"""theorem {name}.layout {bind}(op : {T}) :
    ∃ s, Spaced s ∧ Display.fmt op = {pre} ++ ("{mn}".toList ++ s) :=
  ⟨_, {sp}, assoc{k}⟩
""")
    # injectivity
    if name == "OpEntryPoint":
        pass
    hx = " (hx : ∀ x y : X, Display.fmt x = Display.fmt y → x = y)" if poly else ""
    ty = dict(fields[name])
    body = []
    body.append("  have h := assoc%d.symm.trans (h.trans assoc%d)" % (k, k))
    if res:
        body.append("  obtain ⟨hr, h⟩ := fmtResult_inj h")
    else:
        body.append("  have h := List.append_cancel_left h")
    body.append("  have h := List.append_cancel_left h")
    special = None
    for i, f in enumerate(args):
        last = i == k - 1
        if poly and f == "instruction":
            body.append(f"  have h{i} := hx _ _ (List.cons.inj h).2")
        elif name == "OpEntryPoint" and f == "name":
            body.append("  obtain ⟨h2, h3⟩ := quoted_inj h")
            break
        elif name == "OpSource" and f == "file":
            body.append("  obtain ⟨h2, h3⟩ := file_source_inj h")
            break
        elif last:
            body.append(f"  have h{i} := Arg.inj h")
        else:
            def fol(v):
                if i == k - 2: return "(Arg.follows _)" if not (poly and args[i+1] == "instruction") else None
                return "(arg_follows _ _)"
            if poly and i == k - 2:
                body.append(f"  obtain ⟨h{i}, h⟩ := id_inj h")
            elif name == "OpEntryPoint" and i == 1:
                body.append(f"  obtain ⟨h{i}, h⟩ := arg_inj (quoted_follows _ _) (quoted_follows _ _) h")
            elif name == "OpSource" and i == 1:
                body.append(f"  obtain ⟨h{i}, h⟩ := arg_inj (file_source_follows _ _) (file_source_follows _ _) h")
            else:
                body.append(f"  obtain ⟨h{i}, h⟩ := arg_inj {fol(0)} {fol(0)} h")
    pos = {f: f"h{i}" for i, f in enumerate(args)}
    pos["result_id"] = "hr"
    fs = [f for f, _ in fields[name]]
    if not fs:
        proof = "  cases a; cases b; rfl"
        out.append(f"""theorem {name}.fmt_inj {{a b : {T}}} (_ : Display.fmt a = Display.fmt b) : a = b := rfl
""")
    else:
        tup = ", ".join(pos[f] for f in fs)
        body.append("  cases a")
        body.append("  cases b")
        body.append(f"  rw [{name}.mk.injEq]")
        body.append(f"  exact ⟨{tup}⟩" if len(fs) > 1 else f"  exact {tup}")
        if name == "OpSource":
            out.append("""theorem file_source_follows (f : Option OpId) (s : Option String) :
    Follows (FormatArg.formatArg f ++ FormatArg.formatArg s) := by
  cases f with
  | none => exact Arg.follows s
  | some f => exact arg_follows f _

theorem file_source_inj {f g : Option OpId} {s t : Option String}
    (h : (FormatArg.formatArg f : Text) ++ FormatArg.formatArg s =
      FormatArg.formatArg g ++ FormatArg.formatArg t) : f = g ∧ s = t := by
  have differ (f : OpId) (s t : Option String)
      (h : (FormatArg.formatArg f : Text) ++ FormatArg.formatArg s = FormatArg.formatArg t) : False := by
    cases t with
    | none => exact absurd h (show ¬ (' ' :: _ = []) by rintro ⟨⟩)
    | some t =>
      have h := (List.cons.inj (List.cons.inj h).2).1
      exact absurd h (show ¬ ('%' = '"') by decide)
  cases f with
  | none =>
    cases g with
    | none => exact ⟨rfl, Arg.inj h⟩
    | some g => exact absurd h.symm (differ g t s)
  | some f =>
    cases g with
    | none => exact absurd h (differ f s t)
    | some g =>
      obtain ⟨h1, h2⟩ := arg_inj (α := OpId) (Arg.follows _) (Arg.follows _) h
      exact ⟨by rw [h1], Arg.inj h2⟩
""")
        if name == "OpEntryPoint":
            out.append("""theorem quoted_follows (s : String) (t : Text) : Follows (FormatArg.formatArg s ++ t) :=
  .inr ⟨'"', _, rfl, by decide⟩

theorem quoted_inj {s t : String} {a b : List OpId}
    (h : (FormatArg.formatArg s : Text) ++ FormatArg.formatArg a =
      FormatArg.formatArg t ++ FormatArg.formatArg b) : s = t ∧ a = b := by
  have q (a : List OpId) : '"' ∉ (FormatArg.formatArg a : Text).reverse := by
    intro hm
    have hm := List.mem_reverse.mp hm
    obtain ⟨i, -, hi⟩ := List.mem_flatMap.mp hm
    have hi : '"' ∈ ' ' :: Display.fmt i := hi
    rcases List.mem_cons.mp hi with hi | hi
    · exact absurd hi (by decide)
    · rcases mem_display_id hi with hi | hi
      · exact absurd hi (by decide)
      · exact absurd hi (by decide)
  have e (s : String) (a : List OpId) : ((FormatArg.formatArg s : Text) ++ FormatArg.formatArg a).reverse =
      (FormatArg.formatArg a : Text).reverse ++ '"' :: (' ' :: '"' :: s.toList).reverse := by
    have : (FormatArg.formatArg s : Text) = (' ' :: '"' :: s.toList) ++ ['"'] := rfl
    rw [this]
    simp
  have h := congrArg List.reverse h
  rw [e, e] at h
  obtain ⟨h1, h2⟩ := split_inj (q a) (q b) h
  have h2 := List.reverse_inj.mp h2
  exact ⟨String.ext_iff.mpr (List.cons.inj (List.cons.inj h2).2).2, Arg.inj (List.reverse_inj.mp h1)⟩
""")
        if poly:
            out.append("""theorem id_inj {i j : OpId} {s t : Text}
    (h : (FormatArg.formatArg i : Text) ++ ' ' :: s = FormatArg.formatArg j ++ ' ' :: t) :
    i = j ∧ ' ' :: s = ' ' :: t := by
  have hs (i : OpId) : ' ' ∉ Display.fmt i := by
    intro hi
    rcases mem_display_id hi with hi | hi
    · exact absurd hi (by decide)
    · exact absurd hi (by decide)
  obtain ⟨h1, h2⟩ := split_inj (hs i) (hs j) (List.cons.inj h).2
  exact ⟨display_inj h1, by rw [h2]⟩
""")
        out.append(f"""theorem {name}.fmt_inj {bind}{{a b : {T}}}{hx} (h : Display.fmt a = Display.fmt b) : a = b := by
""" + "\n".join(body) + "\n")
    # plain
    strs = [f for f in args if ty.get(f) in STR]
    if not strs and "Decoration" not in [ty[f] for f in args]:
        hp = " (hx : ∀ x : X, ∀ c ∈ Display.fmt x, Plain c)" if poly else ""
        pl = "(plain_append %s (by decide))" % ("(fmtResult_plain _)" if res else "fmtNoResult_plain")
        for f in args:
            if poly and f == "instruction":
                pl = f"(plain_append {pl} (plain_append (s := [' ']) (by decide) (hx _)))"
            else:
                pl = f"(plain_append {pl} (PlainArg.plain op.{f}))"
        b2 = bind + f"(op : {T})" 
        out.append(f"""theorem {name}.fmt_plain {b2}{hp} : ∀ c ∈ Display.fmt op, Plain c :=
  {pl[1:-1]}
""")
    else:
        hyps = []
        pl = "(line_append %s (by decide))" % ("(line_of_plain (fmtResult_plain _))" if res else "(line_of_plain fmtNoResult_plain)")
        for f in args:
            t = ty[f]
            if t == "String":
                hyps.append(f"(h_{f} : '\\n' ∉ op.{f}.toList)"); pl = f"(line_append {pl} (line_string h_{f}))"
            elif t == "Option String":
                hyps.append(f"(h_{f} : ∀ s, op.{f} = some s → '\\n' ∉ s.toList)"); pl = f"(line_append {pl} (line_option_string h_{f}))"
            elif t == "Decoration":
                hyps.append(f"(h_{f} : ∀ s l, op.{f} = .LinkageAttributes s l → '\\n' ∉ s.toList)"); pl = f"(line_append {pl} (line_decoration h_{f}))"
            else:
                pl = f"(line_append {pl} (line_of_plain (PlainArg.plain op.{f})))"
        out.append(f"""theorem {name}.fmt_line (op : {name}) {" ".join(hyps)} : '\\n' ∉ Display.fmt op :=
  {pl[1:-1]}
""")
i0 = next(i for i, x in enumerate(out) if x.startswith("theorem OpNop.layout"))
pls = []
for c, bs, n, rest in arms("Decoration"):
    k = len(bs)
    if k == 0: pls.append(f"  | {c} => exact (by decide : '\\n' ∉ \"{n}\".toList)")
    elif c == "LinkageAttributes": pls.append(f"""  | {c} x y =>
    exact line_append (line_append (line_append (by decide) (h x y rfl)) (by decide)) (line_of_plain (display_plain y))""")
    else: pls.append(f"  | {c} x => exact line_append (by decide) (line_of_plain (display_plain x))")
out.insert(i0, """theorem line_append {s t : Text} (hs : '\\n' ∉ s) (ht : '\\n' ∉ t) : '\\n' ∉ s ++ t := by
  intro h
  rcases List.mem_append.mp h with h | h
  · exact hs h
  · exact ht h

theorem line_of_plain {s : Text} (h : ∀ c ∈ s, Plain c) : '\\n' ∉ s := fun m => (h _ m).1 rfl

theorem line_string {s : String} (h : '\\n' ∉ s.toList) : '\\n' ∉ (FormatArg.formatArg s : Text) :=
  line_append (s := [' ']) (by decide) (line_append (line_append (by decide) h) (by decide))

theorem line_option_string {s : Option String} (h : ∀ t, s = some t → '\\n' ∉ t.toList) :
    '\\n' ∉ (FormatArg.formatArg s : Text) := by
  cases s with
  | none => exact (by decide : '\\n' ∉ ([] : Text))
  | some s => exact line_string (h s rfl)

theorem Decoration.fmt_line {d : Decoration} (h : ∀ s l, d = .LinkageAttributes s l → '\\n' ∉ s.toList) :
    '\\n' ∉ Display.fmt d := by
  cases d with
""" + "\n".join(pls) + """

theorem line_decoration {d : Decoration} (h : ∀ s l, d = .LinkageAttributes s l → '\\n' ∉ s.toList) :
    '\\n' ∉ (FormatArg.formatArg d : Text) :=
  line_append (s := [' ']) (by decide) (Decoration.fmt_line h)
""")
out.append("end Magma\n")
(root / "Proofs/TextOps.lean").write_text("\n".join(out))

# --- Core ---
enc = (root / "Spec/Encoding.lean").read_text()
codes = re.findall(r"^  \| \.(\w+) _ => (\d+)", enc, re.M)
code = dict(codes)
ind = re.search(r"inductive Core \(X : Type\) where\n((?:  \|.*\n)+)", ops_src).group(1)
order = re.findall(r"\| (\w+)", ind)
out = ["""import Verif.Proofs.TextOps
import Verif.Spec.Disassembly
/-! Generated by `tools/gen_text.py`: the instruction cases of the disassembly. -/

namespace Magma

theorem decimal_eq (n : Nat) : Spec.decimal n = fmtNat n := by
  show (toString n).toList = Nat.toDigits 10 n
  simp

theorem leftColumn_some (r : ResultId) : fmtResult r = Spec.leftColumn (some r.val) := by
  simp only [Spec.leftColumn, decimal_eq]
  rfl

theorem leftColumn_none : fmtNoResult = Spec.leftColumn none := rfl
"""]
ar = []
for n in order:
    _, poly, res, mn, args = byname[n]
    col = "leftColumn_some op.result_id" if res else "leftColumn_none"
    ar.append(f"""  | {n} op =>
    obtain ⟨s, hs, h⟩ := {n}.layout op
    exact ⟨"{mn}", s, show ({code[n]}, "{mn}") ∈ Spec.mnemonics by decide, hs,
      h.trans (congrArg (· ++ _) ({col}))⟩""")
out.append("""theorem Core.layout {X : Type} [Display X] (c : Core X) :
    ∃ name s, (Spec.opcode c, name) ∈ Spec.mnemonics ∧ Spaced s ∧
      Display.fmt c = Spec.leftColumn (Spec.resultId c) ++ (name.toList ++ s) := by
  cases c with
""" + "\n".join(ar) + "\n")
out.append("""/-- The opcodes in the order of the constructors -/
def Core.opcodes : List Nat := [""" + ", ".join(code[n] for n in order) + """]

theorem Core.opcode_idx {X : Type} (c : Core X) : Core.opcodes[c.ctorIdx]? = some (Spec.opcode c) := by
  cases c <;> rfl

theorem Core.ctorIdx_eq {X : Type} {a b : Core X} (h : Spec.opcode a = Spec.opcode b) :
    a.ctorIdx = b.ctorIdx := by
  have hn : Core.opcodes.Nodup := by decide +kernel
  have ha := Core.opcode_idx a
  have hb := Core.opcode_idx b
  have hlt : a.ctorIdx < Core.opcodes.length := by
    rcases Nat.lt_or_ge a.ctorIdx Core.opcodes.length with h' | h'
    · exact h'
    · rw [List.getElem?_eq_none h'] at ha
      cases ha
  rw [h] at ha
  exact (List.getElem?_inj hlt hn).mp (ha.trans hb.symm)
""")
out.append("""theorem leftColumn_length (r : Option UInt32) : (Spec.leftColumn r).length = 15 := by
  cases r with
  | none => rfl
  | some r => rw [← leftColumn_some ⟨r⟩]; exact fmtResult_length _

theorem takeWhile_spaced {n s : Text} (hn : ' ' ∉ n) (hs : Spaced s) :
    (n ++ s).takeWhile (· != ' ') = n := by
  induction n with
  | nil => rcases hs with rfl | ⟨t, rfl⟩ <;> rfl
  | cons c cs ih =>
    have hc : (c != ' ') = true := by
      simp only [bne_iff_ne]
      rintro rfl
      exact hn List.mem_cons_self
    rw [List.cons_append, List.takeWhile_cons_of_pos (p := (· != ' ')) hc,
      ih (fun m => hn (List.mem_cons_of_mem _ m))]

theorem nodup_map_inj {α β : Type} {f : α → β} {l : List α} (hn : (l.map f).Nodup) {a b : α} (ha : a ∈ l)
    (hb : b ∈ l) (h : f a = f b) : a = b := by
  induction l with
  | nil => cases ha
  | cons c l ih =>
    rw [List.map_cons, List.nodup_cons] at hn
    rcases List.mem_cons.mp ha with ea | ha
    · rcases List.mem_cons.mp hb with eb | hb
      · rw [ea, eb]
      · exact absurd (ea ▸ h ▸ List.mem_map_of_mem hb) hn.1
    · rcases List.mem_cons.mp hb with eb | hb
      · exact absurd (eb ▸ h ▸ List.mem_map_of_mem ha) hn.1
      · exact ih hn.2 ha hb

theorem Core.opcode_of_fmt {X : Type} [Display X] {a b : Core X} (h : Display.fmt a = Display.fmt b) :
    Spec.opcode a = Spec.opcode b := by
  obtain ⟨na, sa, ma, ha, ea⟩ := Core.layout a
  obtain ⟨nb, sb, mb, hb, eb⟩ := Core.layout b
  rw [ea, eb] at h
  have h := (List.append_inj h (by rw [leftColumn_length, leftColumn_length])).2
  have ns : ∀ p ∈ Spec.mnemonics, ' ' ∉ p.2.toList := by decide +kernel
  have h := congrArg (List.takeWhile (· != ' ')) h
  rw [takeWhile_spaced (ns _ ma) ha, takeWhile_spaced (ns _ mb) hb] at h
  have uniq : ∀ p ∈ Spec.mnemonics, ∀ q ∈ Spec.mnemonics, p.2 = q.2 → p.1 = q.1 := by
    have hn : (Spec.mnemonics.map Prod.snd).Nodup := by decide +kernel
    intro p hp q hq h
    exact congrArg Prod.fst (nodup_map_inj hn hp hq h)
  exact uniq _ ma _ mb (String.ext_iff.mpr h)
""")
ar = []
for n in order:
    poly = byname[n][1]
    fmts = f"{n}.fmt_inj hx h" if poly else f"{n}.fmt_inj h"
    hxb = " (hx : ∀ x y : X, Display.fmt x = Display.fmt y → x = y)" if poly else ""
    out.append(f"""theorem fmt_inj_{n} {{X : Type}} [Display X]{hxb} (op : {n}{' X' if poly else ''}) (b : Core X)
    (hi : b.ctorIdx = {order.index(n)}) : Display.fmt (Core.{n} op : Core X) = Display.fmt b → Core.{n} op = b :=
  Core.{n}.elim (motive := fun b => Display.fmt (Core.{n} op : Core X) = Display.fmt b → Core.{n} op = b) b hi
    (fun op' h => congrArg Core.{n} ({n}.fmt_inj{' hx' if poly else ''} (h : Display.fmt op = Display.fmt op')))
""")
    ar.append(f"  | {n} op => exact fmt_inj_{n}{' hx' if poly else ''} op b (Eq.symm hi) h")
out.append("""theorem Core.fmt_inj {X : Type} [Display X] (hx : ∀ x y : X, Display.fmt x = Display.fmt y → x = y)
    {a b : Core X} (h : Display.fmt a = Display.fmt b) : a = b := by
  have hi := Core.ctorIdx_eq (Core.opcode_of_fmt h)
  cases a with
""" + "\n".join(ar) + "\n")
ar = []
for n in order:
    _, poly, res, mn, args = byname[n]
    ty = dict(fields[n])
    hy = []
    strs = [(f, ty[f]) for f in args if ty[f] in ("String", "Option String", "Decoration")]
    if not strs:
        ar.append(f"  | {n} op => exact line_of_plain ({n}.fmt_plain op)" if not poly else
          f"  | {n} op => exact OpExtInst.fmt_line' op hx")
    else:
        for f, t in strs:
            if t == "String": hy.append(f"(hs op.{f} (by simp [Spec.strings]))")
            elif t == "Option String": hy.append(f"(fun s e => hs s (by simp [Spec.strings, e]))")
            else: hy.append(f"(fun s l e => hs s (by simp [Spec.strings, Spec.decorationStrings, e]))")
        ar.append(f"  | {n} op => exact {n}.fmt_line op {' '.join(hy)}")
out.append("""theorem OpExtInst.fmt_line' {X : Type} [Display X] (op : OpExtInst X)
    (hx : ∀ x : X, '\\n' ∉ Display.fmt x) : '\\n' ∉ Display.fmt op :=
  line_append (line_append (line_append (line_append (line_of_plain (fmtResult_plain _)) (by decide))
    (line_of_plain (PlainArg.plain op.result_type))) (line_of_plain (PlainArg.plain op.set)))
    (line_append (s := [' ']) (by decide) (hx _))

theorem Core.fmt_line {X : Type} [Display X] (hx : ∀ x : X, '\\n' ∉ Display.fmt x) (c : Core X)
    (hs : ∀ s ∈ Spec.strings c, '\\n' ∉ s.toList) : '\\n' ∉ Display.fmt c := by
  cases c with
""" + "\n".join(ar) + "\n")
out.append("end Magma\n")
(root / "Proofs/TextCore.lean").write_text("\n".join(out))
