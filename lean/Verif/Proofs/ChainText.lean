import Verif.Proofs.Printing
import Verif.Proofs.TextTypes
import Verif.Spec.Structured
/-! The text of a recovered chain determines the chain. -/

namespace Magma
open Spec

/-! ### The line in front of a block in braces -/

/-- Split two texts at the first `]` -/
theorem split_bracket {a b s t : Text} (ha : ']' ∉ a) (hb : ']' ∉ b) (h : a ++ ']' :: s = b ++ ']' :: t) :
    a = b ∧ s = t := by
  induction a generalizing b with
  | nil =>
    cases b with
    | nil => exact ⟨rfl, (List.cons.inj h).2⟩
    | cons c b => exact absurd (List.cons.inj h).1 (fun e => hb (by rw [e]; exact List.mem_cons_self))
  | cons c a ih =>
    cases b with
    | nil => exact absurd (List.cons.inj h).1 (fun e => ha (by rw [← e]; exact List.mem_cons_self))
    | cons d b =>
      obtain ⟨h1, h2⟩ := List.cons.inj h
      obtain ⟨h3, h4⟩ := ih (fun m => ha (List.mem_cons_of_mem _ m)) (fun m => hb (List.mem_cons_of_mem _ m)) h2
      exact ⟨by rw [h1, h3], h4⟩

/-- What can stand in brackets: not empty, without a closing bracket, and either starting with a digit or
not, depending on `d` -/
structure Bracketed (d : Bool) (t : Text) : Prop where
  free : ']' ∉ t
  start : ∃ c cs, t = c :: cs ∧ c.isDigit = d

/-- An optional text in brackets -/
def inBrackets : Option Text → Text
  | none => []
  | some t => " [".toList ++ t ++ "]".toList

theorem brackets_inj {h h' w w' : Option Text} (hh : ∀ t ∈ h, Bracketed false t) (hh' : ∀ t ∈ h', Bracketed false t)
    (hw : ∀ t ∈ w, Bracketed true t) (hw' : ∀ t ∈ w', Bracketed true t)
    (e : inBrackets h ++ (inBrackets w ++ " {".toList) = inBrackets h' ++ (inBrackets w' ++ " {".toList)) :
    h = h' ∧ w = w' := by
  have one (t s : Text) : inBrackets (some t) ++ s = ' ' :: '[' :: (t ++ ']' :: s) := by
    simp [inBrackets]
  have weights {w w' : Option Text} (hw : ∀ t ∈ w, Bracketed true t) (hw' : ∀ t ∈ w', Bracketed true t)
      (e : inBrackets w ++ " {".toList = inBrackets w' ++ " {".toList) : w = w' := by
    cases w with
    | none =>
      cases w' with
      | none => rfl
      | some t => rw [one] at e; cases e
    | some t =>
      cases w' with
      | none => rw [one] at e; cases e
      | some t' =>
        rw [one, one] at e
        have e := (List.cons.inj (List.cons.inj e).2).2
        rw [(split_bracket (hw t rfl).free (hw' t' rfl).free e).1]
  have mixed {t : Text} {w : Option Text} (ht : Bracketed false t) (hw : ∀ t ∈ w, Bracketed true t) (s : Text)
      (e : inBrackets (some t) ++ s = inBrackets w ++ " {".toList) : False := by
    rw [one] at e
    cases w with
    | none => cases e
    | some t' =>
      rw [one] at e
      obtain ⟨c, cs, rfl, hc⟩ := ht.start
      obtain ⟨c', cs', rfl, hc'⟩ := (hw t' rfl).start
      have e := (List.cons.inj (List.cons.inj (List.cons.inj e).2).2).1
      rw [e, hc'] at hc
      cases hc
  cases h with
  | none =>
    cases h' with
    | none => exact ⟨rfl, weights hw hw' e⟩
    | some t' => exact (mixed (hh' t' rfl) hw _ e.symm).elim
  | some t =>
    cases h' with
    | none => exact (mixed (hh t rfl) hw' _ e).elim
    | some t' =>
      rw [one, one] at e
      have e := (List.cons.inj (List.cons.inj e).2).2
      obtain ⟨h1, h2⟩ := split_bracket (hh t rfl).free (hh' t' rfl).free e
      exact ⟨by rw [h1], weights hw hw' h2⟩

theorem brackets_follow (h w : Option Text) : Follows (inBrackets h ++ (inBrackets w ++ " {".toList)) := by
  cases h with
  | some t => exact .inr ⟨'[', _, rfl, by decide⟩
  | none =>
    cases w with
    | some t => exact .inr ⟨'[', _, rfl, by decide⟩
    | none => exact .inr ⟨'{', _, rfl, by decide⟩

/-- The text of a hint, if it is printed -/
def selectionText (h : SelectionControl) : Option Text :=
  if SelectionControl.default ≠ h then some (Display.fmt h) else none

/-- The text of a hint, if it is printed -/
def loopText (h : LoopControl) : Option Text :=
  if LoopControl.default ≠ h then some (Display.fmt h) else none

theorem selectionHint_eq (h : SelectionControl) : fmtSelectionHint h = inBrackets (selectionText h) := by
  rw [fmtSelectionHint, selectionText]
  split <;> rfl

theorem loopHint_eq (h : LoopControl) : fmtLoopHint h = inBrackets (loopText h) := by
  rw [fmtLoopHint, loopText]
  split <;> rfl

theorem weights_eq (w : Option BranchWeights) : fmtWeights w = inBrackets (w.map Display.fmt) := by
  cases w <;> rfl

theorem selectionText_ok (h : SelectionControl) : ∀ t ∈ selectionText h, Bracketed false t := by
  intro t ht
  rw [selectionText] at ht
  split at ht
  · rename_i hne
    cases ht
    obtain ⟨a, b⟩ := h
    have free : ∀ a b : Bool, ']' ∉ (Display.fmt (SelectionControl.mk a b) : Text) := by decide
    refine ⟨free a b, ?_⟩
    cases a
    · cases b
      · exact absurd rfl hne
      · exact ⟨'D', _, rfl, by decide⟩
    · cases b
      · exact ⟨'F', _, rfl, by decide⟩
      · exact ⟨'F', _, rfl, by decide⟩
  · cases ht

theorem selectionText_inj {a b : SelectionControl} (h : selectionText a = selectionText b) : a = b := by
  rw [selectionText, selectionText] at h
  split at h
  · split at h
    · have h : (DisplayArg.displayArg a : Text) ++ [] = DisplayArg.displayArg b ++ [] :=
        congrArg (· ++ []) (Option.some.inj h)
      exact (Token.inj follows_nil follows_nil h).1
    · cases h
  · rename_i ha
    split at h
    · cases h
    · rename_i hb
      exact (Classical.not_not.mp ha).symm.trans (Classical.not_not.mp hb)

theorem part_free {p : Text} (h : LoopControl.IsPart p) : ']' ∉ p := by
  rcases h with rfl | rfl | rfl | ⟨n, rfl⟩
  · decide
  · decide
  · decide
  · intro h
    rcases List.mem_append.mp h with h | h
    · rcases List.mem_append.mp h with h | h
      · exact absurd h (by decide)
      · exact digit_ne (fmtNat_digit h) (d := ']') (by decide) rfl
    · exact absurd h (by decide)

theorem loopText_ok (h : LoopControl) : ∀ t ∈ loopText h, Bracketed false t := by
  intro t ht
  rw [loopText] at ht
  split at ht
  · rename_i hne
    cases ht
    refine ⟨?_, ?_⟩
    · intro hm
      have hm : ']' ∈ joinParts h.parts := hm
      rw [joinParts] at hm
      split at hm
      · exact absurd hm (by decide)
      · rcases mem_joinBar hm with hm | hm | ⟨p, hp, hm⟩
        · exact absurd hm (by decide)
        · exact absurd hm (by decide)
        · exact part_free (LoopControl.part h p hp) hm
    · obtain ⟨u, d, i, l⟩ := h
      cases u
      · cases d
        · cases i
          · cases l with
            | none => exact absurd rfl hne
            | some n => exact ⟨'D', _, rfl, by decide⟩
          · cases l <;> exact ⟨'D', _, rfl, by decide⟩
        · cases i <;> cases l <;> exact ⟨'D', _, rfl, by decide⟩
      · cases d <;> cases i <;> cases l <;> exact ⟨'U', _, rfl, by decide⟩
  · cases ht

theorem loopText_inj {a b : LoopControl} (h : loopText a = loopText b) : a = b := by
  rw [loopText, loopText] at h
  split at h
  · split at h
    · exact LoopControl.fmt_inj _ _ (Option.some.inj h)
    · cases h
  · rename_i ha
    split at h
    · cases h
    · rename_i hb
      exact (Classical.not_not.mp ha).symm.trans (Classical.not_not.mp hb)

theorem weights_ok (w : Option BranchWeights) : ∀ t ∈ w.map Display.fmt, Bracketed true t := by
  intro t ht
  cases w with
  | none => cases ht
  | some w =>
    cases ht
    refine ⟨?_, ?_⟩
    · intro hm
      have hm : ']' ∈ fmtNat w.true_weight.toNat ++ " ".toList ++ fmtNat w.false_weight.toNat := hm
      rcases List.mem_append.mp hm with hm | hm
      · rcases List.mem_append.mp hm with hm | hm
        · exact digit_ne (fmtNat_digit hm) (d := ']') (by decide) rfl
        · exact absurd hm (by decide)
      · exact digit_ne (fmtNat_digit hm) (d := ']') (by decide) rfl
    · obtain ⟨c, cs, h, -⟩ := fmtNat_head w.true_weight.toNat
      refine ⟨c, cs ++ (" ".toList ++ fmtNat w.false_weight.toNat), ?_, fmtNat_digit (n := w.true_weight.toNat)
        (by rw [h]; exact List.mem_cons_self)⟩
      show fmtNat w.true_weight.toNat ++ " ".toList ++ fmtNat w.false_weight.toNat = _
      rw [h, List.append_assoc]
      rfl

theorem weights_inj {a b : Option BranchWeights} (h : a.map Display.fmt = b.map Display.fmt) : a = b := by
  cases a with
  | none => cases b with
    | none => rfl
    | some b => cases h
  | some a => cases b with
    | none => cases h
    | some b =>
      have h : (DisplayArg.displayArg a : Text) ++ [] = DisplayArg.displayArg b ++ [] :=
        congrArg (· ++ []) (Option.some.inj h)
      rw [(Token.inj follows_nil follows_nil h).1]

theorem blockId_inj {a b : BlockId} {s t : Text} (hs : Follows s) (ht : Follows t)
    (h : (Display.fmt a : Text) ++ s = Display.fmt b ++ t) : a = b ∧ s = t := by
  obtain ⟨h1, h2⟩ := Token.inj (a := OpId.mk a.val) (b := OpId.mk b.val) hs ht h
  cases a
  cases b
  cases h1
  exact ⟨rfl, h2⟩

/-- The text of the first line of a selection, after the indent -/
def selectionHead (id : BlockId) (h : SelectionControl) (w : Option BranchWeights) : Text :=
  "selection ".toList ++ (Display.fmt id ++ (fmtSelectionHint h ++ (fmtWeights w ++ " {".toList)))

/-- The text of the first line of a loop, after the indent -/
def loopHead (id : BlockId) (h : LoopControl) (w : Option BranchWeights) : Text :=
  "loop ".toList ++ (Display.fmt id ++ (fmtLoopHint h ++ (fmtWeights w ++ " {".toList)))

theorem selectionHead_inj {id id' : BlockId} {h h' : SelectionControl} {w w' : Option BranchWeights}
    (e : selectionHead id h w = selectionHead id' h' w') : id = id' ∧ h = h' ∧ w = w' := by
  unfold selectionHead at e
  rw [selectionHint_eq, selectionHint_eq, weights_eq, weights_eq] at e
  have e1 := blockId_inj (brackets_follow _ _) (brackets_follow _ _) (List.append_cancel_left e)
  have e2 := brackets_inj (selectionText_ok h) (selectionText_ok h') (weights_ok w) (weights_ok w') e1.2
  exact ⟨e1.1, selectionText_inj e2.1, weights_inj e2.2⟩

theorem loopHead_inj {id id' : BlockId} {h h' : LoopControl} {w w' : Option BranchWeights}
    (e : loopHead id h w = loopHead id' h' w') : id = id' ∧ h = h' ∧ w = w' := by
  simp only [loopHead, loopHint_eq, weights_eq] at e
  have e := List.append_cancel_left e
  obtain ⟨h1, h2⟩ := blockId_inj (brackets_follow _ _) (brackets_follow _ _) e
  obtain ⟨h3, h4⟩ := brackets_inj (loopText_ok _) (loopText_ok _) (weights_ok _) (weights_ok _) h2
  exact ⟨h1, loopText_inj h3, weights_inj h4⟩

/-! ### The lines of a program -/

namespace Spec.Program

/-- Is there nothing to do? -/
def isDone : Program → Bool
  | done => true
  | _ => false

/-- The lines of a program -/
def lines : Program → Nat → List Text
  | done, _ => []
  | ret id, k => [writeIndent k ++ Display.fmt id]
  | atom id rest, k => (writeIndent k ++ Display.fmt id) :: lines rest k
  | sel id left right hint weights rest, k => (writeIndent k ++ selectionHead id hint weights) ::
      (lines left (k + 1) ++ ((if right.isDone then [] else (writeIndent k ++ "} else {".toList) :: lines right (k + 1)) ++
        (writeIndent k ++ "}".toList) :: lines rest k))
  | loop id body hint rest, k => (writeIndent k ++ loopHead id hint none) ::
      (lines body (k + 1) ++ (writeIndent k ++ "}".toList) :: lines rest k)
  | exit id brk weights rest, k => (writeIndent k ++ selectionHead id ⟨false, false⟩ weights) ::
      (lines rest (k + 1) ++ [writeIndent k ++ "} else {".toList,
        writeIndent (k + 1) ++ (if brk then "break;".toList else "continue;".toList), writeIndent k ++ "}".toList])

/-- How a program ends: by returning if it is the whole function, and never if it is a part of it -/
def Ends : Bool → Program → Prop
  | top, done => top = false
  | top, ret _ => top = true
  | top, atom _ rest => Ends top rest
  | top, sel _ left right _ _ rest => Ends false left ∧ Ends false right ∧ Ends top rest
  | top, loop _ body _ rest => Ends false body ∧ Ends top rest
  | top, exit _ _ _ rest => top = false ∧ Ends false rest

theorem isEmptyBlock_toChain (s : Program) : s.toChain.isEmptyBlock = s.isDone := by
  cases s <;> rfl

theorem lines_toChain (s : Program) : ∀ k,
    chainLines s.toChain k = s.lines k ∧ chainLinesAll s.toChains k = s.lines k := by
  induction s with
  | done => exact fun k => ⟨rfl, rfl⟩
  | ret id => exact fun k => ⟨rfl, rfl⟩
  | atom id rest ih =>
    intro k
    have e : chainLinesAll (atom id rest).toChains k = (atom id rest).lines k := by
      rw [toChains, chainLinesAll, (ih k).2]
      rfl
    exact ⟨e, e⟩
  | sel id left right hint weights rest ihl ihr ih =>
    intro k
    have e : chainLinesAll (sel id left right hint weights rest).toChains k =
        (sel id left right hint weights rest).lines k := by
      rw [toChains, chainLinesAll, (ih k).2, chainLines, (ihl _).1, (ihr _).1, isEmptyBlock_toChain, lines]
      simp only [List.append_assoc, List.cons_append]
      rfl
    exact ⟨e, e⟩
  | loop id body hint rest ihb ih =>
    intro k
    have e : chainLinesAll (loop id body hint rest).toChains k = (loop id body hint rest).lines k := by
      rw [toChains, chainLinesAll, (ih k).2, chainLines, (ihb _).1, lines]
      simp only [List.append_assoc, List.cons_append]
      rfl
    exact ⟨e, e⟩
  | exit id brk weights rest ih =>
    intro k
    have e : chainLines (exit id brk weights rest).toChain k = (exit id brk weights rest).lines k := by
      rw [toChain, chainLines, (ih _).1, lines]
      cases brk <;> rfl
    refine ⟨e, ?_⟩
    have e2 : (exit id brk weights rest).toChains = [(exit id brk weights rest).toChain] := rfl
    rw [e2, chainLinesAll, e]
    exact List.append_nil _

theorem ends_of_spelled {X : Type} {blocks : List (BasicBlock X)} (s : Program) :
    ∀ {lp k}, s.SpelledBy blocks lp k → s.Ends k.isNone := by
  induction s with
  | done => intro lp k h; cases k with
    | none => exact absurd rfl h
    | some k => rfl
  | ret id => intro lp k h; rw [h.1]; rfl
  | atom id rest ih => intro lp k h; exact ih h.2
  | sel id left right hint weights rest ihl ihr ih =>
    rintro lp k ⟨b, op, sm, -, -, -, -, -, -, -, -, h1, h2, h3⟩
    exact ⟨ihl h1, ihr h2, ih h3⟩
  | loop id body hint rest ihb ih =>
    rintro lp k ⟨b, op, lm, -, -, -, -, -, -, h1, h2⟩
    exact ⟨ihb h1, ih h2⟩
  | exit id brk weights rest ih =>
    rintro lp k ⟨head, merge, b, op, -, rfl, -, -, -, -, -, -, h⟩
    exact ⟨rfl, ih h⟩

/-- The next line closes a block that is not as deep as `k` -/
def Closed (k : Nat) (r : List Text) : Prop :=
  r = [] ∨ ∃ j t ls, j < k ∧ r = (writeIndent j ++ '}' :: t) :: ls

theorem closed_line {k : Nat} (t : Text) (ls : List Text) : Closed (k + 1) ((writeIndent k ++ '}' :: t) :: ls) :=
  .inr ⟨k, t, ls, Nat.lt_succ_self k, rfl⟩

theorem indent_inj {k : Nat} {s t : Text} (h : writeIndent k ++ s = writeIndent k ++ t) : s = t :=
  List.append_cancel_left h

/-- A line of depth `k` that does not start with a space is not one that closes a block -/
theorem not_closed {k : Nat} {c : Char} {cs : Text} {ls r : List Text} (hc : c ≠ ' ') (hr : Closed k r)
    (h : r = (writeIndent k ++ c :: cs) :: ls) : False := by
  rcases hr with rfl | ⟨j, t, ls', hj, rfl⟩
  · cases h
  · have h1 := (leading (n := 4 * j) (c := '}') (cs := t) (by decide)).1
    have h2 := (leading (n := 4 * k) (c := c) (cs := cs) hc).1
    rw [← writeIndent_eq] at h1 h2
    rw [(List.cons.inj h).1, h2] at h1
    omega

/-- The first character of the first line, which tells the items apart -/
def initial : Program → Char
  | done => '}'
  | ret _ | atom _ _ => '%'
  | sel _ _ _ _ _ _ | exit _ _ _ _ => 's'
  | loop _ _ _ _ => 'l'

theorem lines_start (s : Program) (k : Nat) (hs : s.isDone = false) :
    ∃ cs ls, s.lines k = (writeIndent k ++ s.initial :: cs) :: ls := by
  cases s with
  | done => cases hs
  | ret id => exact ⟨_, _, rfl⟩
  | atom id rest => exact ⟨_, _, rfl⟩
  | sel id left right hint weights rest => exact ⟨_, _, rfl⟩
  | loop id body hint rest => exact ⟨_, _, rfl⟩
  | exit id brk weights rest => exact ⟨_, _, rfl⟩

theorem initial_space (s : Program) : s.initial ≠ ' ' := by
  cases s <;> simp [initial]

theorem initial_eq {s s' : Program} {k : Nat} {r r' : List Text} (hr : Closed k r) (hr' : Closed k r')
    (h : s.lines k ++ r = s'.lines k ++ r') : s.initial = s'.initial := by
  cases hs : s.isDone with
  | true =>
    cases s with
    | done =>
      cases hs' : s'.isDone with
      | true => cases s' with
        | done => rfl
        | _ => cases hs'
      | false =>
        obtain ⟨cs, ls, e⟩ := lines_start s' k hs'
        rw [e] at h
        exact (not_closed (initial_space s') hr h).elim
    | _ => cases hs
  | false =>
    obtain ⟨cs, ls, e⟩ := lines_start s k hs
    cases hs' : s'.isDone with
    | true =>
      cases s' with
      | done =>
        rw [e] at h
        exact (not_closed (initial_space s) hr' h.symm).elim
      | _ => cases hs'
    | false =>
      obtain ⟨cs', ls', e'⟩ := lines_start s' k hs'
      rw [e, e'] at h
      exact (List.cons.inj (indent_inj (List.cons.inj h).1)).1

theorem line_inj {a b : Text} {as bs r r' : List Text} (h : (a :: as) ++ r = (b :: bs) ++ r') :
    a = b ∧ as ++ r = bs ++ r' := List.cons.inj h

/-- A program that returns does not end before it returns -/
theorem not_ended {top : Bool} {rest : Program} {k : Nat} {r r' : List Text} (ht : top = true) (hs : rest.Ends top)
    (hr : Closed k r) (hr' : Closed k r') (h : [] ++ r = rest.lines k ++ r') : False := by
  have hi := initial_eq (s := done) hr hr' h
  cases rest with
  | done =>
    rw [ht] at hs
    cases hs
  | _ => exact absurd hi (by simp [initial])

theorem closed_sel (right rest : Program) (k : Nat) (r : List Text) :
    Closed (k + 1) (((if right.isDone then [] else (writeIndent k ++ "} else {".toList) :: lines right (k + 1)) ++
      (writeIndent k ++ "}".toList) :: lines rest k) ++ r) := by
  split
  · exact closed_line _ _
  · exact closed_line _ _

/-- After the lines of the left branch: a selection and a selection -/
theorem sel_right {k : Nat} {right right' rest rest' : Program} {r r' : List Text}
    (ihr : ∀ {s' : Program} {k : Nat} {top : Bool} {r r' : List Text}, right.Ends top → s'.Ends top → Closed k r →
      Closed k r' → right.lines k ++ r = s'.lines k ++ r' → right = s' ∧ r = r')
    (hr : right.Ends false) (hr' : right'.Ends false)
    (h : ((if right.isDone then [] else (writeIndent k ++ "} else {".toList) :: lines right (k + 1)) ++
      (writeIndent k ++ "}".toList) :: lines rest k) ++ r =
      ((if right'.isDone then [] else (writeIndent k ++ "} else {".toList) :: lines right' (k + 1)) ++
      (writeIndent k ++ "}".toList) :: lines rest' k) ++ r') :
    right = right' ∧ lines rest k ++ r = lines rest' k ++ r' := by
  have done_of {s : Program} (h : s.isDone = true) : s = done := by
    cases s with
    | done => rfl
    | _ => cases h
  have no {a b : List Text} (h : (writeIndent k ++ "}".toList) :: a = (writeIndent k ++ "} else {".toList) :: b) :
      False := by
    have h := indent_inj (List.cons.inj h).1
    exact absurd h (by decide)
  cases h1 : right.isDone with
  | true =>
    rw [h1] at h
    cases h2 : right'.isDone with
    | true =>
      rw [h2] at h
      exact ⟨(done_of h1).trans (done_of h2).symm, (List.cons.inj h).2⟩
    | false =>
      rw [h2] at h
      exact (no h).elim
  | false =>
    rw [h1] at h
    cases h2 : right'.isDone with
    | true =>
      rw [h2] at h
      exact (no h.symm).elim
    | false =>
      rw [h2] at h
      have h := (line_inj (as := lines right (k + 1) ++ _) (bs := lines right' (k + 1) ++ _) h).2
      rw [List.append_assoc, List.append_assoc] at h
      obtain ⟨h3, h4⟩ := ihr hr hr' (closed_line _ _) (closed_line _ _) h
      exact ⟨h3, (List.cons.inj h4).2⟩

/-- The word in an exit is not the start of a program -/
theorem exit_right {k : Nat} {brk : Bool} {right rest : Program} {ls r : List Text}
    (h : (writeIndent k ++ "} else {".toList) ::
      (writeIndent (k + 1) ++ (if brk then "break;".toList else "continue;".toList)) :: ls =
      ((if right.isDone then [] else (writeIndent k ++ "} else {".toList) :: lines right (k + 1)) ++
      (writeIndent k ++ "}".toList) :: lines rest k) ++ r) : False := by
  cases h1 : right.isDone with
  | true =>
    rw [h1] at h
    have h := indent_inj (List.cons.inj h).1
    exact absurd h (by decide)
  | false =>
    rw [h1] at h
    have h := (List.cons.inj h).2
    obtain ⟨cs, ls', e⟩ := lines_start right (k + 1) h1
    rw [e] at h
    have h := indent_inj (List.cons.inj h).1
    have hi : (if brk then "break;".toList else "continue;".toList).head? = some right.initial := by rw [h]; rfl
    cases brk <;> cases right <;> simp [initial] at hi

theorem lines_inj (s : Program) : ∀ {s' : Program} {k : Nat} {top : Bool} {r r' : List Text}, s.Ends top →
    s'.Ends top → Closed k r → Closed k r' → s.lines k ++ r = s'.lines k ++ r' → s = s' ∧ r = r' := by
  induction s with
  | done =>
    intro s' k top r r' hs hs' hr hr' h
    have hi := initial_eq hr hr' h
    cases s' with
    | done => exact ⟨rfl, h⟩
    | _ => exact absurd hi (by simp [initial])
  | ret id =>
    intro s' k top r r' hs hs' hr hr' h
    have hi := initial_eq hr hr' h
    cases s' with
    | ret id' =>
      obtain ⟨h1, h2⟩ := line_inj h
      have h1 := blockId_inj (s := []) (t := []) follows_nil follows_nil (congrArg (· ++ []) (indent_inj h1))
      exact ⟨by rw [h1.1], h2⟩
    | atom id' rest' =>
      obtain ⟨h1, h2⟩ := line_inj h
      exact (not_ended (rest := rest') hs hs' hr hr' h2).elim
    | _ => exact absurd hi (by simp [initial])
  | atom id rest ih =>
    intro s' k top r r' hs hs' hr hr' h
    have hi := initial_eq hr hr' h
    cases s' with
    | ret id' =>
      obtain ⟨h1, h2⟩ := line_inj h
      exact (not_ended (rest := rest) hs' hs hr' hr h2.symm).elim
    | atom id' rest' =>
      obtain ⟨h1, h2⟩ := line_inj h
      have h1 := blockId_inj (s := []) (t := []) follows_nil follows_nil (congrArg (· ++ []) (indent_inj h1))
      obtain ⟨h3, h4⟩ := ih (s' := rest') hs hs' hr hr' h2
      exact ⟨by rw [h1.1, h3], h4⟩
    | _ => exact absurd hi (by simp [initial])
  | sel id left right hint weights rest ihl ihr ih =>
    intro s' k top r r' hs hs' hr hr' h
    have hi := initial_eq hr hr' h
    cases s' with
    | sel id' left' right' hint' weights' rest' =>
      rw [lines, lines] at h
      obtain ⟨h1, h2⟩ := line_inj h
      obtain ⟨e1, e2, e3⟩ := selectionHead_inj (indent_inj h1)
      rw [List.append_assoc (lines left _), List.append_assoc (lines left' _)] at h2
      obtain ⟨e4, h3⟩ := ihl hs.1 hs'.1 (closed_sel _ _ _ _) (closed_sel _ _ _ _) h2
      obtain ⟨e5, h4⟩ := sel_right ihr hs.2.1 hs'.2.1 h3
      obtain ⟨e6, h5⟩ := ih hs.2.2 hs'.2.2 hr hr' h4
      exact ⟨by rw [e1, e2, e3, e4, e5, e6], h5⟩
    | exit id' brk' weights' rest' =>
      rw [lines, lines] at h
      have h2 := (line_inj h).2
      rw [List.append_assoc (lines left _), List.append_assoc (lines rest' _)] at h2
      obtain ⟨e4, h3⟩ := ihl hs.1 hs'.2 (closed_sel _ _ _ _) (closed_line _ _) h2
      exact (exit_right h3.symm).elim
    | _ => exact absurd hi (by simp [initial])
  | loop id body hint rest ihb ih =>
    intro s' k top r r' hs hs' hr hr' h
    have hi := initial_eq hr hr' h
    cases s' with
    | loop id' body' hint' rest' =>
      rw [lines, lines] at h
      obtain ⟨h1, h2⟩ := line_inj h
      obtain ⟨e1, e2, -⟩ := loopHead_inj (indent_inj h1)
      rw [List.append_assoc, List.append_assoc] at h2
      obtain ⟨e4, h3⟩ := ihb hs.1 hs'.1 (closed_line _ _) (closed_line _ _) h2
      obtain ⟨e6, h5⟩ := ih hs.2 hs'.2 hr hr' (line_inj h3).2
      exact ⟨by rw [e1, e2, e4, e6], h5⟩
    | _ => exact absurd hi (by simp [initial])
  | exit id brk weights rest ih =>
    intro s' k top r r' hs hs' hr hr' h
    have hi := initial_eq hr hr' h
    cases s' with
    | sel id' left' right' hint' weights' rest' =>
      rw [lines, lines] at h
      have h2 := (line_inj h).2
      rw [List.append_assoc (lines rest _), List.append_assoc (lines left' _)] at h2
      obtain ⟨e4, h3⟩ := ih hs.2 hs'.1 (closed_line _ _) (closed_sel _ _ _ _) h2
      exact (exit_right h3).elim
    | exit id' brk' weights' rest' =>
      rw [lines, lines] at h
      obtain ⟨h1, h2⟩ := line_inj h
      obtain ⟨e1, -, e3⟩ := selectionHead_inj (indent_inj h1)
      rw [List.append_assoc, List.append_assoc] at h2
      obtain ⟨e4, h3⟩ := ih hs.2 hs'.2 (closed_line _ _) (closed_line _ _) h2
      have h4 := (List.cons.inj h3).2
      have e5 : brk = brk' := by
        have := indent_inj (List.cons.inj h4).1
        revert this
        cases brk <;> cases brk' <;> decide
      exact ⟨by rw [e1, e3, e4, e5], (List.cons.inj (List.cons.inj h4).2).2⟩
    | _ => exact absurd hi (by simp [initial])

end Spec.Program
end Magma
