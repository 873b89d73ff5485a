import Verif.Proofs.Disassembly
import Verif.Proofs.Flow
import Verif.Spec.Printing
import Verif.Model.Printer
/-! Printed control flow. -/

namespace Magma
open Spec

theorem unlines_cons (l : Text) (ls : List Text) : unlines (l :: ls) = l ++ '\n' :: unlines ls := by
  show (l ++ ['\n']) ++ unlines ls = _
  rw [List.append_assoc]; rfl

/-! ### Braces -/

theorem depthAfter_append (d : Nat) (s t : Text) :
    depthAfter d (s ++ t) = (depthAfter d s).bind (fun d => depthAfter d t) := by
  induction s generalizing d with
  | nil => rfl
  | cons c cs ih =>
    rw [List.cons_append, depthAfter, depthAfter]
    split
    · exact ih _
    · split
      · split
        · rfl
        · exact ih _
      · exact ih _

theorem depthAfter_plain {s : Text} (hs : ∀ c ∈ s, Plain c) (d : Nat) : depthAfter d s = some d := by
  induction s with
  | nil => rfl
  | cons c cs ih =>
    have := hs c List.mem_cons_self
    rw [depthAfter, if_neg this.2.1, if_neg this.2.2]
    exact ih (fun x hx => hs x (List.mem_cons_of_mem _ hx))

theorem depthAfter_count {d d' : Nat} {t : Text} (h : depthAfter d t = some d') :
    d + t.count '{' = d' + t.count '}' := by
  induction t generalizing d with
  | nil => cases h; rfl
  | cons c cs ih =>
    rw [depthAfter] at h
    by_cases h1 : c = '{'
    · rw [if_pos h1] at h
      have := ih h
      subst h1
      rw [List.count_cons_self, List.count_cons_of_ne (by decide)]
      omega
    · rw [if_neg h1] at h
      by_cases h2 : c = '}'
      · rw [if_pos h2] at h
        by_cases h3 : d = 0
        · rw [if_pos h3] at h
          cases h
        · rw [if_neg h3] at h
          have := ih h
          subst h2
          rw [List.count_cons_self, List.count_cons_of_ne (by decide)]
          omega
      · rw [if_neg h2] at h
        have := ih h
        rw [List.count_cons_of_ne (by simpa using h1), List.count_cons_of_ne (by simpa using h2)]
        exact this

theorem depthAfter_prefix {d d' : Nat} {s t : Text} (h : depthAfter d (s ++ t) = some d') :
    ∃ e, depthAfter d s = some e := by
  rw [depthAfter_append] at h
  cases hs : depthAfter d s with
  | none => rw [hs] at h; cases h
  | some e => exact ⟨e, rfl⟩

theorem wellIndented_depth {d d' : Nat} {ls : List Text} (h : wellIndented d ls = some d') :
    depthAfter d (unlines ls) = some d' := by
  induction ls generalizing d with
  | nil => exact h
  | cons l ls ih =>
    rw [wellIndented] at h
    by_cases hl : leadingSpaces l = 4 * (if startsWithClose l then d - 1 else d)
    · rw [if_pos hl] at h
      cases hd : depthAfter d l with
      | none => rw [hd] at h; cases h
      | some e =>
        rw [hd] at h
        rw [unlines_cons, depthAfter_append, hd]
        show depthAfter e ('\n' :: unlines ls) = some d'
        rw [depthAfter, if_neg (by decide), if_neg (by decide)]
        exact ih h
    · rw [if_neg hl] at h
      cases h

/-! ### Lines -/

theorem writeIndent_eq (k : Nat) : writeIndent k = List.replicate (4 * k) ' ' := by
  induction k with
  | zero => rfl
  | succ k ih =>
    have : writeIndent (k + 1) = "    ".toList ++ writeIndent k := rfl
    rw [this, ih, show 4 * (k + 1) = 4 + 4 * k by omega, ← List.replicate_append_replicate]
    rfl

theorem writeIndent_plain (k : Nat) : ∀ c ∈ writeIndent k, Plain c := by
  rw [writeIndent_eq]
  intro c h
  rw [List.eq_of_mem_replicate h]
  decide

theorem leading {n : Nat} {c : Char} {cs : Text} (hc : c ≠ ' ') :
    leadingSpaces (List.replicate n ' ' ++ c :: cs) = n ∧
    startsWithClose (List.replicate n ' ' ++ c :: cs) = (c == '}') := by
  have hc' : (c == ' ') = false := by simpa using hc
  induction n with
  | zero => simp [leadingSpaces, startsWithClose, hc']
  | succ n ih =>
    rw [List.replicate_succ, List.cons_append]
    constructor
    · have := ih.1
      simp only [leadingSpaces] at this ⊢
      rw [List.takeWhile_cons_of_pos (by rfl), List.length_cons, this]
    · have := ih.2
      simp only [startsWithClose] at this ⊢
      rw [List.dropWhile_cons_of_pos (by rfl), this]

/-- A line of the printer at the current depth that does not start with a closing brace -/
theorem wellIndented_line {k k' : Nat} {c : Char} {cs : Text} {ls : List Text} (hc : c ≠ ' ') (hc' : c ≠ '}')
    (hd : depthAfter k (c :: cs) = some k') :
    wellIndented k ((writeIndent k ++ c :: cs) :: ls) = wellIndented k' ls := by
  have h := leading (n := 4 * k) (cs := cs) hc
  have hb : (c == '}') = false := by simpa using hc'
  rw [← writeIndent_eq, hb] at h
  rw [wellIndented, h.1, h.2, if_pos (by simp), depthAfter_append, depthAfter_plain (writeIndent_plain k)]
  show (match depthAfter k (c :: cs) with | some d' => wellIndented d' ls | none => none) = _
  rw [hd]

/-- A line that closes a brace -/
theorem wellIndented_close {k k' : Nat} {cs : Text} {ls : List Text} (hd : depthAfter k cs = some k') :
    wellIndented (k + 1) ((writeIndent k ++ '}' :: cs) :: ls) = wellIndented k' ls := by
  have h := leading (n := 4 * k) (cs := cs) (c := '}') (by decide)
  rw [← writeIndent_eq] at h
  rw [wellIndented, h.1, h.2, if_pos (by simp), depthAfter_append, depthAfter_plain (writeIndent_plain k)]
  show (match depthAfter (k + 1) ('}' :: cs) with | some d' => wellIndented d' ls | none => none) = _
  rw [depthAfter, if_neg (by decide), if_pos rfl, if_neg (by omega), Nat.add_sub_cancel, hd]

/-! ### Chains -/

theorem hint_plain (t : Text) (ht : ∀ c ∈ t, Plain c) : ∀ c ∈ " [".toList ++ t ++ "]".toList, Plain c :=
  plain_append (plain_append (by decide) ht) (by decide)

theorem selectionHint_plain (h : SelectionControl) : ∀ c ∈ fmtSelectionHint h, Plain c := by
  rw [fmtSelectionHint]
  split
  · exact hint_plain _ (display_plain h)
  · intro c h; cases h

theorem loopHint_plain (h : LoopControl) : ∀ c ∈ fmtLoopHint h, Plain c := by
  rw [fmtLoopHint]
  split
  · exact hint_plain _ (LoopControl.fmt_plain h)
  · intro c h; cases h

theorem weights_plain (w : Option BranchWeights) : ∀ c ∈ fmtWeights w, Plain c := by
  cases w with
  | none => intro c h; cases h
  | some w => exact hint_plain _ (display_plain w)

theorem blockId_plain (id : BlockId) : ∀ c ∈ Display.fmt id, Plain c := display_plain (OpId.mk id.val)

mutual
/-- The lines of a printed chain -/
def chainLines : ControlFlowChain → Nat → List Text
  | .Atom id, k => [writeIndent k ++ Display.fmt id]
  | .Block block, k => chainLinesAll block k
  | .Selection id left right hint weights, k =>
    [writeIndent k ++ ("selection ".toList ++ (Display.fmt id ++ (fmtSelectionHint hint ++ (fmtWeights weights ++
      " {".toList))))] ++
    (chainLines left (k + 1) ++
    ((if right.isEmptyBlock then [] else (writeIndent k ++ "} else {".toList) :: chainLines right (k + 1)) ++
    [writeIndent k ++ "}".toList]))
  | .Loop id inner hint weights, k =>
    [writeIndent k ++ ("loop ".toList ++ (Display.fmt id ++ (fmtLoopHint hint ++ (fmtWeights weights ++
      " {".toList))))] ++ (chainLines inner (k + 1) ++ [writeIndent k ++ "}".toList])
  | .Break, k => [writeIndent k ++ "break;".toList]
  | .Continue, k => [writeIndent k ++ "continue;".toList]
/-- The lines of printed chains -/
def chainLinesAll : List ControlFlowChain → Nat → List Text
  | [], _ => []
  | cfc :: block, k => chainLines cfc k ++ chainLinesAll block k
end

theorem unlines_one (l : Text) : unlines [l] = l ++ ['\n'] := by
  rw [unlines_cons]; rfl

mutual
theorem fmtIndent_eq : ∀ (c : ControlFlowChain) (k : Nat), c.fmtIndent k = unlines (chainLines c k)
  | .Atom id, k => by
    rw [ControlFlowChain.fmtIndent, chainLines, unlines_one]
    rfl
  | .Block block, k => by
    rw [ControlFlowChain.fmtIndent, chainLines]
    exact fmtIndentAll_eq block k
  | .Selection id left right hint weights, k => by
    have hl := fmtIndent_eq left (k + 1)
    have hr := fmtIndent_eq right (k + 1)
    have e (a b c d e : Text) : a ++ b ++ c ++ d ++ e ++ " {\n".toList =
        (a ++ (b ++ (c ++ (d ++ (e ++ " {".toList))))) ++ ['\n'] := by
      rw [show " {\n".toList = " {".toList ++ ['\n'] by decide]
      simp only [List.append_assoc]
    rw [ControlFlowChain.fmtIndent, chainLines, unlines_append, unlines_append, unlines_append, unlines_one,
      unlines_one, hl, e]
    by_cases h : right.isEmptyBlock = true
    · rw [if_pos h, if_pos h]
      simp only [List.append_assoc]
      rfl
    · rw [if_neg h, if_neg h, hr, unlines_cons]
      simp only [List.append_assoc]
      rfl
  | .Loop id inner hint weights, k => by
    have hl := fmtIndent_eq inner (k + 1)
    have e (a b c d e : Text) : a ++ b ++ c ++ d ++ e ++ " {\n".toList =
        (a ++ (b ++ (c ++ (d ++ (e ++ " {".toList))))) ++ ['\n'] := by
      rw [show " {\n".toList = " {".toList ++ ['\n'] by decide]
      simp only [List.append_assoc]
    rw [ControlFlowChain.fmtIndent, chainLines, unlines_append, unlines_append, unlines_one,
      unlines_one, hl, e]
    simp only [List.append_assoc]
    rfl
  | .Break, k => by
    rw [ControlFlowChain.fmtIndent, chainLines, unlines_one, List.append_assoc]
    rfl
  | .Continue, k => by
    rw [ControlFlowChain.fmtIndent, chainLines, unlines_one, List.append_assoc]
    rfl
theorem fmtIndentAll_eq : ∀ (cs : List ControlFlowChain) (k : Nat),
    ControlFlowChain.fmtIndentAll cs k = unlines (chainLinesAll cs k)
  | [], k => rfl
  | c :: cs, k => by
    rw [ControlFlowChain.fmtIndentAll, chainLinesAll, unlines_append, fmtIndent_eq c k, fmtIndentAll_eq cs k]
end

theorem depthAfter_open {t : Text} (ht : ∀ c ∈ t, Plain c) (k : Nat) :
    depthAfter k (t ++ " {".toList) = some (k + 1) := by
  rw [depthAfter_append, depthAfter_plain ht]
  rfl

/-- A line in front of a block in braces -/
theorem head_line (k : Nat) (c : Char) (cs i h w : Text) (hc : c ≠ ' ') (hs : ∀ x ∈ c :: cs, Plain x)
    (hi : ∀ c ∈ i, Plain c) (hh : ∀ c ∈ h, Plain c) (hw : ∀ c ∈ w, Plain c) (ls : List Text) :
    wellIndented k ((writeIndent k ++ (c :: cs ++ (i ++ (h ++ (w ++ " {".toList))))) :: ls) =
      wellIndented (k + 1) ls := by
  refine wellIndented_line hc (hs c List.mem_cons_self).2.2 ?_
  have := depthAfter_open (plain_append (plain_append (plain_append hs hi) hh) hw) k
  simp only [List.append_assoc, List.cons_append] at this
  exact this

mutual
theorem chain_indented : ∀ (c : ControlFlowChain) (k : Nat) (ls : List Text),
    wellIndented k (chainLines c k ++ ls) = wellIndented k ls
  | .Atom id, k, ls => by
    rw [chainLines]
    exact wellIndented_line (c := '%') (by decide) (by decide) (depthAfter_plain (blockId_plain id) k)
  | .Block block, k, ls => by
    rw [chainLines]
    exact chain_indentedAll block k ls
  | .Selection id left right hint weights, k, ls => by
    rw [chainLines, List.append_assoc, List.append_assoc, List.append_assoc]
    have hl := fun ls => chain_indented left (k + 1) ls
    have hr := fun ls => chain_indented right (k + 1) ls
    refine (head_line k 's' "election ".toList (Display.fmt id) _ _ (by decide) (by decide) (blockId_plain id)
      (selectionHint_plain hint) (weights_plain weights) _).trans ?_
    refine (hl _).trans ?_
    by_cases h : right.isEmptyBlock = true
    · rw [if_pos h]
      exact wellIndented_close rfl
    · rw [if_neg h]
      refine (wellIndented_close (cs := " else {".toList) (k' := k + 1)
        (depthAfter_open (t := " else".toList) (by decide) k)).trans ?_
      refine (hr _).trans ?_
      exact wellIndented_close rfl
  | .Loop id inner hint weights, k, ls => by
    rw [chainLines, List.append_assoc, List.append_assoc]
    have hl := fun ls => chain_indented inner (k + 1) ls
    refine (head_line k 'l' "oop ".toList (Display.fmt id) _ _ (by decide) (by decide) (blockId_plain id)
      (loopHint_plain hint) (weights_plain weights) _).trans ?_
    refine (hl _).trans ?_
    exact wellIndented_close rfl
  | .Break, k, ls => by
    rw [chainLines]
    exact wellIndented_line (c := 'b') (by decide) (by decide)
      (depthAfter_plain (s := "break;".toList) (by decide) k)
  | .Continue, k, ls => by
    rw [chainLines]
    exact wellIndented_line (c := 'c') (by decide) (by decide)
      (depthAfter_plain (s := "continue;".toList) (by decide) k)
theorem chain_indentedAll : ∀ (cs : List ControlFlowChain) (k : Nat) (ls : List Text),
    wellIndented k (chainLinesAll cs k ++ ls) = wellIndented k ls
  | [], k, ls => rfl
  | c :: cs, k, ls => by
    rw [chainLinesAll, List.append_assoc, chain_indented c k, chain_indentedAll cs k]
end

theorem line_writeIndent {t : Text} (k : Nat) (ht : '\n' ∉ t) : '\n' ∉ writeIndent k ++ t :=
  line_append (line_of_plain (writeIndent_plain k)) ht

mutual
theorem chainLines_line : ∀ (c : ControlFlowChain) (k : Nat), ∀ l ∈ chainLines c k, '\n' ∉ l
  | .Atom id, k => by
    rw [chainLines]
    intro l hl
    rw [List.mem_singleton.mp hl]
    exact line_writeIndent k (line_of_plain (blockId_plain id))
  | .Block block, k => by
    rw [chainLines]
    exact chainLinesAll_line block k
  | .Selection id left right hint weights, k => by
    have hl := chainLines_line left (k + 1)
    have hr := chainLines_line right (k + 1)
    rw [chainLines]
    intro l h
    rcases List.mem_append.mp h with h | h
    · rw [List.mem_singleton.mp h]
      exact line_writeIndent k (line_append (by decide) (line_append (line_of_plain (blockId_plain id))
        (line_append (line_of_plain (selectionHint_plain hint))
          (line_append (line_of_plain (weights_plain weights)) (by decide)))))
    · rcases List.mem_append.mp h with h | h
      · exact hl l h
      · rcases List.mem_append.mp h with h | h
        · by_cases he : right.isEmptyBlock = true
          · rw [if_pos he] at h
            cases h
          · rw [if_neg he] at h
            rcases List.mem_cons.mp h with rfl | h
            · exact line_writeIndent k (by decide)
            · exact hr l h
        · rw [List.mem_singleton.mp h]
          exact line_writeIndent k (by decide)
  | .Loop id inner hint weights, k => by
    have hl := chainLines_line inner (k + 1)
    rw [chainLines]
    intro l h
    rcases List.mem_append.mp h with h | h
    · rw [List.mem_singleton.mp h]
      exact line_writeIndent k (line_append (by decide) (line_append (line_of_plain (blockId_plain id))
        (line_append (line_of_plain (loopHint_plain hint))
          (line_append (line_of_plain (weights_plain weights)) (by decide)))))
    · rcases List.mem_append.mp h with h | h
      · exact hl l h
      · rw [List.mem_singleton.mp h]
        exact line_writeIndent k (by decide)
  | .Break, k => by
    rw [chainLines]
    intro l hl
    rw [List.mem_singleton.mp hl]
    exact line_writeIndent k (by decide)
  | .Continue, k => by
    rw [chainLines]
    intro l hl
    rw [List.mem_singleton.mp hl]
    exact line_writeIndent k (by decide)
theorem chainLinesAll_line : ∀ (cs : List ControlFlowChain) (k : Nat), ∀ l ∈ chainLinesAll cs k, '\n' ∉ l
  | [], k => by intro l h; cases h
  | c :: cs, k => by
    rw [chainLinesAll]
    intro l h
    rcases List.mem_append.mp h with h | h
    · exact chainLines_line c k l h
    · exact chainLinesAll_line cs k l h
end

theorem lines_chain (c : ControlFlowChain) (k : Nat) : lines (c.fmtIndent k) = chainLines c k := by
  rw [fmtIndent_eq, lines_unlines (chainLines_line c k)]

/-! ### The function printer -/

section
variable {X : Type} [Display X]

omit [Display X] in
theorem findPrinted_eq (id : BlockId) (blocks : List (BasicBlock X)) (found : Option (BasicBlock X)) :
    findPrintedBlock id blocks found =
      match found.toList ++ blocks.filter (fun b => labelId b == id.val) with
      | [] => .ok none
      | [b] => .ok (some b)
      | _ => .error (.panic "Multiple basic blocks with the same id") := by
  induction blocks generalizing found with
  | nil => cases found <;> rfl
  | cons b bs ih =>
    unfold findPrintedBlock
    by_cases h : b.label.result_id.val = id.val
    · rw [if_pos h, List.filter_cons_of_pos (by simpa [labelId] using h)]
      cases found with
      | none => exact ih (some b)
      | some b' => rfl
    · rw [if_neg h, List.filter_cons_of_neg (by simpa [labelId] using h)]
      exact ih found

theorem fmtBlock_ok (f : FunctionDefinition X) (k : Nat) (id : BlockId) :
    (∃ t, fmtBlockIndent f k id = .ok t) ↔ (blocksAt f.blocks id.val).length = 1 := by
  have h := findPrinted_eq id f.blocks none
  rw [Option.toList_none, List.nil_append] at h
  rw [fmtBlockIndent, h, blocksAt]
  match f.blocks.filter (fun b => labelId b == id.val) with
  | [] => exact ⟨fun ⟨t, h⟩ => (by cases h), fun h => by cases h⟩
  | [b] => exact ⟨fun _ => rfl, fun _ => ⟨_, rfl⟩⟩
  | _ :: _ :: _ => exact ⟨fun ⟨t, h⟩ => (by cases h), fun h => by simp at h⟩

theorem pbind_ok {α β : Type} {x : P α} {g : α → P β} :
    (∃ b, (x >>= g) = .ok b) ↔ ∃ a, x = .ok a ∧ ∃ b, g a = .ok b := by
  cases x with
  | error e => exact ⟨fun ⟨b, h⟩ => (by cases h), fun ⟨a, h, _⟩ => (by cases h)⟩
  | ok a => exact ⟨fun h => ⟨a, rfl, h⟩, fun ⟨a', h, h'⟩ => by cases h; exact h'⟩

theorem fmtFunction_selection (f : FunctionDefinition X) (id : BlockId) (left right : ControlFlowChain)
    (hint : SelectionControl) (weights : Option BranchWeights) (k : Nat) :
    fmtFunctionIndent f (.Selection id left right hint weights) k =
      fmtBlockIndent f k id >>= fun b => fmtFunctionIndent f left (k + 1) >>= fun l =>
      (if right.isEmptyBlock then pure [] else fmtFunctionIndent f right (k + 1) >>= fun r =>
        pure (writeIndent k ++ "} else {\n".toList ++ r)) >>= fun r =>
      pure (b ++ fmtSelectionHint hint ++ fmtWeights weights ++ writeIndent k ++
        "{\n".toList ++ l ++ r ++ writeIndent k ++ "}\n".toList) := by
  rw [fmtFunctionIndent]
  by_cases h : right.isEmptyBlock = true
  · simp only [h, if_true]
  · simp only [h, bind_assoc, Bool.false_eq_true, ↓reduceIte]

theorem isEmptyBlock_eq {c : ControlFlowChain} (h : c.isEmptyBlock = true) : c = .Block [] := by
  cases c with
  | Block l => cases l with
    | nil => rfl
    | cons a as => cases h
  | _ => cases h

mutual
theorem fmtFunction_ok (f : FunctionDefinition X) : ∀ (c : ControlFlowChain) (k : Nat),
    (∃ t, fmtFunctionIndent f c k = .ok t) ↔ ∀ id ∈ chainIds c, (blocksAt f.blocks id).length = 1
  | .Atom id, k => by
    rw [fmtFunctionIndent, fmtBlock_ok, chainIds]
    simp
  | .Block block, k => by
    rw [fmtFunctionIndent, chainIds]
    exact fmtFunctionAll_ok f block k
  | .Selection id left right hint weights, k => by
    have hl := fmtFunction_ok f left (k + 1)
    have hr := fmtFunction_ok f right (k + 1)
    have hb := fmtBlock_ok f k id
    rw [chainIds]
    simp only [List.mem_cons, List.mem_append, or_imp, forall_and, forall_eq]
    rw [← hl, ← hr, ← hb]
    rw [fmtFunction_selection, pbind_ok]
    constructor
    · rintro ⟨b, hb, h⟩
      obtain ⟨l, hl, h⟩ := pbind_ok.mp h
      obtain ⟨r, hr, -⟩ := pbind_ok.mp h
      refine ⟨⟨b, hb⟩, ⟨l, hl⟩, ?_⟩
      by_cases he : right.isEmptyBlock = true
      · rw [isEmptyBlock_eq he]
        exact ⟨[], by rw [fmtFunctionIndent, fmtFunctionIndentAll]; rfl⟩
      · rw [if_neg he] at hr
        obtain ⟨t, ht, -⟩ := pbind_ok.mp ⟨r, hr⟩
        exact ⟨t, ht⟩
    · rintro ⟨⟨b, hb⟩, ⟨l, hl⟩, ⟨r, hr⟩⟩
      refine ⟨b, hb, pbind_ok.mpr ⟨l, hl, pbind_ok.mpr ?_⟩⟩
      by_cases he : right.isEmptyBlock = true
      · rw [if_pos he]
        exact ⟨_, rfl, _, rfl⟩
      · rw [if_neg he, hr]
        exact ⟨_, rfl, _, rfl⟩
  | .Loop id inner hint weights, k => by
    have hl := fmtFunction_ok f inner (k + 1)
    have hb := fmtBlock_ok f k id
    rw [chainIds]
    simp only [List.mem_cons, forall_eq_or_imp]
    rw [← hl, ← hb]
    rw [fmtFunctionIndent, pbind_ok]
    constructor
    · rintro ⟨b, hb, h⟩
      obtain ⟨l, hl, -⟩ := pbind_ok.mp h
      exact ⟨⟨b, hb⟩, ⟨l, hl⟩⟩
    · rintro ⟨⟨b, hb⟩, ⟨l, hl⟩⟩
      exact ⟨b, hb, pbind_ok.mpr ⟨l, hl, _, rfl⟩⟩
  | .Break, k => by
    rw [fmtFunctionIndent, chainIds]
    exact ⟨fun _ id h => (by cases h), fun _ => ⟨_, rfl⟩⟩
  | .Continue, k => by
    rw [fmtFunctionIndent, chainIds]
    exact ⟨fun _ id h => (by cases h), fun _ => ⟨_, rfl⟩⟩
theorem fmtFunctionAll_ok (f : FunctionDefinition X) : ∀ (cs : List ControlFlowChain) (k : Nat),
    (∃ t, fmtFunctionIndentAll f cs k = .ok t) ↔ ∀ id ∈ chainIdsAll cs, (blocksAt f.blocks id).length = 1
  | [], k => by
    rw [fmtFunctionIndentAll, chainIdsAll]
    exact ⟨fun _ id h => (by cases h), fun _ => ⟨_, rfl⟩⟩
  | c :: cs, k => by
    have hc := fmtFunction_ok f c k
    have hcs := fmtFunctionAll_ok f cs k
    rw [chainIdsAll]
    simp only [List.mem_append, or_imp, forall_and]
    rw [← hc, ← hcs, fmtFunctionIndentAll, pbind_ok]
    constructor
    · rintro ⟨a, ha, h⟩
      obtain ⟨b, hb, -⟩ := pbind_ok.mp h
      exact ⟨⟨a, ha⟩, ⟨b, hb⟩⟩
    · rintro ⟨⟨a, ha⟩, ⟨b, hb⟩⟩
      exact ⟨a, ha, pbind_ok.mpr ⟨b, hb, _, rfl⟩⟩
end

end

mutual
theorem describes_ids {X : Type} {blocks : List (BasicBlock X)} : ∀ (c : ControlFlowChain), Describes blocks c →
    ∀ id ∈ chainIds c, ∃ b ∈ blocks, labelId b = id
  | .Atom id, h => by
    rw [Describes] at h
    obtain ⟨b, hb, he, -⟩ := h
    rw [chainIds]
    intro i hi
    rw [List.mem_singleton.mp hi]
    exact ⟨b, hb, he⟩
  | .Block block, h => by
    rw [Describes] at h
    rw [chainIds]
    exact describes_idsAll block h
  | .Selection id left right hint weights, h => by
    rw [Describes] at h
    obtain ⟨⟨b, hb, he, -⟩, hl, hr⟩ := h
    have hl := describes_ids left hl
    have hr := describes_ids right hr
    rw [chainIds]
    intro i hi
    rcases List.mem_cons.mp hi with rfl | hi
    · exact ⟨b, hb, he⟩
    · rcases List.mem_append.mp hi with hi | hi
      · exact hl i hi
      · exact hr i hi
  | .Loop id inner hint weights, h => by
    rw [Describes] at h
    obtain ⟨⟨b, hb, he, -⟩, hl⟩ := h
    have hl := describes_ids inner hl
    rw [chainIds]
    intro i hi
    rcases List.mem_cons.mp hi with rfl | hi
    · exact ⟨b, hb, he⟩
    · exact hl i hi
  | .Break, _ => by rw [chainIds]; intro i hi; cases hi
  | .Continue, _ => by rw [chainIds]; intro i hi; cases hi
theorem describes_idsAll {X : Type} {blocks : List (BasicBlock X)} : ∀ (cs : List ControlFlowChain),
    DescribesAll blocks cs → ∀ id ∈ chainIdsAll cs, ∃ b ∈ blocks, labelId b = id
  | [], _ => by rw [chainIdsAll]; intro i hi; cases hi
  | c :: cs, h => by
    rw [DescribesAll] at h
    have h1 := describes_ids c h.1
    have h2 := describes_idsAll cs h.2
    rw [chainIdsAll]
    intro i hi
    rcases List.mem_append.mp hi with hi | hi
    · exact h1 i hi
    · exact h2 i hi
end

theorem filter_unique {X : Type} {blocks : List (BasicBlock X)} (hn : (blocks.map labelId).Nodup)
    {b : BasicBlock X} (hb : b ∈ blocks) : (blocks.filter (fun x => labelId x == labelId b)).length = 1 := by
  induction blocks with
  | nil => cases hb
  | cons a as ih =>
    simp only [List.map_cons, List.nodup_cons] at hn
    rcases List.mem_cons.mp hb with rfl | hb
    · rw [List.filter_cons_of_pos (by simp), List.length_cons]
      have : as.filter (fun x => labelId x == labelId b) = [] := by
        rw [List.filter_eq_nil_iff]
        intro x hx hh
        exact hn.1 (by rw [← beq_iff_eq.mp hh]; exact List.mem_map_of_mem hx)
      rw [this]
      rfl
    · rw [List.filter_cons_of_neg]
      · exact ih hn.2 hb
      · intro hh
        exact hn.1 (by rw [beq_iff_eq.mp hh]; exact List.mem_map_of_mem hb)

end Magma
