import Verif.Proofs.ChainText
import Verif.Proofs.PrintFunction
import Verif.Proofs.TextCore
/-! The text of a printed function determines the chain and what its blocks hold. -/

namespace Magma
open Spec

section
variable {X : Type}

theorem ofCore_code (c : GroupCode X) : (∃ v, c = .OpVariable v) ∨ OpByBlock.ofCore (codeInst c) = .GroupCode c := by
  cases c
  case OpVariable v => exact .inl ⟨v, rfl⟩
  all_goals exact .inr rfl

theorem codeInst_variable {v : OpVariable} {c : GroupCode X} (h : codeInst c = .OpVariable v) : c = .OpVariable v := by
  cases c <;> cases h
  rfl

theorem codeInst_inj {a b : GroupCode X} (h : codeInst a = codeInst b) : a = b := by
  rcases ofCore_code a with ⟨v, rfl⟩ | ha
  · exact (codeInst_variable h.symm).symm
  · rcases ofCore_code b with ⟨v, rfl⟩ | hb
    · exact codeInst_variable h
    · rw [h, hb] at ha
      cases ha
      rfl

theorem branchInst_inj {a b : GroupBranch} (h : branchInst (X := X) a = branchInst b) : a = b := by
  cases a <;> cases b <;> cases h <;> rfl

/-- The instructions of a block that are printed -/
def printedInsts (b : BasicBlock X) : List (Core X) := b.code.map codeInst ++ [branchInst b.branch]

theorem printedInsts_inj {a b : BasicBlock X} (h : printedInsts a = printedInsts b) :
    a.code = b.code ∧ a.branch = b.branch := by
  obtain ⟨h1, h2⟩ := List.append_inj' h rfl
  exact ⟨(List.map_inj_right (fun _ _ => codeInst_inj)).mp h1, branchInst_inj (List.cons.inj h2).1⟩

end

/-! ### The line that opens a construct -/

theorem inBrackets_some (t s : Text) : inBrackets (some t) ++ s = ' ' :: '[' :: (t ++ ']' :: s) := by
  simp [inBrackets]

theorem brackets_inj' {h h' w w' : Option Text} {u : Text} (hu : ∀ t, u ≠ ' ' :: '[' :: t)
    (hh : ∀ t ∈ h, Bracketed false t) (hh' : ∀ t ∈ h', Bracketed false t)
    (hw : ∀ t ∈ w, Bracketed true t) (hw' : ∀ t ∈ w', Bracketed true t)
    (e : inBrackets h ++ (inBrackets w ++ u) = inBrackets h' ++ (inBrackets w' ++ u)) : h = h' ∧ w = w' := by
  have weights {w w' : Option Text} (hw : ∀ t ∈ w, Bracketed true t) (hw' : ∀ t ∈ w', Bracketed true t)
      (e : inBrackets w ++ u = inBrackets w' ++ u) : w = w' := by
    cases w with
    | none =>
      cases w' with
      | none => rfl
      | some t => rw [inBrackets_some] at e; exact absurd e (hu _)
    | some t =>
      cases w' with
      | none => rw [inBrackets_some] at e; exact absurd e.symm (hu _)
      | some t' =>
        rw [inBrackets_some, inBrackets_some] at e
        have e := (List.cons.inj (List.cons.inj e).2).2
        rw [(split_bracket (hw t rfl).free (hw' t' rfl).free e).1]
  have mixed {t : Text} {w : Option Text} (ht : Bracketed false t) (hw : ∀ t ∈ w, Bracketed true t) (s : Text)
      (e : inBrackets (some t) ++ s = inBrackets w ++ u) : False := by
    rw [inBrackets_some] at e
    cases w with
    | none => exact hu _ e.symm
    | some t' =>
      rw [inBrackets_some] at e
      obtain ⟨c, cs, rfl, hc⟩ := ht.start
      obtain ⟨c', cs', rfl, hc'⟩ := (hw t' rfl).start
      have e := (List.cons.inj (List.cons.inj (List.cons.inj e).2).2).1
      rw [e, hc'] at hc
      cases hc
  cases h with
  | none =>
    cases h' with
    | none => exact ⟨rfl, weights hw hw' e⟩
    | some t' => exact (mixed (hh' t' rfl) hw _ e.symm).elim
  | some t =>
    cases h' with
    | none => exact (mixed (hh t rfl) hw' _ e).elim
    | some t' =>
      rw [inBrackets_some, inBrackets_some] at e
      have e := (List.cons.inj (List.cons.inj e).2).2
      obtain ⟨h1, h2⟩ := split_bracket (hh t rfl).free (hh' t' rfl).free e
      exact ⟨by rw [h1], weights hw hw' h2⟩

theorem open_start (k : Nat) (t : Text) : writeIndent k ++ "{".toList ≠ ' ' :: '[' :: t := by
  rw [writeIndent_eq]
  cases k with
  | zero => intro h; cases h
  | succ k =>
    rw [show 4 * (k + 1) = 4 * k + 2 + 1 + 1 by omega, List.replicate_succ, List.replicate_succ]
    intro h
    exact absurd (List.cons.inj (List.cons.inj h).2).1 (by decide)

/-- The line that opens a selection -/
def selectionOpen (hint : SelectionControl) (weights : Option BranchWeights) (k : Nat) : Text :=
  fmtSelectionHint hint ++ (fmtWeights weights ++ (writeIndent k ++ "{".toList))

/-- The line that opens a loop -/
def loopOpen (hint : LoopControl) (weights : Option BranchWeights) (k : Nat) : Text :=
  fmtLoopHint hint ++ (fmtWeights weights ++ (writeIndent k ++ "{".toList))

theorem selectionOpen_inj {h h' : SelectionControl} {w w' : Option BranchWeights} {k : Nat}
    (e : selectionOpen h w k = selectionOpen h' w' k) : h = h' ∧ w = w' := by
  unfold selectionOpen at e
  rw [selectionHint_eq, selectionHint_eq, weights_eq, weights_eq] at e
  have e2 := brackets_inj' (open_start k) (selectionText_ok h) (selectionText_ok h') (weights_ok w) (weights_ok w') e
  exact ⟨selectionText_inj e2.1, weights_inj e2.2⟩

theorem loopOpen_inj {h h' : LoopControl} {w w' : Option BranchWeights} {k : Nat}
    (e : loopOpen h w k = loopOpen h' w' k) : h = h' ∧ w = w' := by
  unfold loopOpen at e
  rw [loopHint_eq, loopHint_eq, weights_eq, weights_eq] at e
  have e2 := brackets_inj' (open_start k) (loopText_ok h) (loopText_ok h') (weights_ok w) (weights_ok w') e
  exact ⟨loopText_inj e2.1, weights_inj e2.2⟩

/-- A line that opens a construct: the first character that is not a space -/
def Opening (l : Text) : Prop := (trimmed l).head? = some '[' ∨ (trimmed l).head? = some '{'

theorem opening (h w : Option Text) (k : Nat) : Opening (inBrackets h ++ (inBrackets w ++ (writeIndent k ++ "{".toList))) := by
  have bracket (t s : Text) : Opening (' ' :: '[' :: (t ++ ']' :: s)) := .inl rfl
  cases h with
  | some t => rw [inBrackets_some]; exact bracket _ _
  | none =>
    cases w with
    | some t => rw [inBrackets_some]; exact bracket _ _
    | none =>
      show Opening (writeIndent k ++ "{".toList)
      rw [Opening, trimmed_indent]
      exact .inr rfl

theorem selectionOpen_opening (h : SelectionControl) (w : Option BranchWeights) (k : Nat) : Opening (selectionOpen h w k) := by
  unfold selectionOpen
  rw [selectionHint_eq, weights_eq]
  exact opening _ _ _

theorem loopOpen_opening (h : LoopControl) (w : Option BranchWeights) (k : Nat) : Opening (loopOpen h w k) := by
  unfold loopOpen
  rw [loopHint_eq, weights_eq]
  exact opening _ _ _

theorem not_opening {k : Nat} {c : Char} {cs : Text} (hc : c = '>' ∨ c = '}') : ¬ Opening (writeIndent k ++ c :: cs) := by
  rw [Opening, trimmed_indent]
  rcases hc with rfl | rfl
  · rintro (h | h) <;> exact absurd (Option.some.inj h) (by decide)
  · rintro (h | h) <;> exact absurd (Option.some.inj h) (by decide)

/-! ### The lines of a block -/

section
variable {X : Type} [Display X]

/-- The lines of a block after the first -/
def endLines (is : List (Core X)) (id : UInt32) (k : Nat) : List Text :=
  is.map (fun i => writeIndent k ++ (">>> ".toList ++ Core.fmt i)) ++ [writeIndent k ++ ("> End ".toList ++ decimal id.toNat)]

theorem blockLines_at {f : FunctionDefinition X} {id : UInt32} {b : BasicBlock X} (h : blocksAt f.blocks id = [b]) (k : Nat) :
    blockLines f id k = (writeIndent k ++ ("> Begin ".toList ++ decimal id.toNat)) :: endLines (printedInsts b) id k := by
  rw [blockLines, h, List.flatMap_cons, List.flatMap_nil, List.append_nil, blockTexts, List.map_cons, endLines, printedInsts,
    List.map_append, List.map_map, List.map_append, List.map_map]
  simp only [List.map_cons, List.map_nil, List.append_assoc]
  rfl

theorem endLines_inj (hi : ∀ a b : Core X, Core.fmt a = Core.fmt b → a = b) {id id' : UInt32} {k : Nat} (is : List (Core X)) :
    ∀ {is' : List (Core X)} {r r' : List Text}, endLines is id k ++ r = endLines is' id' k ++ r' → is = is' ∧ r = r' := by
  have no {i : Core X} {id : UInt32} {ls ls' : List Text} (h : (writeIndent k ++ (">>> ".toList ++ Core.fmt i)) :: ls =
      (writeIndent k ++ ("> End ".toList ++ decimal id.toNat)) :: ls') : False := by
    have h := List.append_cancel_left (List.cons.inj h).1
    exact absurd (List.cons.inj (List.cons.inj h).2).1 (by decide)
  induction is with
  | nil =>
    intro is' r r' h
    cases is' with
    | nil => exact ⟨rfl, (List.cons.inj h).2⟩
    | cons i is' => exact (no h.symm).elim
  | cons i is ih =>
    intro is' r r' h
    cases is' with
    | nil => exact (no h).elim
    | cons i' is' =>
      have h1 := hi _ _ (List.append_cancel_left (List.append_cancel_left (List.cons.inj h).1))
      obtain ⟨h2, h3⟩ := ih (is' := is') (List.cons.inj h).2
      exact ⟨by rw [h1, h2], h3⟩

theorem block_inj (hi : ∀ a b : Core X, Core.fmt a = Core.fmt b → a = b) {f g : FunctionDefinition X} {id id' : BlockId}
    {k : Nat} {b b' : BasicBlock X} {r r' : List Text} (hb : blocksAt f.blocks id.val = [b])
    (hb' : blocksAt g.blocks id'.val = [b']) (h : blockLines f id.val k ++ r = blockLines g id'.val k ++ r') :
    id = id' ∧ b.code = b'.code ∧ b.branch = b'.branch ∧ r = r' := by
  rw [blockLines_at hb, blockLines_at hb'] at h
  obtain ⟨h1, h2⟩ := List.cons.inj h
  have h1 := UInt32.toNat_inj.mp (decimal_inj (List.append_cancel_left (List.append_cancel_left h1)))
  obtain ⟨h3, h4⟩ := endLines_inj hi _ h2
  obtain ⟨h5, h6⟩ := printedInsts_inj h3
  obtain ⟨i⟩ := id
  obtain ⟨i'⟩ := id'
  exact ⟨congrArg BlockId.mk h1, h5, h6, h4⟩

/-! ### The lines of a program -/

namespace Spec.Program

/-- The lines of a printed function -/
def flines (f : FunctionDefinition X) : Program → Nat → List Text
  | done, _ => []
  | ret id, k => blockLines f id.val k
  | atom id rest, k => blockLines f id.val k ++ flines f rest k
  | sel id left right hint weights rest, k => blockLines f id.val k ++ (selectionOpen hint weights k ::
      (flines f left (k + 1) ++ ((if right.isDone then [] else (writeIndent k ++ "} else {".toList) :: flines f right (k + 1)) ++
        (writeIndent k ++ "}".toList) :: flines f rest k)))
  | loop id body hint rest, k => blockLines f id.val k ++ (loopOpen hint none k ::
      (flines f body (k + 1) ++ (writeIndent k ++ "}".toList) :: flines f rest k))
  | exit id brk weights rest, k => blockLines f id.val k ++ (selectionOpen ⟨false, false⟩ weights k ::
      (flines f rest (k + 1) ++ [writeIndent k ++ "} else {".toList,
        writeIndent (k + 1) ++ (if brk then "break;".toList else "continue;".toList), writeIndent k ++ "}".toList]))

theorem flines_toChain (f : FunctionDefinition X) (s : Program) : ∀ k,
    fnLines f s.toChain k = s.flines f k ∧ fnLinesAll f s.toChains k = s.flines f k := by
  induction s with
  | done => exact fun k => ⟨rfl, rfl⟩
  | ret id =>
    intro k
    refine ⟨rfl, ?_⟩
    rw [toChains, fnLinesAll, fnLinesAll, List.append_nil]
    rfl
  | atom id rest ih =>
    intro k
    have e : fnLinesAll f (atom id rest).toChains k = (atom id rest).flines f k := by
      rw [toChains, fnLinesAll, (ih k).2]
      rfl
    exact ⟨e, e⟩
  | sel id left right hint weights rest ihl ihr ih =>
    intro k
    have e : fnLinesAll f (sel id left right hint weights rest).toChains k =
        (sel id left right hint weights rest).flines f k := by
      rw [toChains, fnLinesAll, (ih k).2, fnLines, (ihl _).1, (ihr _).1, isEmptyBlock_toChain, flines]
      simp only [List.append_assoc, List.cons_append]
      rfl
    exact ⟨e, e⟩
  | loop id body hint rest ihb ih =>
    intro k
    have e : fnLinesAll f (loop id body hint rest).toChains k = (loop id body hint rest).flines f k := by
      rw [toChains, fnLinesAll, (ih k).2, fnLines, (ihb _).1, flines]
      simp only [List.append_assoc, List.cons_append]
      rfl
    exact ⟨e, e⟩
  | exit id brk weights rest ih =>
    intro k
    have e : fnLines f (exit id brk weights rest).toChain k = (exit id brk weights rest).flines f k := by
      rw [toChain, fnLines, (ih _).1, flines]
      cases brk <;> rfl
    refine ⟨e, ?_⟩
    have e2 : (exit id brk weights rest).toChains = [(exit id brk weights rest).toChain] := rfl
    rw [e2, fnLinesAll, e]
    exact List.append_nil _

/-- The blocks are there and have branches of the right kinds. -/
def Fits (f : FunctionDefinition X) : Bool → Program → Prop
  | top, done => top = false
  | top, ret id => top = true ∧ ∃ b r, blocksAt f.blocks id.val = [b] ∧ b.branch = .OpReturn r
  | top, atom id rest => (∃ b op, blocksAt f.blocks id.val = [b] ∧ b.branch = .OpBranch op) ∧ Fits f top rest
  | top, sel id left right _ _ rest => (∃ b op, blocksAt f.blocks id.val = [b] ∧ b.branch = .OpBranchConditional op) ∧
      Fits f false left ∧ Fits f false right ∧ Fits f top rest
  | top, loop id body _ rest => (∃ b op, blocksAt f.blocks id.val = [b] ∧ b.branch = .OpBranch op) ∧
      Fits f false body ∧ Fits f top rest
  | top, exit id _ _ rest => (∃ b op, blocksAt f.blocks id.val = [b] ∧ b.branch = .OpBranchConditional op) ∧
      top = false ∧ Fits f false rest

omit [Display X] in
theorem blocksAt_of {blocks : List (BasicBlock X)} (hn : (blocks.map labelId).Nodup) {id : BlockId} {b : BasicBlock X}
    (h : blockOf blocks id = some b) : blocksAt blocks id.val = [b] := by
  induction blocks with
  | nil => cases h
  | cons a as ih =>
    rw [List.map_cons, List.nodup_cons] at hn
    rw [blockOf, List.find?_cons] at h
    rw [blocksAt]
    split at h
    · rename_i e
      cases h
      rw [List.filter_cons_of_pos (by exact e)]
      congr 1
      rw [List.filter_eq_nil_iff]
      intro x hx e'
      refine hn.1 (List.mem_map.mpr ⟨x, hx, ?_⟩)
      have e : labelId b = id.val := by exact eq_of_beq e
      have e' : labelId x = id.val := by exact eq_of_beq e'
      rw [e, e']
    · rename_i e
      rw [List.filter_cons_of_neg (by rw [show (labelId a == id.val) = false from e]; decide)]
      exact ih hn.2 h

omit [Display X] in
theorem fits_of_spelled {f : FunctionDefinition X} (hn : (f.blocks.map labelId).Nodup) (s : Program) :
    ∀ {lp k}, s.SpelledBy f.blocks lp k → s.Fits f k.isNone := by
  induction s with
  | done => intro lp k h; cases k with
    | none => exact absurd rfl h
    | some k => rfl
  | ret id =>
    rintro lp k ⟨rfl, b, r, h1, h2⟩
    exact ⟨rfl, b, r, blocksAt_of hn h1, h2⟩
  | atom id rest ih =>
    rintro lp k ⟨⟨b, op, h1, -, h2, -⟩, h⟩
    exact ⟨⟨b, op, blocksAt_of hn h1, h2⟩, ih h⟩
  | sel id left right hint weights rest ihl ihr ih =>
    rintro lp k ⟨b, op, sm, h4, -, h5, -, -, -, -, -, h1, h2, h3⟩
    exact ⟨⟨b, op, blocksAt_of hn h4, h5⟩, ihl h1, ihr h2, ih h3⟩
  | loop id body hint rest ihb ih =>
    rintro lp k ⟨b, op, lm, h4, -, h5, -, -, -, h1, h2⟩
    exact ⟨⟨b, op, blocksAt_of hn h4, h5⟩, ihb h1, ih h2⟩
  | exit id brk weights rest ih =>
    rintro lp k ⟨head, merge, b, op, -, rfl, h4, -, h5, -, -, -, h⟩
    exact ⟨⟨b, op, blocksAt_of hn h4, h5⟩, rfl, ih h⟩

/-- The block that a program starts with -/
theorem fits_start {f : FunctionDefinition X} {s : Program} {top : Bool} (h : s.Fits f top) (hs : s.isDone = false) (k : Nat) :
    ∃ cs ls, s.flines f k = (writeIndent k ++ '>' :: cs) :: ls := by
  cases s with
  | done => cases hs
  | ret id =>
    obtain ⟨-, b, r, h1, -⟩ := h
    exact ⟨_, _, blockLines_at h1 k⟩
  | atom id rest =>
    obtain ⟨⟨b, r, h1, -⟩, -⟩ := h
    rw [flines, blockLines_at h1]
    exact ⟨_, _, rfl⟩
  | sel id left right hint weights rest =>
    obtain ⟨⟨b, r, h1, -⟩, -⟩ := h
    rw [flines, blockLines_at h1]
    exact ⟨_, _, rfl⟩
  | loop id body hint rest =>
    obtain ⟨⟨b, r, h1, -⟩, -⟩ := h
    rw [flines, blockLines_at h1]
    exact ⟨_, _, rfl⟩
  | exit id brk weights rest =>
    obtain ⟨⟨b, r, h1, -⟩, -⟩ := h
    rw [flines, blockLines_at h1]
    exact ⟨_, _, rfl⟩

theorem isDone_eq {s : Program} (h : s.isDone = true) : s = done := by
  cases s with
  | done => rfl
  | _ => cases h

theorem isDone_same {f g : FunctionDefinition X} {s s' : Program} {k : Nat} {top top' : Bool} {r r' : List Text}
    (hs : s.Fits f top) (hs' : s'.Fits g top') (hr : Closed k r) (hr' : Closed k r')
    (h : s.flines f k ++ r = s'.flines g k ++ r') : s.isDone = s'.isDone := by
  cases e : s.isDone with
  | true =>
    cases e' : s'.isDone with
    | true => rfl
    | false =>
      obtain ⟨cs, ls, el⟩ := fits_start hs' e' k
      rw [isDone_eq e, el] at h
      exact (not_closed (by decide) hr h).elim
  | false =>
    cases e' : s'.isDone with
    | false => rfl
    | true =>
      obtain ⟨cs, ls, el⟩ := fits_start hs e k
      rw [isDone_eq e', el] at h
      exact (not_closed (by decide) hr' h.symm).elim

/-- What follows a block that opens nothing is not an opening line. -/
theorem not_open {f : FunctionDefinition X} {s : Program} {k : Nat} {top : Bool} {l : Text} {ls r : List Text}
    (hs : s.Fits f top) (hr : Closed k r) (hl : Opening l) (h : s.flines f k ++ r = l :: ls) : False := by
  cases e : s.isDone with
  | true =>
    rw [isDone_eq e] at h
    rcases hr with rfl | ⟨j, t, ls', -, rfl⟩
    · cases h
    · rw [← (List.cons.inj h).1] at hl
      exact not_opening (.inr rfl) hl
  | false =>
    obtain ⟨cs, ls', el⟩ := fits_start hs e k
    rw [el] at h
    rw [← (List.cons.inj h).1] at hl
    exact not_opening (.inl rfl) hl

/-- The blocks of a program hold the same in both functions. -/
def Agree (f g : FunctionDefinition X) (s : Program) : Prop :=
  ∀ id ∈ s.ids, ∃ b b', blocksAt f.blocks id.val = [b] ∧ blocksAt g.blocks id.val = [b'] ∧ b.code = b'.code ∧ b.branch = b'.branch

theorem closed_fsel (f : FunctionDefinition X) (right rest : Program) (k : Nat) (r : List Text) :
    Closed (k + 1) (((if right.isDone then [] else (writeIndent k ++ "} else {".toList) :: flines f right (k + 1)) ++
      (writeIndent k ++ "}".toList) :: flines f rest k) ++ r) := by
  split
  · exact closed_line _ _
  · exact closed_line _ _

/-- After the lines of the left branch: a selection and a selection -/
theorem fsel_right {f g : FunctionDefinition X} {k : Nat} {right right' rest rest' : Program} {r r' : List Text}
    (ihr : ∀ {s' : Program} {k : Nat} {top : Bool} {r r' : List Text}, right.Fits f top → s'.Fits g top → Closed k r →
      Closed k r' → right.flines f k ++ r = s'.flines g k ++ r' → right = s' ∧ r = r' ∧ right.Agree f g)
    (hr : right.Fits f false) (hr' : right'.Fits g false)
    (h : ((if right.isDone then [] else (writeIndent k ++ "} else {".toList) :: flines f right (k + 1)) ++
      (writeIndent k ++ "}".toList) :: flines f rest k) ++ r =
      ((if right'.isDone then [] else (writeIndent k ++ "} else {".toList) :: flines g right' (k + 1)) ++
      (writeIndent k ++ "}".toList) :: flines g rest' k) ++ r') :
    right = right' ∧ flines f rest k ++ r = flines g rest' k ++ r' ∧ right.Agree f g := by
  have no {a b : List Text} (h : (writeIndent k ++ "}".toList) :: a = (writeIndent k ++ "} else {".toList) :: b) :
      False := by
    have h := indent_inj (List.cons.inj h).1
    exact absurd h (by decide)
  cases h1 : right.isDone with
  | true =>
    rw [h1] at h
    cases h2 : right'.isDone with
    | true =>
      rw [h2] at h
      refine ⟨(isDone_eq h1).trans (isDone_eq h2).symm, (List.cons.inj h).2, ?_⟩
      rw [isDone_eq h1]
      intro id hid
      cases hid
    | false =>
      rw [h2] at h
      exact (no h).elim
  | false =>
    rw [h1] at h
    cases h2 : right'.isDone with
    | true =>
      rw [h2] at h
      exact (no h.symm).elim
    | false =>
      rw [h2] at h
      have h := (line_inj (as := flines f right (k + 1) ++ _) (bs := flines g right' (k + 1) ++ _) h).2
      rw [List.append_assoc, List.append_assoc] at h
      obtain ⟨h3, h4, h5⟩ := ihr hr hr' (closed_line _ _) (closed_line _ _) h
      exact ⟨h3, (List.cons.inj h4).2, h5⟩

/-- The word in an exit is not the start of a program -/
theorem fexit_right {g : FunctionDefinition X} {k : Nat} {brk : Bool} {right rest : Program} {ls r : List Text}
    (hr : right.Fits g false)
    (h : (writeIndent k ++ "} else {".toList) ::
      (writeIndent (k + 1) ++ (if brk then "break;".toList else "continue;".toList)) :: ls =
      ((if right.isDone then [] else (writeIndent k ++ "} else {".toList) :: flines g right (k + 1)) ++
      (writeIndent k ++ "}".toList) :: flines g rest k) ++ r) : False := by
  cases h1 : right.isDone with
  | true =>
    rw [h1] at h
    have h := indent_inj (List.cons.inj h).1
    exact absurd h (by decide)
  | false =>
    rw [h1] at h
    have h := (List.cons.inj h).2
    obtain ⟨cs, ls', e⟩ := fits_start hr h1 (k + 1)
    rw [e] at h
    have h := indent_inj (List.cons.inj h).1
    cases brk
    · exact absurd (List.cons.inj h).1 (by decide)
    · exact absurd (List.cons.inj h).1 (by decide)

theorem flines_inj (hi : ∀ a b : Core X, Core.fmt a = Core.fmt b → a = b) {f g : FunctionDefinition X} (s : Program) :
    ∀ {s' : Program} {k : Nat} {top : Bool} {r r' : List Text}, s.Fits f top → s'.Fits g top → Closed k r → Closed k r' →
      s.flines f k ++ r = s'.flines g k ++ r' → s = s' ∧ r = r' ∧ s.Agree f g := by
  induction s with
  | done =>
    intro s' k top r r' hs hs' hr hr' h
    have hi := isDone_same hs hs' hr hr' h
    rw [isDone_eq hi.symm] at h ⊢
    refine ⟨rfl, h, ?_⟩
    intro id hid
    cases hid
  | ret id =>
    intro s' k top r r' hs hs' hr hr' h
    have hd := isDone_same hs hs' hr hr' h
    obtain ⟨-, b, op, hb, hk⟩ := hs
    cases s' with
    | done => cases hd
    | ret id' =>
      obtain ⟨-, b', op', hb', hk'⟩ := hs'
      obtain ⟨rfl, e1, e2, e3⟩ := block_inj hi hb hb' h
      refine ⟨rfl, e3, ?_⟩
      intro i hid
      rw [List.mem_singleton.mp hid]
      exact ⟨b, b', hb, hb', e1, e2⟩
    | atom id' rest' =>
      obtain ⟨⟨b', op', hb', hk'⟩, -⟩ := hs'
      rw [flines, flines, List.append_assoc] at h
      have e := (block_inj hi hb hb' h).2.2.1
      rw [hk, hk'] at e
      cases e
    | sel id' left' right' hint' weights' rest' =>
      obtain ⟨⟨b', op', hb', hk'⟩, -⟩ := hs'
      rw [flines, flines, List.append_assoc] at h
      have e := (block_inj hi hb hb' h).2.2.1
      rw [hk, hk'] at e
      cases e
    | loop id' body' hint' rest' =>
      obtain ⟨⟨b', op', hb', hk'⟩, -⟩ := hs'
      rw [flines, flines, List.append_assoc] at h
      have e := (block_inj hi hb hb' h).2.2.1
      rw [hk, hk'] at e
      cases e
    | exit id' brk' weights' rest' =>
      obtain ⟨⟨b', op', hb', hk'⟩, -⟩ := hs'
      rw [flines, flines, List.append_assoc] at h
      have e := (block_inj hi hb hb' h).2.2.1
      rw [hk, hk'] at e
      cases e
  | atom id rest ih =>
    intro s' k top r r' hs hs' hr hr' h
    have hd := isDone_same hs hs' hr hr' h
    obtain ⟨⟨b, op, hb, hk⟩, hrest⟩ := hs
    rw [flines, List.append_assoc] at h
    cases s' with
    | done => cases hd
    | ret id' =>
      obtain ⟨-, b', op', hb', hk'⟩ := hs'
      rw [flines] at h
      have e := (block_inj hi hb hb' h).2.2.1
      rw [hk, hk'] at e
      cases e
    | atom id' rest' =>
      obtain ⟨⟨b', op', hb', hk'⟩, hrest'⟩ := hs'
      rw [flines, List.append_assoc] at h
      obtain ⟨rfl, e1, e2, e3⟩ := block_inj hi hb hb' h
      obtain ⟨rfl, e4, e5⟩ := ih hrest hrest' hr hr' e3
      refine ⟨rfl, e4, ?_⟩
      intro i hid
      rcases List.mem_cons.mp hid with rfl | hid
      · exact ⟨b, b', hb, hb', e1, e2⟩
      · exact e5 i hid
    | sel id' left' right' hint' weights' rest' =>
      obtain ⟨⟨b', op', hb', hk'⟩, -⟩ := hs'
      rw [flines, List.append_assoc] at h
      have e := (block_inj hi hb hb' h).2.2.1
      rw [hk, hk'] at e
      cases e
    | loop id' body' hint' rest' =>
      obtain ⟨⟨b', op', hb', hk'⟩, -⟩ := hs'
      rw [flines, List.append_assoc] at h
      obtain ⟨rfl, -, -, e3⟩ := block_inj hi hb hb' h
      exact (not_open hrest hr (loopOpen_opening _ _ _) e3).elim
    | exit id' brk' weights' rest' =>
      obtain ⟨⟨b', op', hb', hk'⟩, -⟩ := hs'
      rw [flines, List.append_assoc] at h
      have e := (block_inj hi hb hb' h).2.2.1
      rw [hk, hk'] at e
      cases e
  | sel id left right hint weights rest ihl ihr ih =>
    intro s' k top r r' hs hs' hr hr' h
    have hd := isDone_same hs hs' hr hr' h
    obtain ⟨⟨b, op, hb, hk⟩, hleft, hright, hrest⟩ := hs
    rw [flines, List.append_assoc] at h
    cases s' with
    | done => cases hd
    | ret id' =>
      obtain ⟨-, b', op', hb', hk'⟩ := hs'
      rw [flines] at h
      have e := (block_inj hi hb hb' h).2.2.1
      rw [hk, hk'] at e
      cases e
    | atom id' rest' =>
      obtain ⟨⟨b', op', hb', hk'⟩, -⟩ := hs'
      rw [flines, List.append_assoc] at h
      have e := (block_inj hi hb hb' h).2.2.1
      rw [hk, hk'] at e
      cases e
    | sel id' left' right' hint' weights' rest' =>
      obtain ⟨⟨b', op', hb', hk'⟩, hleft', hright', hrest'⟩ := hs'
      rw [flines, List.append_assoc] at h
      obtain ⟨rfl, e1, e2, e3⟩ := block_inj hi hb hb' h
      obtain ⟨e4, e5⟩ := line_inj e3
      obtain ⟨rfl, rfl⟩ := selectionOpen_inj e4
      rw [List.append_assoc (flines f left _), List.append_assoc (flines g left' _)] at e5
      obtain ⟨rfl, e6, e7⟩ := ihl hleft hleft' (closed_fsel _ _ _ _ _) (closed_fsel _ _ _ _ _) e5
      obtain ⟨rfl, e8, e9⟩ := fsel_right ihr hright hright' e6
      obtain ⟨rfl, e10, e11⟩ := ih hrest hrest' hr hr' e8
      refine ⟨rfl, e10, ?_⟩
      intro i hid
      rcases List.mem_cons.mp hid with rfl | hid
      · exact ⟨b, b', hb, hb', e1, e2⟩
      · rcases List.mem_append.mp hid with hid | hid
        · rcases List.mem_append.mp hid with hid | hid
          · exact e7 i hid
          · exact e9 i hid
        · exact e11 i hid
    | loop id' body' hint' rest' =>
      obtain ⟨⟨b', op', hb', hk'⟩, -⟩ := hs'
      rw [flines, List.append_assoc] at h
      have e := (block_inj hi hb hb' h).2.2.1
      rw [hk, hk'] at e
      cases e
    | exit id' brk' weights' rest' =>
      obtain ⟨⟨b', op', hb', hk'⟩, -, hrest'⟩ := hs'
      rw [flines, List.append_assoc] at h
      obtain ⟨rfl, -, -, e3⟩ := block_inj hi hb hb' h
      have e5 := (line_inj e3).2
      rw [List.append_assoc (flines f left _), List.append_assoc (flines g rest' _)] at e5
      obtain ⟨-, e6, -⟩ := ihl hleft hrest' (closed_fsel _ _ _ _ _) (closed_line _ _) e5
      exact (fexit_right hright e6.symm).elim
  | loop id body hint rest ihb ih =>
    intro s' k top r r' hs hs' hr hr' h
    have hd := isDone_same hs hs' hr hr' h
    obtain ⟨⟨b, op, hb, hk⟩, hbody, hrest⟩ := hs
    rw [flines, List.append_assoc] at h
    cases s' with
    | done => cases hd
    | ret id' =>
      obtain ⟨-, b', op', hb', hk'⟩ := hs'
      rw [flines] at h
      have e := (block_inj hi hb hb' h).2.2.1
      rw [hk, hk'] at e
      cases e
    | atom id' rest' =>
      obtain ⟨⟨b', op', hb', hk'⟩, hrest'⟩ := hs'
      rw [flines, List.append_assoc] at h
      obtain ⟨rfl, -, -, e3⟩ := block_inj hi hb hb' h
      exact (not_open hrest' hr' (loopOpen_opening _ _ _) e3.symm).elim
    | sel id' left' right' hint' weights' rest' =>
      obtain ⟨⟨b', op', hb', hk'⟩, -⟩ := hs'
      rw [flines, List.append_assoc] at h
      have e := (block_inj hi hb hb' h).2.2.1
      rw [hk, hk'] at e
      cases e
    | loop id' body' hint' rest' =>
      obtain ⟨⟨b', op', hb', hk'⟩, hbody', hrest'⟩ := hs'
      rw [flines, List.append_assoc] at h
      obtain ⟨rfl, e1, e2, e3⟩ := block_inj hi hb hb' h
      obtain ⟨e4, e5⟩ := line_inj e3
      obtain ⟨rfl, -⟩ := loopOpen_inj e4
      rw [List.append_assoc, List.append_assoc] at e5
      obtain ⟨rfl, e6, e7⟩ := ihb hbody hbody' (closed_line _ _) (closed_line _ _) e5
      obtain ⟨rfl, e10, e11⟩ := ih hrest hrest' hr hr' (line_inj e6).2
      refine ⟨rfl, e10, ?_⟩
      intro i hid
      rcases List.mem_cons.mp hid with rfl | hid
      · exact ⟨b, b', hb, hb', e1, e2⟩
      · rcases List.mem_append.mp hid with hid | hid
        · exact e7 i hid
        · exact e11 i hid
    | exit id' brk' weights' rest' =>
      obtain ⟨⟨b', op', hb', hk'⟩, -⟩ := hs'
      rw [flines, List.append_assoc] at h
      have e := (block_inj hi hb hb' h).2.2.1
      rw [hk, hk'] at e
      cases e
  | exit id brk weights rest ih =>
    intro s' k top r r' hs hs' hr hr' h
    have hd := isDone_same hs hs' hr hr' h
    obtain ⟨⟨b, op, hb, hk⟩, -, hrest⟩ := hs
    rw [flines, List.append_assoc] at h
    cases s' with
    | done => cases hd
    | ret id' =>
      obtain ⟨-, b', op', hb', hk'⟩ := hs'
      rw [flines] at h
      have e := (block_inj hi hb hb' h).2.2.1
      rw [hk, hk'] at e
      cases e
    | atom id' rest' =>
      obtain ⟨⟨b', op', hb', hk'⟩, -⟩ := hs'
      rw [flines, List.append_assoc] at h
      have e := (block_inj hi hb hb' h).2.2.1
      rw [hk, hk'] at e
      cases e
    | sel id' left' right' hint' weights' rest' =>
      obtain ⟨⟨b', op', hb', hk'⟩, hleft', hright', hrest'⟩ := hs'
      rw [flines, List.append_assoc] at h
      obtain ⟨rfl, -, -, e3⟩ := block_inj hi hb hb' h
      have e5 := (line_inj e3).2
      rw [List.append_assoc (flines f rest _), List.append_assoc (flines g left' _)] at e5
      obtain ⟨-, e6, -⟩ := ih hrest hleft' (closed_line _ _) (closed_fsel _ _ _ _ _) e5
      exact (fexit_right hright' e6).elim
    | loop id' body' hint' rest' =>
      obtain ⟨⟨b', op', hb', hk'⟩, -⟩ := hs'
      rw [flines, List.append_assoc] at h
      have e := (block_inj hi hb hb' h).2.2.1
      rw [hk, hk'] at e
      cases e
    | exit id' brk' weights' rest' =>
      obtain ⟨⟨b', op', hb', hk'⟩, -, hrest'⟩ := hs'
      rw [flines, List.append_assoc] at h
      obtain ⟨rfl, e1, e2, e3⟩ := block_inj hi hb hb' h
      obtain ⟨e4, e5⟩ := line_inj e3
      obtain ⟨-, rfl⟩ := selectionOpen_inj e4
      rw [List.append_assoc, List.append_assoc] at e5
      obtain ⟨rfl, e6, e7⟩ := ih hrest hrest' (closed_line _ _) (closed_line _ _) e5
      have e8 := (List.cons.inj e6).2
      have e9 : brk = brk' := by
        have := indent_inj (List.cons.inj e8).1
        revert this
        cases brk <;> cases brk' <;> decide
      subst e9
      refine ⟨rfl, (List.cons.inj (List.cons.inj e8).2).2, ?_⟩
      intro i hid
      rcases List.mem_cons.mp hid with rfl | hid
      · exact ⟨b, b', hb, hb', e1, e2⟩
      · exact e7 i hid

end Spec.Program
end
end Magma
