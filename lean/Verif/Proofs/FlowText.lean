import Verif.Spec.FlowText
import Verif.Proofs.PrintFunction
import Verif.Proofs.ListingModule
/-! The printed text of control flow is the reference text. -/

namespace Magma
open Spec
variable {X : Type} [Display X]

theorem weightNote_eq (w : Option BranchWeights) : fmtWeights w = weightNote w := by
  cases w with
  | none => rfl
  | some w =>
    show " [".toList ++ (Display.fmt w.true_weight ++ " ".toList ++ Display.fmt w.false_weight) ++ "]".toList = _
    rw [weightNote, numberText_eq, numberText_eq]
    simp only [List.append_assoc]

theorem selectionNotes_eq (h : SelectionControl) (w : Option BranchWeights) :
    fmtSelectionHint h ++ fmtWeights w = selectionNotes h w := by
  rw [selectionNotes, weightNote_eq]
  congr 1
  obtain ⟨a, b⟩ := h
  cases a <;> cases b <;> decide

theorem loopNotes_eq (h : LoopControl) (w : Option BranchWeights) :
    fmtLoopHint h ++ fmtWeights w = loopNotes h w := by
  rw [loopNotes, weightNote_eq]
  congr 1
  obtain ⟨a, b, c, d⟩ := h
  cases d with
  | none => cases a <;> cases b <;> cases c <;> decide
  | some n =>
    have e : (Display.fmt n : Text) = (toString n.toNat).toList := (decimal_eq n.toNat).symm
    have hd : LoopControl.default ≠ ⟨a, b, c, some n⟩ := by
      intro h
      injection h with _ _ _ h
      cases h
    have hn (l : List String) (s : String) : l ++ [s] ≠ [] := List.append_ne_nil_of_right_ne_nil _ (List.cons_ne_nil _ _)
    have e1 : fmtLoopHint ⟨a, b, c, some n⟩ = " [".toList ++ Display.fmt (LoopControl.mk a b c (some n)) ++ "]".toList :=
      if_pos hd
    rw [e1, Option.toList_some, List.map_cons, List.map_nil, note, if_neg (hn _ _), ← Props.joinParts_eq]
    congr 2
    show joinParts _ = joinParts _
    dsimp only
    rw [e, List.map_append, List.map_cons, String.toList_append, String.toList_append]
    cases a <;> cases b <;> cases c <;> rfl

theorem row_lines_enclosed (rows : List Row) : ∀ k : Nat,
    (enclosed rows).map (fun r => r.before ++ (writeIndent (k + r.depth) ++ r.text)) =
      rows.map (fun r => r.before ++ (writeIndent (k + 1 + r.depth) ++ r.text)) := by
  intro k
  rw [enclosed, List.map_map]
  refine List.map_congr_left fun r _ => ?_
  show r.before ++ (writeIndent (k + (r.depth + 1)) ++ r.text) = _
  rw [show k + (r.depth + 1) = k + 1 + r.depth by omega]

/-- The lines of rows inside `k` constructs -/
def rowLines (k : Nat) (rows : List Row) : List Text := rows.map fun r => r.before ++ (writeIndent (k + r.depth) ++ r.text)

omit [Display X] in
theorem rowLines_append (k : Nat) (a b : List Row) : rowLines k (a ++ b) = rowLines k a ++ rowLines k b := List.map_append

theorem rowLines_enclosed (k : Nat) (a : List Row) : rowLines k (enclosed a) = rowLines (k + 1) a := row_lines_enclosed a k

theorem rowLines_cons (k : Nat) (t : Text) (a : List Row) :
    rowLines k (row t :: a) = (writeIndent k ++ t) :: rowLines k a := rfl

theorem rowLines_nil (k : Nat) : rowLines k [] = [] := rfl

theorem rowLines_else (k : Nat) (right : ControlFlowChain) (rows : List Row) :
    rowLines k (elseRows right rows) =
      if right.isEmptyBlock then [] else (writeIndent k ++ "} else {".toList) :: rowLines (k + 1) rows := by
  by_cases h : right.isEmptyBlock = true
  · rw [if_pos h, isEmptyBlock_eq h]
    rfl
  · rw [if_neg h]
    have e : elseRows right rows = row "} else {".toList :: enclosed rows := by
      unfold elseRows
      split
      · exact absurd rfl h
      · rfl
    rw [e, rowLines_cons, rowLines_enclosed]

mutual
theorem chainRows_lines : ∀ (c : ControlFlowChain) (k : Nat), chainLines c k = rowLines k (chainRows c)
  | .Atom id, k => by
    rw [chainLines, chainRows, rowLines_cons, idText_eq]
    rfl
  | .Block block, k => by
    rw [chainLines, chainRows]
    exact chainRowsAll_lines block k
  | .Selection id left right hint weights, k => by
    rw [chainLines, chainRows, rowLines_cons, rowLines_append, rowLines_append, rowLines_enclosed, rowLines_else,
      chainRows_lines left (k + 1), chainRows_lines right (k + 1), rowLines_cons, rowLines_nil, idText_eq,
      ← selectionNotes_eq]
    simp only [List.append_assoc, List.cons_append, List.nil_append]
    rfl
  | .Loop id inner hint weights, k => by
    rw [chainLines, chainRows, rowLines_cons, rowLines_append, rowLines_enclosed,
      chainRows_lines inner (k + 1), rowLines_cons, rowLines_nil, idText_eq, ← loopNotes_eq]
    simp only [List.append_assoc, List.cons_append, List.nil_append]
    rfl
  | .Break, k => rfl
  | .Continue, k => rfl
theorem chainRowsAll_lines : ∀ (cs : List ControlFlowChain) (k : Nat), chainLinesAll cs k = rowLines k (chainRowsAll cs)
  | [], k => rfl
  | c :: cs, k => by
    rw [chainLinesAll, chainRowsAll, rowLines_append, chainRows_lines c k, chainRowsAll_lines cs k]
end

theorem blockAt_lines (f : FunctionDefinition X) (id : UInt32) (k : Nat) :
    blockLines f id k = rowLines k ((blockAt f id).map row) := by
  have e (ts : List Text) : rowLines k (ts.map row) = ts.map (fun t => writeIndent k ++ t) := by
    rw [rowLines, List.map_map]
    rfl
  have eb (b : BasicBlock X) : blockTexts b id = listedBlock id (shownInsts b) := by
    rw [blockTexts, listedBlock, shownInsts, List.map_map, List.map_append, List.map_map,
      List.append_assoc, List.append_assoc]
    rfl
  rw [e, blockLines, blockAt, List.map_flatMap]
  simp only [eb]

mutual
theorem functionRows_lines (f : FunctionDefinition X) : ∀ (c : ControlFlowChain) (k : Nat),
    fnLines f c k = rowLines k (functionRows (blockAt f) c)
  | .Atom id, k => by
    rw [fnLines, functionRows]
    exact blockAt_lines f id.val k
  | .Block block, k => by
    rw [fnLines, functionRows]
    exact functionRowsAll_lines f block k
  | .Selection id left right hint weights, k => by
    have e (b : Text) (t : Text) (rows : List Row) : rowLines k ({ row t with before := b } :: rows) =
        (b ++ (writeIndent k ++ t)) :: rowLines k rows := rfl
    rw [fnLines, functionRows, rowLines_append, blockAt_lines, e, rowLines_append, rowLines_append,
      rowLines_enclosed, rowLines_else, functionRows_lines f left (k + 1), functionRows_lines f right (k + 1),
      rowLines_cons, rowLines_nil, ← selectionNotes_eq]
    simp only [List.append_assoc, List.cons_append, List.nil_append]
  | .Loop id inner hint weights, k => by
    have e (b : Text) (t : Text) (rows : List Row) : rowLines k ({ row t with before := b } :: rows) =
        (b ++ (writeIndent k ++ t)) :: rowLines k rows := rfl
    rw [fnLines, functionRows, rowLines_append, blockAt_lines, e, rowLines_append,
      rowLines_enclosed, functionRows_lines f inner (k + 1), rowLines_cons, rowLines_nil, ← loopNotes_eq]
    simp only [List.append_assoc, List.cons_append, List.nil_append]
  | .Break, k => rfl
  | .Continue, k => rfl
theorem functionRowsAll_lines (f : FunctionDefinition X) : ∀ (cs : List ControlFlowChain) (k : Nat),
    fnLinesAll f cs k = rowLines k (functionRowsAll (blockAt f) cs)
  | [], k => rfl
  | c :: cs, k => by
    rw [fnLinesAll, functionRowsAll, rowLines_append, functionRows_lines f c k, functionRowsAll_lines f cs k]
end

theorem unlines_rows (rows : List Row) : unlines (rowLines 0 rows) = rowsText rows := by
  rw [unlines, rowLines, List.flatMap_map, rowsText]
  congr 1
  funext r
  rw [Row.line, writeIndent_eq, Nat.zero_add]
  simp only [List.append_assoc]

/-- The instructions of the blocks of a function of a module are among the instructions of the module, in order. -/
theorem shown_sublist {m : LogicalModule X} {f : FunctionDefinition X} (hf : f ∈ m.function_definitions) :
    (f.blocks.flatMap shownInsts).Sublist ((layout m).map Core.fmt) := by
  have h1 : (f.blocks.flatMap shownInsts).Sublist ((definitionInsts f).map Core.fmt) := by
    rw [definitionInsts, List.map_cons, List.map_append, List.map_append]
    refine .cons _ ((List.Sublist.trans ?_ (List.sublist_append_right _ _)).trans (List.sublist_append_left _ _))
    induction f.blocks with
    | nil => exact .slnil
    | cons b bs ih =>
      rw [List.flatMap_cons, List.flatMap_cons, List.map_append]
      refine List.Sublist.append ?_ ih
      rw [shownInsts, blockInsts, List.map_cons]
      refine .cons _ (List.Sublist.map _ ?_)
      rw [List.append_assoc]
      exact List.Sublist.append (List.Sublist.refl _) (List.sublist_append_right _ _)
  refine h1.trans (List.Sublist.map _ ?_)
  rw [layout]
  refine List.Sublist.trans ?_ (List.sublist_append_right _ _)
  obtain ⟨l, r, e⟩ := List.append_of_mem hf
  rw [e, List.flatMap_append, List.flatMap_cons]
  exact (List.sublist_append_left _ _).trans (List.sublist_append_right _ _)

end Magma
