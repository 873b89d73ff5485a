import Verif.Proofs.WritingFlow
import Verif.Proofs.FlowText
import Verif.Spec.FlowStop
/-! Lemmas: what is written of a function before a panic. -/

namespace Magma
open Spec
variable {σ X : Type}

/-- As `Writes`, and then it ends in this way. -/
def Leaves (o : Options) (p : PutM σ Unit) (t : Text) (then_ : Except Stop Unit) : Prop :=
  ∃ pieces : List Text, pieces.flatten = t ∧ ∀ w s, p w o s = ended then_ (handOver w pieces s)

theorem Leaves.go {o : Options} {p q : PutM σ Unit} {t u : Text} {e : Except Stop Unit} (hp : Writes o p t)
    (hq : Leaves o q u e) : Leaves o (p >>= fun _ => q) (t ++ u) e := by
  obtain ⟨a, rfl, ha⟩ := hp
  obtain ⟨b, rfl, hb⟩ := hq
  refine ⟨a ++ b, List.flatten_append, fun w s => ?_⟩
  rw [handOver_append]
  show PutM.next p (fun _ => q) w o s = _
  rw [PutM.next, ha]
  cases h : handOver w a s with
  | mk ok s' =>
    cases ok with
    | true => exact hb w s'
    | false => rfl

theorem Leaves.stop {o : Options} {p q : PutM σ Unit} {t : Text} {e : Stop} (hp : Leaves o p t (.error e)) :
    Leaves o (p >>= fun _ => q) t (.error e) := by
  obtain ⟨a, rfl, ha⟩ := hp
  refine ⟨a, rfl, fun w s => ?_⟩
  show PutM.next p (fun _ => q) w o s = _
  rw [PutM.next, ha]
  cases h : handOver w a s with
  | mk ok s' => cases ok <;> rfl

/-- How it ends if it stops at this block -/
def stopOf (f : FunctionDefinition X) : Option UInt32 → Except Stop Unit
  | none => .ok ()
  | some id => .error (.panic (complaint f id))

/-- Writes the rows at this indentation, and stops as they do -/
def Prints (o : Options) (f : FunctionDefinition X) (k : Nat) (p : PutM σ Unit) (u : Until) : Prop :=
  Leaves o p (unlines (rowLines k u.1)) (stopOf f u.2)

theorem Prints.bind {o : Options} {f : FunctionDefinition X} {k : Nat} {p q : PutM σ Unit} {a b : Until}
    (hp : Prints o f k p a) (hq : Prints o f k q b) : Prints o f k (p >>= fun _ => q) (a.then_ b) := by
  obtain ⟨rows, stop⟩ := a
  cases stop with
  | none =>
    show Leaves _ _ (unlines (rowLines k (rows ++ b.1))) (stopOf f b.2)
    rw [rowLines_append, unlines_append]
    exact Leaves.go hp hq
  | some id => exact Leaves.stop hp

theorem Writes.follows {o : Options} {f : FunctionDefinition X} {k : Nat} {p : PutM σ Unit} {rows : List Row} {t : Text}
    (h : Writes o p t) (ht : t = unlines (rowLines k rows)) : Prints o f k p (rows, none) := by
  subst ht
  exact h

theorem next_assoc (p q r : PutM σ Unit) :
    (p >>= fun _ => q >>= fun _ => r) = ((p >>= fun _ => q) >>= fun _ => r) := by
  funext w o s
  show PutM.next p (fun _ => PutM.next q (fun _ => r)) w o s = PutM.next (PutM.next p (fun _ => q)) (fun _ => r) w o s
  rw [PutM.next, PutM.next, PutM.next]
  cases p w o s with
  | mk e s' => cases e <;> rfl

variable [Display X] [DisplayTo σ X] [LawfulTo σ X]

theorem line_text (k : Nat) (t : Text) : unlines (rowLines k [row t]) = writeIndent k ++ (t ++ "\n".toList) := by
  show (writeIndent k ++ t) ++ ['\n'] ++ [] = _
  rw [List.append_nil, List.append_assoc]
  rfl

omit [Display X] [DisplayTo σ X] [LawfulTo σ X] in
theorem row_follows (o : Options) (f : FunctionDefinition X) (k : Nat) (t u : String)
    (hu : u.toList = t.toList ++ "\n".toList) :
    Prints o f k (do putIndent k; lit u : PutM σ Unit) (Until.row (row t.toList)) :=
  ((putIndent_writes o k).bind (.lit o u)).follows (by rw [line_text, hu])

theorem block_follows (o : Options) (f : FunctionDefinition X) (k : Nat) (id : BlockId) :
    Prints o f k (putBlock f k id : PutM σ Unit) (blockUntil f id.val) := by
  unfold blockUntil
  by_cases h : (blocksAt f.blocks id.val).length = 1
  · rw [if_pos h]
    obtain ⟨t, ht⟩ := (fmtBlock_ok f k id).mpr h
    have he := putBlock_ends (σ := σ) o f k id
    rw [ht] at he
    exact he.writes.follows (by rw [fmtBlock_lines ht, blockAt_lines])
  · rw [if_neg h]
    refine ⟨[], rfl, fun w s => ?_⟩
    have hf := findPrinted_eq id f.blocks none
    rw [Option.toList_none, List.nil_append] at hf
    show PutM.next _ _ w o s = (.error (.panic (complaint f id.val)), s)
    rw [PutM.next]
    unfold complaint
    unfold blocksAt at h ⊢
    rcases searchPrintedBlock_run id w o s f.blocks none with ⟨b, h1, h2⟩ | ⟨m, h1, h2⟩
    · rw [h2]
      rw [h1] at hf
      revert h hf
      cases f.blocks.filter (fun b => labelId b == id.val) with
      | nil => intro h hf; cases hf; rfl
      | cons x xs =>
        intro h hf
        cases xs with
        | nil => exact absurd rfl h
        | cons _ _ => cases hf
    · rw [h2]
      rw [h1] at hf
      revert h hf
      cases f.blocks.filter (fun b => labelId b == id.val) with
      | nil => intro h hf; cases hf
      | cons x xs =>
        intro h hf
        cases xs with
        | nil => exact absurd rfl h
        | cons _ _ => cases hf; rfl

theorem Prints.enclosed {o : Options} {f : FunctionDefinition X} {k : Nat} {p : PutM σ Unit} {u : Until}
    (h : Prints o f (k + 1) p u) : Prints o f k p (Spec.enclosed u.1, u.2) := by
  unfold Prints
  rw [rowLines_enclosed]
  exact h

mutual
theorem function_follows (o : Options) (f : FunctionDefinition X) : ∀ (c : ControlFlowChain) (k : Nat),
    Prints o f k (putFunctionIndent f c k : PutM σ Unit) (rowsUntil f c)
  | .Atom id, k => by
    rw [putFunctionIndent, rowsUntil]
    exact block_follows o f k id
  | .Block chains, k => by
    rw [putFunctionIndent, rowsUntil]
    exact functionAll_follows o f chains k
  | .Break, k => by
    rw [putFunctionIndent, rowsUntil]
    exact row_follows o f k _ _ rfl
  | .Continue, k => by
    rw [putFunctionIndent, rowsUntil]
    exact row_follows o f k _ _ rfl
  | .Loop id inner hint weights, k => by
    rw [putFunctionIndent, rowsUntil]
    refine (block_follows o f k id).bind ?_
    have hb : Prints o f k (do putLoopHint hint; putWeights weights; putIndent k; lit "{\n" : PutM σ Unit)
        (Until.row { row "{".toList with before := loopNotes hint weights }) :=
      ((putLoopHint_writes o hint).bind ((putWeights_writes o weights).bind ((putIndent_writes o k).bind
        (.lit o "{\n")))).follows (by
          show _ = (loopNotes hint weights ++ (writeIndent k ++ "{".toList)) ++ ['\n'] ++ []
          rw [← loopNotes_eq]
          simp only [List.append_assoc, List.append_nil]
          rfl)
    have hi := (function_follows o f inner (k + 1)).enclosed
    have := hb.bind (hi.bind (row_follows o f k "}" "}\n" rfl))
    rw [← next_assoc, ← next_assoc, ← next_assoc] at this
    exact this
  | .Selection id left right hint weights, k => by
    rw [putFunctionIndent, rowsUntil]
    refine (block_follows o f k id).bind ?_
    have hb : Prints o f k (do putSelectionHint hint; putWeights weights; putIndent k; lit "{\n" : PutM σ Unit)
        (Until.row { row "{".toList with before := selectionNotes hint weights }) :=
      ((putSelectionHint_writes o hint).bind ((putWeights_writes o weights).bind ((putIndent_writes o k).bind
        (.lit o "{\n")))).follows (by
          show _ = (selectionNotes hint weights ++ (writeIndent k ++ "{".toList)) ++ ['\n'] ++ []
          rw [← selectionNotes_eq]
          simp only [List.append_assoc, List.append_nil]
          rfl)
    have hl := (function_follows o f left (k + 1)).enclosed
    have hr : Prints o f k (if right.isEmptyBlock then pure ()
        else do putIndent k; lit "} else {\n"; putFunctionIndent f right (k + 1) : PutM σ Unit)
        (elseUntil right (rowsUntil f right)) := by
      by_cases he : right.isEmptyBlock = true
      · rw [if_pos he]
        have he' := isEmptyBlock_eq he
        subst he'
        exact Writes.follows (.done o) rfl
      · rw [if_neg he]
        have hu : elseUntil right (rowsUntil f right) = (Until.row (row "} else {".toList)).then_
            (Spec.enclosed (rowsUntil f right).1, (rowsUntil f right).2) := by
          unfold elseUntil
          split
          · exact absurd rfl he
          · rfl
        rw [hu]
        have := (row_follows (σ := σ) o f k "} else {" "} else {\n" rfl).bind (function_follows o f right (k + 1)).enclosed
        rw [← next_assoc] at this
        exact this
    have := hb.bind (hl.bind (hr.bind (row_follows o f k "}" "}\n" rfl)))
    rw [← next_assoc, ← next_assoc, ← next_assoc] at this
    exact this
theorem functionAll_follows (o : Options) (f : FunctionDefinition X) : ∀ (cs : List ControlFlowChain) (k : Nat),
    Prints o f k (putFunctionIndentAll f cs k : PutM σ Unit) (rowsUntilAll f cs)
  | [], k => by
    rw [putFunctionIndentAll, rowsUntilAll]
    exact Writes.follows (.done o) rfl
  | c :: cs, k => by
    rw [putFunctionIndentAll, rowsUntilAll]
    exact (function_follows o f c k).bind (functionAll_follows o f cs k)
end

/-! ### Rows up to a block are rows of the function -/

/-- All the rows, or some of them and then a stop -/
def PartOf (u : Until) (rows : List Row) : Prop := u.1 <+: rows ∧ (u.2 = none → u.1 = rows)

theorem PartOf.bind {a b : Until} {r t : List Row} (ha : PartOf a r) (hb : PartOf b t) : PartOf (a.then_ b) (r ++ t) := by
  obtain ⟨rows, stop⟩ := a
  cases stop with
  | none =>
    have := ha.2 rfl
    subst this
    refine ⟨(List.prefix_append_right_inj _).mpr hb.1, fun h => ?_⟩
    show rows ++ b.1 = rows ++ t
    rw [hb.2 h]
  | some id => exact ⟨ha.1.trans (List.prefix_append _ _), fun h => by cases h⟩

theorem PartOf.row (r : Row) : PartOf (Until.row r) [r] := ⟨List.prefix_refl _, fun _ => rfl⟩

theorem PartOf.enclosed {u : Until} {r : List Row} (h : PartOf u r) :
    PartOf (Spec.enclosed u.1, u.2) (Spec.enclosed r) :=
  ⟨h.1.map _, fun hn => by rw [show u.1 = r from h.2 hn]⟩

omit [DisplayTo σ X] [LawfulTo σ X]

theorem block_part (f : FunctionDefinition X) (id : UInt32) : PartOf (blockUntil f id) ((blockAt f id).map row) := by
  unfold blockUntil
  by_cases h : (blocksAt f.blocks id).length = 1
  · rw [if_pos h]; exact ⟨List.prefix_refl _, fun _ => rfl⟩
  · rw [if_neg h]; exact ⟨List.nil_prefix, fun h => by cases h⟩

theorem else_part {right : ControlFlowChain} {u : Until} {rows : List Row} (h : PartOf u rows) :
    PartOf (elseUntil right u) (elseRows right rows) := by
  by_cases he : right = .Block []
  · subst he
    exact ⟨List.prefix_refl _, fun _ => rfl⟩
  · have h1 : elseUntil right u = (row "} else {".toList :: enclosed u.1, u.2) := by
      unfold elseUntil
      split
      · exact absurd rfl he
      · rfl
    have h2 : elseRows right rows = row "} else {".toList :: enclosed rows := by
      unfold elseRows
      split
      · exact absurd rfl he
      · rfl
    rw [h1, h2]
    exact (PartOf.row (row "} else {".toList)).bind h.enclosed

mutual
theorem rowsUntil_part (f : FunctionDefinition X) : ∀ c : ControlFlowChain,
    PartOf (rowsUntil f c) (functionRows (blockAt f) c)
  | .Atom id => by
    rw [rowsUntil, functionRows]
    exact block_part f id.val
  | .Block chains => by
    rw [rowsUntil, functionRows]
    exact rowsUntilAll_part f chains
  | .Break => by
    rw [rowsUntil, functionRows]
    exact .row _
  | .Continue => by
    rw [rowsUntil, functionRows]
    exact .row _
  | .Loop id inner hint weights => by
    rw [rowsUntil, functionRows]
    exact (block_part f id.val).bind ((PartOf.row _).bind ((rowsUntil_part f inner).enclosed.bind (.row _)))
  | .Selection id left right hint weights => by
    rw [rowsUntil, functionRows, List.append_assoc]
    exact (block_part f id.val).bind ((PartOf.row _).bind ((rowsUntil_part f left).enclosed.bind
      ((else_part (rowsUntil_part f right)).bind (.row _))))
theorem rowsUntilAll_part (f : FunctionDefinition X) : ∀ cs : List ControlFlowChain,
    PartOf (rowsUntilAll f cs) (functionRowsAll (blockAt f) cs)
  | [] => by
    rw [rowsUntilAll, functionRowsAll]
    exact ⟨List.prefix_refl _, fun _ => rfl⟩
  | c :: cs => by
    rw [rowsUntilAll, functionRowsAll]
    exact (rowsUntil_part f c).bind (rowsUntilAll_part f cs)
end

theorem then_stop (a b : Until) : (a.then_ b).2 = a.2.or b.2 := by
  obtain ⟨rows, stop⟩ := a
  cases stop <;> rfl

/-- A block that can not be printed -/
def amiss (f : FunctionDefinition X) (id : UInt32) : Bool := (blocksAt f.blocks id).length ≠ 1

theorem blockUntil_stop (f : FunctionDefinition X) (id : UInt32) :
    (blockUntil f id).2 = [id].find? (amiss f) := by
  unfold blockUntil
  by_cases h : (blocksAt f.blocks id).length = 1
  · rw [if_pos h, List.find?_cons_of_neg (by simp [amiss, h])]; rfl
  · rw [if_neg h, List.find?_cons_of_pos (by simp [amiss, h])]

theorem elseUntil_stop (f : FunctionDefinition X) (right : ControlFlowChain) :
    (elseUntil right (rowsUntil f right)).2 = (rowsUntil f right).2 := by
  unfold elseUntil
  split
  · rw [rowsUntil, rowsUntilAll]
  · rfl

mutual
theorem rowsUntil_stop (f : FunctionDefinition X) : ∀ c : ControlFlowChain,
    (rowsUntil f c).2 = (chainIds c).find? (amiss f)
  | .Atom id => by rw [rowsUntil, chainIds, blockUntil_stop]
  | .Block chains => by rw [rowsUntil, chainIds, rowsUntilAll_stop f chains]
  | .Break => by rw [rowsUntil, chainIds]; rfl
  | .Continue => by rw [rowsUntil, chainIds]; rfl
  | .Loop id inner hint weights => by
    rw [rowsUntil, chainIds, then_stop, then_stop, then_stop, blockUntil_stop]
    show ([id.val].find? _).or (Option.or none ((rowsUntil f inner).2.or none)) = _
    rw [rowsUntil_stop f inner, Option.or_none, Option.none_or, ← List.find?_append]
    rfl
  | .Selection id left right hint weights => by
    rw [rowsUntil, chainIds, then_stop, then_stop, then_stop, then_stop, blockUntil_stop, elseUntil_stop]
    show ([id.val].find? _).or (Option.or none ((rowsUntil f left).2.or ((rowsUntil f right).2.or none))) = _
    rw [rowsUntil_stop f left, rowsUntil_stop f right, Option.or_none, Option.none_or, ← List.find?_append,
      ← List.find?_append]
    rfl
theorem rowsUntilAll_stop (f : FunctionDefinition X) : ∀ cs : List ControlFlowChain,
    (rowsUntilAll f cs).2 = (chainIdsAll cs).find? (amiss f)
  | [] => rfl
  | c :: cs => by
    rw [rowsUntilAll, chainIdsAll, then_stop, rowsUntil_stop f c, rowsUntilAll_stop f cs, List.find?_append]
end

end Magma
