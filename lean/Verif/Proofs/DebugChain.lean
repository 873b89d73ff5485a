import Verif.Model.DebugChain
import Verif.Proofs.DebugModules
/-! The debug output of control flow can be read back. -/

namespace Magma.Dbg
open Magma
variable {shown : Char → Bool}

/-- `tuple_next`, for fields of which the law is not known in general yet -/
theorem next_by {Q : Prop} {c : Char} (hc : word c = false) {u v : Text} {fs gs : List Text} {s t : Text}
    (key : ∀ s t, Ends s → Ends t → u ++ s = v ++ t → Q ∧ s = t)
    (h : moreFields (u :: fs) ++ c :: s = moreFields (v :: gs) ++ c :: t) :
    Q ∧ moreFields fs ++ c :: s = moreFields gs ++ c :: t := by
  simp only [moreFields, List.append_assoc, List.cons_append, List.cons.injEq, true_and] at h
  exact key _ _ (ends_more _ _ hc _) (ends_more _ _ hc _) h

theorem first_by {Q : Prop} {u v : Text} {fs gs : List Text} {s t : Text}
    (key : ∀ s t, Ends s → Ends t → u ++ s = v ++ t → Q ∧ s = t)
    (h : tupleFields (u :: fs) ++ s = tupleFields (v :: gs) ++ t) :
    Q ∧ moreFields fs ++ ')' :: s = moreFields gs ++ ')' :: t := by
  simp only [tupleFields, List.append_assoc, List.cons_append, List.nil_append, List.cons.injEq, true_and] at h
  exact key _ _ (ends_more _ _ (by decide) _) (ends_more _ _ (by decide) _) h

theorem chain_start (shown : Char → Bool) (x : ControlFlowChain) : ∃ c r, x.debug shown = c :: r ∧ c ≠ ']' := by
  cases x <;> rw [ControlFlowChain.debug] <;> exact tuple_start (by decide) _

theorem other {n m : String} {fs gs : List Text} {s t : Text} {Q : Prop} (hn : ident n = true) (hm : ident m = true)
    (hd : n ≠ m) (hs : Ends s) (ht : Ends t) (h : debugTuple n fs ++ s = debugTuple m gs ++ t) : Q :=
  absurd (tuple_name hn hm hs ht h).1 hd

mutual
theorem chain_law (shown : Char → Bool) (x y : ControlFlowChain) (s t : Text) (hs : Ends s) (ht : Ends t)
    (h : x.debug shown ++ s = y.debug shown ++ t) : x = y ∧ s = t := by
  match x, y with
  | .Atom a, .Atom b =>
    rw [ControlFlowChain.debug, ControlFlowChain.debug] at h
    obtain ⟨rfl, h1⟩ := tuple_first (tuple_same h)
    exact ⟨rfl, tuple_last h1⟩
  | .Break, .Break => exact ⟨rfl, List.append_cancel_left h⟩
  | .Continue, .Continue => exact ⟨rfl, List.append_cancel_left h⟩
  | .Block xs, .Block ys =>
    rw [ControlFlowChain.debug, ControlFlowChain.debug] at h
    obtain ⟨rfl, h1⟩ := first_by (fun s t hs ht h => chains_law shown xs ys s t h) (tuple_same h)
    exact ⟨rfl, tuple_last h1⟩
  | .Selection a l r hint w, .Selection b l' r' hint' w' =>
    rw [ControlFlowChain.debug, ControlFlowChain.debug] at h
    obtain ⟨rfl, h1⟩ := tuple_first (tuple_same h)
    obtain ⟨rfl, h2⟩ := next_by (by decide) (chain_law shown l l') h1
    obtain ⟨rfl, h3⟩ := next_by (by decide) (chain_law shown r r') h2
    obtain ⟨rfl, h4⟩ := tuple_next (by decide) h3
    obtain ⟨rfl, h5⟩ := tuple_next (by decide) h4
    exact ⟨rfl, tuple_last h5⟩
  | .Loop a i hint w, .Loop b i' hint' w' =>
    rw [ControlFlowChain.debug, ControlFlowChain.debug] at h
    obtain ⟨rfl, h1⟩ := tuple_first (tuple_same h)
    obtain ⟨rfl, h2⟩ := next_by (by decide) (chain_law shown i i') h1
    obtain ⟨rfl, h3⟩ := tuple_next (by decide) h2
    obtain ⟨rfl, h4⟩ := tuple_next (by decide) h3
    exact ⟨rfl, tuple_last h4⟩
  | .Atom .., .Block .. | .Atom .., .Selection .. | .Atom .., .Loop .. | .Atom .., .Break | .Atom .., .Continue
  | .Block .., .Atom .. | .Block .., .Selection .. | .Block .., .Loop .. | .Block .., .Break | .Block .., .Continue
  | .Selection .., .Atom .. | .Selection .., .Block .. | .Selection .., .Loop .. | .Selection .., .Break
  | .Selection .., .Continue
  | .Loop .., .Atom .. | .Loop .., .Block .. | .Loop .., .Selection .. | .Loop .., .Break | .Loop .., .Continue
  | .Break, .Atom .. | .Break, .Block .. | .Break, .Selection .. | .Break, .Loop .. | .Break, .Continue
  | .Continue, .Atom .. | .Continue, .Block .. | .Continue, .Selection .. | .Continue, .Loop .. | .Continue, .Break =>
    rw [ControlFlowChain.debug, ControlFlowChain.debug] at h
    exact other (by decide) (by decide) (by decide) hs ht h
termination_by sizeOf x
theorem chains_law (shown : Char → Bool) (xs ys : List ControlFlowChain) (s t : Text)
    (h : debugList (debugChains shown xs) ++ s = debugList (debugChains shown ys) ++ t) : xs = ys ∧ s = t := by
  match xs, ys with
  | [], [] => exact ⟨rfl, List.append_cancel_left h⟩
  | [], y :: ys =>
    obtain ⟨c, r, e, hc⟩ := chain_start shown y
    rw [debugChains, debugChains, e] at h
    exact absurd (List.cons.inj (List.cons.inj h).2).1.symm hc
  | x :: xs, [] =>
    obtain ⟨c, r, e, hc⟩ := chain_start shown x
    rw [debugChains, debugChains, e] at h
    exact absurd (List.cons.inj (List.cons.inj h).2).1 hc
  | x :: xs, y :: ys =>
    rw [debugChains, debugChains, debugList, debugList] at h
    simp only [List.append_assoc, List.cons_append, List.nil_append, List.cons.injEq, true_and] at h
    obtain ⟨rfl, h1⟩ := chain_law shown x y _ _ (ends_more _ _ (by decide) _) (ends_more _ _ (by decide) _) h
    obtain ⟨rfl, h2⟩ := rest_law shown xs ys s t h1
    exact ⟨rfl, h2⟩
termination_by sizeOf xs
theorem rest_law (shown : Char → Bool) (xs ys : List ControlFlowChain) (s t : Text)
    (h : moreFields (debugChains shown xs) ++ ']' :: s = moreFields (debugChains shown ys) ++ ']' :: t) :
    xs = ys ∧ s = t := by
  match xs, ys with
  | [], [] => exact ⟨rfl, tuple_last h⟩
  | [], y :: ys => exact absurd (List.cons.inj h).1 (by decide)
  | x :: xs, [] => exact absurd (List.cons.inj h).1 (by decide)
  | x :: xs, y :: ys =>
    rw [debugChains, debugChains] at h
    obtain ⟨rfl, h1⟩ := next_by (by decide) (chain_law shown x y) h
    obtain ⟨rfl, h2⟩ := rest_law shown xs ys s t h1
    exact ⟨rfl, h2⟩
termination_by sizeOf xs
end

theorem list_line {fs : List Text} (h : ∀ f ∈ fs, '\n' ∉ f) : '\n' ∉ debugList fs := by
  cases fs with
  | nil => exact show '\n' ∉ ['[', ']'] by decide
  | cons f fs =>
    intro hm
    simp only [debugList, List.mem_cons, List.mem_append, List.not_mem_nil, or_false] at hm
    rcases hm with hm | hm | hm | hm
    · exact absurd hm (by decide)
    · exact h f (.head _) hm
    · exact more_line (fun f hf => h f (.tail _ hf)) hm
    · exact absurd hm (by decide)

mutual
theorem chain_line (shown : Char → Bool) : ∀ x : ControlFlowChain, '\n' ∉ x.debug shown
  | .Atom _ => tuple_line (by decide) (cons_line none_line)
  | .Block chains =>
    tuple_line (by decide) (List.forall_mem_cons.mpr ⟨list_line (chains_line shown chains), none_line⟩)
  | .Selection _ l r _ _ =>
    tuple_line (by decide) (cons_line (List.forall_mem_cons.mpr ⟨chain_line shown l,
      List.forall_mem_cons.mpr ⟨chain_line shown r, cons_line (cons_line none_line)⟩⟩))
  | .Loop _ i _ _ =>
    tuple_line (by decide) (cons_line (List.forall_mem_cons.mpr ⟨chain_line shown i, cons_line (cons_line none_line)⟩))
  | .Break => tuple_line (by decide) none_line
  | .Continue => tuple_line (by decide) none_line
theorem chains_line (shown : Char → Bool) : ∀ xs : List ControlFlowChain, ∀ f ∈ debugChains shown xs, '\n' ∉ f
  | [] => none_line
  | x :: xs => List.forall_mem_cons.mpr ⟨chain_line shown x, chains_line shown xs⟩
end

instance : Law ControlFlowChain where
  law shown x y s t hs ht h := chain_law shown x y s t hs ht h
  start := chain_start
  line := chain_line

/-! ### Whole texts -/

theorem debug_injective {α : Type} [Debug α] [Law α] (shown : Char → Bool) :
    Function.Injective (Debug.debug (α := α) shown) := fun x y h =>
  (Law.law shown x y [] [] ends_nil ends_nil (congrArg (· ++ []) h)).1

theorem log_injective {α : Type} [Debug α] [Law α] (shown : Char → Bool) {xs ys : List α}
    (h : xs.flatMap (fun x => Debug.debug shown x ++ ['\n']) = ys.flatMap (fun x => Debug.debug shown x ++ ['\n'])) :
    xs = ys := by
  induction xs generalizing ys with
  | nil =>
    cases ys with
    | nil => rfl
    | cons y ys =>
      have := congrArg List.length h
      simp at this
  | cons x xs ih =>
    cases ys with
    | nil =>
      have := congrArg List.length h
      simp at this
    | cons y ys =>
      simp only [List.flatMap_cons, List.append_assoc, List.cons_append, List.nil_append] at h
      obtain ⟨rfl, h1⟩ := Law.law shown x y _ _ (ends_cons (by decide)) (ends_cons (by decide)) h
      rw [ih (List.cons.inj h1).2]

end Magma.Dbg
