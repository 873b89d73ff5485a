import Verif.Proofs.Printing
/-! The lines of a printed function. -/

namespace Magma
open Spec

section
variable {X : Type} [Display X]

theorem code_fmt (c : GroupCode X) : c.fmt = Core.fmt (codeInst c) := by cases c <;> rfl

theorem branch_fmt (b : GroupBranch) : b.fmt = Core.fmt (X := X) (branchInst b) := by cases b <;> rfl

/-- The text of the lines of a block, without indentation -/
def blockTexts (b : BasicBlock X) (id : UInt32) : List Text :=
  ("> Begin ".toList ++ decimal id.toNat) :: ((b.code.map (fun c => ">>> ".toList ++ Core.fmt (codeInst c))) ++
    [">>> ".toList ++ Core.fmt (X := X) (branchInst b.branch), "> End ".toList ++ decimal id.toNat])

/-- The lines of a block -/
def blockLines (f : FunctionDefinition X) (id : UInt32) (k : Nat) : List Text :=
  (blocksAt f.blocks id).flatMap (fun b => (blockTexts b id).map (fun t => writeIndent k ++ t))

omit [Display X] in
theorem unlines_flatMap {α : Type} (l : List α) (g : α → Text) :
    unlines (l.map g) = l.flatMap (fun a => g a ++ ['\n']) := by
  rw [unlines, List.flatMap_map]

theorem fmtBlock_lines {f : FunctionDefinition X} {k : Nat} {id : BlockId} {t : Text}
    (h : fmtBlockIndent f k id = .ok t) : t = unlines (blockLines f id.val k) := by
  have h1 := (fmtBlock_ok f k id).mp ⟨t, h⟩
  have hf := findPrinted_eq id f.blocks none
  rw [Option.toList_none, List.nil_append] at hf
  rw [fmtBlockIndent, hf] at h
  rw [blockLines]
  rw [blocksAt] at h1 ⊢
  revert h h1
  match f.blocks.filter (fun b => labelId b == id.val) with
  | [] => intro h h1; cases h
  | _ :: _ :: _ => intro h h1; cases h
  | [b] =>
    intro h h1
    simp only [List.flatMap_cons, List.flatMap_nil, List.append_nil]
    injection h with h
    rw [← h, blockTexts, List.map_cons, List.map_append, unlines_cons, unlines_append, List.map_map, unlines_flatMap,
      List.map_cons, List.map_cons, List.map_nil, unlines_cons, unlines_one, branch_fmt (X := X)]
    simp only [code_fmt, Function.comp_apply, List.append_assoc]
    rw [show Display.fmt id.val = decimal id.val.toNat from (decimal_eq _).symm]
    rfl

mutual
/-- The lines of a printed function -/
def fnLines (f : FunctionDefinition X) : ControlFlowChain → Nat → List Text
  | .Atom id, k => blockLines f id.val k
  | .Block block, k => fnLinesAll f block k
  | .Selection id left right hint weights, k =>
    blockLines f id.val k ++
    ([fmtSelectionHint hint ++ (fmtWeights weights ++ (writeIndent k ++ "{".toList))] ++
    (fnLines f left (k + 1) ++
    ((if right.isEmptyBlock then [] else (writeIndent k ++ "} else {".toList) :: fnLines f right (k + 1)) ++
    [writeIndent k ++ "}".toList])))
  | .Loop id inner hint weights, k =>
    blockLines f id.val k ++
    ([fmtLoopHint hint ++ (fmtWeights weights ++ (writeIndent k ++ "{".toList))] ++
    (fnLines f inner (k + 1) ++ [writeIndent k ++ "}".toList]))
  | .Break, k => [writeIndent k ++ "break;".toList]
  | .Continue, k => [writeIndent k ++ "continue;".toList]
/-- The lines of a printed list of chains -/
def fnLinesAll (f : FunctionDefinition X) : List ControlFlowChain → Nat → List Text
  | [], _ => []
  | cfc :: block, k => fnLines f cfc k ++ fnLinesAll f block k
end

theorem pbind_eq {α β : Type} {x : P α} {g : α → P β} {b : β} :
    (x >>= g) = .ok b ↔ ∃ a, x = .ok a ∧ g a = .ok b := by
  cases x with
  | error e => exact ⟨fun h => (by cases h), fun ⟨a, h, _⟩ => (by cases h)⟩
  | ok a => exact ⟨fun h => ⟨a, rfl, h⟩, fun ⟨a', h, h'⟩ => by cases h; exact h'⟩

mutual
theorem fmtFunction_lines (f : FunctionDefinition X) : ∀ (c : ControlFlowChain) (k : Nat) (t : Text),
    fmtFunctionIndent f c k = .ok t → t = unlines (fnLines f c k)
  | .Atom id, k, t, h => by
    rw [fmtFunctionIndent] at h
    rw [fnLines]
    exact fmtBlock_lines h
  | .Block block, k, t, h => by
    rw [fmtFunctionIndent] at h
    rw [fnLines]
    exact fmtFunctionAll_lines f block k t h
  | .Selection id left right hint weights, k, t, h => by
    have hl := fmtFunction_lines f left (k + 1)
    have hr := fmtFunction_lines f right (k + 1)
    rw [fmtFunction_selection] at h
    obtain ⟨b, hb, h⟩ := pbind_eq.mp h
    obtain ⟨l, hl', h⟩ := pbind_eq.mp h
    obtain ⟨r, hr', h⟩ := pbind_eq.mp h
    injection h with h
    rw [← h, fnLines, fmtBlock_lines hb, hl l hl', unlines_append, unlines_append, unlines_append, unlines_append,
      unlines_one, unlines_one]
    by_cases he : right.isEmptyBlock = true
    · rw [if_pos he] at hr' ⊢
      injection hr' with hr'
      rw [← hr']
      simp only [List.append_assoc]
      rfl
    · rw [if_neg he] at hr' ⊢
      obtain ⟨r', hr1, hr2⟩ := pbind_eq.mp hr'
      injection hr2 with hr2
      rw [← hr2, hr r' hr1, unlines_cons]
      simp only [List.append_assoc]
      rfl
  | .Loop id inner hint weights, k, t, h => by
    have hl := fmtFunction_lines f inner (k + 1)
    rw [fmtFunctionIndent] at h
    obtain ⟨b, hb, h⟩ := pbind_eq.mp h
    obtain ⟨l, hl', h⟩ := pbind_eq.mp h
    injection h with h
    rw [← h, fnLines, fmtBlock_lines hb, hl l hl', unlines_append, unlines_append, unlines_append,
      unlines_one, unlines_one]
    simp only [List.append_assoc]
    rfl
  | .Break, k, t, h => by
    rw [fmtFunctionIndent] at h
    injection h with h
    rw [← h, fnLines, unlines_one, List.append_assoc]
    rfl
  | .Continue, k, t, h => by
    rw [fmtFunctionIndent] at h
    injection h with h
    rw [← h, fnLines, unlines_one, List.append_assoc]
    rfl
theorem fmtFunctionAll_lines (f : FunctionDefinition X) : ∀ (cs : List ControlFlowChain) (k : Nat) (t : Text),
    fmtFunctionIndentAll f cs k = .ok t → t = unlines (fnLinesAll f cs k)
  | [], k, t, h => by
    rw [fmtFunctionIndentAll] at h
    injection h with h
    rw [← h]
    rfl
  | c :: cs, k, t, h => by
    rw [fmtFunctionIndentAll] at h
    obtain ⟨a, ha, h⟩ := pbind_eq.mp h
    obtain ⟨b, hb, h⟩ := pbind_eq.mp h
    injection h with h
    rw [← h, fnLinesAll, unlines_append, ← fmtFunction_lines f c k a ha, ← fmtFunctionAll_lines f cs k b hb]
end

/-! ### Plain lines -/

theorem code_plain (hx : ∀ x : X, ∀ c ∈ Display.fmt x, Plain c) (c : GroupCode X) :
    ∀ ch ∈ Core.fmt (codeInst c), Plain ch := by
  rw [← code_fmt]
  cases c with
  | OpExtInst op => exact OpExtInst.fmt_plain op hx
  | OpNop op => exact op.fmt_plain
  | OpUndef op => exact op.fmt_plain
  | OpVariable op => exact op.fmt_plain
  | OpLoad op => exact op.fmt_plain
  | OpStore op => exact op.fmt_plain
  | OpAccessChain op => exact op.fmt_plain
  | OpConvertUToF op => exact op.fmt_plain
  | OpBitcast op => exact op.fmt_plain
  | OpIAdd op => exact op.fmt_plain
  | OpFAdd op => exact op.fmt_plain
  | OpISub op => exact op.fmt_plain
  | OpFSub op => exact op.fmt_plain
  | OpIMul op => exact op.fmt_plain
  | OpFMul op => exact op.fmt_plain
  | OpUDiv op => exact op.fmt_plain
  | OpSDiv op => exact op.fmt_plain
  | OpFDiv op => exact op.fmt_plain
  | OpUMod op => exact op.fmt_plain
  | OpSRem op => exact op.fmt_plain
  | OpSMod op => exact op.fmt_plain
  | OpFRem op => exact op.fmt_plain
  | OpFMod op => exact op.fmt_plain
  | OpIAddCarry op => exact op.fmt_plain
  | OpISubBorrow op => exact op.fmt_plain
  | OpUMulExtended op => exact op.fmt_plain
  | OpSMulExtended op => exact op.fmt_plain
  | OpBitwiseOr op => exact op.fmt_plain
  | OpBitwiseXor op => exact op.fmt_plain
  | OpBitwiseAnd op => exact op.fmt_plain
  | OpIEqual op => exact op.fmt_plain
  | OpINotEqual op => exact op.fmt_plain
  | OpUGreaterThan op => exact op.fmt_plain
  | OpSGreaterThan op => exact op.fmt_plain
  | OpUGreaterThanEqual op => exact op.fmt_plain
  | OpSGreaterThanEqual op => exact op.fmt_plain
  | OpULessThan op => exact op.fmt_plain
  | OpSLessThan op => exact op.fmt_plain
  | OpULessThanEqual op => exact op.fmt_plain
  | OpSLessThanEqual op => exact op.fmt_plain
  | OpFOrdEqual op => exact op.fmt_plain
  | OpFUnordEqual op => exact op.fmt_plain
  | OpFOrdNotEqual op => exact op.fmt_plain
  | OpFUnordNotEqual op => exact op.fmt_plain
  | OpFOrdLessThan op => exact op.fmt_plain
  | OpFUnordLessThan op => exact op.fmt_plain
  | OpFOrdGreaterThan op => exact op.fmt_plain
  | OpFUnordGreaterThan op => exact op.fmt_plain
  | OpFOrdLessThanEqual op => exact op.fmt_plain
  | OpFUnordLessThanEqual op => exact op.fmt_plain
  | OpFOrdGreaterThanEqual op => exact op.fmt_plain
  | OpFUnordGreaterThanEqual op => exact op.fmt_plain
  | OpPhi op => exact op.fmt_plain

theorem branch_plain (b : GroupBranch) : ∀ ch ∈ Core.fmt (X := X) (branchInst b), Plain ch := by
  rw [← branch_fmt]
  cases b with
  | OpBranch op => exact op.fmt_plain
  | OpBranchConditional op => exact op.fmt_plain
  | OpReturn op => exact op.fmt_plain

theorem decimal_plain (n : Nat) : ∀ c ∈ decimal n, Plain c := by
  rw [decimal_eq]
  exact fun c h => fmtNat_plain h

/-- Every line of a block is the indentation, `>` and plain text -/
theorem blockLines_form (hx : ∀ x : X, ∀ c ∈ Display.fmt x, Plain c) (f : FunctionDefinition X) (id : UInt32)
    (k : Nat) : ∀ l ∈ blockLines f id k, ∃ t, l = writeIndent k ++ '>' :: t ∧ ∀ c ∈ t, Plain c := by
  intro l hl
  obtain ⟨b, -, hl⟩ := List.mem_flatMap.mp hl
  obtain ⟨t, ht, rfl⟩ := List.mem_map.mp hl
  rw [blockTexts] at ht
  rcases List.mem_cons.mp ht with rfl | ht
  · exact ⟨" Begin ".toList ++ decimal id.toNat, rfl, plain_append (by decide) (decimal_plain _)⟩
  rcases List.mem_append.mp ht with ht | ht
  · obtain ⟨c, -, rfl⟩ := List.mem_map.mp ht
    exact ⟨">> ".toList ++ Core.fmt (codeInst c), rfl, plain_append (by decide) (code_plain hx c)⟩
  rcases List.mem_cons.mp ht with rfl | ht
  · exact ⟨">> ".toList ++ Core.fmt (X := X) (branchInst b.branch), rfl, plain_append (by decide) (branch_plain _)⟩
  · rw [List.mem_singleton.mp ht]
    exact ⟨" End ".toList ++ decimal id.toNat, rfl, plain_append (by decide) (decimal_plain _)⟩

theorem lines_of_form {k : Nat} {ls : List Text}
    (h : ∀ l ∈ ls, ∃ t, l = writeIndent k ++ '>' :: t ∧ ∀ c ∈ t, Plain c) (ms : List Text) :
    wellIndented k (ls ++ ms) = wellIndented k ms ∧ depthAfter k (unlines ls) = some k ∧ ∀ l ∈ ls, '\n' ∉ l := by
  induction ls with
  | nil => exact ⟨rfl, rfl, fun l h => by cases h⟩
  | cons l ls ih =>
    obtain ⟨i1, i2, i3⟩ := ih (fun l hl => h l (List.mem_cons_of_mem _ hl))
    obtain ⟨t, rfl, ht⟩ := h l List.mem_cons_self
    have hp : ∀ c ∈ '>' :: t, Plain c := fun c hc => by
      rcases List.mem_cons.mp hc with rfl | hc
      · decide
      · exact ht c hc
    refine ⟨?_, ?_, ?_⟩
    · rw [List.cons_append, wellIndented_line (by decide) (by decide) (depthAfter_plain hp k), i1]
    · rw [unlines_cons, depthAfter_append, depthAfter_plain (plain_append (writeIndent_plain k) hp)]
      show depthAfter k ('\n' :: unlines ls) = _
      rw [depthAfter, if_neg (by decide), if_neg (by decide), i2]
    · intro l hl
      rcases List.mem_cons.mp hl with rfl | hl
      · exact line_of_plain (plain_append (writeIndent_plain k) hp)
      · exact i3 l hl

/-! ### Indentation -/

mutual
theorem fn_indented (hx : ∀ x : X, ∀ c ∈ Display.fmt x, Plain c) (f : FunctionDefinition X) :
    ∀ (c : ControlFlowChain), Unadorned c → ∀ (k : Nat) (ls : List Text),
      wellIndented k (fnLines f c k ++ ls) = wellIndented k ls
  | .Atom id, _, k, ls => by
    rw [fnLines]
    exact (lines_of_form (blockLines_form hx f id.val k) ls).1
  | .Block block, h, k, ls => by
    rw [fnLines]
    rw [Unadorned] at h
    exact fn_indentedAll hx f block h k ls
  | .Selection id left right hint weights, h, k, ls => by
    rw [Unadorned] at h
    obtain ⟨rfl, rfl, hul, hur⟩ := h
    have hl := fn_indented hx f left hul (k + 1)
    have hr := fn_indented hx f right hur (k + 1)
    rw [fnLines]
    simp only [List.append_assoc]
    refine (lines_of_form (blockLines_form hx f id.val k) _).1.trans ?_
    refine (wellIndented_line (c := '{') (cs := []) (k' := k + 1) (by decide) (by decide) rfl).trans ?_
    refine (hl _).trans ?_
    by_cases h : right.isEmptyBlock = true
    · rw [if_pos h]
      exact wellIndented_close rfl
    · rw [if_neg h]
      refine (wellIndented_close (cs := " else {".toList) (k' := k + 1)
        (depthAfter_open (t := " else".toList) (by decide) k)).trans ?_
      refine (hr _).trans ?_
      exact wellIndented_close rfl
  | .Loop id inner hint weights, h, k, ls => by
    rw [Unadorned] at h
    obtain ⟨rfl, rfl, hui⟩ := h
    have hl := fn_indented hx f inner hui (k + 1)
    rw [fnLines]
    simp only [List.append_assoc]
    refine (lines_of_form (blockLines_form hx f id.val k) _).1.trans ?_
    refine (wellIndented_line (c := '{') (cs := []) (k' := k + 1) (by decide) (by decide) rfl).trans ?_
    refine (hl _).trans ?_
    exact wellIndented_close rfl
  | .Break, _, k, ls => by
    rw [fnLines]
    exact wellIndented_line (c := 'b') (by decide) (by decide)
      (depthAfter_plain (s := "break;".toList) (by decide) k)
  | .Continue, _, k, ls => by
    rw [fnLines]
    exact wellIndented_line (c := 'c') (by decide) (by decide)
      (depthAfter_plain (s := "continue;".toList) (by decide) k)
theorem fn_indentedAll (hx : ∀ x : X, ∀ c ∈ Display.fmt x, Plain c) (f : FunctionDefinition X) :
    ∀ (cs : List ControlFlowChain), UnadornedAll cs → ∀ (k : Nat) (ls : List Text),
      wellIndented k (fnLinesAll f cs k ++ ls) = wellIndented k ls
  | [], _, k, ls => rfl
  | c :: cs, h, k, ls => by
    rw [UnadornedAll] at h
    rw [fnLinesAll, List.append_assoc, fn_indented hx f c h.1 k, fn_indentedAll hx f cs h.2 k]
end

/-- A line that starts with a hint or weights is not indented by a multiple of four spaces. -/
theorem wellIndented_hint (k : Nat) (t : Text) (ls : List Text) :
    wellIndented k ((' ' :: '[' :: t) :: ls) = none := by
  rw [wellIndented, if_neg]
  rw [show leadingSpaces (' ' :: '[' :: t) = 1 from rfl]
  omega

theorem hinted_line {hint weights : Text} (h1 : hint = [] ∨ ∃ t, hint = ' ' :: '[' :: t)
    (h2 : weights = [] ∨ ∃ t, weights = ' ' :: '[' :: t) (hne : ¬ (hint = [] ∧ weights = [])) (k : Nat) (t : Text)
    (ls : List Text) : wellIndented k ((hint ++ (weights ++ t)) :: ls) = none := by
  rcases h1 with rfl | ⟨t1, rfl⟩
  · rcases h2 with rfl | ⟨t2, rfl⟩
    · exact absurd ⟨rfl, rfl⟩ hne
    · exact wellIndented_hint k _ ls
  · exact wellIndented_hint k _ ls

theorem selectionHint_bracket (h : SelectionControl) : (fmtSelectionHint h = [] ↔ h = ⟨false, false⟩) ∧
    (fmtSelectionHint h = [] ∨ ∃ t, fmtSelectionHint h = ' ' :: '[' :: t) := by
  rw [fmtSelectionHint]
  by_cases hd : SelectionControl.default = h
  · rw [if_neg (by simpa using hd)]
    exact ⟨⟨fun _ => hd.symm, fun _ => rfl⟩, .inl rfl⟩
  · rw [if_pos hd]
    exact ⟨⟨(fun h => by cases h), fun h => absurd h.symm hd⟩, .inr ⟨_, rfl⟩⟩

theorem loopHint_bracket (h : LoopControl) : (fmtLoopHint h = [] ↔ h = ⟨false, false, false, none⟩) ∧
    (fmtLoopHint h = [] ∨ ∃ t, fmtLoopHint h = ' ' :: '[' :: t) := by
  rw [fmtLoopHint]
  by_cases hd : LoopControl.default = h
  · rw [if_neg (by simpa using hd)]
    exact ⟨⟨fun _ => hd.symm, fun _ => rfl⟩, .inl rfl⟩
  · rw [if_pos hd]
    exact ⟨⟨(fun h => by cases h), fun h => absurd h.symm hd⟩, .inr ⟨_, rfl⟩⟩

theorem weights_bracket (w : Option BranchWeights) : (fmtWeights w = [] ↔ w = none) ∧
    (fmtWeights w = [] ∨ ∃ t, fmtWeights w = ' ' :: '[' :: t) := by
  cases w with
  | none => exact ⟨⟨fun _ => rfl, fun _ => rfl⟩, .inl rfl⟩
  | some w => exact ⟨⟨(fun h => by cases h), (fun h => by cases h)⟩, .inr ⟨_, rfl⟩⟩

mutual
/-- Lines with a hint or weights among them are not well indented. -/
theorem fn_adorned (hx : ∀ x : X, ∀ c ∈ Display.fmt x, Plain c) (f : FunctionDefinition X) :
    ∀ (c : ControlFlowChain), ¬ Unadorned c → ∀ (k : Nat) (ls : List Text),
      wellIndented k (fnLines f c k ++ ls) = none
  | .Atom _, h, _, _ => absurd trivial h
  | .Block block, h, k, ls => by
    rw [fnLines]
    rw [Unadorned] at h
    exact fn_adornedAll hx f block h k ls
  | .Selection id left right hint weights, h, k, ls => by
    rw [Unadorned] at h
    have al := fn_adorned hx f left
    have ar := fn_adorned hx f right
    rw [fnLines]
    simp only [List.append_assoc]
    refine (lines_of_form (blockLines_form hx f id.val k) _).1.trans ?_
    by_cases hb : fmtSelectionHint hint = [] ∧ fmtWeights weights = []
    · have h1 := (selectionHint_bracket hint).1.mp hb.1
      have h2 := (weights_bracket weights).1.mp hb.2
      subst h1 h2
      refine (wellIndented_line (c := '{') (cs := []) (k' := k + 1) (by decide) (by decide) rfl).trans ?_
      by_cases hul : Unadorned left
      · have hur : ¬ Unadorned right := fun hr => h ⟨rfl, rfl, hul, hr⟩
        refine (fn_indented hx f left hul (k + 1) _).trans ?_
        by_cases he : right.isEmptyBlock = true
        · refine absurd ?_ hur
          cases right with
          | Block cs =>
            cases cs with
            | nil => rw [Unadorned, UnadornedAll]; trivial
            | cons _ _ => cases he
          | _ => cases he
        · rw [if_neg he]
          refine (wellIndented_close (cs := " else {".toList) (k' := k + 1)
            (depthAfter_open (t := " else".toList) (by decide) k)).trans ?_
          exact ar hur (k + 1) _
      · exact al hul (k + 1) _
    · exact hinted_line (selectionHint_bracket hint).2 (weights_bracket weights).2 hb k _ _
  | .Loop id inner hint weights, h, k, ls => by
    rw [Unadorned] at h
    have ai := fn_adorned hx f inner
    rw [fnLines]
    simp only [List.append_assoc]
    refine (lines_of_form (blockLines_form hx f id.val k) _).1.trans ?_
    by_cases hb : fmtLoopHint hint = [] ∧ fmtWeights weights = []
    · have h1 := (loopHint_bracket hint).1.mp hb.1
      have h2 := (weights_bracket weights).1.mp hb.2
      subst h1 h2
      refine (wellIndented_line (c := '{') (cs := []) (k' := k + 1) (by decide) (by decide) rfl).trans ?_
      exact ai (fun hi => h ⟨rfl, rfl, hi⟩) (k + 1) _
    · exact hinted_line (loopHint_bracket hint).2 (weights_bracket weights).2 hb k _ _
  | .Break, h, _, _ => absurd trivial h
  | .Continue, h, _, _ => absurd trivial h
theorem fn_adornedAll (hx : ∀ x : X, ∀ c ∈ Display.fmt x, Plain c) (f : FunctionDefinition X) :
    ∀ (cs : List ControlFlowChain), ¬ UnadornedAll cs → ∀ (k : Nat) (ls : List Text),
      wellIndented k (fnLinesAll f cs k ++ ls) = none
  | [], h, _, _ => absurd trivial h
  | c :: cs, h, k, ls => by
    rw [UnadornedAll] at h
    rw [fnLinesAll, List.append_assoc]
    by_cases hc : Unadorned c
    · rw [fn_indented hx f c hc k]
      exact fn_adornedAll hx f cs (fun hcs => h ⟨hc, hcs⟩) k ls
    · exact fn_adorned hx f c hc k _
end

/-! ### Braces -/

theorem depthAfter_line {t : Text} {d d' : Nat} (ht : depthAfter d t = some d') (ls : List Text) :
    depthAfter d (unlines (t :: ls)) = depthAfter d' (unlines ls) := by
  rw [unlines_cons, depthAfter_append, ht]
  show depthAfter d' ('\n' :: unlines ls) = _
  rw [depthAfter, if_neg (by decide), if_neg (by decide)]

theorem depthAfter_skip {s t : Text} {d : Nat} (hs : ∀ c ∈ s, Plain c) :
    depthAfter d (s ++ t) = depthAfter d t := by
  rw [depthAfter_append, depthAfter_plain hs]
  rfl

theorem block_balanced (hx : ∀ x : X, ∀ c ∈ Display.fmt x, Plain c) (f : FunctionDefinition X) (id : UInt32)
    (k d : Nat) (ls : List Text) :
    depthAfter d (unlines (blockLines f id k ++ ls)) = depthAfter d (unlines ls) := by
  have h : ∀ l ∈ blockLines f id k, ∀ c ∈ l, Plain c := by
    intro l hl
    obtain ⟨t, rfl, ht⟩ := blockLines_form hx f id k l hl
    refine plain_append (writeIndent_plain k) (fun c hc => ?_)
    rcases List.mem_cons.mp hc with rfl | hc
    · decide
    · exact ht c hc
  revert h
  generalize blockLines f id k = bs
  intro h
  induction bs with
  | nil => rfl
  | cons l bs ih =>
    rw [List.cons_append, depthAfter_line (depthAfter_plain (h l List.mem_cons_self) d)]
    exact ih (fun l hl => h l (List.mem_cons_of_mem _ hl))

mutual
theorem fn_balanced (hx : ∀ x : X, ∀ c ∈ Display.fmt x, Plain c) (f : FunctionDefinition X) :
    ∀ (c : ControlFlowChain) (k d : Nat) (ls : List Text),
      depthAfter d (unlines (fnLines f c k ++ ls)) = depthAfter d (unlines ls)
  | .Atom id, k, d, ls => by
    rw [fnLines]
    exact block_balanced hx f id.val k d ls
  | .Block block, k, d, ls => by
    rw [fnLines]
    exact fn_balancedAll hx f block k d ls
  | .Selection id left right hint weights, k, d, ls => by
    have hl := fn_balanced hx f left (k + 1) (d + 1)
    have hr := fn_balanced hx f right (k + 1) (d + 1)
    rw [fnLines]
    simp only [List.append_assoc]
    refine (block_balanced hx f id.val k d _).trans ?_
    refine (depthAfter_line (d' := d + 1) ?_ _).trans ?_
    · rw [depthAfter_skip (selectionHint_plain hint), depthAfter_skip (weights_plain weights),
        depthAfter_skip (writeIndent_plain k)]
      rfl
    refine (hl _).trans ?_
    by_cases h : right.isEmptyBlock = true
    · rw [if_pos h]
      refine depthAfter_line ?_ _
      rw [depthAfter_skip (writeIndent_plain k)]
      rfl
    · rw [if_neg h]
      refine (depthAfter_line (d' := d + 1) ?_ _).trans ?_
      · rw [depthAfter_skip (writeIndent_plain k)]
        rfl
      refine (hr _).trans ?_
      refine depthAfter_line ?_ _
      rw [depthAfter_skip (writeIndent_plain k)]
      rfl
  | .Loop id inner hint weights, k, d, ls => by
    have hl := fn_balanced hx f inner (k + 1) (d + 1)
    rw [fnLines]
    simp only [List.append_assoc]
    refine (block_balanced hx f id.val k d _).trans ?_
    refine (depthAfter_line (d' := d + 1) ?_ _).trans ?_
    · rw [depthAfter_skip (loopHint_plain hint), depthAfter_skip (weights_plain weights),
        depthAfter_skip (writeIndent_plain k)]
      rfl
    refine (hl _).trans ?_
    refine depthAfter_line ?_ _
    rw [depthAfter_skip (writeIndent_plain k)]
    rfl
  | .Break, k, d, ls => by
    rw [fnLines]
    refine depthAfter_line ?_ _
    rw [depthAfter_skip (writeIndent_plain k)]
    rfl
  | .Continue, k, d, ls => by
    rw [fnLines]
    refine depthAfter_line ?_ _
    rw [depthAfter_skip (writeIndent_plain k)]
    rfl
theorem fn_balancedAll (hx : ∀ x : X, ∀ c ∈ Display.fmt x, Plain c) (f : FunctionDefinition X) :
    ∀ (cs : List ControlFlowChain) (k d : Nat) (ls : List Text),
      depthAfter d (unlines (fnLinesAll f cs k ++ ls)) = depthAfter d (unlines ls)
  | [], k, d, ls => rfl
  | c :: cs, k, d, ls => by
    rw [fnLinesAll, List.append_assoc, fn_balanced hx f c k d, fn_balancedAll hx f cs k d]
end

/-! ### Listing -/

omit [Display X] in
theorem listed_append (as bs : List Text) : listed (as ++ bs) = listed as ++ listed bs := by
  rw [listed, List.map_append, List.filter_append]
  rfl

omit [Display X] in
theorem trimmed_indent (k : Nat) (t : Text) : trimmed (writeIndent k ++ t) = trimmed t := by
  rw [writeIndent_eq]
  induction 4 * k with
  | zero => rfl
  | succ n ih =>
    rw [List.replicate_succ, List.cons_append, trimmed, List.dropWhile_cons_of_pos (by rfl)]
    exact ih

omit [Display X] in
/-- A line that is not part of a block -/
theorem listed_other {t : Text} (h : (trimmed t).head? ≠ some '>') (ls : List Text) :
    listed (t :: ls) = listed ls := by
  rw [listed, List.map_cons, List.filter_cons_of_neg (by simpa using h)]
  rfl

omit [Display X] in
theorem trimmed_hint {s t : Text} (hs : s = [] ∨ ∃ u, s = ' ' :: '[' :: u) (ht : (trimmed t).head? ≠ some '>') :
    (trimmed (s ++ t)).head? ≠ some '>' := by
  rcases hs with rfl | ⟨u, rfl⟩
  · exact ht
  · rw [List.cons_append, trimmed, List.dropWhile_cons_of_pos (by rfl), List.cons_append,
      List.dropWhile_cons_of_neg (by decide)]
    exact fun h => absurd (Option.some.inj h) (by decide)

omit [Display X] in
theorem selectionHint_form (h : SelectionControl) : fmtSelectionHint h = [] ∨ ∃ u, fmtSelectionHint h = ' ' :: '[' :: u := by
  rw [fmtSelectionHint]
  split
  · exact .inr ⟨_, rfl⟩
  · exact .inl rfl

omit [Display X] in
theorem loopHint_form (h : LoopControl) : fmtLoopHint h = [] ∨ ∃ u, fmtLoopHint h = ' ' :: '[' :: u := by
  rw [fmtLoopHint]
  split
  · exact .inr ⟨_, rfl⟩
  · exact .inl rfl

omit [Display X] in
theorem weights_form (w : Option BranchWeights) : fmtWeights w = [] ∨ ∃ u, fmtWeights w = ' ' :: '[' :: u := by
  cases w with
  | none => exact .inl rfl
  | some w => exact .inr ⟨_, rfl⟩

omit [Display X] in
theorem listed_texts (k : Nat) (ts : List Text) (h : ∀ t ∈ ts, ∃ u, t = '>' :: u) :
    listed (ts.map (fun t => writeIndent k ++ t)) = ts := by
  induction ts with
  | nil => rfl
  | cons t ts ih =>
    obtain ⟨u, rfl⟩ := h t List.mem_cons_self
    have ht : trimmed (writeIndent k ++ '>' :: u) = '>' :: u := by
      rw [trimmed_indent, trimmed, List.dropWhile_cons_of_neg (by decide)]
    rw [listed, List.map_cons, List.map_cons, ht, List.filter_cons_of_pos (by rfl)]
    exact congrArg _ (ih (fun t ht => h t (List.mem_cons_of_mem _ ht)))

theorem blockTexts_listing (b : BasicBlock X) : blockTexts b (labelId b) = blockListing b := by
  rw [blockTexts, blockListing, List.map_append, List.map_map, List.append_assoc, List.append_assoc]
  rfl

theorem blockTexts_form (b : BasicBlock X) (id : UInt32) : ∀ t ∈ blockTexts b id, ∃ u, t = '>' :: u := by
  intro t ht
  rw [blockTexts] at ht
  rcases List.mem_cons.mp ht with rfl | ht
  · exact ⟨_, rfl⟩
  rcases List.mem_append.mp ht with ht | ht
  · obtain ⟨c, -, rfl⟩ := List.mem_map.mp ht
    exact ⟨_, rfl⟩
  rcases List.mem_cons.mp ht with rfl | ht
  · exact ⟨_, rfl⟩
  · rw [List.mem_singleton.mp ht]
    exact ⟨_, rfl⟩

theorem listed_block (f : FunctionDefinition X) (id : UInt32) (k : Nat) :
    listed (blockLines f id k) = (blocksAt f.blocks id).flatMap blockListing := by
  have h : ∀ b ∈ blocksAt f.blocks id, labelId b = id := by
    intro b hb
    exact beq_iff_eq.mp (List.mem_filter.mp hb).2
  rw [blockLines]
  revert h
  generalize blocksAt f.blocks id = bs
  intro h
  induction bs with
  | nil => rfl
  | cons b bs ih =>
    rw [List.flatMap_cons, List.flatMap_cons, listed_append, ih (fun b hb => h b (List.mem_cons_of_mem _ hb)),
      listed_texts k _ (blockTexts_form b id), ← blockTexts_listing, h b List.mem_cons_self]

omit [Display X] in
theorem isEmptyBlock_ids {c : ControlFlowChain} (h : c.isEmptyBlock = true) : chainIds c = [] := by
  rw [isEmptyBlock_eq h, chainIds, chainIdsAll]

mutual
theorem fn_listed (f : FunctionDefinition X) : ∀ (c : ControlFlowChain) (k : Nat),
    listed (fnLines f c k) = (chainIds c).flatMap (fun id => (blocksAt f.blocks id).flatMap blockListing)
  | .Atom id, k => by
    rw [fnLines, chainIds, listed_block, List.flatMap_cons, List.flatMap_nil, List.append_nil]
  | .Block block, k => by
    rw [fnLines, chainIds]
    exact fn_listedAll f block k
  | .Selection id left right hint weights, k => by
    have hl := fn_listed f left (k + 1)
    have hr := fn_listed f right (k + 1)
    have hi (c : Text) (hc : (trimmed c).head? ≠ some '>') : (trimmed (writeIndent k ++ c)).head? ≠ some '>' := by
      rw [trimmed_indent]
      exact hc
    rw [fnLines, chainIds, List.flatMap_cons, List.flatMap_append, listed_append, listed_block, List.singleton_append,
      listed_other (trimmed_hint (selectionHint_form hint) (trimmed_hint (weights_form weights) (hi _ (by decide)))),
      listed_append, listed_append, hl, ← hr]
    congr 2
    rw [listed_other (hi _ (by decide)), show listed [] = [] from rfl, List.append_nil]
    by_cases h : right.isEmptyBlock = true
    · rw [if_pos h, hr, isEmptyBlock_ids h]
      rfl
    · rw [if_neg h, listed_other (hi _ (by decide))]
  | .Loop id inner hint weights, k => by
    have hl := fn_listed f inner (k + 1)
    have hi (c : Text) (hc : (trimmed c).head? ≠ some '>') : (trimmed (writeIndent k ++ c)).head? ≠ some '>' := by
      rw [trimmed_indent]
      exact hc
    rw [fnLines, chainIds, List.flatMap_cons, listed_append, listed_block, List.singleton_append,
      listed_other (trimmed_hint (loopHint_form hint) (trimmed_hint (weights_form weights) (hi _ (by decide)))),
      listed_append, hl, listed_other (hi _ (by decide)), show listed [] = [] from rfl, List.append_nil]
  | .Break, k => by
    rw [fnLines, chainIds, listed_other (by rw [trimmed_indent]; decide)]
    rfl
  | .Continue, k => by
    rw [fnLines, chainIds, listed_other (by rw [trimmed_indent]; decide)]
    rfl
theorem fn_listedAll (f : FunctionDefinition X) : ∀ (cs : List ControlFlowChain) (k : Nat),
    listed (fnLinesAll f cs k) = (chainIdsAll cs).flatMap (fun id => (blocksAt f.blocks id).flatMap blockListing)
  | [], k => rfl
  | c :: cs, k => by
    rw [fnLinesAll, chainIdsAll, listed_append, List.flatMap_append, fn_listed f c k, fn_listedAll f cs k]
end

/-! ### Line breaks -/

theorem blockLines_line (hx : ∀ x : X, ∀ c ∈ Display.fmt x, Plain c) (f : FunctionDefinition X) (id : UInt32)
    (k : Nat) : ∀ l ∈ blockLines f id k, '\n' ∉ l :=
  (lines_of_form (blockLines_form hx f id k) []).2.2

mutual
theorem fnLines_line (hx : ∀ x : X, ∀ c ∈ Display.fmt x, Plain c) (f : FunctionDefinition X) :
    ∀ (c : ControlFlowChain) (k : Nat), ∀ l ∈ fnLines f c k, '\n' ∉ l
  | .Atom id, k => by
    rw [fnLines]
    exact blockLines_line hx f id.val k
  | .Block block, k => by
    rw [fnLines]
    exact fnLinesAll_line hx f block k
  | .Selection id left right hint weights, k => by
    have hl := fnLines_line hx f left (k + 1)
    have hr := fnLines_line hx f right (k + 1)
    rw [fnLines]
    intro l h
    rcases List.mem_append.mp h with h | h
    · exact blockLines_line hx f id.val k l h
    rcases List.mem_append.mp h with h | h
    · rw [List.mem_singleton.mp h]
      exact line_append (line_of_plain (selectionHint_plain hint)) (line_append (line_of_plain (weights_plain weights))
        (line_writeIndent k (by decide)))
    rcases List.mem_append.mp h with h | h
    · exact hl l h
    rcases List.mem_append.mp h with h | h
    · by_cases he : right.isEmptyBlock = true
      · rw [if_pos he] at h
        cases h
      · rw [if_neg he] at h
        rcases List.mem_cons.mp h with rfl | h
        · exact line_writeIndent k (by decide)
        · exact hr l h
    · rw [List.mem_singleton.mp h]
      exact line_writeIndent k (by decide)
  | .Loop id inner hint weights, k => by
    have hl := fnLines_line hx f inner (k + 1)
    rw [fnLines]
    intro l h
    rcases List.mem_append.mp h with h | h
    · exact blockLines_line hx f id.val k l h
    rcases List.mem_append.mp h with h | h
    · rw [List.mem_singleton.mp h]
      exact line_append (line_of_plain (loopHint_plain hint)) (line_append (line_of_plain (weights_plain weights))
        (line_writeIndent k (by decide)))
    rcases List.mem_append.mp h with h | h
    · exact hl l h
    · rw [List.mem_singleton.mp h]
      exact line_writeIndent k (by decide)
  | .Break, k => by
    rw [fnLines]
    intro l hl
    rw [List.mem_singleton.mp hl]
    exact line_writeIndent k (by decide)
  | .Continue, k => by
    rw [fnLines]
    intro l hl
    rw [List.mem_singleton.mp hl]
    exact line_writeIndent k (by decide)
theorem fnLinesAll_line (hx : ∀ x : X, ∀ c ∈ Display.fmt x, Plain c) (f : FunctionDefinition X) :
    ∀ (cs : List ControlFlowChain) (k : Nat), ∀ l ∈ fnLinesAll f cs k, '\n' ∉ l
  | [], k => by intro l h; cases h
  | c :: cs, k => by
    rw [fnLinesAll]
    intro l h
    rcases List.mem_append.mp h with h | h
    · exact fnLines_line hx f c k l h
    · exact fnLinesAll_line hx f cs k l h
end

theorem lines_function (hx : ∀ x : X, ∀ c ∈ Display.fmt x, Plain c) {f : FunctionDefinition X}
    {c : ControlFlowChain} {t : Text} (h : fmtFunction f c = .ok t) :
    t = unlines (fnLines f c 0) ∧ lines t = fnLines f c 0 := by
  have := fmtFunction_lines f c 0 t h
  exact ⟨this, by rw [this, lines_unlines (fnLines_line hx f c 0)]⟩

end

end Magma
