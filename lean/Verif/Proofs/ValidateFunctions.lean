import Verif.Proofs.Validate
/-! The phases of the validator that read blocks, function declarations and function definitions. -/

namespace Magma
variable {X : Type}

/-! ### Blocks -/

/-- The start of a block, up to the instruction that ends it -/
def blockHeadB (l : OpLabel) (code : List (GroupCode X)) (merge : Option GroupMerge) : List (OpByBlock X) :=
  .OpLabel l :: (code.map .GroupCode ++ merge.toList.map .GroupMerge)

def blockB (b : BasicBlock X) : List (OpByBlock X) :=
  blockHeadB b.label b.code b.merge ++ [.GroupBranch b.branch]

/-- What cannot follow the start of a block -/
structure NotBranch (merge : Option GroupMerge) (r : List (OpByBlock X)) : Prop where
  code : NotHead .GroupCode (merge.toList.map .GroupMerge ++ r)
  merge : merge = none → NotHead .GroupMerge r
  branch : NotHead .GroupBranch r

theorem readMerge_some (pre r : List (OpByBlock X)) (m : GroupMerge) :
    readMerge (cur pre (.GroupMerge m :: r)) = .ok (some m, cur (pre ++ [.GroupMerge m]) r) := by
  simp only [readMerge, cur_first_cons, cur_advance, vok_bind]; rfl

theorem readMerge_none (pre r : List (OpByBlock X)) (h : NotHead .GroupMerge r) :
    readMerge (cur pre r) = .ok (none, cur pre r) := by
  cases r with
  | nil => simp [readMerge]; rfl
  | cons x r =>
    rw [notHead_cons] at h
    cases x <;> first
      | exact absurd rfl (h _)
      | (simp only [readMerge, cur_first_cons]; rfl)

theorem readMerge_opt (pre r : List (OpByBlock X)) (m : Option GroupMerge)
    (h : m = none → NotHead .GroupMerge r) :
    readMerge (cur pre (m.toList.map .GroupMerge ++ r)) =
      .ok (m, cur (pre ++ m.toList.map .GroupMerge) r) := by
  cases m with
  | none => simpa using readMerge_none pre r (h rfl)
  | some m => simpa using readMerge_some pre r m

theorem readBranch_some (pre r : List (OpByBlock X)) (b : GroupBranch) :
    readBranch (cur pre (.GroupBranch b :: r)) = .ok (b, cur (pre ++ [.GroupBranch b]) r) := by
  simp only [readBranch, cur_first_cons, cur_advance, vok_bind]; rfl

theorem readBranch_none (pre r : List (OpByBlock X)) (h : NotHead .GroupBranch r) :
    readBranch (cur pre r) = .error (.err (.ExpectedBranch pre.length)) := by
  cases r with
  | nil => simp [readBranch]
  | cons x r =>
    rw [notHead_cons] at h
    cases x <;> first
      | exact absurd rfl (h _)
      | simp only [readBranch, cur_first_cons, cur_slot]

theorem readBasicBlock_head (pre r : List (OpByBlock X)) (l : OpLabel) (code : List (GroupCode X))
    (merge : Option GroupMerge) (hc : NotHead .GroupCode (merge.toList.map .GroupMerge ++ r))
    (hm : merge = none → NotHead .GroupMerge r) :
    readBasicBlock (cur pre (blockHeadB l code merge ++ r)) = (do
      let (branch, insts) ← readBranch (cur (pre ++ blockHeadB l code merge) r)
      return .ok { label := l, code := code, merge := merge, branch := branch } insts) := by
  have e : blockHeadB l code merge ++ r =
      .OpLabel l :: (code.map .GroupCode ++ (merge.toList.map .GroupMerge ++ r)) := by
    simp [blockHeadB]
  rw [e]
  simp only [readBasicBlock, cur_first_cons, cur_advance, vok_bind]
  rw [simple_code.readMany _ _ _ hc]
  simp only [vok_bind]
  rw [readMerge_opt _ _ _ hm]
  simp only [vok_bind]
  simp [blockHeadB, List.append_assoc]

theorem notHead_of_kind {T : Type} {emb : T → OpByBlock X} {merge : Option GroupMerge}
    {x : OpByBlock X} {r : List (OpByBlock X)} (h1 : ∀ t m, OpByBlock.GroupMerge m ≠ emb t)
    (h2 : ∀ t, x ≠ emb t) : NotHead emb (merge.toList.map .GroupMerge ++ x :: r) := by
  cases merge with
  | none => simpa [notHead_cons] using h2
  | some m =>
    simp only [Option.toList_some, List.map_cons, List.map_nil, List.cons_append, notHead_cons]
    exact fun t => h1 t m

theorem hits_block : Hits (X := X) readBasicBlock blockB := by
  refine ⟨?_, by simp [blockB]⟩
  intro b pre r
  have e : blockB b ++ r = blockHeadB b.label b.code b.merge ++ .GroupBranch b.branch :: r := by
    simp [blockB]
  rw [e, readBasicBlock_head _ _ _ _ _ (notHead_of_kind (by simp) (by simp)) (by simp [notHead_cons])]
  rw [readBranch_some]
  simp only [vok_bind]
  simp [blockB]
  rfl

theorem readBasicBlock_next (pre r : List (OpByBlock X)) (h : NotHead .OpLabel r) :
    readBasicBlock (cur pre r) = .ok (.next (cur pre r)) := by
  cases r with
  | nil => simp [readBasicBlock]; rfl
  | cons x r =>
    rw [notHead_cons] at h
    cases x <;> first
      | exact absurd rfl (h _)
      | (simp only [readBasicBlock, cur_first_cons]; rfl)

theorem readBasicBlock_error (pre r : List (OpByBlock X)) (l : OpLabel) (code : List (GroupCode X))
    (merge : Option GroupMerge) (h : NotBranch merge r) :
    readBasicBlock (cur pre (blockHeadB l code merge ++ r)) =
      .error (.err (.ExpectedBranch (pre ++ blockHeadB l code merge).length)) := by
  rw [readBasicBlock_head _ _ _ _ _ h.code h.merge, readBranch_none _ _ h.branch]
  rfl

theorem head_cases {T : Type} (emb : T → OpByBlock X) (r : List (OpByBlock X)) :
    NotHead emb r ∨ ∃ t r', r = emb t :: r' := by
  cases r with
  | nil => exact .inl (notHead_nil _)
  | cons x r =>
    by_cases h : ∃ t, x = emb t
    · obtain ⟨t, rfl⟩ := h
      exact .inr ⟨t, r, rfl⟩
    · exact .inl (notHead_cons.mpr fun t ht => h ⟨t, ht⟩)

/-- What follows the last complete block -/
theorem block_cases {r : List (OpByBlock X)} (h : NoItem blockB r) :
    NotHead .OpLabel r ∨ ∃ l code merge r', r = blockHeadB l code merge ++ r' ∧ NotBranch merge r' := by
  rcases head_cases .OpLabel r with hl | ⟨l, r1, rfl⟩
  · exact .inl hl
  · right
    obtain ⟨code, r2, rfl, hc⟩ := split_kind .GroupCode r1
    rcases head_cases .GroupMerge r2 with hm | ⟨m, r3, rfl⟩
    · refine ⟨l, code, none, r2, by simp [blockHeadB], by simpa using hc, fun _ => hm, ?_⟩
      intro t ht
      cases r2 with
      | nil => simp at ht
      | cons x r2 =>
        simp only [List.head?_cons, Option.some.injEq] at ht
        subst ht
        exact h ⟨l, code, none, t⟩ r2 (by simp [blockB, blockHeadB])
    · refine ⟨l, code, some m, r3, by simp [blockHeadB], by simpa using hc, by simp, ?_⟩
      intro t ht
      cases r3 with
      | nil => simp at ht
      | cons x r3 =>
        simp only [List.head?_cons, Option.some.injEq] at ht
        subst ht
        exact h ⟨l, code, some m, t⟩ r3 (by simp [blockB, blockHeadB])

/-! ### Declarations -/

/-- The start of a function, up to its parameters -/
def functionHeadB (f : OpFunction) (params : List OpFunctionParameter) : List (OpByBlock X) :=
  .OpFunction f :: params.map .OpFunctionParameter

def declarationB (d : FunctionDeclaration) : List (OpByBlock X) :=
  functionHeadB d.function d.parameters ++ [.OpFunctionEnd {}]

def definitionB (d : FunctionDefinition X) : List (OpByBlock X) :=
  functionHeadB d.function d.parameters ++ d.blocks.flatMap blockB ++ [.OpFunctionEnd {}]

theorem hits_declaration : Hits (X := X) readFunctionDeclaration declarationB := by
  refine ⟨?_, by simp [declarationB]⟩
  intro d pre r
  have e : declarationB d ++ r =
      .OpFunction d.function :: (d.parameters.map .OpFunctionParameter ++ .OpFunctionEnd {} :: r) := by
    simp [declarationB, functionHeadB]
  rw [e]
  simp only [readFunctionDeclaration, cur_remaining, cur_first_cons, cur_advance, vok_bind]
  rw [if_neg (by simp; omega)]
  rw [simple_parameter.readMany _ _ _ (by simp [notHead_cons])]
  simp only [vok_bind, cur_first_cons, cur_advance]
  simp [declarationB, functionHeadB]
  rfl

theorem readFunctionDeclaration_short (pre r : List (OpByBlock X)) (h : r.length < 2) :
    readFunctionDeclaration (cur pre r) = .ok (.next (cur pre r)) := by
  simp only [readFunctionDeclaration, cur_remaining, vok_bind]
  rw [if_pos h]
  rfl

theorem readFunctionDeclaration_error (pre r : List (OpByBlock X)) (h : 2 ≤ r.length)
    (hf : NotHead .OpFunction r) :
    readFunctionDeclaration (cur pre r) = .ok (.err (.ExpectedOpFunction pre.length)) := by
  simp only [readFunctionDeclaration, cur_remaining, vok_bind]
  rw [if_neg (by omega)]
  cases r with
  | nil => simp at h
  | cons x r =>
    rw [notHead_cons] at hf
    cases x <;> first
      | exact absurd rfl (hf _)
      | (simp only [cur_first_cons]; rfl)

theorem readFunctionDeclaration_next (pre r : List (OpByBlock X)) (f : OpFunction)
    (params : List OpFunctionParameter) (hr : r ≠ []) (hp : NotHead .OpFunctionParameter r)
    (he : NotHead .OpFunctionEnd r) :
    readFunctionDeclaration (cur pre (functionHeadB f params ++ r)) =
      .ok (.next (cur pre (functionHeadB f params ++ r))) := by
  have e : functionHeadB f params ++ r = .OpFunction f :: (params.map .OpFunctionParameter ++ r) := by
    simp [functionHeadB]
  rw [e]
  simp only [readFunctionDeclaration, cur_remaining, cur_first_cons, cur_advance, vok_bind]
  have := List.length_pos_iff.mpr hr
  rw [if_neg (by simp; omega)]
  rw [simple_parameter.readMany _ _ _ hp]
  cases r with
  | nil => exact absurd rfl hr
  | cons x r =>
    rw [notHead_cons] at he
    cases x <;> first
      | exact absurd rfl (he _)
      | (simp only [vok_bind, cur_first_cons]; rfl)

/-- As above, when the function is the last thing in the module -/
theorem readFunctionDeclaration_cut (pre : List (OpByBlock X)) (f : OpFunction)
    (params : List OpFunctionParameter) :
    readFunctionDeclaration (cur pre (functionHeadB f params)) =
      .ok (.next (cur pre (functionHeadB f params))) := by
  have e : functionHeadB f params = .OpFunction f :: (params.map .OpFunctionParameter ++ ([] : List (OpByBlock X))) := by
    simp [functionHeadB]
  rw [e]
  simp only [readFunctionDeclaration, cur_remaining, cur_first_cons, cur_advance, vok_bind]
  split
  · rfl
  · rw [simple_parameter.readMany _ _ _ (notHead_nil _)]
    simp only [vok_bind, cur_first_nil]
    rfl

/-- What follows the last declaration -/
theorem declaration_cases {r : List (OpByBlock X)} (h : NoItem declarationB r) :
    r.length < 2 ∨ (2 ≤ r.length ∧ NotHead .OpFunction r) ∨
      ∃ f params r', r = functionHeadB f params ++ r' ∧ NotHead .OpFunctionParameter r' ∧
        NotHead .OpFunctionEnd r' := by
  by_cases hl : r.length < 2
  · exact .inl hl
  · right
    rcases head_cases .OpFunction r with hf | ⟨f, r1, rfl⟩
    · exact .inl ⟨by omega, hf⟩
    · right
      obtain ⟨params, r2, rfl, hp⟩ := split_kind .OpFunctionParameter r1
      refine ⟨f, params, r2, by simp [functionHeadB], hp, ?_⟩
      intro t ht
      cases r2 with
      | nil => simp at ht
      | cons x r2 =>
        simp only [List.head?_cons, Option.some.injEq] at ht
        subst ht
        exact h ⟨f, params⟩ r2 (by simp [declarationB, functionHeadB])

theorem readFunctionDeclaration_next' (pre r : List (OpByBlock X)) (f : OpFunction)
    (params : List OpFunctionParameter) (hp : NotHead .OpFunctionParameter r)
    (he : NotHead .OpFunctionEnd r) :
    readFunctionDeclaration (cur pre (functionHeadB f params ++ r)) =
      .ok (.next (cur pre (functionHeadB f params ++ r))) := by
  cases r with
  | nil => simpa using readFunctionDeclaration_cut pre f params
  | cons x r => exact readFunctionDeclaration_next pre _ f params (by simp) hp he

/-! ### Definitions -/

theorem notHead_blocks {T : Type} {emb : T → OpByBlock X} {blocks : List (BasicBlock X)}
    {r : List (OpByBlock X)} (h1 : ∀ t l, OpByBlock.OpLabel l ≠ emb t) (h2 : NotHead emb r) :
    NotHead emb (blocks.flatMap blockB ++ r) := by
  cases blocks with
  | nil => simpa using h2
  | cons b blocks =>
    simp only [List.flatMap_cons, blockB, blockHeadB, List.cons_append, notHead_cons]
    exact fun t => h1 t _

theorem readFunctionDefinition_head (pre r : List (OpByBlock X)) (f : OpFunction)
    (params : List OpFunctionParameter) (hl : 2 ≤ (functionHeadB f params ++ r).length)
    (hp : NotHead .OpFunctionParameter r) :
    readFunctionDefinition (cur pre (functionHeadB f params ++ r)) = (do
      let (blocks, insts) ← readMany (cur (pre ++ functionHeadB f params) r) readBasicBlock
      match insts.first with
      | some (.OpFunctionEnd _) => do
        let insts ← insts.advance
        return .ok { function := f, parameters := params, blocks := blocks } insts
      | _ => return .err (.ExpectedOpFunctionEnd insts.getSlot)) := by
  have e : functionHeadB f params ++ r = .OpFunction f :: (params.map .OpFunctionParameter ++ r) := by
    simp [functionHeadB]
  have e2 : pre ++ [.OpFunction f] ++ params.map .OpFunctionParameter = pre ++ functionHeadB f params := by
    simp [functionHeadB]
  rw [e] at hl ⊢
  simp only [readFunctionDefinition, cur_remaining, cur_first_cons, cur_advance, vok_bind]
  rw [if_neg (by omega)]
  rw [simple_parameter.readMany _ _ _ hp]
  simp only [vok_bind]
  rw [e2]
  rfl

theorem hits_definition : Hits (X := X) readFunctionDefinition definitionB := by
  refine ⟨?_, by simp [definitionB]⟩
  intro d pre r
  have e : definitionB d ++ r =
      functionHeadB d.function d.parameters ++ (d.blocks.flatMap blockB ++ .OpFunctionEnd {} :: r) := by
    simp [definitionB]
  rw [e, readFunctionDefinition_head]
  · rw [hits_block.readMany_next _ _ _ (readBasicBlock_next _ _ (by simp [notHead_cons]))]
    simp only [vok_bind, cur_first_cons, cur_advance]
    simp [definitionB]
    rfl
  · simp [functionHeadB]; omega
  · exact notHead_blocks (by simp) (by simp [notHead_cons])

theorem readFunctionDefinition_short (pre r : List (OpByBlock X)) (h : r.length < 2) :
    readFunctionDefinition (cur pre r) = .ok (.next (cur pre r)) := by
  simp only [readFunctionDefinition, cur_remaining, vok_bind]
  rw [if_pos h]
  rfl

theorem readFunctionDefinition_noFunction (pre r : List (OpByBlock X)) (h : 2 ≤ r.length)
    (hf : NotHead .OpFunction r) :
    readFunctionDefinition (cur pre r) = .ok (.err (.ExpectedOpFunction pre.length)) := by
  simp only [readFunctionDefinition, cur_remaining, vok_bind]
  rw [if_neg (by omega)]
  cases r with
  | nil => simp at h
  | cons x r =>
    rw [notHead_cons] at hf
    cases x <;> first
      | exact absurd rfl (hf _)
      | (simp only [cur_first_cons]; rfl)

/-- The start of a definition, with complete blocks -/
def definitionHeadB (f : OpFunction) (params : List OpFunctionParameter) (blocks : List (BasicBlock X)) :
    List (OpByBlock X) :=
  functionHeadB f params ++ blocks.flatMap blockB

theorem readFunctionDefinition_noBranch (pre r : List (OpByBlock X)) (f : OpFunction)
    (params : List OpFunctionParameter) (blocks : List (BasicBlock X)) (l : OpLabel)
    (code : List (GroupCode X)) (merge : Option GroupMerge) (h : NotBranch merge r) :
    readFunctionDefinition (cur pre (definitionHeadB f params blocks ++ (blockHeadB l code merge ++ r))) =
      .error (.err (.ExpectedBranch
        (pre ++ definitionHeadB f params blocks ++ blockHeadB l code merge).length)) := by
  have hlen : (blockHeadB l code merge ++ r).length ≥ 1 := by simp [blockHeadB]
  rw [definitionHeadB, List.append_assoc, readFunctionDefinition_head]
  · rw [hits_block.readMany_error _ _ _ (readBasicBlock_error _ _ _ _ _ h)]
    simp only [List.append_assoc]
    rfl
  · simp only [functionHeadB, List.cons_append, List.length_cons, List.length_append] at hlen ⊢
    omega
  · exact notHead_blocks (by simp) (by simp [blockHeadB, notHead_cons])

/-- What cannot follow the complete blocks of a function -/
structure NotEnd (blocks : List (BasicBlock X)) (r : List (OpByBlock X)) : Prop where
  parameter : NotHead .OpFunctionParameter (blocks.flatMap blockB ++ r)
  label : NotHead .OpLabel r
  finish : NotHead .OpFunctionEnd r

theorem readFunctionDefinition_noEnd (pre r : List (OpByBlock X)) (f : OpFunction)
    (params : List OpFunctionParameter) (blocks : List (BasicBlock X))
    (hl : 2 ≤ (definitionHeadB f params blocks ++ r).length) (h : NotEnd blocks r) :
    readFunctionDefinition (cur pre (definitionHeadB f params blocks ++ r)) =
      .ok (.err (.ExpectedOpFunctionEnd (pre ++ definitionHeadB f params blocks).length)) := by
  rw [definitionHeadB, List.append_assoc] at hl ⊢
  rw [readFunctionDefinition_head _ _ _ _ hl h.parameter]
  rw [hits_block.readMany_next _ _ _ (readBasicBlock_next _ _ h.label)]
  simp only [vok_bind, List.append_assoc]
  have hf := h.finish
  cases r with
  | nil => simp only [cur_first_nil]; rfl
  | cons x r =>
    rw [notHead_cons] at hf
    cases x <;> first
      | exact absurd rfl (hf _)
      | (simp only [cur_first_cons]; rfl)

/-- What follows the last definition -/
inductive AfterDefinitions : List (OpByBlock X) → Prop where
  | short {r} : r.length < 2 → AfterDefinitions r
  | noFunction {r} : 2 ≤ r.length → NotHead .OpFunction r → AfterDefinitions r
  | noBranch {r} (f params blocks l code merge) : NotBranch merge r →
      AfterDefinitions (definitionHeadB f params blocks ++ (blockHeadB l code merge ++ r))
  | noEnd {r} (f params blocks) : 2 ≤ (definitionHeadB f params blocks ++ r).length → NotEnd blocks r →
      AfterDefinitions (definitionHeadB f params blocks ++ r)

theorem afterDefinitions {r : List (OpByBlock X)} (h : NoItem definitionB r) : AfterDefinitions r := by
  by_cases hl : r.length < 2
  · exact .short hl
  · rcases head_cases .OpFunction r with hf | ⟨f, r1, rfl⟩
    · exact .noFunction (by omega) hf
    · obtain ⟨params, r2, rfl, hp⟩ := split_kind .OpFunctionParameter r1
      obtain ⟨blocks, r3, rfl, hb⟩ := split_items blockB hits_block.nonempty r2.length r2 (Nat.le_refl _)
      rcases block_cases hb with hlab | ⟨l, code, merge, r4, rfl, h4⟩
      · have e : (OpByBlock.OpFunction f :: (params.map .OpFunctionParameter ++
            (blocks.flatMap blockB ++ r3))) = definitionHeadB f params blocks ++ r3 := by
          simp [definitionHeadB, functionHeadB]
        rw [e] at hl ⊢
        refine .noEnd f params blocks (by omega) ⟨hp, hlab, ?_⟩
        intro t ht
        cases r3 with
        | nil => simp at ht
        | cons x r3 =>
          simp only [List.head?_cons, Option.some.injEq] at ht
          subst ht
          exact h ⟨f, params, blocks⟩ r3 (by simp [definitionB, functionHeadB])
      · have e : (OpByBlock.OpFunction f :: (params.map .OpFunctionParameter ++
            (blocks.flatMap blockB ++ (blockHeadB l code merge ++ r4)))) =
            definitionHeadB f params blocks ++ (blockHeadB l code merge ++ r4) := by
          simp [definitionHeadB, functionHeadB]
        rw [e]
        exact .noBranch _ _ _ _ _ _ h4

end Magma
