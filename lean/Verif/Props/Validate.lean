import Verif.Proofs.ValidateLayout
import Verif.Props.Samples
import Verif.Spec.Encoding
/-! Properties of the layout validator: C20-C26. -/

namespace Magma.Props
open Spec
variable {X : Type}

/-- C20: writing the sections back gives the instructions of the module. -/
theorem C20_lossless {raw : RawModule X} {m : LogicalModule X} (h : validate raw = .ok m) :
    layout m = raw.instructions :=
  ((validate_iff raw m).mp h).insts_eq.symm

/-- C20: different modules have different readings. -/
theorem C20_injective {raw raw' : RawModule X} {m : LogicalModule X} (h : validate raw = .ok m)
    (h' : validate raw' = .ok m) : raw.instructions = raw'.instructions :=
  (C20_lossless h).symm.trans (C20_lossless h')

/-- C21: `validate` accepts exactly the modules that have the logical layout. -/
theorem C21_layout_iff (raw : RawModule X) (m : LogicalModule X) :
    validate raw = .ok m ↔ IsLayout raw.instructions m :=
  validate_iff raw m

/-- C21: a list of instructions has at most one reading. -/
theorem C21_unique {insts : List (Core X)} {m m' : LogicalModule X} (h : IsLayout insts m)
    (h' : IsLayout insts m') : m = m' := by
  have h1 := (validate_iff ⟨⟨1, 0⟩, ⟨.Valve, 0⟩, 0, insts⟩ m).mpr h
  have h2 := (validate_iff ⟨⟨1, 0⟩, ⟨.Valve, 0⟩, 0, insts⟩ m').mpr h'
  rw [h1] at h2
  cases h2
  rfl

theorem sample_layout : IsLayout Samples.logicalRaw.instructions Samples.logical := by
  refine ⟨rfl, ⟨?_, ?_⟩, ?_⟩
  · simp [Samples.logical]
  · simp [Samples.logical, Samples.loopFn]
  · simp [Samples.logical, Samples.loopFn]

example : validate Samples.logicalRaw = .ok Samples.logical :=
  (C21_layout_iff _ _).mpr sample_layout

/-- C22: `validate` returns: it does not panic and does not run forever. -/
theorem C22_total (raw : RawModule X) : (∃ m, validate raw = .ok m) ∨ ∃ e, validate raw = .error (.err e) := by
  have h := validate_shape raw
  generalize raw.instructions.map OpByBlock.ofCore = L at h
  generalize validate raw = v at h ⊢
  cases h
  case accepted => exact .inl ⟨_, rfl⟩
  all_goals exact .inr ⟨_, rfl⟩

example : validate (X := Empty) ⟨⟨1, 0⟩, ⟨.Valve, 0⟩, 0, [.OpReturn {}]⟩ =
    .error (.err .MemoryModelMissing) := by rfl

/-- C23: variables are sorted by storage class: by instruction list, a variable is in the globals
iff its class is not `Function`, and in a block iff it is. -/
theorem C23_variables {raw : RawModule X} {m : LogicalModule X} (h : validate raw = .ok m)
    (v : OpVariable) :
    (.OpVariable v ∈ m.globals ↔ .OpVariable v ∈ raw.instructions ∧ v.storage_class ≠ .Function) ∧
    ((∃ d ∈ m.function_definitions, ∃ b ∈ d.blocks, .OpVariable v ∈ b.code) ↔
      .OpVariable v ∈ raw.instructions ∧ v.storage_class = .Function) := by
  have hl := (validate_iff raw m).mp h
  have hmem : .OpVariable v ∈ raw.instructions ↔ .OpVariable v ∈ m.globals ∨
      ∃ d ∈ m.function_definitions, ∃ b ∈ d.blocks, .OpVariable v ∈ b.code := by
    have hd (g : GroupDebug) : debugInst g ≠ (.OpVariable v : Core X) := by cases g <;> simp [debugInst]
    have ha (g : GroupAnnotation) : annotationInst g ≠ (.OpVariable v : Core X) := by
      cases g <;> simp [annotationInst]
    have hg (g : GroupGlobal) : globalInst g = (.OpVariable v : Core X) ↔ g = .OpVariable v := by
      cases g with
      | GroupType t => cases t <;> simp [globalInst, typeInst]
      | GroupConstant t => cases t <;> simp [globalInst, constantInst]
      | OpVariable w => simp [globalInst]
    have hc (g : GroupCode X) : codeInst g = .OpVariable v ↔ g = .OpVariable v := by
      cases g <;> simp [codeInst]
    have hm (g : GroupMerge) : mergeInst g ≠ (.OpVariable v : Core X) := by cases g <;> simp [mergeInst]
    have hb (g : GroupBranch) : branchInst g ≠ (.OpVariable v : Core X) := by cases g <;> simp [branchInst]
    rw [hl.insts_eq]
    simp [layout, declarationInsts, definitionInsts, blockInsts, hd, ha, hg, hc, hm, (hb _).symm]
  constructor
  · constructor
    · intro hv
      exact ⟨hmem.mpr (.inl hv), hl.placed.inGlobals v hv⟩
    · rintro ⟨hv, hs⟩
      rcases hmem.mp hv with hv | ⟨d, hd, b, hb, hv⟩
      · exact hv
      · exact absurd (hl.placed.inBlocks d hd b hb v hv) hs
  · constructor
    · rintro ⟨d, hd, b, hb, hv⟩
      exact ⟨hmem.mpr (.inr ⟨d, hd, b, hb, hv⟩), hl.placed.inBlocks d hd b hb v hv⟩
    · rintro ⟨hv, hs⟩
      rcases hmem.mp hv with hv | hv
      · exact absurd hs (hl.placed.inGlobals v hv)
      · exact hv

example : .OpVariable ⟨⟨5⟩, ⟨14⟩, .Function, none⟩ ∈ Samples.logicalRaw.instructions ∧
    .OpVariable ⟨⟨5⟩, ⟨6⟩, .Output, none⟩ ∈ Samples.logicalRaw.instructions := by
  decide

/-- C24 is violated: a declaration after a definition becomes a definition without blocks. -/
theorem C24_violated : ∃ (raw : RawModule Empty) (m : LogicalModule Empty), validate raw = .ok m ∧
    ∃ d ∈ m.function_definitions, d.blocks = [] :=
  ⟨{ Samples.logicalRaw with
      instructions := Samples.logicalRaw.instructions ++
        [.OpFunction Samples.loopFn.function, .OpFunctionEnd {}] },
   { Samples.logical with
      function_definitions := [Samples.loopFn, ⟨Samples.loopFn.function, [], []⟩] },
   (C21_layout_iff _ _).mpr
    ⟨rfl, ⟨by simp [Samples.logical], by simp [Samples.loopFn]⟩, by
      simp only [List.cons.injEq]
      rintro d ds ⟨rfl, -⟩
      simp [Samples.loopFn]⟩,
   ⟨Samples.loopFn.function, [], []⟩, by simp, rfl⟩

/-- C24, what holds: the first definition has a block. Missing from the full claim: the other
definitions. -/
theorem C24_first_body_partial {raw : RawModule X} {m : LogicalModule X} (h : validate raw = .ok m)
    {d : FunctionDefinition X} {ds : List (FunctionDefinition X)}
    (hd : m.function_definitions = d :: ds) : d.blocks ≠ [] :=
  ((validate_iff raw m).mp h).declared d ds hd

/-- Only the first instruction of a function is `OpFunction`. -/
theorem function_not_in_body {d : FunctionDefinition X} {f : OpFunction} :
    (.OpFunction f : Core X) ∉ d.parameters.map .OpFunctionParameter ++ d.blocks.flatMap blockInsts ++ [.OpFunctionEnd {}] := by
  intro h
  rcases List.mem_append.mp h with h | h
  · rcases List.mem_append.mp h with h | h
    · obtain ⟨_, _, h⟩ := List.mem_map.mp h
      cases h
    · obtain ⟨b, _, h⟩ := List.mem_flatMap.mp h
      rcases List.mem_cons.mp h with h | h
      · cases h
      rcases List.mem_append.mp h with h | h
      · rcases List.mem_append.mp h with h | h
        · obtain ⟨c, _, h⟩ := List.mem_map.mp h
          cases c <;> cases h
        · obtain ⟨c, _, h⟩ := List.mem_map.mp h
          cases c <;> cases h
      · have h := List.mem_singleton.mp h
        generalize b.branch = c at h
        cases c <;> cases h
  · cases List.mem_singleton.mp h

/-- The body of a function ends after its parameters only if there are no blocks. -/
theorem no_blocks_of_end {d : FunctionDefinition X} {rest post : List (Core X)} : ∀ {ps qs : List OpFunctionParameter},
    ps.map .OpFunctionParameter ++ d.blocks.flatMap blockInsts ++ [.OpFunctionEnd {}] ++ rest =
      qs.map .OpFunctionParameter ++ .OpFunctionEnd {} :: post → d.blocks = []
  | [], [], h => by
    cases hb : d.blocks with
    | nil => rfl
    | cons b bs =>
      rw [hb] at h
      simp [blockInsts] at h
  | [], q :: qs, h => by
    cases hb : d.blocks with
    | nil => rfl
    | cons b bs =>
      rw [hb] at h
      simp [blockInsts] at h
  | p :: ps, [], h => by simp at h
  | p :: ps, q :: qs, h => no_blocks_of_end (ps := ps) (qs := qs) (List.cons.inj h).2

/-- A function without body among the definitions is one of them. -/
theorem bodyless_definition {f : OpFunction} {params : List OpFunctionParameter} {post : List (Core X)} :
    ∀ (defs : List (FunctionDefinition X)) (pre : List (Core X)),
    defs.flatMap definitionInsts = pre ++ .OpFunction f :: (params.map .OpFunctionParameter ++ .OpFunctionEnd {} :: post) →
      ∃ d ∈ defs, d.blocks = []
  | [], pre, h => by simp at h
  | d :: ds, [], h => by
    refine ⟨d, List.mem_cons_self, ?_⟩
    have h : _ :: (_ ++ _) = _ :: _ := h
    exact no_blocks_of_end (List.cons.inj h).2
  | d :: ds, x :: pre, h => by
    rw [List.flatMap_cons] at h
    rcases List.append_eq_append_iff.mp h with ⟨as, h1, h2⟩ | ⟨bs, h1, h2⟩
    · obtain ⟨d', hd, hb⟩ := bodyless_definition ds as h2
      exact ⟨d', List.mem_cons_of_mem _ hd, hb⟩
    · cases bs with
      | nil =>
        obtain ⟨d', hd, hb⟩ := bodyless_definition ds [] h2.symm
        exact ⟨d', List.mem_cons_of_mem _ hd, hb⟩
      | cons y bs =>
        have hy := (List.cons.inj h2).1
        subst hy
        rw [definitionInsts, List.cons_append] at h1
        exact absurd (by rw [(List.cons.inj h1).2]; simp) (function_not_in_body (d := d) (f := f))

/-- C24, what holds: every definition has a block exactly if in the instruction list no bodyless function follows a
function with a body. -/
theorem C24_bodies_partial {raw : RawModule X} {m : LogicalModule X} (h : validate raw = .ok m) :
    (∀ d ∈ m.function_definitions, d.blocks ≠ []) ↔
    ∀ pre f (params : List OpFunctionParameter) post, raw.instructions =
      pre ++ .OpFunction f :: (params.map .OpFunctionParameter ++ .OpFunctionEnd {} :: post) →
      ∀ l, .OpLabel l ∉ pre := by
  constructor
  · intro hall pre f params post he l hl
    rw [← C20_lossless h] at he
    obtain ⟨before, hlay, hnol⟩ : ∃ before, layout m = before ++ m.function_definitions.flatMap definitionInsts ∧
        (.OpLabel l : Core X) ∉ before := by
      refine ⟨_, rfl, ?_⟩
      simp only [List.mem_append, not_or, List.mem_map, List.mem_flatMap, List.mem_singleton]
      refine ⟨⟨⟨⟨⟨⟨⟨⟨⟨?_, ?_⟩, ?_⟩, ?_⟩, ?_⟩, ?_⟩, ?_⟩, ?_⟩, ?_⟩, ?_⟩
      · rintro ⟨_, _, h⟩; cases h
      · rintro ⟨_, _, h⟩; cases h
      · rintro ⟨_, _, h⟩; cases h
      · intro h; cases h
      · rintro ⟨_, _, h⟩; cases h
      · rintro ⟨_, _, h⟩; cases h
      · rintro ⟨c, _, h⟩; cases c <;> cases h
      · rintro ⟨c, _, h⟩; cases c <;> cases h
      · rintro ⟨c, _, h⟩
        cases c with
        | GroupType c => cases c <;> cases h
        | GroupConstant c => cases c <;> cases h
        | OpVariable _ => cases h
      · rintro ⟨d, _, h⟩
        rcases List.mem_cons.mp h with h | h
        · cases h
        rcases List.mem_append.mp h with h | h
        · obtain ⟨_, _, h⟩ := List.mem_map.mp h
          cases h
        · cases List.mem_singleton.mp h
    rw [hlay] at he
    rcases List.append_eq_append_iff.mp he with ⟨as, h1, h2⟩ | ⟨bs, h1, h2⟩
    · obtain ⟨d, hd, hb⟩ := bodyless_definition _ as h2
      exact hall d hd hb
    · exact hnol (by rw [h1]; exact List.mem_append_left _ hl)
  · intro hb d hd hbl
    obtain ⟨as, bs, hs⟩ := List.append_of_mem hd
    cases as with
    | nil => exact C24_first_body_partial h hs hbl
    | cons a as =>
      have ha := C24_first_body_partial h hs
      obtain ⟨b, bs', hbs⟩ := List.exists_cons_of_ne_nil ha
      refine hb (layout { m with function_definitions := a :: as }) d.function d.parameters
        (bs.flatMap definitionInsts) ?_ b.label ?_
      · rw [← C20_lossless h]
        simp [layout, hs, definitionInsts, hbl]
      · simp [layout, definitionInsts, hbs, blockInsts]

example : ∃ d ds, Samples.logical.function_definitions = d :: ds := ⟨_, _, rfl⟩

/-! ### C25 -/

/-- The instructions can be completed to a module with the logical layout. -/
def Completable (insts : List (Core X)) : Prop := ∃ tail m, IsLayout (insts ++ tail) m

theorem isLayout_accepted {l : List (Core X)} {s1 : Sec1} {mm : OpMemoryModel} {s2 : Sec2}
    {decls : List FunctionDeclaration} {defs : List (FunctionDefinition X)}
    (h : l.map OpByBlock.ofCore = wholeB s1 mm s2 decls defs) (hb : FirstBody defs) :
    ∃ m, IsLayout l m :=
  ⟨_, isLayout_iff.mpr ⟨h, hb⟩⟩

theorem not_layout_of_shape {l : List (Core X)}
    (h : ∃ e, Shape (l.map OpByBlock.ofCore) (.error e)) (m : LogicalModule X) : ¬ IsLayout l m := by
  intro hl
  obtain ⟨e, h⟩ := h
  have h1 : validate ⟨⟨1, 0⟩, ⟨.Valve, 0⟩, 0, l⟩ = .error e := Shape.validate h
  have h2 := (validate_iff ⟨⟨1, 0⟩, ⟨.Valve, 0⟩, 0, l⟩ m).mpr hl
  rw [h1] at h2
  cases h2

theorem notHead_tail {T : Type} {emb : T → OpByBlock X} {x : OpByBlock X} {r : List (OpByBlock X)}
    (a r' : List (OpByBlock X)) (h : NotHead emb (a ++ x :: r)) : NotHead emb (a ++ x :: r') := by
  cases a with
  | nil => simpa [notHead_cons] using h
  | cons b a => simpa [notHead_cons] using h

theorem sec1_maximal_tail {s : Sec1} {x : OpByBlock X} {r : List (OpByBlock X)} (r' : List (OpByBlock X))
    (h : s.Maximal (x :: r)) : s.Maximal (x :: r') := by
  obtain ⟨h1, h2, h3⟩ := h
  refine ⟨?_, notHead_tail _ r' h2, notHead_tail [] r' h3⟩
  rw [← List.append_assoc] at h1 ⊢
  exact notHead_tail _ r' h1

theorem sec2_maximal_tail {s : Sec2} {x : OpByBlock X} {r : List (OpByBlock X)} (r' : List (OpByBlock X))
    (h : s.Maximal (x :: r)) : s.Maximal (x :: r') := by
  obtain ⟨h1, h2, h3, h4, h5⟩ := h
  refine ⟨?_, ?_, ?_, notHead_tail _ r' h4, notHead_tail [] r' h5⟩
  · simp only [← List.append_assoc] at h1 ⊢
    exact notHead_tail _ r' h1
  · simp only [← List.append_assoc] at h2 ⊢
    exact notHead_tail _ r' h2
  · simp only [← List.append_assoc] at h3 ⊢
    exact notHead_tail _ r' h3

theorem split_at_map {l : List (Core X)} {a r : List (OpByBlock X)}
    (h : l.map OpByBlock.ofCore = a ++ r) :
    a.length ≤ l.length ∧ (l.take a.length).map OpByBlock.ofCore = a ∧
    (l.drop a.length).map OpByBlock.ofCore = r := by
  have hl := congrArg List.length h
  simp only [List.length_map, List.length_append] at hl
  refine ⟨by omega, ?_, ?_⟩
  · rw [List.map_take, h, List.take_left]
  · rw [List.map_drop, h, List.drop_left]

/-- The instruction at `i`, if there is one, and the next prefix -/
theorem next_at {l : List (Core X)} {a r : List (OpByBlock X)} (h : l.map OpByBlock.ofCore = a ++ r)
    {c : Core X} (hc : l[a.length]? = some c) :
    (∃ r', r = OpByBlock.ofCore c :: r') ∧
    ∀ tail : List (Core X), (l.take (a.length + 1) ++ tail).map OpByBlock.ofCore =
      a ++ OpByBlock.ofCore c :: tail.map OpByBlock.ofCore := by
  obtain ⟨-, h2, h3⟩ := split_at_map h
  obtain ⟨hlt, hget⟩ := List.getElem?_eq_some_iff.mp hc
  have hd : l.drop a.length = c :: l.drop (a.length + 1) := by
    rw [List.drop_eq_getElem_cons hlt, hget]
  constructor
  · rw [hd] at h3
    exact ⟨_, h3.symm⟩
  · intro tail
    rw [List.take_add_one, hc]
    simp [h2]

theorem wholeB_snoc (s1 : Sec1) (mm : OpMemoryModel) (s2 : Sec2) (decls : List FunctionDeclaration)
    (defs : List (FunctionDefinition X)) (d : FunctionDefinition X) :
    wholeB s1 mm s2 decls (defs ++ [d]) = wholeB s1 mm s2 decls defs ++ definitionB d := by
  simp [wholeB]

theorem firstBody_snoc {defs : List (FunctionDefinition X)} {d : FunctionDefinition X}
    (h : FirstBody defs) (hd : d.blocks ≠ [] ∨ defs ≠ []) : FirstBody (defs ++ [d]) := by
  intro a as e
  cases defs with
  | nil =>
    simp only [List.nil_append, List.cons.injEq] at e
    rcases hd with hd | hd
    · exact e.1 ▸ hd
    · exact absurd rfl hd
  | cons b bs =>
    simp only [List.cons_append, List.cons.injEq] at e
    exact e.1 ▸ h b bs rfl

/-- C25, `ExpectedOpFunction`: what precedes the index is a complete module; the instruction at the
index is not `OpFunction`, and no module starts with the instructions up to and including it. -/
theorem C25_function {raw : RawModule X} {i : Nat} (h : validate raw = .error (.err (.ExpectedOpFunction i))) :
    i < raw.instructions.length ∧ (∃ m, IsLayout (raw.instructions.take i) m) ∧
    (∀ f, raw.instructions[i]? ≠ some (.OpFunction f)) ∧
    ¬ Completable (raw.instructions.take (i + 1)) := by
  have hs := validate_shape raw
  rw [h] at hs
  generalize hL : raw.instructions.map OpByBlock.ofCore = L at hs
  cases hs with
  | noFunction s1 mm s2 decls defs r hb hm hl hf =>
    obtain ⟨h1, h2, h3⟩ := split_at_map hL
    have hlen := congrArg List.length h3
    rw [List.length_map, List.length_drop] at hlen
    have hlt : (wholeB s1 mm s2 decls defs).length < raw.instructions.length := by omega
    have hget := List.getElem?_eq_getElem hlt
    obtain ⟨⟨r', rfl⟩, hn⟩ := next_at hL hget
    refine ⟨hlt, isLayout_accepted h2 hb, ?_, ?_⟩
    · intro f hf'
      rw [hget, Option.some.injEq] at hf'
      rw [hf'] at hf
      exact hf f rfl
    · rintro ⟨tail, m, hm'⟩
      refine not_layout_of_shape ?_ m hm'
      rw [hn tail]
      cases ht : tail.map OpByBlock.ofCore with
      | nil => exact ⟨_, .unexpected s1 mm s2 decls defs _ hb (fun a b => sec2_maximal_tail _ (hm a b))⟩
      | cons y t =>
        exact ⟨_, .noFunction s1 mm s2 decls defs _ hb (fun a b => sec2_maximal_tail _ (hm a b))
          (by simp) (notHead_tail [] _ hf)⟩

/-- C25, `ExpectedBranch`: what precedes the index, with a return and a function end added, is a
complete module; the instruction at the index does not end a block, and no module starts with the
instructions up to and including it. -/
theorem C25_branch {raw : RawModule X} {i : Nat} (h : validate raw = .error (.err (.ExpectedBranch i))) :
    i ≤ raw.instructions.length ∧
    (∃ m, IsLayout (raw.instructions.take i ++ [.OpReturn {}, .OpFunctionEnd {}]) m) ∧
    (∀ b, raw.instructions[i]? ≠ some (branchInst b)) ∧
    (i < raw.instructions.length → ¬ Completable (raw.instructions.take (i + 1))) := by
  have hs := validate_shape raw
  rw [h] at hs
  generalize hL : raw.instructions.map OpByBlock.ofCore = L at hs
  cases hs with
  | noBranch s1 mm s2 decls defs f params blocks l code merge r hb hn =>
    rw [← List.append_assoc, ← List.append_assoc] at hL
    obtain ⟨h1, h2, h3⟩ := split_at_map hL
    refine ⟨h1, ?_, ?_, ?_⟩
    · refine isLayout_accepted (s1 := s1) (mm := mm) (s2 := s2) (decls := decls)
        (defs := defs ++ [⟨f, params, blocks ++ [⟨l, code, merge, .OpReturn {}⟩]⟩]) ?_
        (firstBody_snoc hb (.inl (by simp)))
      rw [wholeB_snoc, List.map_append, h2]
      simp [definitionB, definitionHeadB, blockB]
      exact ⟨rfl, rfl⟩
    · intro b hb'
      obtain ⟨⟨r', rfl⟩, -⟩ := next_at hL hb'
      exact hn.branch b (by cases b <;> rfl)
    · intro hlt
      rintro ⟨tail, m, hm'⟩
      obtain ⟨⟨r', rfl⟩, hn'⟩ := next_at hL (List.getElem?_eq_getElem hlt)
      refine not_layout_of_shape ?_ m hm'
      rw [hn' tail, List.append_assoc, List.append_assoc]
      exact ⟨_, .noBranch s1 mm s2 decls defs f params blocks l code merge _ hb
        ⟨notHead_tail _ _ hn.code, fun e => notHead_tail [] _ (hn.merge e), notHead_tail [] _ hn.branch⟩⟩

/-- C25, `ExpectedOpFunctionEnd`: what precedes the index, with a function end added, is a complete
module; the instruction at the index is not a function end, and no module starts with the
instructions up to and including it. -/
theorem C25_function_end {raw : RawModule X} {i : Nat}
    (h : validate raw = .error (.err (.ExpectedOpFunctionEnd i))) :
    i ≤ raw.instructions.length ∧
    (∃ m, IsLayout (raw.instructions.take i ++ [.OpFunctionEnd {}]) m) ∧
    (raw.instructions[i]? ≠ some (.OpFunctionEnd {})) ∧
    (i < raw.instructions.length → ¬ Completable (raw.instructions.take (i + 1))) := by
  have hs := validate_shape raw
  rw [h] at hs
  generalize hL : raw.instructions.map OpByBlock.ofCore = L at hs
  cases hs with
  | noEnd s1 mm s2 decls defs f params blocks r hb hn hl =>
    rw [← List.append_assoc] at hL
    obtain ⟨h1, h2, h3⟩ := split_at_map hL
    refine ⟨h1, ?_, ?_, ?_⟩
    · by_cases hd : blocks ≠ [] ∨ defs ≠ []
      · refine isLayout_accepted (s1 := s1) (mm := mm) (s2 := s2) (decls := decls)
          (defs := defs ++ [⟨f, params, blocks⟩]) ?_ (firstBody_snoc hb hd)
        rw [wholeB_snoc, List.map_append, h2]
        simp [definitionB, definitionHeadB]
        rfl
      · simp only [ne_eq, not_or, Classical.not_not] at hd
        obtain ⟨rfl, rfl⟩ := hd
        refine isLayout_accepted (s1 := s1) (mm := mm) (s2 := s2) (decls := decls ++ [⟨f, params⟩])
          (defs := []) ?_ hb
        rw [List.map_append, h2]
        simp [wholeB, upperB, declarationB, definitionHeadB]
        rfl
    · intro hb'
      obtain ⟨⟨r', rfl⟩, -⟩ := next_at hL hb'
      exact hn.finish _ rfl
    · intro hlt
      rintro ⟨tail, m, hm'⟩
      obtain ⟨⟨r', rfl⟩, hn'⟩ := next_at hL (List.getElem?_eq_getElem hlt)
      refine not_layout_of_shape ?_ m hm'
      rw [hn' tail, List.append_assoc]
      exact ⟨_, .noEnd s1 mm s2 decls defs f params blocks _ hb
        ⟨notHead_tail _ _ hn.parameter, notHead_tail [] _ hn.label, notHead_tail [] _ hn.finish⟩
        (by simp [definitionHeadB, functionHeadB]; omega)⟩

/-- C25, `MemoryModelMissing`: there is a point up to which the module has only capabilities,
extensions and imports; with a memory model added there it is complete; the instruction at that
point is not a memory model, and no module starts with the instructions up to and including it. -/
theorem C25_memory_model {raw : RawModule X} (h : validate raw = .error (.err .MemoryModelMissing)) :
    ∃ i, i ≤ raw.instructions.length ∧
    (∀ mm, ∃ m, IsLayout (raw.instructions.take i ++ [.OpMemoryModel mm]) m) ∧
    (∀ mm, raw.instructions[i]? ≠ some (.OpMemoryModel mm)) ∧
    (i < raw.instructions.length → ¬ Completable (raw.instructions.take (i + 1))) := by
  have hs := validate_shape raw
  rw [h] at hs
  generalize hL : raw.instructions.map OpByBlock.ofCore = L at hs
  cases hs with
  | noMemoryModel s1 r hm hr =>
    rw [sec1_prefix] at hL
    obtain ⟨h1, h2, h3⟩ := split_at_map hL
    refine ⟨_, h1, ?_, ?_, ?_⟩
    · intro mm
      refine isLayout_accepted (s1 := s1) (mm := mm) (s2 := ⟨[], [], [], [], []⟩) (decls := [])
        (defs := []) ?_ (by intro d ds e; cases e)
      rw [List.map_append, h2]
      simp [wholeB, upperB, topB, Sec2.insts]
      rfl
    · intro mm hb'
      obtain ⟨⟨r', rfl⟩, -⟩ := next_at hL hb'
      exact hr mm rfl
    · intro hlt
      rintro ⟨tail, m, hm'⟩
      obtain ⟨⟨r', rfl⟩, hn'⟩ := next_at hL (List.getElem?_eq_getElem hlt)
      refine not_layout_of_shape ?_ m hm'
      rw [hn' tail, ← sec1_prefix]
      exact ⟨_, .noMemoryModel s1 _ (sec1_maximal_tail _ hm) (notHead_tail [] _ hr)⟩

/-- A complete module and `OpFunction` are the start of a module. -/
theorem completable_function {l : List (Core X)} {m : LogicalModule X} (h : IsLayout l m)
    (f : OpFunction) : Completable (l ++ [.OpFunction f]) := by
  refine ⟨[.OpLabel ⟨⟨0⟩⟩, .OpReturn {}, .OpFunctionEnd {}],
    { m with function_definitions := m.function_definitions ++
        [⟨f, [], [⟨⟨⟨0⟩⟩, [], none, .OpReturn {}⟩]⟩] }, ?_, ⟨h.placed.1, ?_⟩, ?_⟩
  · rw [h.insts_eq]
    simp [layout, definitionInsts, blockInsts, branchInst]
  · intro d hd b hb v hv
    rcases List.mem_append.mp hd with hd | hd
    · exact h.placed.2 d hd b hb v hv
    · rw [List.mem_singleton.mp hd, List.mem_singleton] at hb
      rw [hb] at hv
      cases hv
  · intro d ds he
    cases hd : m.function_definitions with
    | nil =>
      simp only [hd, List.nil_append, List.cons.injEq] at he
      rw [← he.1]; simp
    | cons d' ds' =>
      simp only [hd, List.cons_append, List.cons.injEq] at he
      rw [← he.1]
      exact h.declared _ _ hd

/-- C25, `UnexpectedInstruction`, what holds: the index is that of the last instruction, and what
precedes it is a complete module; a module starts with the instructions exactly if the last of them is
`OpFunction`. Missing from the full claim: a module that ends after `OpFunction` gets this error as
well, although that instruction can continue the layout. -/
theorem C25_unexpected_partial {raw : RawModule X} {i : Nat}
    (h : validate raw = .error (.err (.UnexpectedInstruction i))) :
    i + 1 = raw.instructions.length ∧ (∃ m, IsLayout (raw.instructions.take i) m) ∧
    (Completable raw.instructions ↔ ∃ f, raw.instructions[i]? = some (.OpFunction f)) := by
  have hs := validate_shape raw
  rw [h] at hs
  generalize hL : raw.instructions.map OpByBlock.ofCore = L at hs
  cases hs with
  | unexpected s1 mm s2 decls defs x hb hm =>
    obtain ⟨h1, h2, h3⟩ := split_at_map hL
    have hlen := congrArg List.length h3
    rw [List.length_map, List.length_drop, List.length_singleton] at hlen
    have hi : (wholeB s1 mm s2 decls defs).length + 1 = raw.instructions.length := by omega
    have hacc := isLayout_accepted h2 hb
    refine ⟨hi, hacc, fun hcompl => Classical.byContradiction fun hno => ?_, ?_⟩
    rotate_left
    · rintro ⟨f, hf⟩
      obtain ⟨m, hm'⟩ := hacc
      have := completable_function hm' f
      have ht : raw.instructions.take ((wholeB s1 mm s2 decls defs).length + 1) =
          raw.instructions.take (wholeB s1 mm s2 decls defs).length ++ [.OpFunction f] := by
        rw [List.take_add_one, hf]
        rfl
      rwa [← ht, hi, List.take_length] at this
    have hf : ∀ f, raw.instructions[(wholeB s1 mm s2 decls defs).length]? ≠ some (.OpFunction f) :=
      fun f hf => hno ⟨f, hf⟩
    obtain ⟨tail, m, hm'⟩ := hcompl
    have hget := List.getElem?_eq_getElem (l := raw.instructions)
      (i := (wholeB s1 mm s2 decls defs).length) (by omega)
    obtain ⟨⟨r', hr⟩, hn⟩ := next_at hL hget
    simp only [List.cons.injEq] at hr
    obtain ⟨hx, -⟩ := hr
    have hnf : ∀ t, x ≠ .OpFunction t := by
      intro t ht
      rw [hx] at ht
      refine hf t ?_
      rw [hget, Option.some.injEq, ← toCore_ofCore (raw.instructions[_]), ht]
      rfl
    have hn := hn tail
    rw [hi, List.take_length, ← hx] at hn
    refine not_layout_of_shape ?_ m hm'
    rw [hn]
    cases ht : tail.map OpByBlock.ofCore with
    | nil => exact ⟨_, .unexpected s1 mm s2 decls defs _ hb hm⟩
    | cons y t =>
      exact ⟨_, .noFunction s1 mm s2 decls defs _ hb (fun a b => sec2_maximal_tail _ (hm a b))
        (by simp) (notHead_cons.mpr hnf)⟩

/-- C25 is violated: a module that is cut behind `OpFunction` is reported as having an unexpected
instruction, although it can be completed. -/
theorem C25_violated : ∃ (raw : RawModule Empty) (i : Nat),
    validate raw = .error (.err (.UnexpectedInstruction i)) ∧ Completable raw.instructions := by
  refine ⟨⟨⟨1, 0⟩, ⟨.Valve, 0⟩, 0, [.OpMemoryModel ⟨.Logical, .Simple⟩,
    .OpFunction Samples.loopFn.function]⟩, 1, rfl, [.OpFunctionEnd {}], ?_⟩
  exact ⟨⟨[], [], [], ⟨.Logical, .Simple⟩, [], [], [], [], [], [⟨Samples.loopFn.function, []⟩], []⟩,
    rfl, ⟨by simp, by simp⟩, by simp⟩

/-- Every error of the validator occurs. -/
example :
    validate (X := Empty) ⟨⟨1, 0⟩, ⟨.Valve, 0⟩, 0, [.OpCapability ⟨.Shader⟩]⟩ =
      .error (.err .MemoryModelMissing) ∧
    validate (X := Empty) ⟨⟨1, 0⟩, ⟨.Valve, 0⟩, 0,
      [.OpMemoryModel ⟨.Logical, .Simple⟩, .OpNop {}, .OpNop {}]⟩ =
      .error (.err (.ExpectedOpFunction 1)) ∧
    validate (X := Empty) ⟨⟨1, 0⟩, ⟨.Valve, 0⟩, 0,
      [.OpMemoryModel ⟨.Logical, .Simple⟩, .OpFunction Samples.loopFn.function, .OpLabel ⟨⟨1⟩⟩, .OpNop {},
       .OpFunctionEnd {}]⟩ = .error (.err (.ExpectedBranch 4)) ∧
    validate (X := Empty) ⟨⟨1, 0⟩, ⟨.Valve, 0⟩, 0,
      [.OpMemoryModel ⟨.Logical, .Simple⟩, .OpFunction Samples.loopFn.function, .OpLabel ⟨⟨1⟩⟩,
       .OpReturn {}, .OpNop {}, .OpFunctionEnd {}]⟩ = .error (.err (.ExpectedOpFunctionEnd 4)) ∧
    validate (X := Empty) ⟨⟨1, 0⟩, ⟨.Valve, 0⟩, 0,
      [.OpMemoryModel ⟨.Logical, .Simple⟩, .OpNop {}]⟩ = .error (.err (.UnexpectedInstruction 1)) := by
  refine ⟨by rfl, by rfl, by rfl, by rfl, by rfl⟩

/-! ### C26 -/

/-- C26: the result depends on the instructions only. -/
theorem C26_header_irrelevant (raw raw' : RawModule X) (h : raw.instructions = raw'.instructions) :
    validate raw = validate raw' := by
  simp only [validate, h]

example : (Samples.logicalRaw).instructions = ({ Samples.logicalRaw with bound := 0 }).instructions := rfl

/-- Selecting by opcode -/
def ofOpcode (ks : List Nat) (c : Core X) : Bool := ks.contains (opcode c)

theorem filter_map_true {T : Type} {p : Core X → Bool} {f : T → Core X} (l : List T)
    (h : ∀ t, p (f t) = true) : (l.map f).filter p = l.map f := by
  rw [List.filter_eq_self]
  intro c hc
  obtain ⟨t, -, rfl⟩ := List.mem_map.mp hc
  exact h t

theorem filter_map_false {T : Type} {p : Core X → Bool} {f : T → Core X} (l : List T)
    (h : ∀ t, p (f t) = false) : (l.map f).filter p = [] := by
  rw [List.filter_eq_nil_iff]
  intro c hc
  obtain ⟨t, -, rfl⟩ := List.mem_map.mp hc
  simp [h t]

/-- No instruction that belongs to functions is selected. -/
structure NotInFunctions (p : Core X → Bool) : Prop where
  function : ∀ op, p (.OpFunction op) = false
  parameter : ∀ op, p (.OpFunctionParameter op) = false
  finish : ∀ op, p (.OpFunctionEnd op) = false
  label : ∀ op, p (.OpLabel op) = false
  code : ∀ g, p (codeInst g) = false
  merge : ∀ g, p (mergeInst g) = false
  branch : ∀ g, p (branchInst g) = false

theorem NotInFunctions.filter {p : Core X → Bool} (h : NotInFunctions p) (m : LogicalModule X) :
    (m.function_declarations.flatMap declarationInsts).filter p = [] ∧
    (m.function_definitions.flatMap definitionInsts).filter p = [] := by
  constructor
  · rw [List.filter_eq_nil_iff]
    simp [declarationInsts]
    rintro c d hd (rfl | ⟨op, -, rfl⟩ | rfl) <;> simp [h.function, h.parameter, h.finish]
  · rw [List.filter_eq_nil_iff]
    simp [definitionInsts, blockInsts]
    rintro c d hd (rfl | ⟨op, -, rfl⟩ | ⟨b, -, (rfl | ⟨g, -, rfl⟩ | ⟨g, -, rfl⟩ | rfl)⟩ | rfl) <;>
      simp [h.function, h.parameter, h.finish, h.label, h.code, h.merge, h.branch]

theorem notInFunctions {ks : List Nat}
    (h : ∀ k ∈ [54, 55, 56, 248, 0, 1, 12, 59, 61, 62, 65, 112, 124, 245, 246, 247, 249, 250, 253] ++
      List.range' 126 80, k ∉ ks) : NotInFunctions (X := X) (ofOpcode ks) := by
  constructor <;> intro g <;> (try cases g) <;>
    simp only [ofOpcode, List.contains_eq_mem, decide_eq_false_iff_not, codeInst, mergeInst, branchInst] <;>
    exact h _ (by simp only [opcode]; decide)

macro "other_section" : tactic => `(tactic| (
  refine filter_map_false _ ?_
  intro g
  first | rfl | (cases g <;> first | rfl | (rename_i g; cases g <;> rfl))))

macro "this_section" : tactic => `(tactic| (
  refine filter_map_true _ ?_
  intro g
  first | rfl | (cases g <;> first | rfl | (rename_i g; cases g <;> rfl))))

/-- C26: each of the first sections is the list of the instructions with the opcodes of the section,
in module order; 17 is `OpCapability`, 10 `OpExtension`, 11 `OpExtInstImport`, 14 `OpMemoryModel`, 15
`OpEntryPoint`, 16 `OpExecutionMode`, 2-7 are the debug instructions, 71 and 72 the annotations. -/
theorem C26_sections {raw : RawModule X} {m : LogicalModule X} (h : validate raw = .ok m) :
    raw.instructions.filter (ofOpcode [17]) =
      m.capabilities.map (fun c => .OpCapability { capability := c }) ∧
    raw.instructions.filter (ofOpcode [10]) = m.extensions.map (fun n => .OpExtension { name := n }) ∧
    raw.instructions.filter (ofOpcode [11]) = m.ext_inst_imports.map .OpExtInstImport ∧
    raw.instructions.filter (ofOpcode [14]) = [.OpMemoryModel m.memory_model] ∧
    raw.instructions.filter (ofOpcode [15]) = m.entry_points.map .OpEntryPoint ∧
    raw.instructions.filter (ofOpcode [16]) = m.execution_modes.map .OpExecutionMode ∧
    raw.instructions.filter (ofOpcode [2, 3, 4, 5, 6, 7]) = m.debug.map debugInst ∧
    raw.instructions.filter (ofOpcode [71, 72]) = m.annotations.map annotationInst := by
  rw [← C20_lossless h]
  have all (ks : List Nat) (hk : ∀ k ∈ [54, 55, 56, 248, 0, 1, 12, 59, 61, 62, 65, 112, 124, 245, 246,
      247, 249, 250, 253] ++ List.range' 126 80, k ∉ ks) :
      (layout m).filter (ofOpcode ks) =
      (m.capabilities.map (fun c => .OpCapability { capability := c })).filter (ofOpcode ks) ++
      (m.extensions.map (fun n => .OpExtension { name := n })).filter (ofOpcode ks) ++
      (m.ext_inst_imports.map .OpExtInstImport).filter (ofOpcode ks) ++
      [.OpMemoryModel m.memory_model].filter (ofOpcode ks) ++
      (m.entry_points.map .OpEntryPoint).filter (ofOpcode ks) ++
      (m.execution_modes.map .OpExecutionMode).filter (ofOpcode ks) ++
      (m.debug.map debugInst).filter (ofOpcode ks) ++
      (m.annotations.map annotationInst).filter (ofOpcode ks) ++
      (m.globals.map globalInst).filter (ofOpcode ks) := by
    obtain ⟨h1, h2⟩ := (notInFunctions (X := X) hk).filter m
    simp only [layout, List.filter_append, h1, h2, List.append_nil]
  refine ⟨?_, ?_, ?_, ?_, ?_, ?_, ?_, ?_⟩ <;> rw [all _ (by decide)]
  · have e1 : (m.capabilities.map (fun c => .OpCapability { capability := c })).filter (ofOpcode (X := X) [17]) = (m.capabilities.map (fun c => .OpCapability { capability := c })) := by this_section
    have e2 : (m.extensions.map (fun n => .OpExtension { name := n })).filter (ofOpcode (X := X) [17]) = [] := by other_section
    have e3 : (m.ext_inst_imports.map .OpExtInstImport).filter (ofOpcode (X := X) [17]) = [] := by other_section
    have e4 : [.OpMemoryModel m.memory_model].filter (ofOpcode (X := X) [17]) = [] := rfl
    have e5 : (m.entry_points.map .OpEntryPoint).filter (ofOpcode (X := X) [17]) = [] := by other_section
    have e6 : (m.execution_modes.map .OpExecutionMode).filter (ofOpcode (X := X) [17]) = [] := by other_section
    have e7 : (m.debug.map debugInst).filter (ofOpcode (X := X) [17]) = [] := by other_section
    have e8 : (m.annotations.map annotationInst).filter (ofOpcode (X := X) [17]) = [] := by other_section
    have e9 : (m.globals.map globalInst).filter (ofOpcode (X := X) [17]) = [] := by other_section
    simp only [e1, e2, e3, e4, e5, e6, e7, e8, e9, List.append_nil]
  · have e1 : (m.capabilities.map (fun c => .OpCapability { capability := c })).filter (ofOpcode (X := X) [10]) = [] := by other_section
    have e2 : (m.extensions.map (fun n => .OpExtension { name := n })).filter (ofOpcode (X := X) [10]) = (m.extensions.map (fun n => .OpExtension { name := n })) := by this_section
    have e3 : (m.ext_inst_imports.map .OpExtInstImport).filter (ofOpcode (X := X) [10]) = [] := by other_section
    have e4 : [.OpMemoryModel m.memory_model].filter (ofOpcode (X := X) [10]) = [] := rfl
    have e5 : (m.entry_points.map .OpEntryPoint).filter (ofOpcode (X := X) [10]) = [] := by other_section
    have e6 : (m.execution_modes.map .OpExecutionMode).filter (ofOpcode (X := X) [10]) = [] := by other_section
    have e7 : (m.debug.map debugInst).filter (ofOpcode (X := X) [10]) = [] := by other_section
    have e8 : (m.annotations.map annotationInst).filter (ofOpcode (X := X) [10]) = [] := by other_section
    have e9 : (m.globals.map globalInst).filter (ofOpcode (X := X) [10]) = [] := by other_section
    simp only [e1, e2, e3, e4, e5, e6, e7, e8, e9, List.nil_append, List.append_nil]
  · have e1 : (m.capabilities.map (fun c => .OpCapability { capability := c })).filter (ofOpcode (X := X) [11]) = [] := by other_section
    have e2 : (m.extensions.map (fun n => .OpExtension { name := n })).filter (ofOpcode (X := X) [11]) = [] := by other_section
    have e3 : (m.ext_inst_imports.map .OpExtInstImport).filter (ofOpcode (X := X) [11]) = (m.ext_inst_imports.map .OpExtInstImport) := by this_section
    have e4 : [.OpMemoryModel m.memory_model].filter (ofOpcode (X := X) [11]) = [] := rfl
    have e5 : (m.entry_points.map .OpEntryPoint).filter (ofOpcode (X := X) [11]) = [] := by other_section
    have e6 : (m.execution_modes.map .OpExecutionMode).filter (ofOpcode (X := X) [11]) = [] := by other_section
    have e7 : (m.debug.map debugInst).filter (ofOpcode (X := X) [11]) = [] := by other_section
    have e8 : (m.annotations.map annotationInst).filter (ofOpcode (X := X) [11]) = [] := by other_section
    have e9 : (m.globals.map globalInst).filter (ofOpcode (X := X) [11]) = [] := by other_section
    simp only [e1, e2, e3, e4, e5, e6, e7, e8, e9, List.nil_append, List.append_nil]
  · have e1 : (m.capabilities.map (fun c => .OpCapability { capability := c })).filter (ofOpcode (X := X) [14]) = [] := by other_section
    have e2 : (m.extensions.map (fun n => .OpExtension { name := n })).filter (ofOpcode (X := X) [14]) = [] := by other_section
    have e3 : (m.ext_inst_imports.map .OpExtInstImport).filter (ofOpcode (X := X) [14]) = [] := by other_section
    have e4 : [.OpMemoryModel m.memory_model].filter (ofOpcode (X := X) [14]) = [.OpMemoryModel m.memory_model] := rfl
    have e5 : (m.entry_points.map .OpEntryPoint).filter (ofOpcode (X := X) [14]) = [] := by other_section
    have e6 : (m.execution_modes.map .OpExecutionMode).filter (ofOpcode (X := X) [14]) = [] := by other_section
    have e7 : (m.debug.map debugInst).filter (ofOpcode (X := X) [14]) = [] := by other_section
    have e8 : (m.annotations.map annotationInst).filter (ofOpcode (X := X) [14]) = [] := by other_section
    have e9 : (m.globals.map globalInst).filter (ofOpcode (X := X) [14]) = [] := by other_section
    simp only [e1, e2, e3, e4, e5, e6, e7, e8, e9, List.nil_append, List.append_nil]
  · have e1 : (m.capabilities.map (fun c => .OpCapability { capability := c })).filter (ofOpcode (X := X) [15]) = [] := by other_section
    have e2 : (m.extensions.map (fun n => .OpExtension { name := n })).filter (ofOpcode (X := X) [15]) = [] := by other_section
    have e3 : (m.ext_inst_imports.map .OpExtInstImport).filter (ofOpcode (X := X) [15]) = [] := by other_section
    have e4 : [.OpMemoryModel m.memory_model].filter (ofOpcode (X := X) [15]) = [] := rfl
    have e5 : (m.entry_points.map .OpEntryPoint).filter (ofOpcode (X := X) [15]) = (m.entry_points.map .OpEntryPoint) := by this_section
    have e6 : (m.execution_modes.map .OpExecutionMode).filter (ofOpcode (X := X) [15]) = [] := by other_section
    have e7 : (m.debug.map debugInst).filter (ofOpcode (X := X) [15]) = [] := by other_section
    have e8 : (m.annotations.map annotationInst).filter (ofOpcode (X := X) [15]) = [] := by other_section
    have e9 : (m.globals.map globalInst).filter (ofOpcode (X := X) [15]) = [] := by other_section
    simp only [e1, e2, e3, e4, e5, e6, e7, e8, e9, List.nil_append, List.append_nil]
  · have e1 : (m.capabilities.map (fun c => .OpCapability { capability := c })).filter (ofOpcode (X := X) [16]) = [] := by other_section
    have e2 : (m.extensions.map (fun n => .OpExtension { name := n })).filter (ofOpcode (X := X) [16]) = [] := by other_section
    have e3 : (m.ext_inst_imports.map .OpExtInstImport).filter (ofOpcode (X := X) [16]) = [] := by other_section
    have e4 : [.OpMemoryModel m.memory_model].filter (ofOpcode (X := X) [16]) = [] := rfl
    have e5 : (m.entry_points.map .OpEntryPoint).filter (ofOpcode (X := X) [16]) = [] := by other_section
    have e6 : (m.execution_modes.map .OpExecutionMode).filter (ofOpcode (X := X) [16]) = (m.execution_modes.map .OpExecutionMode) := by this_section
    have e7 : (m.debug.map debugInst).filter (ofOpcode (X := X) [16]) = [] := by other_section
    have e8 : (m.annotations.map annotationInst).filter (ofOpcode (X := X) [16]) = [] := by other_section
    have e9 : (m.globals.map globalInst).filter (ofOpcode (X := X) [16]) = [] := by other_section
    simp only [e1, e2, e3, e4, e5, e6, e7, e8, e9, List.nil_append, List.append_nil]
  · have e1 : (m.capabilities.map (fun c => .OpCapability { capability := c })).filter (ofOpcode (X := X) [2, 3, 4, 5, 6, 7]) = [] := by other_section
    have e2 : (m.extensions.map (fun n => .OpExtension { name := n })).filter (ofOpcode (X := X) [2, 3, 4, 5, 6, 7]) = [] := by other_section
    have e3 : (m.ext_inst_imports.map .OpExtInstImport).filter (ofOpcode (X := X) [2, 3, 4, 5, 6, 7]) = [] := by other_section
    have e4 : [.OpMemoryModel m.memory_model].filter (ofOpcode (X := X) [2, 3, 4, 5, 6, 7]) = [] := rfl
    have e5 : (m.entry_points.map .OpEntryPoint).filter (ofOpcode (X := X) [2, 3, 4, 5, 6, 7]) = [] := by other_section
    have e6 : (m.execution_modes.map .OpExecutionMode).filter (ofOpcode (X := X) [2, 3, 4, 5, 6, 7]) = [] := by other_section
    have e7 : (m.debug.map debugInst).filter (ofOpcode (X := X) [2, 3, 4, 5, 6, 7]) = (m.debug.map debugInst) := by this_section
    have e8 : (m.annotations.map annotationInst).filter (ofOpcode (X := X) [2, 3, 4, 5, 6, 7]) = [] := by other_section
    have e9 : (m.globals.map globalInst).filter (ofOpcode (X := X) [2, 3, 4, 5, 6, 7]) = [] := by other_section
    simp only [e1, e2, e3, e4, e5, e6, e7, e8, e9, List.nil_append, List.append_nil]
  · have e1 : (m.capabilities.map (fun c => .OpCapability { capability := c })).filter (ofOpcode (X := X) [71, 72]) = [] := by other_section
    have e2 : (m.extensions.map (fun n => .OpExtension { name := n })).filter (ofOpcode (X := X) [71, 72]) = [] := by other_section
    have e3 : (m.ext_inst_imports.map .OpExtInstImport).filter (ofOpcode (X := X) [71, 72]) = [] := by other_section
    have e4 : [.OpMemoryModel m.memory_model].filter (ofOpcode (X := X) [71, 72]) = [] := rfl
    have e5 : (m.entry_points.map .OpEntryPoint).filter (ofOpcode (X := X) [71, 72]) = [] := by other_section
    have e6 : (m.execution_modes.map .OpExecutionMode).filter (ofOpcode (X := X) [71, 72]) = [] := by other_section
    have e7 : (m.debug.map debugInst).filter (ofOpcode (X := X) [71, 72]) = [] := by other_section
    have e8 : (m.annotations.map annotationInst).filter (ofOpcode (X := X) [71, 72]) = (m.annotations.map annotationInst) := by this_section
    have e9 : (m.globals.map globalInst).filter (ofOpcode (X := X) [71, 72]) = [] := by other_section
    simp only [e1, e2, e3, e4, e5, e6, e7, e8, e9, List.nil_append, List.append_nil]

/-- The global instructions: types (19-39), constants (43, 44) and variables (59) that are not of a
function -/
def isGlobal (c : Core X) : Bool :=
  match c with
  | .OpVariable v => decide (v.storage_class ≠ .Function)
  | c => ofOpcode (List.range' 19 21 ++ [43, 44]) c

/-- C26 for the globals. -/
theorem C26_globals {raw : RawModule X} {m : LogicalModule X} (h : validate raw = .ok m) :
    raw.instructions.filter isGlobal = m.globals.map globalInst := by
  have hl := (validate_iff raw m).mp h
  have hglob : (m.globals.map globalInst).filter isGlobal = m.globals.map (globalInst (X := X)) := by
    rw [List.filter_eq_self]
    intro c hc
    obtain ⟨g, hg, rfl⟩ := List.mem_map.mp hc
    cases g with
    | GroupType t => cases t <;> rfl
    | GroupConstant t => cases t <;> rfl
    | OpVariable v => simpa [globalInst, isGlobal] using hl.placed.inGlobals v hg
  have hdecl : (m.function_declarations.flatMap declarationInsts).filter (isGlobal (X := X)) = [] := by
    rw [List.filter_eq_nil_iff]
    simp [declarationInsts]
    rintro c d hd (rfl | ⟨op, -, rfl⟩ | rfl) <;> rfl
  have hdef : (m.function_definitions.flatMap definitionInsts).filter isGlobal = [] := by
    rw [List.filter_eq_nil_iff]
    simp [definitionInsts, blockInsts]
    rintro c d hd (rfl | ⟨op, -, rfl⟩ | ⟨b, hb, (rfl | ⟨g, hg, rfl⟩ | ⟨g, -, rfl⟩ | rfl)⟩ | rfl)
    · rfl
    · rfl
    · rfl
    · cases g with
      | OpVariable v => simpa [codeInst, isGlobal] using hl.placed.inBlocks d hd b hb v hg
      | _ => rfl
    · cases g <;> rfl
    · cases b.branch <;> rfl
    · rfl
  have e1 : (m.capabilities.map (fun c => .OpCapability { capability := c })).filter (isGlobal (X := X)) = [] := by
    other_section
  have e2 : (m.extensions.map (fun n => .OpExtension { name := n })).filter (isGlobal (X := X)) = [] := by
    other_section
  have e3 : (m.ext_inst_imports.map .OpExtInstImport).filter (isGlobal (X := X)) = [] := by other_section
  have e4 : [.OpMemoryModel m.memory_model].filter (isGlobal (X := X)) = [] := rfl
  have e5 : (m.entry_points.map .OpEntryPoint).filter (isGlobal (X := X)) = [] := by other_section
  have e6 : (m.execution_modes.map .OpExecutionMode).filter (isGlobal (X := X)) = [] := by other_section
  have e7 : (m.debug.map debugInst).filter (isGlobal (X := X)) = [] := by other_section
  have e8 : (m.annotations.map annotationInst).filter (isGlobal (X := X)) = [] := by other_section
  rw [hl.insts_eq]
  simp only [layout, List.filter_append, e1, e2, e3, e4, e5, e6, e7, e8, hglob, hdecl, hdef,
    List.nil_append, List.append_nil]

/-- The label of a label instruction -/
def asLabel : Core X → Option OpLabel
  | .OpLabel l => some l
  | _ => none

/-- The function of a function instruction -/
def asFunction : Core X → Option OpFunction
  | .OpFunction f => some f
  | _ => none

/-- A function end -/
def asEnd : Core X → Option (Core X)
  | .OpFunctionEnd op => some (.OpFunctionEnd op)
  | _ => none

theorem filterMap_map_none {T U : Type} {p : Core X → Option U} {f : T → Core X} (l : List T)
    (h : ∀ t, p (f t) = none) : (l.map f).filterMap p = [] := by
  rw [List.filterMap_eq_nil_iff]
  intro c hc
  obtain ⟨t, -, rfl⟩ := List.mem_map.mp hc
  exact h t

theorem filterMap_top {U : Type} (p : Core X → Option U) (m : LogicalModule X)
    (h1 : ∀ c, p (.OpCapability c) = none) (h2 : ∀ c, p (.OpExtension c) = none)
    (h3 : ∀ c, p (.OpExtInstImport c) = none) (h4 : ∀ c, p (.OpMemoryModel c) = none)
    (h5 : ∀ c, p (.OpEntryPoint c) = none) (h6 : ∀ c, p (.OpExecutionMode c) = none)
    (h7 : ∀ c, p (debugInst c) = none) (h8 : ∀ c, p (annotationInst c) = none)
    (h9 : ∀ c, p (globalInst c) = none) :
    (layout m).filterMap p = m.function_declarations.flatMap (fun d => (declarationInsts d).filterMap p) ++
      m.function_definitions.flatMap (fun d => (definitionInsts d).filterMap p) := by
  have e1 := filterMap_map_none (p := p) (f := fun c => .OpCapability { capability := c })
    m.capabilities (fun c => h1 _)
  have e2 := filterMap_map_none (p := p) (f := fun n => .OpExtension { name := n })
    m.extensions (fun c => h2 _)
  have e3 := filterMap_map_none m.ext_inst_imports h3
  have e5 := filterMap_map_none m.entry_points h5
  have e6 := filterMap_map_none m.execution_modes h6
  have e7 := filterMap_map_none m.debug h7
  have e8 := filterMap_map_none m.annotations h8
  have e9 := filterMap_map_none m.globals h9
  simp only [layout, List.filterMap_append, e1, e2, e3, e5, e6, e7, e8, e9, List.filterMap_cons, h4,
    List.filterMap_nil, List.nil_append, List.filterMap_flatMap]

theorem filterMap_cons_toList {α β : Type} (p : α → Option β) (a : α) (l : List α) :
    (a :: l).filterMap p = (p a).toList ++ l.filterMap p := by
  rw [List.filterMap_cons]
  cases p a <;> rfl

theorem flatMap_nil {α β : Type} (l : List α) : l.flatMap (fun _ => ([] : List β)) = [] := by
  induction l with
  | nil => rfl
  | cons a l ih => rw [List.flatMap_cons, ih]; rfl

theorem filterMap_functions {U : Type} (p : Core X → Option U) (h1 : ∀ c, p (.OpFunctionParameter c) = none)
    (h2 : ∀ g, p (codeInst g) = none) (h3 : ∀ g, p (mergeInst g) = none)
    (h4 : ∀ g, p (branchInst g) = none) :
    (∀ d, (declarationInsts d).filterMap p =
      (p (.OpFunction d.function)).toList ++ (p (.OpFunctionEnd {})).toList) ∧
    (∀ d, (definitionInsts d).filterMap p = (p (.OpFunction d.function)).toList ++
      d.blocks.flatMap (fun b => (p (.OpLabel b.label)).toList) ++ (p (.OpFunctionEnd {})).toList) := by
  have hb (b : BasicBlock X) : (blockInsts b).filterMap p = (p (.OpLabel b.label)).toList := by
    simp only [blockInsts, filterMap_cons_toList, List.filterMap_append,
      filterMap_map_none b.code h2, filterMap_map_none b.merge.toList h3, h4]
    simp
  constructor <;> intro d
  · simp only [declarationInsts, filterMap_cons_toList, List.filterMap_append,
      filterMap_map_none d.parameters h1]
    simp
  · simp only [definitionInsts, filterMap_cons_toList, List.filterMap_append,
      filterMap_map_none d.parameters h1, List.filterMap_flatMap, hb]
    simp

/-- C26: labels and blocks, functions and function ends correspond one to one, in order. -/
theorem C26_correspond {raw : RawModule X} {m : LogicalModule X} (h : validate raw = .ok m) :
    raw.instructions.filterMap asLabel =
      m.function_definitions.flatMap (fun d => d.blocks.map (·.label)) ∧
    raw.instructions.filterMap asFunction =
      m.function_declarations.map (·.function) ++ m.function_definitions.map (·.function) ∧
    (raw.instructions.filter (ofOpcode [56])).length =
      m.function_declarations.length + m.function_definitions.length := by
  rw [← C20_lossless h]
  have top {U : Type} (p : Core X → Option U) := filterMap_top p m
  refine ⟨?_, ?_, ?_⟩
  · obtain ⟨hd, hf⟩ := filterMap_functions (asLabel (X := X)) (fun _ => rfl)
      (by intro g; cases g <;> rfl) (by intro g; cases g <;> rfl) (by intro g; cases g <;> rfl)
    rw [top asLabel]
    · simp only [hd, hf, asLabel]
      simp [flatMap_single]
    all_goals intro c; first | rfl | (cases c <;> first | rfl | (rename_i c; cases c <;> rfl))
  · obtain ⟨hd, hf⟩ := filterMap_functions (asFunction (X := X)) (fun _ => rfl)
      (by intro g; cases g <;> rfl) (by intro g; cases g <;> rfl) (by intro g; cases g <;> rfl)
    rw [top asFunction]
    · simp only [hd, hf, asFunction, Option.toList_none, Option.toList_some, flatMap_nil,
        List.append_nil, flatMap_single]
    all_goals intro c; first | rfl | (cases c <;> first | rfl | (rename_i c; cases c <;> rfl))
  · have e : (layout m).filter (ofOpcode [56]) = (layout m).filterMap asEnd := by
      rw [← List.filterMap_eq_filter]
      congr 1
      funext c
      cases c <;> rfl
    rw [e]
    obtain ⟨hd, hf⟩ := filterMap_functions (asEnd (X := X)) (fun _ => rfl)
      (by intro g; cases g <;> rfl) (by intro g; cases g <;> rfl) (by intro g; cases g <;> rfl)
    rw [top asEnd]
    · simp only [hd, hf, asEnd, Option.toList_none, Option.toList_some, flatMap_nil, List.nil_append,
        List.append_nil, flatMap_single]
      simp
    all_goals intro c; first | rfl | (cases c <;> first | rfl | (rename_i c; cases c <;> rfl))

example : Samples.logicalRaw.instructions.filterMap asLabel = [⟨⟨20⟩⟩, ⟨⟨21⟩⟩, ⟨⟨22⟩⟩, ⟨⟨23⟩⟩] := by rfl

/-! The theorems applied -/

theorem sample_validated : validate Samples.logicalRaw = .ok Samples.logical := (C21_layout_iff _ _).mpr sample_layout

example : layout Samples.logical = Samples.logicalRaw.instructions := C20_lossless sample_validated
example (raw : RawModule Empty) (h : validate raw = .ok Samples.logical) :
    raw.instructions = Samples.logicalRaw.instructions := C20_injective h sample_validated
example (m : LogicalModule Empty) (h : IsLayout Samples.logicalRaw.instructions m) : m = Samples.logical :=
  C21_unique h sample_layout
example := C23_variables sample_validated ⟨⟨5⟩, ⟨14⟩, .Function, none⟩
example : Samples.loopFn.blocks ≠ [] := C24_first_body_partial sample_validated rfl
example := C24_bodies_partial sample_validated
example := C25_memory_model (X := Empty) (raw := ⟨⟨1, 0⟩, ⟨.Valve, 0⟩, 0, [.OpCapability ⟨.Shader⟩]⟩) (by rfl)
example := C25_function (X := Empty) (i := 1)
  (raw := ⟨⟨1, 0⟩, ⟨.Valve, 0⟩, 0, [.OpMemoryModel ⟨.Logical, .Simple⟩, .OpNop {}, .OpNop {}]⟩) (by rfl)
example := C25_branch (X := Empty) (i := 4) (raw := ⟨⟨1, 0⟩, ⟨.Valve, 0⟩, 0, [.OpMemoryModel ⟨.Logical, .Simple⟩,
  .OpFunction Samples.loopFn.function, .OpLabel ⟨⟨1⟩⟩, .OpNop {}, .OpFunctionEnd {}]⟩) (by rfl)
example := C25_function_end (X := Empty) (i := 4) (raw := ⟨⟨1, 0⟩, ⟨.Valve, 0⟩, 0, [.OpMemoryModel ⟨.Logical, .Simple⟩,
  .OpFunction Samples.loopFn.function, .OpLabel ⟨⟨1⟩⟩, .OpReturn {}, .OpNop {}, .OpFunctionEnd {}]⟩) (by rfl)
example : ¬ Completable (X := Empty) [.OpMemoryModel ⟨.Logical, .Simple⟩, .OpNop {}] := fun h => by
  obtain ⟨_, h⟩ := (C25_unexpected_partial (i := 1) (raw := ⟨⟨1, 0⟩, ⟨.Valve, 0⟩, 0,
    [.OpMemoryModel ⟨.Logical, .Simple⟩, .OpNop {}]⟩) (by rfl)).2.2.mp h
  cases h
example := C26_sections sample_validated
example := C26_globals sample_validated
example := C26_correspond sample_validated

end Magma.Props
