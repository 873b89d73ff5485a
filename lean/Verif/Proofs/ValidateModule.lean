import Verif.Proofs.ValidateFunctions
/-! The validator on a whole module. -/

namespace Magma
variable {X : Type}

/-! ### The instructions before the memory model -/

structure Sec1 where
  capabilities : List Capability
  extensions : List String
  imports : List OpExtInstImport

def Sec1.insts (s : Sec1) (r : List (OpByBlock X)) : List (OpByBlock X) :=
  s.capabilities.map (fun c => .OpCapability { capability := c }) ++
    (s.extensions.map (fun n => .OpExtension { name := n }) ++
      (s.imports.map .OpExtInstImport ++ r))

/-- Every section is as long as possible. -/
structure Sec1.Maximal (s : Sec1) (r : List (OpByBlock X)) : Prop where
  capabilities : NotHead (fun c => .OpCapability { capability := c })
    (s.extensions.map (fun n => .OpExtension { name := n }) ++ (s.imports.map .OpExtInstImport ++ r))
  extensions : NotHead (fun n => .OpExtension { name := n }) (s.imports.map .OpExtInstImport ++ r)
  imports : NotHead .OpExtInstImport r

theorem split_sec1 (l : List (OpByBlock X)) : ∃ (s : Sec1) (r : List (OpByBlock X)),
    l = s.insts r ∧ s.Maximal r := by
  obtain ⟨cs, r1, rfl, h1⟩ := split_kind (fun c => .OpCapability { capability := c }) l
  obtain ⟨es, r2, rfl, h2⟩ := split_kind (fun n => .OpExtension { name := n }) r1
  obtain ⟨is, r3, rfl, h3⟩ := split_kind .OpExtInstImport r2
  exact ⟨⟨cs, es, is⟩, r3, rfl, h1, h2, h3⟩

/-! ### The instructions between the memory model and the functions -/

structure Sec2 where
  entry_points : List OpEntryPoint
  execution_modes : List OpExecutionMode
  debug : List GroupDebug
  annotations : List GroupAnnotation
  globals : List GroupGlobal

def Sec2.insts (s : Sec2) (r : List (OpByBlock X)) : List (OpByBlock X) :=
  s.entry_points.map .OpEntryPoint ++ (s.execution_modes.map .OpExecutionMode ++
    (s.debug.map .GroupDebug ++ (s.annotations.map .GroupAnnotation ++ (s.globals.map .GroupGlobal ++ r))))

structure Sec2.Maximal (s : Sec2) (r : List (OpByBlock X)) : Prop where
  entry_points : NotHead .OpEntryPoint (s.execution_modes.map .OpExecutionMode ++
    (s.debug.map .GroupDebug ++ (s.annotations.map .GroupAnnotation ++ (s.globals.map .GroupGlobal ++ r))))
  execution_modes : NotHead .OpExecutionMode
    (s.debug.map .GroupDebug ++ (s.annotations.map .GroupAnnotation ++ (s.globals.map .GroupGlobal ++ r)))
  debug : NotHead .GroupDebug (s.annotations.map .GroupAnnotation ++ (s.globals.map .GroupGlobal ++ r))
  annotations : NotHead .GroupAnnotation (s.globals.map .GroupGlobal ++ r)
  globals : NotHead .GroupGlobal r

theorem split_sec2 (l : List (OpByBlock X)) : ∃ (s : Sec2) (r : List (OpByBlock X)),
    l = s.insts r ∧ s.Maximal r := by
  obtain ⟨a, r1, rfl, h1⟩ := split_kind .OpEntryPoint l
  obtain ⟨b, r2, rfl, h2⟩ := split_kind .OpExecutionMode r1
  obtain ⟨c, r3, rfl, h3⟩ := split_kind .GroupDebug r2
  obtain ⟨d, r4, rfl, h4⟩ := split_kind .GroupAnnotation r3
  obtain ⟨e, r5, rfl, h5⟩ := split_kind .GroupGlobal r4
  exact ⟨⟨a, b, c, d, e⟩, r5, rfl, h1, h2, h3, h4, h5⟩

/-! ### Running the validator -/

/-- The last part of `validate` -/
def finish (s1 : Sec1) (mm : OpMemoryModel) (s2 : Sec2) (decls : List FunctionDeclaration)
    (insts : OpSlice X) : V (LogicalModule X) := do
  let (function_definitions, insts) ← readMany insts readFunctionDefinition
  if (← insts.getRemaining) > 0 then
    .error (.err (.UnexpectedInstruction insts.getSlot))
  else
    return { capabilities := s1.capabilities, extensions := s1.extensions,
             ext_inst_imports := s1.imports, memory_model := mm, entry_points := s2.entry_points,
             execution_modes := s2.execution_modes, debug := s2.debug, annotations := s2.annotations,
             globals := s2.globals, function_declarations := decls, function_definitions }

theorem sec1_prefix (s : Sec1) (r : List (OpByBlock X)) : s.insts r = s.insts [] ++ r := by
  simp [Sec1.insts]

theorem sec2_prefix (s : Sec2) (r : List (OpByBlock X)) : s.insts r = s.insts [] ++ r := by
  simp [Sec2.insts]

theorem validate_sec1 {raw : RawModule X} {s : Sec1} {r : List (OpByBlock X)}
    (h : raw.instructions.map OpByBlock.ofCore = s.insts r) (hm : s.Maximal r) :
    validate raw = (do
      let (memory_model, insts) ← readMemoryModel (cur (s.insts []) r)
      let (entry_points, insts) ← readMany insts readEntryPoint
      let (execution_modes, insts) ← readMany insts readExecutionMode
      let (debug, insts) ← readMany insts readDebug
      let (annotations, insts) ← readMany insts readAnnotation
      let (globals, insts) ← readMany insts readGlobal
      let (function_declarations, insts) ← readMany insts readFunctionDeclaration
      finish s memory_model ⟨entry_points, execution_modes, debug, annotations, globals⟩
        function_declarations insts) := by
  have e0 : OpSlice.new (raw.instructions.map OpByBlock.ofCore) = cur [] (s.insts r) := by
    simp [OpSlice.new, cur, h]
  have e1 : s.insts ([] : List (OpByBlock X)) =
      [] ++ s.capabilities.map (fun c => .OpCapability { capability := c }) ++
      s.extensions.map (fun n => .OpExtension { name := n }) ++ s.imports.map .OpExtInstImport := by
    simp [Sec1.insts]
  unfold validate
  simp only [e0, e1]
  rw [Sec1.insts, simple_capability.readMany _ _ _ hm.capabilities]
  simp only [vok_bind]
  rw [simple_extension.readMany _ _ _ hm.extensions]
  simp only [vok_bind]
  rw [simple_extInstImport.readMany _ _ _ hm.imports]
  simp only [vok_bind]
  rfl

theorem validate_noMemoryModel {raw : RawModule X} {s : Sec1} {r : List (OpByBlock X)}
    (h : raw.instructions.map OpByBlock.ofCore = s.insts r) (hm : s.Maximal r)
    (hr : NotHead .OpMemoryModel r) : validate raw = .error (.err .MemoryModelMissing) := by
  rw [validate_sec1 h hm]
  have : readMemoryModel (cur (s.insts []) r) = .error (.err .MemoryModelMissing) := by
    cases r with
    | nil => simp [readMemoryModel]
    | cons x r =>
      rw [notHead_cons] at hr
      cases x <;> first
        | exact absurd rfl (hr _)
        | simp only [readMemoryModel, cur_first_cons]
  rw [this]
  rfl

/-- The instructions up to the functions -/
def topB (s1 : Sec1) (mm : OpMemoryModel) (s2 : Sec2) : List (OpByBlock X) :=
  s1.insts [] ++ .OpMemoryModel mm :: s2.insts []

theorem sec1_maximal_mm (s : Sec1) (mm : OpMemoryModel) (r : List (OpByBlock X)) :
    s.Maximal (.OpMemoryModel mm :: r) := by
  obtain ⟨cs, es, is⟩ := s
  constructor <;> cases es <;> cases is <;> simp [notHead_cons]

theorem validate_sec2 {raw : RawModule X} {s1 : Sec1} {mm : OpMemoryModel} {s2 : Sec2}
    {r : List (OpByBlock X)} (h : raw.instructions.map OpByBlock.ofCore = topB s1 mm s2 ++ r)
    (hm : s2.Maximal r) :
    validate raw = (do
      let (function_declarations, insts) ← readMany (cur (topB s1 mm s2) r) readFunctionDeclaration
      finish s1 mm s2 function_declarations insts) := by
  have h' : raw.instructions.map OpByBlock.ofCore = s1.insts (.OpMemoryModel mm :: s2.insts r) := by
    rw [h, topB, sec1_prefix s1 (_ :: _), sec2_prefix s2 r]
    simp
  rw [validate_sec1 h' (sec1_maximal_mm _ _ _)]
  have e1 : readMemoryModel (cur (s1.insts []) (.OpMemoryModel mm :: s2.insts r)) =
      .ok (mm, cur (s1.insts [] ++ [.OpMemoryModel mm]) (s2.insts r)) := by
    simp only [readMemoryModel, cur_first_cons, cur_advance, vok_bind]; rfl
  have e2 : topB s1 mm s2 = s1.insts ([] : List (OpByBlock X)) ++ [.OpMemoryModel mm] ++
      s2.entry_points.map .OpEntryPoint ++ s2.execution_modes.map .OpExecutionMode ++
      s2.debug.map .GroupDebug ++ s2.annotations.map .GroupAnnotation ++
      s2.globals.map .GroupGlobal := by
    simp [topB, Sec2.insts]
  rw [e1, e2]
  simp only [vok_bind]
  rw [Sec2.insts, simple_entryPoint.readMany _ _ _ hm.entry_points]
  simp only [vok_bind]
  rw [simple_executionMode.readMany _ _ _ hm.execution_modes]
  simp only [vok_bind]
  rw [simple_debug.readMany _ _ _ hm.debug]
  simp only [vok_bind]
  rw [simple_annotation.readMany _ _ _ hm.annotations]
  simp only [vok_bind]
  rw [simple_global.readMany _ _ _ hm.globals]
  rfl

/-- The instructions up to the function definitions -/
def upperB (s1 : Sec1) (mm : OpMemoryModel) (s2 : Sec2) (decls : List FunctionDeclaration) :
    List (OpByBlock X) :=
  topB s1 mm s2 ++ decls.flatMap declarationB

theorem sec2_maximal_nil (s : Sec2) : s.Maximal ([] : List (OpByBlock X)) := by
  obtain ⟨a, b, c, d, e⟩ := s
  constructor <;> cases b <;> cases c <;> cases d <;> cases e <;> simp [notHead_cons, notHead_nil]

theorem sec2_maximal_function (s : Sec2) (f : OpFunction) (r : List (OpByBlock X)) :
    s.Maximal (.OpFunction f :: r) := by
  obtain ⟨a, b, c, d, e⟩ := s
  constructor <;> cases b <;> cases c <;> cases d <;> cases e <;> simp [notHead_cons]

theorem sec2_maximal_declarations {s : Sec2} {decls : List FunctionDeclaration}
    {r : List (OpByBlock X)} (h : decls = [] → s.Maximal r) :
    s.Maximal (decls.flatMap declarationB ++ r) := by
  cases decls with
  | nil => simpa using h rfl
  | cons d ds =>
    simp only [List.flatMap_cons, declarationB, functionHeadB, List.cons_append]
    exact sec2_maximal_function _ _ _

theorem validate_declarations {raw : RawModule X} {s1 : Sec1} {mm : OpMemoryModel} {s2 : Sec2}
    {decls : List FunctionDeclaration} {r : List (OpByBlock X)}
    (h : raw.instructions.map OpByBlock.ofCore = upperB s1 mm s2 decls ++ r)
    (hm : decls = [] → s2.Maximal r)
    (hn : readFunctionDeclaration (cur (upperB s1 mm s2 decls) r) =
      .ok (.next (cur (upperB s1 mm s2 decls) r))) :
    validate raw = finish s1 mm s2 decls (cur (upperB s1 mm s2 decls) r) := by
  rw [upperB, List.append_assoc] at h
  rw [validate_sec2 h (sec2_maximal_declarations hm)]
  rw [upperB] at hn
  rw [hits_declaration.readMany_next _ _ _ hn]
  rfl

theorem validate_noFunction {raw : RawModule X} {s1 : Sec1} {mm : OpMemoryModel} {s2 : Sec2}
    {decls : List FunctionDeclaration} {r : List (OpByBlock X)}
    (h : raw.instructions.map OpByBlock.ofCore = upperB s1 mm s2 decls ++ r)
    (hm : decls = [] → s2.Maximal r)
    (hl : 2 ≤ r.length) (hf : NotHead .OpFunction r) :
    validate raw = .error (.err (.ExpectedOpFunction (upperB s1 mm s2 decls : List (OpByBlock X)).length)) := by
  rw [upperB, List.append_assoc] at h
  rw [validate_sec2 h (sec2_maximal_declarations hm)]
  rw [hits_declaration.readMany_err _ _ _ (readFunctionDeclaration_error _ _ hl hf)]
  rfl

/-- A function with a body follows. -/
structure Opens (r : List (OpByBlock X)) : Prop where
  shape : ∃ f params r', r = functionHeadB f params ++ r' ∧ NotHead .OpFunctionParameter r' ∧
    NotHead .OpFunctionEnd r'

theorem Opens.maximal {r : List (OpByBlock X)} (h : Opens r) (s : Sec2) : s.Maximal r := by
  obtain ⟨f, params, r', rfl, -, -⟩ := h.shape
  exact sec2_maximal_function _ _ _

theorem Opens.next {r : List (OpByBlock X)} (h : Opens r) (pre : List (OpByBlock X)) :
    readFunctionDeclaration (cur pre r) = .ok (.next (cur pre r)) := by
  obtain ⟨f, params, r', rfl, h1, h2⟩ := h.shape
  exact readFunctionDeclaration_next' _ _ _ _ h1 h2

/-- The instructions up to and including the definitions `defs` -/
def wholeB (s1 : Sec1) (mm : OpMemoryModel) (s2 : Sec2) (decls : List FunctionDeclaration)
    (defs : List (FunctionDefinition X)) : List (OpByBlock X) :=
  upperB s1 mm s2 decls ++ defs.flatMap definitionB

theorem opens_definition {d : FunctionDefinition X} (h : d.blocks ≠ []) (r : List (OpByBlock X)) :
    Opens (definitionB d ++ r) := by
  obtain ⟨f, params, blocks⟩ := d
  cases blocks with
  | nil => exact absurd rfl h
  | cons b bs =>
    refine ⟨f, params, (b :: bs).flatMap blockB ++ [.OpFunctionEnd {}] ++ r, by simp [definitionB], ?_, ?_⟩ <;>
      simp [blockB, blockHeadB, notHead_cons]

/-- The first definition has a body. -/
def FirstBody (defs : List (FunctionDefinition X)) : Prop := ∀ d ds, defs = d :: ds → d.blocks ≠ []

theorem validate_defs {raw : RawModule X} {s1 : Sec1} {mm : OpMemoryModel} {s2 : Sec2}
    {decls : List FunctionDeclaration} {defs : List (FunctionDefinition X)} {r : List (OpByBlock X)}
    (h : raw.instructions.map OpByBlock.ofCore = wholeB s1 mm s2 decls defs ++ r)
    (hd : FirstBody defs) (hr : defs = [] → Opens r ∨ (r.length < 2 ∧ (decls = [] → s2.Maximal r))) :
    validate raw = finish s1 mm s2 decls (cur (upperB s1 mm s2 decls) (defs.flatMap definitionB ++ r)) := by
  rw [wholeB, List.append_assoc] at h
  cases defs with
  | cons d ds =>
    have ho : Opens ((d :: ds).flatMap definitionB ++ r) := by
      rw [List.flatMap_cons, List.append_assoc]
      exact opens_definition (hd d ds rfl) _
    exact validate_declarations h (fun _ => ho.maximal s2) (ho.next _)
  | nil =>
    rcases hr rfl with ho | ⟨hs, hm⟩
    · exact validate_declarations h (fun _ => ho.maximal s2) (ho.next _)
    · exact validate_declarations h hm (readFunctionDeclaration_short _ _ (by simpa using hs))

/-- The module of the sections -/
def moduleOf (s1 : Sec1) (mm : OpMemoryModel) (s2 : Sec2) (decls : List FunctionDeclaration)
    (defs : List (FunctionDefinition X)) : LogicalModule X :=
  { capabilities := s1.capabilities, extensions := s1.extensions,
    ext_inst_imports := s1.imports, memory_model := mm, entry_points := s2.entry_points,
    execution_modes := s2.execution_modes, debug := s2.debug, annotations := s2.annotations,
    globals := s2.globals, function_declarations := decls, function_definitions := defs }

theorem finish_short {s1 : Sec1} {mm : OpMemoryModel} {s2 : Sec2} {decls : List FunctionDeclaration}
    {defs : List (FunctionDefinition X)} (r : List (OpByBlock X)) (hs : r.length < 2) :
    finish s1 mm s2 decls (cur (upperB s1 mm s2 decls) (defs.flatMap definitionB ++ r)) =
      if 0 < r.length then .error (.err (.UnexpectedInstruction (wholeB s1 mm s2 decls defs).length))
      else .ok (moduleOf s1 mm s2 decls defs) := by
  rw [finish, hits_definition.readMany_next _ _ _ (readFunctionDefinition_short _ _ hs)]
  simp only [vok_bind, cur_remaining, cur_slot]
  rfl

theorem finish_err {s1 : Sec1} {mm : OpMemoryModel} {s2 : Sec2} {decls : List FunctionDeclaration}
    {defs : List (FunctionDefinition X)} {r : List (OpByBlock X)} {e : ValidationError}
    (h : readFunctionDefinition (cur (wholeB s1 mm s2 decls defs) r) = .ok (.err e)) :
    finish s1 mm s2 decls (cur (upperB s1 mm s2 decls) (defs.flatMap definitionB ++ r)) =
      .error (.err e) := by
  rw [finish, hits_definition.readMany_err _ _ _ h]
  rfl

theorem finish_error {s1 : Sec1} {mm : OpMemoryModel} {s2 : Sec2} {decls : List FunctionDeclaration}
    {defs : List (FunctionDefinition X)} {r : List (OpByBlock X)} {e : Fault ValidationError}
    (h : readFunctionDefinition (cur (wholeB s1 mm s2 decls defs) r) = .error e) :
    finish s1 mm s2 decls (cur (upperB s1 mm s2 decls) (defs.flatMap definitionB ++ r)) =
      .error e := by
  rw [finish, hits_definition.readMany_error _ _ _ h]
  rfl

/-! ### All cases -/

/-- The shapes of a list of instructions and what the validator makes of it -/
inductive Shape : List (OpByBlock X) → V (LogicalModule X) → Prop where
  | noMemoryModel (s1 : Sec1) (r) : s1.Maximal r → NotHead .OpMemoryModel r →
      Shape (s1.insts r) (.error (.err .MemoryModelMissing))
  | noFunction (s1 mm s2 decls defs r) : FirstBody defs → (decls = [] → defs = [] → Sec2.Maximal s2 r) →
      2 ≤ r.length → NotHead .OpFunction r →
      Shape (wholeB s1 mm s2 decls defs ++ r)
        (.error (.err (.ExpectedOpFunction (wholeB s1 mm s2 decls defs).length)))
  | noBranch (s1 mm s2 decls defs f params blocks l code merge r) : FirstBody defs → NotBranch merge r →
      Shape (wholeB s1 mm s2 decls defs ++ (definitionHeadB f params blocks ++ (blockHeadB l code merge ++ r)))
        (.error (.err (.ExpectedBranch (wholeB s1 mm s2 decls defs ++ definitionHeadB f params blocks ++
          blockHeadB l code merge).length)))
  | noEnd (s1 mm s2 decls defs f params blocks r) : FirstBody defs → NotEnd blocks r →
      2 ≤ (definitionHeadB f params blocks ++ r).length →
      Shape (wholeB s1 mm s2 decls defs ++ (definitionHeadB f params blocks ++ r))
        (.error (.err (.ExpectedOpFunctionEnd
          (wholeB s1 mm s2 decls defs ++ definitionHeadB f params blocks).length)))
  | unexpected (s1 mm s2 decls defs x) : FirstBody defs → (decls = [] → defs = [] → Sec2.Maximal s2 [x]) →
      Shape (wholeB s1 mm s2 decls defs ++ [x])
        (.error (.err (.UnexpectedInstruction (wholeB s1 mm s2 decls defs).length)))
  | accepted (s1 mm s2 decls defs) : FirstBody defs →
      Shape (wholeB s1 mm s2 decls defs) (.ok (moduleOf s1 mm s2 decls defs))

theorem opens_noBranch (f : OpFunction) (params : List OpFunctionParameter) (blocks : List (BasicBlock X))
    (l : OpLabel) (code : List (GroupCode X)) (merge : Option GroupMerge) (r : List (OpByBlock X)) :
    Opens (definitionHeadB f params blocks ++ (blockHeadB l code merge ++ r)) := by
  refine ⟨f, params, blocks.flatMap blockB ++ (blockHeadB l code merge ++ r),
    by simp [definitionHeadB], ?_, ?_⟩ <;>
    exact notHead_blocks (by simp) (by simp [blockHeadB, notHead_cons])

theorem opens_noEnd {f : OpFunction} {params : List OpFunctionParameter} {blocks : List (BasicBlock X)}
    {r : List (OpByBlock X)} (h : NotEnd blocks r) : Opens (definitionHeadB f params blocks ++ r) := by
  refine ⟨f, params, blocks.flatMap blockB ++ r, by simp [definitionHeadB], h.parameter, ?_⟩
  exact notHead_blocks (by simp) h.finish

theorem Shape.validate {raw : RawModule X} {v : V (LogicalModule X)}
    (h : Shape (raw.instructions.map OpByBlock.ofCore) v) : validate raw = v := by
  generalize hL : raw.instructions.map OpByBlock.ofCore = L at h
  cases h with
  | noMemoryModel s1 r h1 h2 => exact validate_noMemoryModel hL h1 h2
  | noFunction s1 mm s2 decls defs r h1 h2 h3 h4 =>
    cases defs with
    | nil =>
      simp only [wholeB, List.flatMap_nil, List.append_nil] at hL ⊢
      exact validate_noFunction hL (fun h => h2 h rfl) h3 h4
    | cons d ds =>
      rw [validate_defs hL h1 (by simp)]
      exact finish_err (readFunctionDefinition_noFunction _ _ h3 h4)
  | noBranch s1 mm s2 decls defs f params blocks l code merge r h1 h2 =>
    rw [validate_defs hL h1 (fun _ => .inl (opens_noBranch _ _ _ _ _ _ _))]
    exact finish_error (readFunctionDefinition_noBranch _ _ _ _ _ _ _ _ h2)
  | noEnd s1 mm s2 decls defs f params blocks r h1 h2 h3 =>
    rw [validate_defs hL h1 (fun _ => .inl (opens_noEnd h2))]
    exact finish_err (readFunctionDefinition_noEnd _ _ _ _ _ h3 h2)
  | unexpected s1 mm s2 decls defs x h1 h2 =>
    rw [validate_defs hL h1 (fun h => .inr ⟨by simp, fun h' => h2 h' h⟩), finish_short _ (by simp)]
    rfl
  | accepted s1 mm s2 decls defs h1 =>
    have hL' : raw.instructions.map OpByBlock.ofCore = wholeB s1 mm s2 decls defs ++ [] := by
      rw [hL, List.append_nil]
    rw [validate_defs hL' h1 (fun h => .inr ⟨by simp, fun _ => sec2_maximal_nil _⟩), finish_short _ (by simp)]
    rfl

theorem short_cases {α : Type} {r : List α} (h : r.length < 2) : r = [] ∨ ∃ x, r = [x] :=
  match r, h with
  | [], _ => .inl rfl
  | [x], _ => .inr ⟨x, rfl⟩
  | _ :: _ :: _, h => by simp at h; omega

theorem shape_exists (L : List (OpByBlock X)) : ∃ v, Shape L v := by
  obtain ⟨s1, r1, rfl, h1⟩ := split_sec1 L
  rcases head_cases .OpMemoryModel r1 with hmm | ⟨mm, r2, rfl⟩
  · exact ⟨_, .noMemoryModel s1 r1 h1 hmm⟩
  obtain ⟨s2, r3, rfl, h2⟩ := split_sec2 r2
  obtain ⟨decls, r, rfl, h3⟩ := split_items declarationB hits_declaration.nonempty r3.length r3 (Nat.le_refl _)
  have hm : decls = [] → s2.Maximal r := by
    rintro rfl
    simpa using h2
  have hL : s1.insts (.OpMemoryModel mm :: s2.insts (decls.flatMap declarationB ++ r)) =
      wholeB s1 mm s2 decls ([] : List (FunctionDefinition X)) ++ r := by
    rw [sec1_prefix s1 (_ :: _), sec2_prefix s2 (_ ++ _)]
    simp [wholeB, upperB, topB]
  rw [hL]
  have hfirst : FirstBody ([] : List (FunctionDefinition X)) := by intro d ds h; cases h
  rcases declaration_cases h3 with hs | ⟨hl, hf⟩ | ⟨f, params, r', hr, hp, he⟩
  · rcases short_cases hs with rfl | ⟨x, rfl⟩
    · rw [List.append_nil]
      exact ⟨_, .accepted s1 mm s2 decls [] hfirst⟩
    · exact ⟨_, .unexpected s1 mm s2 decls [] x hfirst (fun h _ => hm h)⟩
  · exact ⟨_, .noFunction s1 mm s2 decls [] r hfirst (fun h _ => hm h) hl hf⟩
  · obtain ⟨defs, r4, h4, h5⟩ := split_items definitionB hits_definition.nonempty r.length r (Nat.le_refl _)
    have hbody : FirstBody defs := by
      rintro d ds rfl hd
      refine h3 ⟨d.function, d.parameters⟩ (ds.flatMap definitionB ++ r4) ?_
      rw [h4]
      simp [definitionB, declarationB, hd]
    have hL2 : wholeB s1 mm s2 decls ([] : List (FunctionDefinition X)) ++ r =
        wholeB s1 mm s2 decls defs ++ r4 := by
      rw [h4]
      simp [wholeB]
    rw [hL2]
    have hm' : decls = [] → defs = [] → s2.Maximal r4 := by
      rintro h rfl
      have := hm h
      rw [h4] at this
      simpa using this
    rcases afterDefinitions h5 with h | ⟨hl, hf⟩ | ⟨f, params, blocks, l, code, merge, hb⟩ |
      ⟨f, params, blocks, hl, he⟩
    · rcases short_cases h with rfl | ⟨x, rfl⟩
      · rw [List.append_nil]
        exact ⟨_, .accepted s1 mm s2 decls defs hbody⟩
      · exact ⟨_, .unexpected s1 mm s2 decls defs x hbody hm'⟩
    · exact ⟨_, .noFunction s1 mm s2 decls defs r4 hbody hm' hl hf⟩
    · exact ⟨_, .noBranch s1 mm s2 decls defs _ _ _ _ _ _ _ hbody hb⟩
    · exact ⟨_, .noEnd s1 mm s2 decls defs _ _ _ _ hbody he hl⟩

theorem validate_shape (raw : RawModule X) :
    Shape (raw.instructions.map OpByBlock.ofCore) (validate raw) := by
  obtain ⟨v, h⟩ := shape_exists (raw.instructions.map OpByBlock.ofCore)
  rw [h.validate]
  exact h

end Magma
