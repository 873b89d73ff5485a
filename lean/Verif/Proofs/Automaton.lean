import Verif.Spec.Automaton
import Verif.Proofs.Outline
import Verif.Proofs.ValidateModule
/-! The automaton on the shapes of modules that `validate` distinguishes. -/

namespace Magma
open Spec
variable {X : Type}

namespace Spec.Reading

/-- Read all of it. -/
def steps : Reading → List Role → Option Reading
  | s, [] => some s
  | s, r :: rs => (s.step r).bind (fun s' => s'.steps rs)

theorem steps_append (s : Reading) (a b : List Role) : s.steps (a ++ b) = (s.steps a).bind (fun s' => s'.steps b) := by
  induction a generalizing s with
  | nil => rfl
  | cons r a ih =>
    show (s.step r).bind _ = ((s.step r).bind _).bind _
    cases s.step r with
    | none => rfl
    | some s' => exact ih s'

theorem steps_then {s s' s'' : Reading} {a b : List Role} (ha : s.steps a = some s') (hb : s'.steps b = some s'') :
    s.steps (a ++ b) = some s'' := by
  rw [steps_append, ha]
  exact hb

theorem scan_append {s s' : Reading} {a : List Role} (b : List Role) (i : Nat) (h : s.steps a = some s') :
    s.scan i (a ++ b) = s'.scan (i + a.length) b := by
  induction a generalizing s i with
  | nil => cases h; rfl
  | cons r a ih =>
    have h : (s.step r).bind (fun s' => s'.steps a) = some s' := h
    show (match s.step r with | some s' => s'.scan (i + 1) (a ++ b) | none => (s, i, r :: (a ++ b))) = _
    cases hs : s.step r with
    | none => rw [hs] at h; cases h
    | some t =>
      rw [hs] at h
      rw [List.length_cons, show i + (a.length + 1) = i + 1 + a.length by omega]
      exact ih (i + 1) h

theorem scan_stuck {s : Reading} {i : Nat} {rs : List Role} (h : ∀ r ∈ rs.head?, s.step r = none) :
    s.scan i rs = (s, i, rs) := by
  cases rs with
  | nil => rfl
  | cons r rs => rw [scan, h r rfl]

theorem steps_same {s : Reading} {r : Role} (h : s.step r = some s) (n : Nat) : s.steps (List.replicate n r) = some s := by
  induction n with
  | zero => rfl
  | succ n ih =>
    rw [List.replicate_succ]
    show (s.step r).bind _ = _
    rw [h]
    exact ih

theorem before_section {k n : Nat} {r : Role} (hr : r.section = some n) (h : k ≤ n) (h2 : n ≤ 2) :
    (before k).step r = some (before n) := by
  cases r <;> cases hr <;> simp only [step, Role.section] <;> rw [if_pos ⟨h, h2⟩]

theorem after_section {k n : Nat} {r : Role} (hr : r.section = some n) (h : k ≤ n) :
    (after k).step r = some (after n) := by
  cases r <;> cases hr <;> simp only [step, Role.section] <;> rw [if_pos h]

/-- A section before the memory model, which may be empty -/
theorem before_steps {k n m : Nat} {r : Role} (hr : r.section = some n) (h : k ≤ n) (h2 : n ≤ 2) :
    ∃ k', (before k).steps (List.replicate m r) = some (before k') ∧ k ≤ k' ∧ k' ≤ n ∧ (m ≠ 0 → k' = n) := by
  cases m with
  | zero => exact ⟨k, rfl, Nat.le_refl _, h, fun h => absurd rfl h⟩
  | succ m =>
    refine ⟨n, ?_, h, Nat.le_refl _, fun _ => rfl⟩
    rw [List.replicate_succ]
    show ((before k).step r).bind _ = _
    rw [before_section hr h h2]
    exact steps_same (before_section hr (Nat.le_refl _) h2) m

/-- A section after the memory model, which may be empty -/
theorem after_steps {k n m : Nat} {r : Role} (hr : r.section = some n) (h : k ≤ n) :
    ∃ k', (after k).steps (List.replicate m r) = some (after k') ∧ k ≤ k' ∧ k' ≤ n ∧ (m ≠ 0 → k' = n) := by
  cases m with
  | zero => exact ⟨k, rfl, Nat.le_refl _, h, fun h => absurd rfl h⟩
  | succ m =>
    refine ⟨n, ?_, h, Nat.le_refl _, fun _ => rfl⟩
    rw [List.replicate_succ]
    show ((after k).step r).bind _ = _
    rw [after_section hr h]
    exact steps_same (after_section hr (Nat.le_refl _)) m

end Spec.Reading

open Reading

theorem roles_map {T : Type} (emb : T → OpByBlock X) (r : Role) (h : ∀ t, roleB (emb t) = r) (l : List T) :
    (l.map emb).map roleB = List.replicate l.length r := by
  rw [List.map_map, List.map_congr_left (f := roleB ∘ emb) (g := fun _ => r) (fun t _ => h t), List.map_const']

theorem length_ne {T : Type} {l : List T} (h : l ≠ []) : l.length ≠ 0 := fun e => h (List.length_eq_zero_iff.mp e)

theorem steps_sec1 (s : Sec1) : ∃ k, (before 0).steps ((s.insts (X := X) []).map roleB) = some (before k) ∧ k ≤ 2 ∧
    (s.extensions ≠ [] → 1 ≤ k) ∧ (s.imports ≠ [] → 2 ≤ k) := by
  obtain ⟨k1, h1, -, l1, -⟩ := before_steps (k := 0) (n := 0) (m := s.capabilities.length) (r := .capability) rfl
    (Nat.le_refl _) (by omega)
  obtain ⟨k2, h2, g2, l2, e2⟩ := before_steps (k := k1) (n := 1) (m := s.extensions.length) (r := .extension) rfl
    (by omega) (by omega)
  obtain ⟨k3, h3, g3, l3, e3⟩ := before_steps (k := k2) (n := 2) (m := s.imports.length) (r := .importing) rfl
    (by omega) (by omega)
  refine ⟨k3, ?_, l3, fun h => ?_, fun h => ?_⟩
  · rw [Sec1.insts, List.map_append, List.map_append, List.map_append, roles_map _ .capability (fun _ => rfl),
      roles_map _ .extension (fun _ => rfl), roles_map _ .importing (fun _ => rfl)]
    exact steps_then h1 (steps_then h2 (steps_then h3 rfl))
  · have := e2 (length_ne h); omega
  · have := e3 (length_ne h); omega

theorem steps_sec2 (s : Sec2) : ∃ k, (after 4).steps ((s.insts (X := X) []).map roleB) = some (after k) ∧ 4 ≤ k ∧ k ≤ 8 ∧
    (s.execution_modes ≠ [] → 5 ≤ k) ∧ (s.debug ≠ [] → 6 ≤ k) ∧ (s.annotations ≠ [] → 7 ≤ k) ∧
    (s.globals ≠ [] → 8 ≤ k) := by
  obtain ⟨k1, h1, g1, l1, -⟩ := after_steps (k := 4) (n := 4) (m := s.entry_points.length) (r := .entryPoint) rfl
    (Nat.le_refl _)
  obtain ⟨k2, h2, g2, l2, e2⟩ := after_steps (k := k1) (n := 5) (m := s.execution_modes.length) (r := .executionMode) rfl
    (by omega)
  obtain ⟨k3, h3, g3, l3, e3⟩ := after_steps (k := k2) (n := 6) (m := s.debug.length) (r := .debug) rfl (by omega)
  obtain ⟨k4, h4, g4, l4, e4⟩ := after_steps (k := k3) (n := 7) (m := s.annotations.length) (r := .annotation) rfl (by omega)
  obtain ⟨k5, h5, g5, l5, e5⟩ := after_steps (k := k4) (n := 8) (m := s.globals.length) (r := .global) rfl (by omega)
  refine ⟨k5, ?_, by omega, l5, fun h => ?_, fun h => ?_, fun h => ?_, fun h => ?_⟩
  · simp only [Sec2.insts, List.map_append]
    rw [roles_map _ .entryPoint (fun _ => rfl), roles_map _ .executionMode (fun _ => rfl), roles_map _ .debug (fun _ => rfl),
      roles_map _ .annotation (fun _ => rfl), roles_map _ .global (fun _ => rfl)]
    exact steps_then h1 (steps_then h2 (steps_then h3 (steps_then h4 (steps_then h5 rfl))))
  · have := e2 (length_ne h); omega
  · have := e3 (length_ne h); omega
  · have := e4 (length_ne h); omega
  · have := e5 (length_ne h); omega

theorem steps_blockHead (l : OpLabel) (code : List (GroupCode X)) (merge : Option GroupMerge) (s : Reading)
    (hs : s.step .label = some .block) :
    s.steps ((blockHeadB l code merge).map roleB) = some (if merge.isSome then .merged else .block) := by
  rw [blockHeadB, List.map_cons, List.map_append, roles_map _ .code (fun _ => rfl)]
  show (s.step .label).bind _ = _
  rw [hs]
  refine steps_then (steps_same rfl _) ?_
  cases merge <;> rfl

theorem steps_block (b : BasicBlock X) (s : Reading) (hs : s.step .label = some .block) :
    s.steps ((blockB b).map roleB) = some .between := by
  rw [blockB, List.map_append]
  refine steps_then (steps_blockHead _ _ _ s hs) ?_
  cases b.merge <;> rfl

theorem steps_blocks (bs : List (BasicBlock X)) (s : Reading) (hs : s.step .label = some .block) :
    s.steps ((bs.flatMap blockB).map roleB) = some (if bs = [] then s else .between) := by
  induction bs generalizing s with
  | nil => rfl
  | cons b bs ih =>
    rw [List.flatMap_cons, List.map_append]
    refine steps_then (steps_block b s hs) ?_
    rw [ih .between rfl, if_neg (List.cons_ne_nil b bs)]
    split <;> rfl

theorem steps_functionHead (k : Nat) (f : OpFunction) (params : List OpFunctionParameter) :
    (after k).steps ((functionHeadB (X := X) f params).map roleB) = some (if params = [] then .opened else .parameters) := by
  cases params with
  | nil => rfl
  | cons p ps =>
    rw [functionHeadB, List.map_cons, roles_map _ .parameter (fun _ => rfl)]
    exact steps_same (s := .parameters) rfl _

/-- The state behind the start of a function -/
def headState (params : List OpFunctionParameter) (blocks : List (BasicBlock X)) : Reading :=
  if blocks = [] then (if params = [] then .opened else .parameters) else .between

theorem steps_head (k : Nat) (f : OpFunction) (params : List OpFunctionParameter) (blocks : List (BasicBlock X)) :
    (after k).steps ((definitionHeadB f params blocks).map roleB) = some (headState params blocks) := by
  rw [definitionHeadB, List.map_append]
  refine steps_then (steps_functionHead k f params) ?_
  rw [steps_blocks]
  · rfl
  · split <;> rfl

theorem headState_step {params : List OpFunctionParameter} {blocks : List (BasicBlock X)} :
    (headState params blocks).step .functionEnd = some (.after 9) ∧ (headState params blocks).step .label = some .block := by
  unfold headState
  split
  · split <;> exact ⟨rfl, rfl⟩
  · exact ⟨rfl, rfl⟩

theorem steps_definition (k : Nat) (d : FunctionDefinition X) :
    (after k).steps ((definitionB d).map roleB) = some (.after 9) := by
  have e : definitionB d = definitionHeadB d.function d.parameters d.blocks ++ [.OpFunctionEnd {}] := by
    rw [definitionB, definitionHeadB]
  rw [e, List.map_append]
  refine steps_then (steps_head k _ _ _) ?_
  show ((headState d.parameters d.blocks).step .functionEnd).bind _ = _
  rw [headState_step.1]
  rfl

theorem steps_declaration (k : Nat) (d : FunctionDeclaration) :
    (after k).steps ((declarationB (X := X) d).map roleB) = some (.after 9) := by
  rw [declarationB, List.map_append]
  refine steps_then (steps_functionHead k _ _) ?_
  split <;> rfl

theorem steps_many {T : Type} (g : T → List (OpByBlock X)) (h : ∀ t k, (after k).steps ((g t).map roleB) = some (.after 9))
    (l : List T) (k : Nat) : (after k).steps ((l.flatMap g).map roleB) = some (.after (if l = [] then k else 9)) := by
  induction l generalizing k with
  | nil => rfl
  | cons t l ih =>
    rw [List.flatMap_cons, List.map_append]
    refine steps_then (h t k) ?_
    rw [ih 9, if_neg (List.cons_ne_nil t l)]
    split <;> rfl

theorem steps_whole (s1 : Sec1) (mm : OpMemoryModel) (s2 : Sec2) (decls : List FunctionDeclaration)
    (defs : List (FunctionDefinition X)) : ∃ k, (before 0).steps ((wholeB s1 mm s2 decls defs).map roleB) = some (after k) ∧
      (decls ≠ [] ∨ defs ≠ [] → k = 9) ∧ (decls = [] → defs = [] → 4 ≤ k ∧
        (s2.execution_modes ≠ [] → 5 ≤ k) ∧ (s2.debug ≠ [] → 6 ≤ k) ∧ (s2.annotations ≠ [] → 7 ≤ k) ∧
        (s2.globals ≠ [] → 8 ≤ k)) := by
  obtain ⟨k1, h1, -⟩ := steps_sec1 (X := X) s1
  obtain ⟨k2, h2, hk, -, hk'⟩ := steps_sec2 (X := X) s2
  refine ⟨if defs = [] then (if decls = [] then k2 else 9) else 9, ?_, ?_, ?_⟩
  · have e : wholeB s1 mm s2 decls defs = s1.insts [] ++ ([.OpMemoryModel mm] ++ (s2.insts [] ++
        (decls.flatMap declarationB ++ defs.flatMap definitionB))) := by
      simp [wholeB, upperB, topB, Sec1.insts, Sec2.insts]
    rw [e]
    simp only [List.map_append]
    refine steps_then h1 (steps_then (s' := after 4) rfl (steps_then h2 (steps_then
      (steps_many declarationB (fun t k => steps_declaration k t) decls k2) ?_)))
    exact steps_many definitionB (fun t k => steps_definition k t) defs _
  · rintro (h | h)
    · rw [if_neg h]
      split <;> rfl
    · rw [if_neg h]
  · rintro rfl rfl
    exact ⟨hk, hk'⟩

theorem notHead_role {T : Type} {emb : T → OpByBlock X} {x : OpByBlock X} {r : List (OpByBlock X)}
    (h : NotHead emb (x :: r)) (t : T) : x ≠ emb t := fun e => h t (by rw [e]; rfl)

theorem notHead_skip {T U : Type} {emb : T → OpByBlock X} {emb' : U → OpByBlock X} {l : List U} {r : List (OpByBlock X)}
    (hl : l = []) (h : NotHead emb (l.map emb' ++ r)) : NotHead emb r := by
  subst hl
  exact h

/-- Nothing that follows maximal sections can be read, except for a function. -/
theorem step_sec2 {s : Sec2} {x : OpByBlock X} {r : List (OpByBlock X)} {k : Nat} (hm : s.Maximal (x :: r)) (hk : 4 ≤ k ∧
      (s.execution_modes ≠ [] → 5 ≤ k) ∧ (s.debug ≠ [] → 6 ≤ k) ∧ (s.annotations ≠ [] → 7 ≤ k) ∧ (s.globals ≠ [] → 8 ≤ k))
    (hf : roleB x ≠ .function) : (after k).step (roleB x) = none := by
  obtain ⟨h0, h1, h2, h3, h4⟩ := hk
  have no {U : Type} {l : List U} {n : Nat} (h : l ≠ [] → n ≤ k) (hn : ¬ n ≤ k) : l = [] := by
    by_contra hl
    exact hn (h hl)
  cases x
  case OpFunction => exact absurd rfl hf
  case OpEntryPoint t =>
    show (if k ≤ 4 then some (after 4) else none) = none
    by_cases hk : k ≤ 4
    · exact absurd rfl (notHead_role (notHead_skip (no h4 (by omega)) (notHead_skip (no h3 (by omega))
        (notHead_skip (no h2 (by omega)) (notHead_skip (no h1 (by omega)) hm.entry_points)))) t)
    · rw [if_neg hk]
  case OpExecutionMode t =>
    show (if k ≤ 5 then some (after 5) else none) = none
    by_cases hk : k ≤ 5
    · exact absurd rfl (notHead_role (notHead_skip (no h4 (by omega)) (notHead_skip (no h3 (by omega))
        (notHead_skip (no h2 (by omega)) hm.execution_modes))) t)
    · rw [if_neg hk]
  case GroupDebug t =>
    show (if k ≤ 6 then some (after 6) else none) = none
    by_cases hk : k ≤ 6
    · exact absurd rfl (notHead_role (notHead_skip (no h4 (by omega)) (notHead_skip (no h3 (by omega)) hm.debug)) t)
    · rw [if_neg hk]
  case GroupAnnotation t =>
    show (if k ≤ 7 then some (after 7) else none) = none
    by_cases hk : k ≤ 7
    · exact absurd rfl (notHead_role (notHead_skip (no h4 (by omega)) hm.annotations) t)
    · rw [if_neg hk]
  case GroupGlobal t => exact absurd rfl (notHead_role hm.globals t)
  case OpCapability t => show (if k ≤ 0 then some (after 0) else none) = none; rw [if_neg (by omega)]
  case OpExtension t => show (if k ≤ 1 then some (after 1) else none) = none; rw [if_neg (by omega)]
  case OpExtInstImport t => show (if k ≤ 2 then some (after 2) else none) = none; rw [if_neg (by omega)]
  all_goals rfl

/-- Between functions only a function can be read. -/
theorem step_nine {x : OpByBlock X} (hf : roleB x ≠ .function) : (after 9).step (roleB x) = none := by
  cases x <;> first | rfl | exact absurd rfl hf

theorem step_sec1 {s : Sec1} {x : OpByBlock X} {r : List (OpByBlock X)} {k : Nat} (hm : s.Maximal (x :: r))
    (hx : NotHead .OpMemoryModel (x :: r)) (h1 : s.extensions ≠ [] → 1 ≤ k) (h2 : s.imports ≠ [] → 2 ≤ k) :
    (before k).step (roleB x) = none := by
  have no {U : Type} {l : List U} {n : Nat} (h : l ≠ [] → n ≤ k) (hn : ¬ n ≤ k) : l = [] := by
    by_contra hl
    exact hn (h hl)
  cases x
  case OpMemoryModel t => exact absurd rfl (notHead_role hx t)
  case OpCapability t =>
    show (if k ≤ 0 ∧ 0 ≤ 2 then some (before 0) else none) = none
    by_cases hk : k ≤ 0
    · exact absurd rfl (notHead_role (notHead_skip (no h2 (by omega)) (notHead_skip (no h1 (by omega)) hm.capabilities))
        t.capability)
    · rw [if_neg (by omega)]
  case OpExtension t =>
    show (if k ≤ 1 ∧ 1 ≤ 2 then some (before 1) else none) = none
    by_cases hk : k ≤ 1
    · exact absurd rfl (notHead_role (notHead_skip (no h2 (by omega)) hm.extensions) t.name)
    · rw [if_neg (by omega)]
  case OpExtInstImport t => exact absurd rfl (notHead_role hm.imports t)
  case OpEntryPoint => exact if_neg (by omega)
  case OpExecutionMode => exact if_neg (by omega)
  case GroupDebug => exact if_neg (by omega)
  case GroupAnnotation => exact if_neg (by omega)
  case GroupGlobal => exact if_neg (by omega)
  all_goals rfl

theorem shape_verdict {L : List (OpByBlock X)} {v : V (LogicalModule X)} (h : Shape L v) :
    v.map (fun _ => ()) = match verdict (L.map roleB) with
      | none => .ok ()
      | some e => .error (.err e) := by
  cases h with
  | noMemoryModel s1 r hm hr =>
    obtain ⟨k, h1, -, hk1, hk2⟩ := steps_sec1 (X := X) s1
    rw [sec1_prefix, List.map_append, verdict, scan_append _ _ h1, scan_stuck]
    · rfl
    · intro y hy
      cases r with
      | nil => cases hy
      | cons x r => cases hy; exact step_sec1 hm hr hk1 hk2
  | noFunction s1 mm s2 decls defs r hb hm hl hf =>
    obtain ⟨k, h1, hk1, hk2⟩ := steps_whole s1 mm s2 decls defs
    rw [List.map_append, verdict, scan_append _ _ h1, List.length_map]
    cases r with
    | nil => exact absurd hl (by simp)
    | cons x r =>
      cases r with
      | nil => exact absurd hl (by simp)
      | cons y r =>
        have hx : roleB x ≠ .function := by
          intro h
          cases x <;> first | (cases h; done) | exact notHead_role hf _ rfl
        rw [scan_stuck]
        · rw [Nat.zero_add]; rfl
        · intro z hz
          cases hz
          by_cases hd : decls = [] ∧ defs = []
          · exact step_sec2 (hm hd.1 hd.2) (hk2 hd.1 hd.2) hx
          · have hd : decls ≠ [] ∨ defs ≠ [] := by
              by_cases h : decls = []
              · exact .inr (fun h' => hd ⟨h, h'⟩)
              · exact .inl h
            rw [hk1 hd]
            exact step_nine hx
  | noBranch s1 mm s2 decls defs f params blocks l code merge r hb hn =>
    obtain ⟨k, h1, -, -⟩ := steps_whole s1 mm s2 decls defs
    have h2 := steps_head k f params blocks
    have h3 := steps_blockHead l code merge (headState params blocks) headState_step.2
    rw [← List.append_assoc, ← List.append_assoc, List.map_append, verdict,
      scan_append (s' := if merge.isSome then .merged else .block), List.length_map, Nat.zero_add]
    · cases merge with
      | none =>
        rw [Option.isSome_none, if_neg (by decide), scan_stuck]
        · rfl
        · intro y hy
          cases r with
          | nil => cases hy
          | cons x r =>
            cases hy
            cases x
            case GroupCode => exact absurd rfl (notHead_role hn.code _)
            case GroupMerge => exact absurd rfl (notHead_role (hn.merge rfl) _)
            case GroupBranch => exact absurd rfl (notHead_role hn.branch _)
            all_goals rfl
      | some g =>
        rw [Option.isSome_some, if_pos rfl, scan_stuck]
        · rfl
        · intro y hy
          cases r with
          | nil => cases hy
          | cons x r =>
            cases hy
            cases x
            case GroupBranch => exact absurd rfl (notHead_role hn.branch _)
            all_goals rfl
    · rw [List.map_append, List.map_append]
      exact steps_then (steps_then h1 h2) h3
  | noEnd s1 mm s2 decls defs f params blocks r hb hn hl =>
    obtain ⟨k, h1, -, -⟩ := steps_whole s1 mm s2 decls defs
    have h2 := steps_head k f params blocks
    rw [← List.append_assoc, List.map_append, verdict, scan_append (s' := headState params blocks), List.length_map,
      Nat.zero_add, scan_stuck]
    · by_cases hbl : blocks = []
      · subst hbl
        by_cases hp : params = []
        · subst hp
          cases r with
          | nil => exact absurd hl (by simp [definitionHeadB, functionHeadB])
          | cons x r => rfl
        · rw [headState, if_pos rfl, if_neg hp]
          rfl
      · rw [headState, if_neg hbl]
        rfl
    · intro y hy
      cases r with
      | nil => cases hy
      | cons x r =>
        cases hy
        unfold headState
        split
        · rename_i hbl
          subst hbl
          split <;> cases x
          case OpFunctionParameter => exact absurd rfl (notHead_role hn.parameter _)
          case OpLabel => exact absurd rfl (notHead_role hn.label _)
          case OpFunctionEnd => exact absurd rfl (notHead_role hn.finish _)
          case OpFunctionParameter => exact absurd rfl (notHead_role hn.parameter _)
          case OpLabel => exact absurd rfl (notHead_role hn.label _)
          case OpFunctionEnd => exact absurd rfl (notHead_role hn.finish _)
          all_goals rfl
        · cases x
          case OpLabel => exact absurd rfl (notHead_role hn.label _)
          case OpFunctionEnd => exact absurd rfl (notHead_role hn.finish _)
          all_goals rfl
    · rw [List.map_append]
      exact steps_then h1 h2
  | unexpected s1 mm s2 decls defs x hb hm =>
    obtain ⟨k, h1, hk1, hk2⟩ := steps_whole s1 mm s2 decls defs
    rw [List.map_append, verdict, scan_append _ _ h1, List.length_map, Nat.zero_add]
    by_cases hx : roleB x = .function
    · rw [List.map_cons, List.map_nil, hx]
      rfl
    · rw [scan_stuck]
      · rfl
      · intro z hz
        cases hz
        by_cases hd : decls = [] ∧ defs = []
        · exact step_sec2 (hm hd.1 hd.2) (hk2 hd.1 hd.2) hx
        · have hd : decls ≠ [] ∨ defs ≠ [] := by
            by_cases h : decls = []
            · exact .inr (fun h' => hd ⟨h, h'⟩)
            · exact .inl h
          rw [hk1 hd]
          exact step_nine hx
  | accepted s1 mm s2 decls defs hb =>
    obtain ⟨k, h1, -, -⟩ := steps_whole s1 mm s2 decls defs
    have := scan_append [] 0 h1
    rw [List.append_nil] at this
    rw [verdict, this]
    rfl

/-- C59 in terms of `verdict` -/
theorem validate_verdict (raw : RawModule X) :
    (validate raw).map (fun _ => ()) = match verdict (raw.instructions.map role) with
      | none => .ok ()
      | some e => .error (.err e) := by
  have h := shape_verdict (validate_shape raw)
  rw [List.map_map, List.map_congr_left (f := roleB ∘ OpByBlock.ofCore) (g := role) (fun c _ => roleB_ofCore c)] at h
  exact h

theorem accepted_iff (raw : RawModule X) :
    (∃ m, validate raw = .ok m) ↔ verdict (raw.instructions.map role) = none := by
  have h := validate_verdict raw
  constructor
  · rintro ⟨m, e⟩
    rw [e] at h
    cases hv : verdict (raw.instructions.map role) with
    | none => rfl
    | some x => rw [hv] at h; cases h
  · intro e
    rw [e] at h
    cases hv : validate raw with
    | ok m => exact ⟨m, rfl⟩
    | error x => rw [hv] at h; cases h

theorem rejected_iff (raw : RawModule X) (e : ValidationError) :
    validate raw = .error (.err e) ↔ verdict (raw.instructions.map role) = some e := by
  have h := validate_verdict raw
  constructor
  · intro e'
    rw [e'] at h
    cases hv : verdict (raw.instructions.map role) with
    | none => rw [hv] at h; cases h
    | some x => rw [hv] at h; cases h; rfl
  · intro e'
    rw [e'] at h
    cases hv : validate raw with
    | ok m => rw [hv] at h; cases h
    | error x => rw [hv] at h; cases h; rfl

theorem scan_spec (s : Reading) (i : Nat) (rs : List Role) : ∃ n s', n ≤ rs.length ∧ s.steps (rs.take n) = some s' ∧
    s.scan i rs = (s', i + n, rs.drop n) ∧ ∀ r ∈ (rs.drop n).head?, s'.step r = none := by
  induction rs generalizing s i with
  | nil => exact ⟨0, s, Nat.le_refl _, rfl, rfl, fun r hr => by cases hr⟩
  | cons r rs ih =>
    cases hs : s.step r with
    | none =>
      refine ⟨0, s, Nat.zero_le _, rfl, ?_, fun x hx => ?_⟩
      · rw [scan, hs]; rfl
      · cases hx; exact hs
    | some t =>
      obtain ⟨n, s', h1, h2, h3, h4⟩ := ih t (i + 1)
      refine ⟨n + 1, s', Nat.succ_le_succ h1, ?_, ?_, h4⟩
      · rw [List.take_succ_cons]
        show (s.step r).bind _ = _
        rw [hs]
        exact h2
      · rw [scan, hs]
        show t.scan (i + 1) rs = _
        rw [h3, List.drop_succ_cons, show i + 1 + n = i + (n + 1) by omega]

/-- What is missing -/
def completion : Reading → List (Core X)
  | .before _ => [.OpMemoryModel ⟨.Logical, .Simple⟩]
  | .after _ => []
  | .opened => [.OpFunctionEnd {}]
  | .parameters => [.OpFunctionEnd {}]
  | .between => [.OpFunctionEnd {}]
  | .block => [.OpReturn {}, .OpFunctionEnd {}]
  | .merged => [.OpReturn {}, .OpFunctionEnd {}]

theorem steps_completion (s : Reading) : ∃ k, s.steps ((completion (X := X) s).map role) = some (after k) := by
  cases s
  case after k => exact ⟨k, rfl⟩
  all_goals exact ⟨_, rfl⟩

theorem verdict_none {rs : List Role} : verdict rs = none ↔ ∃ k, (before 0).steps rs = some (after k) := by
  constructor
  · intro h
    obtain ⟨n, s', h1, h2, h3, h4⟩ := scan_spec (before 0) 0 rs
    rw [verdict, h3] at h
    cases s' with
    | after k =>
      have : rs.drop n = [] := by
        cases hd : rs.drop n with
        | nil => rfl
        | cons a l =>
          rw [hd] at h
          cases l <;> cases h
      rw [List.take_of_length_le (List.drop_eq_nil_iff.mp this)] at h2
      exact ⟨k, h2⟩
    | opened => cases hd : rs.drop n <;> rw [hd] at h <;> cases h
    | before k => cases h
    | parameters => cases h
    | block => cases h
    | merged => cases h
    | between => cases h
  · rintro ⟨k, h⟩
    have := scan_append [] 0 h
    rw [List.append_nil] at this
    rw [verdict, this]
    rfl

theorem viable_iff (raw : RawModule X) (n : Nat) :
    Viable raw n ↔ ∃ s, (before 0).steps ((raw.instructions.map role).take n) = some s := by
  constructor
  · rintro ⟨more, m, h⟩
    obtain ⟨m', hm⟩ := verdict_none.mp ((accepted_iff _).mp ⟨m, h⟩)
    rw [List.map_append, steps_append, List.map_take] at hm
    cases hs : (before 0).steps ((raw.instructions.map role).take n) with
    | none => rw [hs] at hm; cases hm
    | some s => exact ⟨s, rfl⟩
  · rintro ⟨s, h⟩
    obtain ⟨k, hk⟩ := steps_completion (X := X) s
    obtain ⟨m, hm⟩ := (accepted_iff { raw with instructions := raw.instructions.take n ++ completion s }).mpr
      (verdict_none.mpr ⟨k, by rw [List.map_append, List.map_take]; exact steps_then h hk⟩)
    exact ⟨_, m, hm⟩

theorem not_viable {raw : RawModule X} {n j : Nat} {s : Reading} (hn : n < j) (hj : j ≤ raw.instructions.length)
    (h : (before 0).steps ((raw.instructions.map role).take n) = some s)
    (hs : ∀ r ∈ ((raw.instructions.map role).drop n).head?, s.step r = none) : ¬ Viable raw j := by
  rw [viable_iff]
  rintro ⟨t, ht⟩
  have e : (raw.instructions.map role).take j = (raw.instructions.map role).take n ++
      ((raw.instructions.map role).drop n).take (j - n) := by
    rw [← List.take_add, show n + (j - n) = j by omega]
  rw [e, steps_append, h] at ht
  cases hd : (raw.instructions.map role).drop n with
  | nil =>
    have := List.drop_eq_nil_iff.mp hd
    rw [List.length_map] at this
    omega
  | cons r rs =>
    rw [hd] at ht hs
    rw [show j - n = (j - n - 1) + 1 by omega, List.take_succ_cons] at ht
    have ht : (s.step r).bind _ = some t := ht
    rw [hs r rfl] at ht
    cases ht

theorem step_opened {s : Reading} {r : Role} (h : s.step r = some .opened) : r = .function := by
  cases s
  case before k =>
    cases r <;> simp only [Reading.step, Role.section] at h <;> first | rfl | (split at h <;> cases h) | cases h
  case after k =>
    cases r <;> simp only [Reading.step, Role.section] at h <;> first | rfl | (split at h <;> cases h) | cases h
  all_goals cases r <;> cases h

theorem steps_opened {rs : List Role} (h : (before 0).steps rs = some .opened) :
    ∃ r t, rs = r ++ [.function] ∧ (before 0).steps r = some t := by
  rcases List.eq_nil_or_concat rs with rfl | ⟨r, x, rfl⟩
  · cases h
  · rw [List.concat_eq_append] at h ⊢
    rw [steps_append] at h
    cases hr : (before 0).steps r with
    | none => rw [hr] at h; cases h
    | some t =>
      rw [hr] at h
      have h : (t.step x).bind (fun s => some s) = some .opened := h
      cases hx : t.step x with
      | none => rw [hx] at h; cases h
      | some u =>
        rw [hx] at h
        cases h
        rw [step_opened hx]
        exact ⟨r, t, rfl, hr⟩

end Magma
