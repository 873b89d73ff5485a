import Verif.Model.ParserCost
import Verif.Spec.StackDepth
import Verif.Proofs.ValidateLayout
/-! The exact number of frames the validator takes on a module it accepts. -/

namespace Magma
variable {X : Type}

/-- With room for `p` frames the outcome is `a` after `n` calls, and with less it is a stack
overflow. -/
structure Takes {α : Type} (x : Cost α) (p n : Nat) (a : α) : Prop where
  enough : ∀ d, p ≤ d → x d = (.ok a, n)
  short : ∀ d, d < p → (x d).1 = .error .diverge

theorem cost_bind_ok {α β : Type} {x : Cost α} {g : α → Cost β} {d n : Nat} {a : α}
    (h : x d = (.ok a, n)) : (x >>= g) d = ((g a d).1, n + (g a d).2) := by
  show (match x d with
    | (.ok a, n) => ((g a d).1, n + (g a d).2)
    | (.error e, n) => (.error e, n)) = _
  rw [h]

theorem cost_bind_error {α β : Type} {x : Cost α} {g : α → Cost β} {d : Nat}
    {e : Fault ValidationError} (h : (x d).1 = .error e) : ((x >>= g) d).1 = .error e := by
  show (match x d with
    | (.ok a, n) => ((g a d).1, n + (g a d).2)
    | (.error e, n) => (.error e, n)).1 = _
  rcases hx : x d with ⟨o, n⟩
  rw [hx] at h
  simp only at h
  subst h
  rfl

theorem Takes.pure {α : Type} (a : α) : Takes (Pure.pure a : Cost α) 0 0 a :=
  ⟨fun _ _ => rfl, fun _ h => by omega⟩

theorem Takes.free {α : Type} {x : V α} {a : α} (h : x = .ok a) : Takes (Cost.free x) 0 0 a :=
  ⟨fun _ _ => by rw [h]; rfl, fun _ h => by omega⟩

theorem Takes.bind {α β : Type} {x : Cost α} {g : α → Cost β} {p q n m : Nat} {a : α} {b : β}
    (hx : Takes x p n a) (hg : Takes (g a) q m b) : Takes (x >>= g) (max p q) (n + m) b := by
  constructor
  · intro d hd
    rw [cost_bind_ok (hx.enough d (by omega)), hg.enough d (by omega)]
  · intro d hd
    by_cases hp : p ≤ d
    · rw [cost_bind_ok (hx.enough d hp)]
      exact hg.short d (by omega)
    · exact cost_bind_error (hx.short d (by omega))

theorem Takes.of_eq {α : Type} {x : Cost α} {p q n m : Nat} {a : α} (h : Takes x p n a) (e : p = q)
    (e' : n = m) : Takes x q m a := e ▸ e' ▸ h

theorem Takes.zero_bind {α β : Type} {x : Cost α} {g : α → Cost β} {q m : Nat} {a : α} {b : β}
    (hx : Takes x 0 0 a) (hg : Takes (g a) q m b) : Takes (x >>= g) q m b :=
  (hx.bind hg).of_eq (Nat.zero_max q) (Nat.zero_add m)

theorem Takes.bind_zero {α β : Type} {x : Cost α} {g : α → Cost β} {q m : Nat} {a : α} {b : β}
    (hx : Takes x q m a) (hg : Takes (g a) 0 0 b) : Takes (x >>= g) q m b :=
  (hx.bind hg).of_eq (Nat.max_zero q) (Nat.add_zero m)

theorem readRestC_takes {T : Type} {f : OpSlice X → Cost (PhaseResult X T)}
    {emb : T → List (OpByBlock X)} {need work : T → Nat} {stop rest : Nat} {r : List (OpByBlock X)}
    {s : OpSlice X}
    (hit : ∀ t pre r, Takes (f (cur pre (emb t ++ r))) (need t) (work t) (.ok t (cur (pre ++ emb t) r))) :
    ∀ (ts : List T) (pre : List (OpByBlock X)) (out : List T),
      Takes (f (cur (pre ++ ts.flatMap emb) r)) stop rest (.next s) →
      ∀ d, (Spec.nested need stop ts ≤ d → readRestC f d (cur pre (ts.flatMap emb ++ r)) out =
          (.ok (out.reverse ++ ts, s), Spec.callsFor work rest ts)) ∧
        (d < Spec.nested need stop ts → (readRestC f d (cur pre (ts.flatMap emb ++ r)) out).1 = .error .diverge)
  | ts, pre, out, hs, 0 => by
    refine ⟨fun h => ?_, fun _ => rfl⟩
    cases ts <;> simp [Spec.nested] at h
  | [], pre, out, hs, d + 1 => by
    simp only [List.flatMap_nil, List.append_nil, List.nil_append] at hs ⊢
    simp only [Spec.nested, Spec.callsFor, Nat.add_le_add_iff_right, Nat.add_lt_add_iff_right]
    constructor
    · intro hd
      simp only [readRestC, hs.enough d hd]
    · intro hd
      have h := hs.short d hd
      rcases hf : f (cur pre r) d with ⟨o, k⟩
      rw [hf] at h
      simp only at h
      subst h
      simp only [readRestC, hf]
  | t :: ts, pre, out, hs, d + 1 => by
    have e : (t :: ts).flatMap emb ++ r = emb t ++ (ts.flatMap emb ++ r) := by simp
    rw [e]
    have ht := hit t pre (ts.flatMap emb ++ r)
    have ih := readRestC_takes hit ts (pre ++ emb t) (t :: out) (by simpa using hs) d
    simp only [Spec.nested, Spec.callsFor, Nat.add_le_add_iff_right, Nat.add_lt_add_iff_right]
    constructor
    · intro hd
      simp only [readRestC, ht.enough d (by omega)]
      rw [ih.1 (by omega)]
      simp
    · intro hd
      by_cases hn : need t ≤ d
      · simp only [readRestC, ht.enough d hn]
        exact ih.2 (by omega)
      · have h := ht.short d (by omega)
        rcases hf : f (cur pre (emb t ++ (ts.flatMap emb ++ r))) d with ⟨o, k⟩
        rw [hf] at h
        simp only at h
        subst h
        simp only [readRestC, hf]

theorem readManyC_takes {T : Type} {f : OpSlice X → Cost (PhaseResult X T)}
    {emb : T → List (OpByBlock X)} {need work : T → Nat} {stop rest : Nat} {r : List (OpByBlock X)}
    {s : OpSlice X}
    (hit : ∀ t pre r, Takes (f (cur pre (emb t ++ r))) (need t) (work t) (.ok t (cur (pre ++ emb t) r)))
    (ts : List T) (pre : List (OpByBlock X))
    (hs : Takes (f (cur (pre ++ ts.flatMap emb) r)) stop rest (.next s)) :
    Takes (readManyC (cur pre (ts.flatMap emb ++ r)) f) (Spec.nested need stop ts)
      (Spec.callsFor work rest ts) (ts, s) := by
  constructor
  · intro d hd
    simpa [readManyC] using (readRestC_takes hit ts pre [] hs d).1 hd
  · intro d hd
    simpa [readManyC] using (readRestC_takes hit ts pre [] hs d).2 hd

theorem callsFor_zero {T : Type} (ts : List T) : Spec.callsFor (fun _ => 0) 0 ts = ts.length + 1 := by
  induction ts with
  | nil => rfl
  | cons t ts ih => simp [Spec.callsFor, ih]

theorem nested_zero {T : Type} (ts : List T) : Spec.nested (fun _ => 0) 0 ts = ts.length + 1 := by
  induction ts with
  | nil => rfl
  | cons t ts ih => simp [Spec.nested, ih]

theorem Simple.takes {T : Type} {f : OpSlice X → V (PhaseResult X T)} {emb : T → OpByBlock X}
    (h : Simple f emb) (ts : List T) (pre r : List (OpByBlock X)) (hn : NotHead emb r) :
    Takes (readManyC (cur pre (ts.map emb ++ r)) (light f)) (ts.length + 1) (ts.length + 1)
      (ts, cur (pre ++ ts.map emb) r) := by
  have := readManyC_takes (f := light f) (emb := fun t => [emb t]) (need := fun _ => 0) (work := fun _ => 0) (stop := 0) (rest := 0)
    (r := r) (s := cur (pre ++ ts.map emb) r) (fun t pre r => Takes.free (h.hit t pre r)) ts pre
    (Takes.free (by rw [flatMap_single]; exact h.miss _ _ hn))
  rw [flatMap_single, nested_zero, callsFor_zero] at this
  exact this

theorem block_takes (b : BasicBlock X) (pre r : List (OpByBlock X)) :
    Takes (readBasicBlockC (cur pre (blockB b ++ r))) (Spec.blockDepth b) (Spec.blockCalls b)
      (.ok b (cur (pre ++ blockB b) r)) := by
  have e : blockB b ++ r = .OpLabel b.label ::
      (b.code.map .GroupCode ++ (b.merge.toList.map .GroupMerge ++ (.GroupBranch b.branch :: r))) := by
    simp [blockB, blockHeadB]
  have e2 : pre ++ blockB b = pre ++ [.OpLabel b.label] ++ b.code.map .GroupCode ++
      b.merge.toList.map .GroupMerge ++ [.GroupBranch b.branch] := by
    simp [blockB, blockHeadB]
  rw [e, e2]
  simp only [readBasicBlockC, cur_first_cons]
  refine Takes.zero_bind (Takes.free (cur_advance _ _ _)) ?_
  refine Takes.bind_zero (simple_code.takes b.code _ _ (notHead_of_kind (by simp) (by simp))) ?_
  refine Takes.zero_bind (Takes.free (readMerge_opt _ _ _ (by simp [notHead_cons]))) ?_
  refine Takes.zero_bind (Takes.free (readBranch_some _ _ _)) ?_
  exact Takes.pure _

theorem block_takes_next (pre r : List (OpByBlock X)) (h : NotHead .OpLabel r) :
    Takes (readBasicBlockC (cur pre r)) 0 0 (.next (cur pre r)) := by
  cases r with
  | nil => simp only [readBasicBlockC, cur_first_nil]; exact Takes.pure _
  | cons x r =>
    rw [notHead_cons] at h
    cases x <;> first
      | exact absurd rfl (h _)
      | (simp only [readBasicBlockC, cur_first_cons]; exact Takes.pure _)

theorem declaration_takes (f : FunctionDeclaration) (pre r : List (OpByBlock X)) :
    Takes (readFunctionDeclarationC (cur pre (declarationB f ++ r))) (Spec.declarationDepth f) (Spec.declarationCalls f)
      (.ok f (cur (pre ++ declarationB f) r)) := by
  have e : declarationB f ++ r =
      .OpFunction f.function :: (f.parameters.map .OpFunctionParameter ++ .OpFunctionEnd {} :: r) := by
    simp [declarationB, functionHeadB]
  have e2 : pre ++ declarationB f = pre ++ [.OpFunction f.function] ++
      f.parameters.map .OpFunctionParameter ++ [.OpFunctionEnd {}] := by
    simp [declarationB, functionHeadB]
  rw [e, e2]
  simp only [readFunctionDeclarationC]
  refine Takes.zero_bind (Takes.free (cur_remaining _ _)) ?_
  rw [if_neg (by simp; omega)]
  simp only [cur_first_cons]
  refine Takes.zero_bind (Takes.free (cur_advance _ _ _)) ?_
  refine Takes.bind_zero (simple_parameter.takes f.parameters _ _ (by simp [notHead_cons])) ?_
  simp only [cur_first_cons]
  exact Takes.zero_bind (Takes.free (cur_advance _ _ _)) (Takes.pure _)

theorem declaration_takes_short (pre r : List (OpByBlock X)) (h : r.length < 2) :
    Takes (readFunctionDeclarationC (cur pre r)) 0 0 (.next (cur pre r)) := by
  simp only [readFunctionDeclarationC]
  refine Takes.zero_bind (Takes.free (cur_remaining _ _)) ?_
  rw [if_pos h]
  exact Takes.pure _

theorem declaration_takes_next (f : FunctionDefinition X) (hb : f.blocks ≠ [])
    (pre r : List (OpByBlock X)) :
    Takes (readFunctionDeclarationC (cur pre (definitionB f ++ r))) (f.parameters.length + 1)
      (f.parameters.length + 1) (.next (cur pre (definitionB f ++ r))) := by
  obtain ⟨b, bs, hbs⟩ : ∃ b bs, f.blocks = b :: bs := by
    cases h : f.blocks with
    | nil => exact absurd h hb
    | cons b bs => exact ⟨b, bs, rfl⟩
  obtain ⟨r2, e⟩ : ∃ r2, definitionB f ++ r = .OpFunction f.function ::
      (f.parameters.map .OpFunctionParameter ++ .OpLabel b.label :: r2) := by
    simp only [definitionB, functionHeadB, hbs, List.flatMap_cons, blockB, blockHeadB,
      List.cons_append, List.append_assoc]
    exact ⟨_, rfl⟩
  rw [e]
  simp only [readFunctionDeclarationC]
  refine Takes.zero_bind (Takes.free (cur_remaining _ _)) ?_
  rw [if_neg (by simp; omega)]
  simp only [cur_first_cons]
  refine Takes.zero_bind (Takes.free (cur_advance _ _ _)) ?_
  refine Takes.bind_zero (simple_parameter.takes f.parameters _ _ (by simp [notHead_cons])) ?_
  simp only [cur_first_cons]
  exact Takes.pure _

theorem definition_takes (f : FunctionDefinition X) (pre r : List (OpByBlock X)) :
    Takes (readFunctionDefinitionC (cur pre (definitionB f ++ r))) (Spec.definitionDepth f) (Spec.definitionCalls f)
      (.ok f (cur (pre ++ definitionB f) r)) := by
  have e : definitionB f ++ r = .OpFunction f.function ::
      (f.parameters.map .OpFunctionParameter ++ (f.blocks.flatMap blockB ++ .OpFunctionEnd {} :: r)) := by
    simp [definitionB, functionHeadB]
  have e2 : pre ++ definitionB f = pre ++ [.OpFunction f.function] ++
      f.parameters.map .OpFunctionParameter ++ f.blocks.flatMap blockB ++ [.OpFunctionEnd {}] := by
    simp [definitionB, functionHeadB]
  rw [e, e2]
  simp only [readFunctionDefinitionC]
  refine Takes.zero_bind (Takes.free (cur_remaining _ _)) ?_
  rw [if_neg (by simp; omega)]
  simp only [cur_first_cons]
  refine Takes.zero_bind (Takes.free (cur_advance _ _ _)) ?_
  refine (simple_parameter.takes f.parameters _ _
    (notHead_blocks (by simp) (by simp [notHead_cons]))).bind ?_
  refine Takes.bind_zero (readManyC_takes block_takes f.blocks _
    (block_takes_next _ _ (by simp [notHead_cons]))) ?_
  simp only [cur_first_cons]
  exact Takes.zero_bind (Takes.free (cur_advance _ _ _)) (Takes.pure _)

theorem definition_takes_short (pre r : List (OpByBlock X)) (h : r.length < 2) :
    Takes (readFunctionDefinitionC (cur pre r)) 0 0 (.next (cur pre r)) := by
  simp only [readFunctionDefinitionC]
  refine Takes.zero_bind (Takes.free (cur_remaining _ _)) ?_
  rw [if_pos h]
  exact Takes.pure _

theorem declarations_stop (defs : List (FunctionDefinition X)) (h : FirstBody defs)
    (pre : List (OpByBlock X)) :
    Takes (readFunctionDeclarationC (cur pre (defs.flatMap definitionB ++ []))) (Spec.retryDepth defs)
      (Spec.retryCalls defs)
      (.next (cur pre (defs.flatMap definitionB ++ []))) := by
  rw [List.append_nil]
  cases defs with
  | nil => exact declaration_takes_short _ _ (by simp)
  | cons f fs =>
    rw [List.flatMap_cons]
    exact declaration_takes_next f (h f fs rfl) _ _

theorem sec2_maximal_defs (s : Sec2) (decls : List FunctionDeclaration)
    (defs : List (FunctionDefinition X)) :
    s.Maximal (decls.flatMap declarationB ++ defs.flatMap definitionB) := by
  apply sec2_maximal_declarations
  intro _
  cases defs with
  | nil => exact sec2_maximal_nil s
  | cons f fs =>
    simp only [List.flatMap_cons, definitionB, functionHeadB, List.cons_append]
    exact sec2_maximal_function _ _ _

theorem wholeB_eq (s1 : Sec1) (mm : OpMemoryModel) (s2 : Sec2) (decls : List FunctionDeclaration)
    (defs : List (FunctionDefinition X)) : wholeB s1 mm s2 decls defs =
      s1.insts (.OpMemoryModel mm ::
        s2.insts (decls.flatMap declarationB ++ (defs.flatMap definitionB ++ []))) := by
  rw [wholeB, upperB, topB, sec1_prefix s1 (_ :: _), sec2_prefix s2 (_ ++ _)]
  simp

theorem readMemoryModel_some (pre r : List (OpByBlock X)) (mm : OpMemoryModel) :
    readMemoryModel (cur pre (.OpMemoryModel mm :: r)) = .ok (mm, cur (pre ++ [.OpMemoryModel mm]) r) := by
  simp only [readMemoryModel, cur_first_cons, cur_advance, vok_bind]; rfl

theorem validateC_takes {raw : RawModule X} {s1 : Sec1} {mm : OpMemoryModel} {s2 : Sec2}
    {decls : List FunctionDeclaration} {defs : List (FunctionDefinition X)}
    (h : raw.instructions.map OpByBlock.ofCore = wholeB s1 mm s2 decls defs)
    (hb : FirstBody defs) :
    Takes (validateC raw) (Spec.moduleDepth (moduleOf s1 mm s2 decls defs))
      (Spec.moduleCalls (moduleOf s1 mm s2 decls defs))
      (moduleOf s1 mm s2 decls defs) := by
  have e0 : OpSlice.new (raw.instructions.map OpByBlock.ofCore) = cur [] (s1.insts (.OpMemoryModel mm ::
        s2.insts (decls.flatMap declarationB ++ (defs.flatMap definitionB ++ [])))) := by
    rw [← wholeB_eq, ← h]
    simp [OpSlice.new, cur]
  have h1 := sec1_maximal_mm s1 mm (s2.insts (decls.flatMap declarationB ++ (defs.flatMap definitionB ++ [])))
  have h2 : s2.Maximal (decls.flatMap declarationB ++ (defs.flatMap definitionB ++ [])) := by
    rw [List.append_nil]
    exact sec2_maximal_defs s2 decls defs
  unfold validateC
  simp only [e0]
  simp only [Spec.moduleDepth, Spec.moduleCalls, List.foldr, List.sum_cons, List.sum_nil, moduleOf]
  rw [Sec1.insts]
  refine (simple_capability.takes _ _ _ h1.capabilities).bind ?_
  refine (simple_extension.takes _ _ _ h1.extensions).bind ?_
  refine (simple_extInstImport.takes _ _ _ h1.imports).bind ?_
  refine Takes.zero_bind (Takes.free (readMemoryModel_some _ _ _)) ?_
  rw [Sec2.insts]
  refine (simple_entryPoint.takes _ _ _ h2.entry_points).bind ?_
  refine (simple_executionMode.takes _ _ _ h2.execution_modes).bind ?_
  refine (simple_debug.takes _ _ _ h2.debug).bind ?_
  refine (simple_annotation.takes _ _ _ h2.annotations).bind ?_
  refine (simple_global.takes _ _ _ h2.globals).bind ?_
  refine (readManyC_takes declaration_takes decls _ (stop := Spec.retryDepth defs)
    (rest := Spec.retryCalls defs)
    (declarations_stop defs hb _)).bind ?_
  refine ((readManyC_takes definition_takes defs _ (r := []) (definition_takes_short _ _ (by simp))).bind
    (q := 0) (m := 0) ?_)
  refine Takes.zero_bind (Takes.free (cur_remaining _ _)) ?_
  exact Takes.pure _

end Magma
