import Verif.Proofs.Concat
import Verif.Proofs.Serialise
import Verif.Spec.Strip
/-! Lemmas: instructions taken out. -/

namespace Magma
open Spec
variable {X : Type}

/-! ### Reading -/

/-- The words of the first instruction are those of the first item. -/
theorem split_words {a b a' b' : List UInt32} {head : UInt32} {ops : List UInt32} {k : Nat} (h : a ++ b = a' ++ b')
    (ha : a = head :: ops) (hl : a.length = max 1 (head.toNat / 65536)) {head' : UInt32} {ops' : List UInt32}
    (ha' : a' = head' :: ops') (hh : IsHead k (ops'.length + 1) head') : a = a' ∧ b = b' := by
  have e : head = head' := by
    rw [ha, ha'] at h
    exact (List.cons.inj h).1
  refine List.append_inj h ?_
  obtain ⟨wc, e1, e2, e3⟩ := hh
  rw [hl, e, ha', List.length_cons]
  omega

theorem kept_spells {known : List (ExtInstSet X)} : ∀ (items done : List (Item X)),
    (∀ x ∈ items, x.Framed) → ImportsUnused (done ++ items) →
    SpellsBody known (done.map (·.inst)) (items.map (·.inst)) (items.flatMap (·.words)) →
    SpellsBody known ((kept done).map (·.inst)) ((kept items).map (·.inst)) ((kept items).flatMap (·.words))
  | [], _, _, _, _ => rfl
  | x :: items, done, hw, hu, hs => by
    obtain ⟨u, ws', hx, hi, hb⟩ := hs
    obtain ⟨hsup, head', ops', rfl, hh, ho⟩ := hi
    obtain ⟨head, ops, e1, e2, e3⟩ := hw x List.mem_cons_self
    obtain ⟨e4, e5⟩ := split_words hx e1 e3 rfl hh
    have ih := kept_spells items (done ++ [x]) (fun y hy => hw y (List.mem_cons_of_mem _ hy))
      (by rw [List.append_assoc]; exact hu) (by
        rw [List.map_append]
        have e5 : items.flatMap (·.words) = ws' := e5
        rw [e5]
        exact hb)
    cases hk : x.keep with
    | false =>
      have h1 : kept (done ++ [x]) = kept done := by
        rw [kept, List.filter_append, List.filter_cons, hk]
        exact List.append_nil _
      have h2 : kept (x :: items) = kept items := by rw [kept, List.filter_cons, hk]; rfl
      rw [h1] at ih
      rw [h2]
      exact ih
    | true =>
      have h1 : kept (done ++ [x]) = kept done ++ [x] := by
        rw [kept, List.filter_append, List.filter_cons, hk]
        rfl
      have h2 : kept (x :: items) = x :: kept items := by rw [kept, List.filter_cons, hk]; rfl
      rw [h1, List.map_append] at ih
      rw [h2]
      refine ⟨x.words, _, rfl, ?_, ih⟩
      have e4' : x.words = head' :: ops' := e4
      rw [e4']
      refine ⟨hsup, head', ops', rfl, hh, ?_⟩
      dsimp only at ho ⊢
      rcases core_cases x.inst with ⟨op, hop⟩ | ⟨op, hop⟩ | ⟨h1, h2⟩
      · rw [hop] at ho ⊢
        refine ⟨ho.1, ho.2.1, fun i hi => ho.2.2 i ?_⟩
        obtain ⟨y, hy, rfl⟩ := List.mem_map.mp hi
        exact List.mem_map.mpr ⟨y, (List.mem_filter.mp hy).1, rfl⟩
      · rw [hop] at ho ⊢
        obtain ⟨number, args, importer, name, s, a1, a2, a3, a4⟩ := ho
        refine ⟨number, args, importer, name, s, a1, ?_, a3, a4⟩
        obtain ⟨y, hy, rfl⟩ := List.mem_map.mp a2
        refine List.mem_map.mpr ⟨y, List.mem_filter.mpr ⟨hy, ?_⟩, rfl⟩
        cases hky : y.keep with
        | true => rfl
        | false =>
          unfold importName at a3
          split at a3
          · rename_i op' hop'
            split at a3
            · rename_i he
              exact absurd he.symm (hu y (List.mem_append_left _ hy) hky x
                (List.mem_append_right _ List.mem_cons_self) hk op' op hop' hop)
            · cases a3
          · cases a3
      · rw [SpellsOperands_plain h1 h2] at ho ⊢
        exact ho

theorem magic_order {le le' : Bool} {v w : List UInt32}
    (h : bytesOf le (0x07230203 :: v) = bytesOf le' (0x07230203 :: w)) : le = le' := by
  have e : ∀ le v, (bytesOf le (0x07230203 :: v)).head? = some (if le then 3 else 7) := by
    intro le v
    cases le <;> rfl
  have := congrArg List.head? h
  rw [e, e] at this
  cases le <;> cases le' <;> first | rfl | exact absurd this (by decide)

/-! ### Validation -/

/-- A section -/
theorem kept_section {A : Type} {f : A → Core X} : ∀ {items : List (Item X)} {xs : List A},
    items.map (·.inst) = xs.map f → ∃ ys : List A, ys.Sublist xs ∧ (kept items).map (·.inst) = ys.map f
  | [], [], _ => ⟨[], List.Sublist.refl _, rfl⟩
  | [], _ :: _, h => by cases h
  | _ :: _, [], h => by cases h
  | i :: items, x :: xs, h => by
    rw [List.map_cons, List.map_cons, List.cons.injEq] at h
    obtain ⟨ys, h1, h2⟩ := kept_section h.2
    cases hk : i.keep with
    | true =>
      have e : kept (i :: items) = i :: kept items := by rw [kept, List.filter_cons, hk]; rfl
      exact ⟨x :: ys, h1.cons_cons x, by rw [e, List.map_cons, List.map_cons, h.1, h2]⟩
    | false =>
      have e : kept (i :: items) = kept items := by rw [kept, List.filter_cons, hk]; rfl
      exact ⟨ys, h1.cons x, by rw [e, h2]⟩

/-- Instructions that all have to be kept -/
theorem kept_all {items : List (Item X)} {insts : List (Core X)} (h : items.map (·.inst) = insts)
    (ho : OnlyOptional items) (hi : ∀ i ∈ insts, isOptional i = false) : (kept items).map (·.inst) = insts := by
  have : kept items = items := by
    rw [kept, List.filter_eq_self]
    intro x hx
    cases hk : x.keep with
    | true => rfl
    | false =>
      have h1 := ho x hx hk
      rw [hi x.inst (by rw [← h]; exact List.mem_map_of_mem hx)] at h1
      cases h1
  rw [this, h]

theorem kept_append (a b : List (Item X)) : kept (a ++ b) = kept a ++ kept b := List.filter_append ..

theorem Spec.OnlyOptional.left {a b : List (Item X)} (h : OnlyOptional (a ++ b)) : OnlyOptional a :=
  fun x hx => h x (List.mem_append_left _ hx)
theorem Spec.OnlyOptional.right {a b : List (Item X)} (h : OnlyOptional (a ++ b)) : OnlyOptional b :=
  fun x hx => h x (List.mem_append_right _ hx)

/-- Pieces, each of which is thinned -/
theorem kept_pieces {A : Type} {f : A → List (Core X)} {R : A → A → Prop}
    (h1 : ∀ (items : List (Item X)) (x : A), OnlyOptional items → items.map (·.inst) = f x →
      ∃ y, R y x ∧ (kept items).map (·.inst) = f y) :
    ∀ {xs : List A} {items : List (Item X)}, OnlyOptional items → items.map (·.inst) = xs.flatMap f →
      ∃ ys : List A, ys.length = xs.length ∧ (∀ p ∈ ys.zip xs, R p.1 p.2) ∧ (kept items).map (·.inst) = ys.flatMap f
  | [], items, _, h => by
    have : items = [] := by
      cases items with
      | nil => rfl
      | cons _ _ => cases h
    subst this
    exact ⟨[], rfl, by simp, rfl⟩
  | x :: xs, items, ho, h => by
    rw [List.flatMap_cons, List.map_eq_append_iff] at h
    obtain ⟨a, b, rfl, ha, hb⟩ := h
    obtain ⟨y, r, hy⟩ := h1 a x ho.left ha
    obtain ⟨ys, hl, hr, hys⟩ := kept_pieces h1 ho.right hb
    refine ⟨y :: ys, by simp [hl], ?_, ?_⟩
    · intro p hp
      rw [List.zip_cons_cons] at hp
      rcases List.mem_cons.mp hp with rfl | hp
      · exact r
      · exact hr p hp
    · rw [kept_append, List.map_append, hy, hys, List.flatMap_cons]

theorem merge_needed (m : GroupMerge) : isOptional (X := X) (mergeInst m) = false := by cases m <;> rfl
theorem branch_needed (b : GroupBranch) : isOptional (X := X) (branchInst b) = false := by cases b <;> rfl

theorem kept_block (items : List (Item X)) (b : BasicBlock X) (ho : OnlyOptional items)
    (h : items.map (·.inst) = blockInsts b) :
    ∃ b', BasicBlock.Thins b' b ∧ (kept items).map (·.inst) = blockInsts b' := by
  have e : ∀ b : BasicBlock X, blockInsts b = [.OpLabel b.label] ++ (b.code.map codeInst ++
      (b.merge.toList.map mergeInst ++ [branchInst b.branch])) := by
    intro b
    simp only [blockInsts, List.append_assoc, List.singleton_append]
  rw [e, List.map_eq_append_iff] at h
  obtain ⟨i1, i2, rfl, h1, h⟩ := h
  rw [List.map_eq_append_iff] at h
  obtain ⟨i2, i3, rfl, h2, h3⟩ := h
  obtain ⟨ys, hy, hk⟩ := kept_section h2
  refine ⟨{ b with code := ys }, ⟨rfl, hy, rfl, rfl⟩, ?_⟩
  rw [e, kept_append, kept_append, List.map_append, List.map_append, hk,
    kept_all h1 ho.left (by intro i hi; rw [List.mem_singleton.mp hi]; rfl),
    kept_all h3 ho.right.right (by
      intro i hi
      rcases List.mem_append.mp hi with hi | hi
      · obtain ⟨m, -, rfl⟩ := List.mem_map.mp hi
        exact merge_needed m
      · rw [List.mem_singleton.mp hi]
        exact branch_needed _)]

theorem kept_declaration (items : List (Item X)) (d : FunctionDeclaration) (ho : OnlyOptional items)
    (h : items.map (·.inst) = declarationInsts d) :
    ∃ d', FunctionDeclaration.Thins d' d ∧ (kept items).map (·.inst) = declarationInsts d' := by
  have e : ∀ d : FunctionDeclaration, (declarationInsts d : List (Core X)) = [.OpFunction d.function] ++
      (d.parameters.map .OpFunctionParameter ++ [.OpFunctionEnd {}]) := fun _ => rfl
  rw [e, List.map_eq_append_iff] at h
  obtain ⟨i1, i2, rfl, h1, h⟩ := h
  rw [List.map_eq_append_iff] at h
  obtain ⟨i2, i3, rfl, h2, h3⟩ := h
  obtain ⟨ys, hy, hk⟩ := kept_section h2
  refine ⟨{ d with parameters := ys }, ⟨rfl, hy⟩, ?_⟩
  rw [e, kept_append, kept_append, List.map_append, List.map_append, hk,
    kept_all h1 ho.left (by intro i hi; rw [List.mem_singleton.mp hi]; rfl),
    kept_all h3 ho.right.right (by intro i hi; rw [List.mem_singleton.mp hi]; rfl)]

theorem kept_definition (items : List (Item X)) (d : FunctionDefinition X) (ho : OnlyOptional items)
    (h : items.map (·.inst) = definitionInsts d) :
    ∃ d', FunctionDefinition.Thins d' d ∧ (kept items).map (·.inst) = definitionInsts d' := by
  have e : ∀ d : FunctionDefinition X, definitionInsts d = [.OpFunction d.function] ++
      (d.parameters.map .OpFunctionParameter ++ (d.blocks.flatMap blockInsts ++ [.OpFunctionEnd {}])) := by
    intro d
    simp only [definitionInsts, List.append_assoc, List.singleton_append]
  rw [e, List.map_eq_append_iff] at h
  obtain ⟨i1, i2, rfl, h1, h⟩ := h
  rw [List.map_eq_append_iff] at h
  obtain ⟨i2, i3, rfl, h2, h⟩ := h
  rw [List.map_eq_append_iff] at h
  obtain ⟨i3, i4, rfl, h3, h4⟩ := h
  obtain ⟨ys, hy, hk⟩ := kept_section h2
  obtain ⟨bs, hl, hb, hbs⟩ := kept_pieces kept_block ho.right.right.left h3
  refine ⟨{ d with parameters := ys, blocks := bs }, ⟨rfl, hy, hl, hb⟩, ?_⟩
  rw [e, kept_append, kept_append, kept_append, List.map_append, List.map_append, List.map_append, hk, hbs,
    kept_all h1 ho.left (by intro i hi; rw [List.mem_singleton.mp hi]; rfl),
    kept_all h4 ho.right.right.right (by intro i hi; rw [List.mem_singleton.mp hi]; rfl)]

/-- In lists of the same length each element has one to go with it. -/
theorem mem_zip_of_left {A B : Type} {x : A} : ∀ {xs : List A} {ys : List B}, xs.length = ys.length → x ∈ xs →
    ∃ y, y ∈ ys ∧ (x, y) ∈ xs.zip ys
  | a :: xs, [], h, _ => by cases h
  | a :: xs, b :: ys, h, hx => by
    rcases List.mem_cons.mp hx with rfl | hx
    · exact ⟨b, List.mem_cons_self, by simp⟩
    · obtain ⟨y, h1, h2⟩ := mem_zip_of_left (by simpa using h) hx
      exact ⟨y, List.mem_cons_of_mem _ h1, by rw [List.zip_cons_cons]; exact List.mem_cons_of_mem _ h2⟩

theorem kept_layout {items : List (Item X)} {m : LogicalModule X} (ho : OnlyOptional items)
    (h : IsLayout (items.map (·.inst)) m) : ∃ m', LogicalModule.Thins m' m ∧ IsLayout ((kept items).map (·.inst)) m' := by
  obtain ⟨h, hp, hd⟩ := h
  simp only [layout, List.append_assoc] at h
  rw [List.map_eq_append_iff] at h
  obtain ⟨i1, r, rfl, h1, h⟩ := h
  rw [List.map_eq_append_iff] at h
  obtain ⟨i2, r, rfl, h2, h⟩ := h
  rw [List.map_eq_append_iff] at h
  obtain ⟨i3, r, rfl, h3, h⟩ := h
  rw [List.map_eq_append_iff] at h
  obtain ⟨i4, r, rfl, h4, h⟩ := h
  rw [List.map_eq_append_iff] at h
  obtain ⟨i5, r, rfl, h5, h⟩ := h
  rw [List.map_eq_append_iff] at h
  obtain ⟨i6, r, rfl, h6, h⟩ := h
  rw [List.map_eq_append_iff] at h
  obtain ⟨i7, r, rfl, h7, h⟩ := h
  rw [List.map_eq_append_iff] at h
  obtain ⟨i8, r, rfl, h8, h⟩ := h
  rw [List.map_eq_append_iff] at h
  obtain ⟨i9, r, rfl, h9, h⟩ := h
  rw [List.map_eq_append_iff] at h
  obtain ⟨i10, i11, rfl, h10, h11⟩ := h
  obtain ⟨y1, s1, k1⟩ := kept_section h1
  obtain ⟨y2, s2, k2⟩ := kept_section h2
  obtain ⟨y3, s3, k3⟩ := kept_section h3
  have k4 := kept_all h4 ho.right.right.right.left (by intro i hi; rw [List.mem_singleton.mp hi]; rfl)
  obtain ⟨y5, s5, k5⟩ := kept_section h5
  obtain ⟨y6, s6, k6⟩ := kept_section h6
  obtain ⟨y7, s7, k7⟩ := kept_section h7
  obtain ⟨y8, s8, k8⟩ := kept_section h8
  obtain ⟨y9, s9, k9⟩ := kept_section h9
  have ho' := ho.right.right.right.right.right.right.right.right.right
  obtain ⟨y10, l10, s10, k10⟩ := kept_pieces kept_declaration ho'.left h10
  obtain ⟨y11, l11, s11, k11⟩ := kept_pieces kept_definition ho'.right h11
  refine ⟨⟨y1, y2, y3, m.memory_model, y5, y6, y7, y8, y9, y10, y11⟩,
    ⟨s1, s2, s3, rfl, s5, s6, s7, s8, s9, l10, s10, l11, s11⟩, ?_, ⟨?_, ?_⟩, ?_⟩
  · simp only [kept_append, List.map_append, layout, List.append_assoc]
    rw [k1, k2, k3, k4, k5, k6, k7, k8, k9, k10, k11]
  · intro v hv
    exact hp.inGlobals v (s9.subset hv)
  · intro d' hd' b' hb' v hv
    obtain ⟨d, hd, hz⟩ := mem_zip_of_left l11 hd'
    have t := s11 _ hz
    obtain ⟨b, hb, hz'⟩ := mem_zip_of_left t.blocks hb'
    exact hp.inBlocks d hd b hb v ((t.block _ hz').code.subset hv)
  · intro d' ds' he
    have he : y11 = d' :: ds' := he
    subst he
    cases hm : m.function_definitions with
    | nil => rw [hm] at l11; cases l11
    | cons d ds =>
      rw [hm] at s11
      have t := s11 (d', d) (by simp)
      have hne := hd d ds hm
      intro h
      have := t.blocks
      dsimp only at this
      rw [h] at this
      exact hne (List.length_eq_zero_iff.mp this.symm)

/-! ### What has to be kept -/

/-- Weights of opcodes that cancel out in functions and in blocks -/
structure Cancels (w : Nat → Int) : Prop where
  other : ∀ k, [14, 54, 56, 248, 249, 250, 253].contains k = false → w k = 0
  function : w 54 + w 56 = 0
  branch : w 248 + w 249 = 0
  conditional : w 248 + w 250 = 0
  returns : w 248 + w 253 = 0

/-- The sum of the weights -/
def tally (w : Nat → Int) (l : List (Core X)) : Int := (l.map (fun i => w (opcode i))).sum

theorem tally_cons (w : Nat → Int) (i : Core X) (l : List (Core X)) : tally w (i :: l) = w (opcode i) + tally w l := rfl

theorem tally_append (w : Nat → Int) (a b : List (Core X)) : tally w (a ++ b) = tally w a + tally w b := by
  rw [tally, List.map_append, List.sum_append]
  rfl

theorem tally_zero {w : Nat → Int} {l : List (Core X)} (h : ∀ i ∈ l, w (opcode i) = 0) : tally w l = 0 := by
  induction l with
  | nil => rfl
  | cons i l ih =>
    rw [tally_cons, h i List.mem_cons_self, ih (fun j hj => h j (List.mem_cons_of_mem _ hj))]
    rfl

theorem tally_map {A : Type} {w : Nat → Int} {f : A → Core X} (h : ∀ a, w (opcode (f a)) = 0) (l : List A) :
    tally w (l.map f) = 0 := by
  refine tally_zero fun i hi => ?_
  obtain ⟨a, -, rfl⟩ := List.mem_map.mp hi
  exact h a

theorem tally_flatMap {A : Type} {w : Nat → Int} {f : A → List (Core X)} (h : ∀ a, tally w (f a) = 0) (l : List A) :
    tally w (l.flatMap f) = 0 := by
  induction l with
  | nil => rfl
  | cons a l ih => rw [List.flatMap_cons, tally_append, h, ih]; rfl

theorem tally_layout {w : Nat → Int} (hw : Cancels w) (m : LogicalModule X) : tally w (layout m) = w 14 := by
  have z {k : Nat} (h : [14, 54, 56, 248, 249, 250, 253].contains k = false) : w k = 0 := hw.other k h
  have hcode (c : GroupCode X) : w (opcode (codeInst c)) = 0 := by cases c <;> exact z rfl
  have hblock (b : BasicBlock X) : tally w (blockInsts b) = 0 := by
    have e : blockInsts b = .OpLabel b.label :: (b.code.map codeInst ++ (b.merge.toList.map mergeInst ++
      [branchInst b.branch])) := by simp only [blockInsts, List.append_assoc]
    rw [e, tally_cons, tally_append, tally_append, tally_map hcode, tally_map (fun m => by cases m <;> exact z rfl)]
    have h1 := hw.branch
    have h2 := hw.conditional
    have h3 := hw.returns
    have hl : w (opcode (.OpLabel b.label : Core X)) = w 248 := rfl
    rw [hl]
    cases b.branch with
    | OpBranch op =>
      have : tally w [(branchInst (.OpBranch op) : Core X)] = w 249 + 0 := rfl
      omega
    | OpBranchConditional op =>
      have : tally w [(branchInst (.OpBranchConditional op) : Core X)] = w 250 + 0 := rfl
      omega
    | OpReturn op =>
      have : tally w [(branchInst (.OpReturn op) : Core X)] = w 253 + 0 := rfl
      omega
  have hparams (ps : List OpFunctionParameter) : tally w (ps.map (.OpFunctionParameter : _ → Core X)) = 0 :=
    tally_map (fun _ => z rfl) ps
  have hf := hw.function
  have hend : tally w [(.OpFunctionEnd {} : Core X)] = w 56 + 0 := rfl
  have hdecl (d : FunctionDeclaration) : tally w (declarationInsts d : List (Core X)) = 0 := by
    rw [declarationInsts, tally_cons, tally_append, hparams, hend]
    have : w (opcode (.OpFunction d.function : Core X)) = w 54 := rfl
    omega
  have hdef (d : FunctionDefinition X) : tally w (definitionInsts d) = 0 := by
    rw [definitionInsts, tally_cons, tally_append, tally_append, hparams, tally_flatMap hblock, hend]
    have : w (opcode (.OpFunction d.function : Core X)) = w 54 := rfl
    omega
  have hglobal (g : GroupGlobal) : w (opcode (globalInst g : Core X)) = 0 := by
    cases g with
    | GroupType t => cases t <;> exact z rfl
    | GroupConstant c => cases c <;> exact z rfl
    | OpVariable v => exact z rfl
  have hm : tally w [(.OpMemoryModel m.memory_model : Core X)] = w 14 + 0 := rfl
  simp only [layout, tally_append]
  rw [tally_map (fun _ => z rfl), tally_map (fun _ => z rfl), tally_map (fun _ => z rfl), hm, tally_map (fun _ => z rfl),
    tally_map (fun _ => z rfl), tally_map (fun g => by cases g <;> exact z rfl),
    tally_map (fun g => by cases g <;> exact z rfl), tally_map hglobal, tally_flatMap hdecl, tally_flatMap hdef]
  omega

theorem tally_kept {w : Nat → Int} (hw : Cancels w) {items : List (Item X)} (ho : OnlyOptional items) :
    tally w ((kept items).map (·.inst)) = tally w (items.map (·.inst)) := by
  induction items with
  | nil => rfl
  | cons x items ih =>
    have ih := ih (fun y hy => ho y (List.mem_cons_of_mem _ hy))
    cases hk : x.keep with
    | true =>
      have e : kept (x :: items) = x :: kept items := by rw [kept, List.filter_cons, hk]; rfl
      rw [e, List.map_cons, List.map_cons, tally_cons, tally_cons, ih]
    | false =>
      have e : kept (x :: items) = kept items := by rw [kept, List.filter_cons, hk]; rfl
      have hz : w (opcode x.inst) = 0 := by
        have h := ho x List.mem_cons_self hk
        refine hw.other _ ?_
        rw [isOptional] at h
        simp at h ⊢
        omega
      rw [e, List.map_cons, tally_cons, ih, hz]
      omega

end Magma
