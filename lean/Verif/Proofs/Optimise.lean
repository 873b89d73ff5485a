import Verif.Spec.Optimise
import Verif.Props.Values
import Verif.Proofs.ModuleBytes
/-! Lemmas: functions with less code in their blocks. -/

namespace Magma.Optimise
open Spec
variable {X V : Type}

theorem prune_sublist [DecidableEq V] (A : Access X V) (after : V → Bool) :
    ∀ code : List (GroupCode X), (A.prune code after).Sublist code
  | [] => .slnil
  | i :: code => by
    rw [Access.prune]
    split
    · exact (prune_sublist A after code).cons_cons i
    · exact (prune_sublist A after code).cons i

theorem prune_all [DecidableEq V] (A : Access X V) (after : V → Bool) :
    ∀ code : List (GroupCode X), A.prune code after = code → ∀ before i rest, code = before ++ i :: rest →
      (A.writes i).any (A.exposed rest after) = true
  | [], _, before, i, rest, he => by simp at he
  | j :: code, h, before, i, rest, he => by
    rw [Access.prune] at h
    split at h
    · rename_i hj
      rw [List.cons.injEq] at h
      cases before with
      | nil =>
        cases he
        exact hj
      | cons k before =>
        rw [List.cons_append, List.cons.injEq] at he
        exact prune_all A after code h.2 before i rest he.2
    · have := (prune_sublist A after code).length_le
      rw [h] at this
      simp at this

/-- The same function with less code in its blocks -/
def Lighter (d' d : FunctionDefinition X) : Prop :=
  ∃ g : BasicBlock X → List (GroupCode X), (∀ b, (g b).Sublist b.code) ∧
    d' = { d with blocks := d.blocks.map fun b => { b with code := g b } }

theorem Lighter.refl (d : FunctionDefinition X) : Lighter d d := ⟨(·.code), fun _ => List.Sublist.refl _, by simp⟩

theorem Lighter.trans {d₁ d₂ d₃ : FunctionDefinition X} (h : Lighter d₁ d₂) (h' : Lighter d₂ d₃) : Lighter d₁ d₃ := by
  obtain ⟨g, hg, rfl⟩ := h
  obtain ⟨g', hg', rfl⟩ := h'
  exact ⟨fun b => g { b with code := g' b }, fun b => (hg _).trans (hg' b), by simp⟩

theorem lighten_lighter (fuel : Nat) (d : FunctionDefinition Glsl.Inst) : Lighter (lighten fuel d) d := by
  rw [lighten]
  split
  · exact ⟨_, fun b => prune_sublist _ _ _, rfl⟩
  · exact .refl d

theorem repeat_lighter (fuel : Nat) (d : FunctionDefinition Glsl.Inst) : ∀ n, Lighter (Nat.repeat (lighten fuel) n d) d
  | 0 => .refl d
  | n + 1 => (lighten_lighter fuel _).trans (repeat_lighter fuel d n)

theorem Lighter.insts {d' d : FunctionDefinition X} (h : Lighter d' d) :
    (definitionInsts d').Sublist (definitionInsts d) := by
  obtain ⟨g, hg, rfl⟩ := h
  refine List.Sublist.cons_cons _ (((List.Sublist.refl _).append ?_).append (List.Sublist.refl _))
  simp only [List.flatMap_map]
  induction d.blocks with
  | nil => exact .slnil
  | cons b bs ih =>
    rw [List.flatMap_cons, List.flatMap_cons]
    refine List.Sublist.append ?_ ih
    exact List.Sublist.cons_cons _ ((((hg b).map _).append (List.Sublist.refl _)).append (List.Sublist.refl _))

theorem Lighter.size {d' d : FunctionDefinition X} (h : Lighter d' d) :
    codeSize d' ≤ codeSize d ∧ (codeSize d' = codeSize d → d' = d) := by
  obtain ⟨g, hg, rfl⟩ := h
  have key : ∀ bs : List (BasicBlock X), (bs.map fun b => (g b).length).sum ≤ (bs.map (·.code.length)).sum ∧
      ((bs.map fun b => (g b).length).sum = (bs.map (·.code.length)).sum →
        bs.map (fun b => { b with code := g b }) = bs) := by
    intro bs
    induction bs with
    | nil => exact ⟨Nat.le_refl _, fun _ => rfl⟩
    | cons b bs ih =>
      have hl := (hg b).length_le
      simp only [List.map_cons, List.sum_cons]
      refine ⟨by omega, fun he => ?_⟩
      rw [ih.2 (by omega), (hg b).eq_of_length (by omega)]
  simp only [codeSize, List.map_map]
  refine ⟨(key d.blocks).1, fun he => ?_⟩
  have := (key d.blocks).2 he
  rw [this]

theorem repeat_comm (f : FunctionDefinition X → FunctionDefinition X) (d : FunctionDefinition X) :
    ∀ n, Nat.repeat f (n + 1) d = Nat.repeat f n (f d)
  | 0 => rfl
  | n + 1 => by
    show f (Nat.repeat f (n + 1) d) = f (Nat.repeat f n (f d))
    rw [repeat_comm f d n]

theorem repeat_fixed (f : FunctionDefinition X → FunctionDefinition X) {d : FunctionDefinition X} (h : f d = d) :
    ∀ n, Nat.repeat f n d = d
  | 0 => rfl
  | n + 1 => by
    show f (Nat.repeat f n d) = d
    rw [repeat_fixed f h n, h]

theorem repeat_settles (fuel : Nat) : ∀ (n : Nat) (d : FunctionDefinition Glsl.Inst), codeSize d ≤ n →
    lighten fuel (Nat.repeat (lighten fuel) n d) = Nat.repeat (lighten fuel) n d
  | 0, d, h => by
    obtain ⟨h1, h2⟩ := (lighten_lighter fuel d).size
    exact h2 (by omega)
  | n + 1, d, h => by
    rw [repeat_comm]
    by_cases hd : lighten fuel d = d
    · rw [hd, repeat_fixed _ hd, hd]
    · obtain ⟨h1, h2⟩ := (lighten_lighter fuel d).size
      exact repeat_settles fuel n _ (by
        have : codeSize (lighten fuel d) ≠ codeSize d := fun he => hd (h2 he)
        omega)

/-! ### Modules -/

theorem lighten_module (fuel rounds : Nat) (m : LogicalModule Glsl.Inst) : ∃ pre, layout m = pre ++ m.function_definitions.flatMap definitionInsts ∧
    layout (lightenModule fuel rounds m) = pre ++ (lightenModule fuel rounds m).function_definitions.flatMap definitionInsts :=
  ⟨_, rfl, rfl⟩

theorem definitions_sublist (fuel rounds : Nat) (ds : List (FunctionDefinition Glsl.Inst)) :
    ((ds.map (Nat.repeat (lighten fuel) rounds)).flatMap definitionInsts).Sublist (ds.flatMap definitionInsts) := by
  induction ds with
  | nil => exact .slnil
  | cons d ds ih =>
    rw [List.map_cons, List.flatMap_cons, List.flatMap_cons]
    exact (repeat_lighter fuel d rounds).insts.append ih

theorem no_imports {d : FunctionDefinition X} {i : Core X} (h : i ∈ definitionInsts d) (id : UInt32) :
    importName id i = none := by
  simp only [definitionInsts, blockInsts, List.mem_cons, List.mem_append, List.mem_map, List.mem_flatMap,
    List.not_mem_nil, or_false] at h
  rcases h with rfl | (⟨_, _, rfl⟩ | ⟨b, _, rfl | (⟨c, _, rfl⟩ | ⟨c, _, rfl⟩) | rfl⟩) | rfl
  · rfl
  · rfl
  · rfl
  · cases c <;> rfl
  · cases c <;> rfl
  · cases b.branch <;> rfl
  · rfl

theorem serialisable_sublist {encX : X → UInt32 × List UInt32} {known : List (ExtInstSet X)} {raw : RawModule X}
    (h : Serialisable encX known raw) {pre a a' : List (Core X)} (hi : raw.instructions = pre ++ a) (ha : a'.Sublist a)
    (hn : ∀ i ∈ a, ∀ id, importName id i = none) : Serialisable encX known { raw with instructions := pre ++ a' } := by
  refine ⟨h.1, h.2.1, fun before inst after he => ?_⟩
  have he : pre ++ a' = before ++ inst :: after := he
  have key : ∃ before' after', raw.instructions = before' ++ inst :: after' ∧ before.Sublist before' ∧
      ∀ i ∈ before', (∃ id, importName id i ≠ none) → i ∈ before := by
    rcases List.append_eq_append_iff.mp he with ⟨x, rfl, hx⟩ | ⟨x, rfl, hx⟩
    · rw [hx] at ha
      obtain ⟨r, s, rfl, hr, hs⟩ := List.append_sublist_iff.mp ha
      obtain ⟨r', s', rfl, hm, hs'⟩ := List.cons_sublist_iff.mp hs
      obtain ⟨u, v, rfl⟩ := List.append_of_mem hm
      refine ⟨pre ++ (r ++ u), v ++ s', by rw [hi]; simp, ?_, ?_⟩
      · exact (List.Sublist.refl _).append (hr.trans (List.sublist_append_left _ _))
      · rintro i him ⟨id, hne⟩
        rcases List.mem_append.mp him with h' | h'
        · exact List.mem_append_left _ h'
        · refine absurd (hn i ?_ id) hne
          rcases List.mem_append.mp h' with h' | h' <;> simp [h']
    · cases x with
      | nil =>
        simp only [List.nil_append] at hx
        simp only [List.append_nil] at hi he ⊢
        rw [← hx] at ha
        obtain ⟨r', s', rfl, hm, hs'⟩ := List.cons_sublist_iff.mp ha
        obtain ⟨u, v, rfl⟩ := List.append_of_mem hm
        refine ⟨before ++ u, v ++ s', by rw [hi]; simp, List.sublist_append_left _ _, ?_⟩
        rintro i him ⟨id, hne⟩
        rcases List.mem_append.mp him with h' | h'
        · exact h'
        · exact absurd (hn i (by simp [h']) id) hne
      | cons y ys =>
        rw [List.cons_append, List.cons.injEq] at hx
        obtain ⟨rfl, -⟩ := hx
        refine ⟨before, ys ++ a, by rw [hi]; simp, List.Sublist.refl _, fun i hi _ => hi⟩
  obtain ⟨before', after', hr, hsub, himp⟩ := key
  obtain ⟨h1, h2, h3, h4⟩ := h.2.2 before' inst after' hr
  refine ⟨h1, h2, h3, ?_⟩
  cases inst with
  | OpExtInstImport op => exact ⟨h4.1, fun i hi => h4.2 i (hsub.subset hi)⟩
  | OpExtInst op =>
    obtain ⟨importer, name, s, hm, hn', rest⟩ := h4
    exact ⟨importer, name, s, himp importer hm ⟨_, by rw [hn']; simp⟩, hn', rest⟩
  | _ => trivial

theorem encode_length {encX : X → UInt32 × List UInt32} {raw : RawModule X} {insts : List (Core X)} (le : Bool)
    (h : insts.Sublist raw.instructions) :
    (encodeModule encX le { raw with instructions := insts }).length ≤ (encodeModule encX le raw).length := by
  have hf : ∀ {l l' : List (Core X)}, l.Sublist l' →
      (l.flatMap (encodeInst encX)).length ≤ (l'.flatMap (encodeInst encX)).length := by
    intro l l' hl
    induction hl with
    | slnil => exact Nat.le_refl _
    | cons a _ ih => rw [List.flatMap_cons, List.length_append]; omega
    | cons_cons a _ ih => rw [List.flatMap_cons, List.flatMap_cons, List.length_append, List.length_append]; omega
  have := hf h
  simp only [encodeModule, bytesOf_length, encodeWords, List.length_append, List.length_cons]
  omega

end Magma.Optimise
