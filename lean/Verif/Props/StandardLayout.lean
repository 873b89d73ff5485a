import Verif.Proofs.StandardLayout
import Verif.Props.Validate
import Verif.Props.ControlFlow
/-! C88: where validation departs from the layout of the standard. -/

namespace Magma.Props
open Standard Spec
variable {X : Type}

/-- C88: a module has the layout of the standard exactly if `validate` accepts it and the result is tidy. -/
theorem C88_gap (raw : RawModule X) : wholeModule (raw.instructions.map part) ↔ ∃ m, validate raw = .ok m ∧ Tidy m := by
  rw [wholeModule_iff]
  simp only [C21_layout_iff]

/-- C88: so every module with the layout of the standard is accepted. -/
theorem C88_standard {raw : RawModule X} (h : wholeModule (raw.instructions.map part)) : ∃ m, validate raw = .ok m :=
  ((C88_gap raw).mp h).imp fun _ h => h.1

/-- C88: of what is accepted, exactly the modules that are not tidy do not have the layout of the standard. -/
theorem C88_untidy {raw : RawModule X} {m : LogicalModule X} (h : validate raw = .ok m) :
    ¬ wholeModule (raw.instructions.map part) ↔ ¬ Tidy m := by
  rw [C88_gap, h]
  exact ⟨fun hn ht => hn ⟨m, rfl, ht⟩, fun hn ⟨_, he, ht⟩ => by cases he; exact hn ht⟩

theorem startsWith_nil {sort : GroupCode X → Prop} {b : BasicBlock X} (h : ∀ i ∈ b.code, ¬ isVariable i ∧ ¬ isPhi i) :
    StartsWith sort b := ⟨[], b.code, rfl, fun _ hi => (by cases hi), h⟩

/-- A module with something in every section and a loop has the layout of the standard. -/
example : wholeModule (Samples.logicalRaw.instructions.map part) := by
  refine (C88_gap _).mpr ⟨Samples.logical, (C21_layout_iff _ _).mpr ⟨rfl, ⟨?_, ?_⟩, ?_⟩, ⟨?_, ?_, ?_, ?_, ?_⟩⟩
  · intro v hv
    simp [Samples.logical] at hv
    rw [hv]
    decide
  · intro d hd b hb v hv
    simp only [Samples.logical, List.mem_singleton] at hd
    subst hd
    simp only [Samples.loopFn, List.mem_cons, List.not_mem_nil, or_false] at hb
    rcases hb with rfl | rfl | rfl | rfl <;> simp at hv
    rw [hv]
  · intro d ds hd
    cases hd
    exact List.cons_ne_nil _ _
  · exact ⟨[], [.OpName ⟨⟨12⟩, "main"⟩], rfl, fun _ hi => (by cases hi), fun i hi => by
      rw [List.mem_singleton.mp hi]; exact trivial⟩
  · intro d hd
    simp only [Samples.logical, List.mem_singleton] at hd
    subst hd
    exact List.cons_ne_nil _ _
  · intro d hd b bs hb
    simp only [Samples.logical, List.mem_singleton] at hd
    subst hd
    cases hb
    refine .inl ⟨_, [], (List.append_nil _).symm, fun i hi => ?_, fun _ hi => by cases hi⟩
    rw [List.mem_singleton.mp hi]
    exact trivial
  · intro d hd b bs hb c hc
    simp only [Samples.logical, List.mem_singleton] at hd
    subst hd
    cases hb
    simp only [List.mem_cons, List.not_mem_nil, or_false] at hc
    refine startsWith_nil ?_
    rcases hc with rfl | rfl | rfl <;> simp [isVariable, isPhi]
  · intro d hd b hb
    simp only [Samples.logical, List.mem_singleton] at hd
    subst hd
    simp only [Samples.loopFn, List.mem_cons, List.not_mem_nil, or_false] at hb
    rcases hb with rfl | rfl | rfl | rfl <;> exact trivial

/-- A module with these debug instructions and functions -/
def moduleOf (debug : List GroupDebug) (functions : List (FunctionDefinition Empty)) : LogicalModule Empty :=
  { capabilities := [], extensions := [], ext_inst_imports := [], memory_model := ⟨.Logical, .Glsl450⟩, entry_points := []
    execution_modes := [], debug := debug, annotations := [], globals := [], function_declarations := []
    function_definitions := functions }

/-- Its instructions -/
def instsOf (m : LogicalModule Empty) : RawModule Empty := { Samples.logicalRaw with instructions := layout m }

/-- A block that returns -/
def returning (id : UInt32) (code : List (GroupCode Empty)) (merge : Option GroupMerge) : BasicBlock Empty :=
  { label := ⟨⟨id⟩⟩, code := code, merge := merge, branch := .OpReturn {} }

/-- Accepted without the layout of the standard -/
def Loose (m : LogicalModule Empty) : Prop :=
  validate (instsOf m) = .ok m ∧ ¬ wholeModule ((instsOf m).instructions.map part)

theorem loose {debug : List GroupDebug} {functions : List (FunctionDefinition Empty)}
    (hv : ∀ d ∈ functions, ∀ b ∈ d.blocks, ∀ v, .OpVariable v ∈ b.code → v.storage_class = .Function)
    (hb : ∀ d ds, functions = d :: ds → d.blocks ≠ []) (ht : ¬ Tidy (moduleOf debug functions)) :
    Loose (moduleOf debug functions) := by
  have h := (C21_layout_iff (instsOf (moduleOf debug functions)) (moduleOf debug functions)).mpr
    ⟨rfl, ⟨fun _ hv => (by cases hv), hv⟩, hb⟩
  exact ⟨h, (C88_untidy h).mpr ht⟩

/-- These are accepted: a name before a source, … -/
example : Loose (moduleOf [.OpName ⟨⟨1⟩, "a"⟩, .OpString ⟨⟨2⟩, "b"⟩] []) := by
  refine loose (fun _ hd => (by cases hd)) (fun _ _ hd => (by cases hd)) ?_
  rintro ⟨⟨sources, names, h, hs, hn⟩, _⟩
  have h : [GroupDebug.OpName ⟨⟨1⟩, "a"⟩, .OpString ⟨⟨2⟩, "b"⟩] = sources ++ names := h
  cases sources with
  | nil =>
    have := hn (.OpString ⟨⟨2⟩, "b"⟩) (by rw [← List.nil_append names, ← h]; simp)
    exact this
  | cons s sources =>
    have hx := (List.cons.inj h).1
    subst hx
    exact hs _ (List.mem_cons_self ..) trivial

/-- … a second function without a body, … -/
example : Loose (moduleOf [] [functionOf [returning 1 [] none], functionOf []]) := by
  refine loose ?_ (fun _ _ hd => (by cases hd; exact List.cons_ne_nil _ _)) ?_
  · intro d hd b hb v hv
    rcases List.mem_cons.mp hd with rfl | hd
    · cases List.mem_singleton.mp hb
      cases hv
    · cases List.mem_singleton.mp hd
      cases hb
  · intro h
    exact h.body (functionOf []) (by simp [moduleOf]) rfl

/-- … a variable behind other code, … -/
example : Loose (moduleOf [] [functionOf [returning 1
    [.OpNop {}, .OpVariable ⟨⟨5⟩, ⟨6⟩, .Function, none⟩] none]]) := by
  refine loose ?_ (fun _ _ hd => (by cases hd; exact List.cons_ne_nil _ _)) ?_
  · intro d hd b hb v hv
    cases List.mem_singleton.mp hd
    cases List.mem_singleton.mp hb
    simp [returning] at hv
    rw [hv]
  · intro h
    rcases h.first _ (List.mem_singleton.mpr rfl) _ _ rfl with ⟨start, rest, hc, hs, hr⟩ | ⟨start, rest, hc, hs, hr⟩
    all_goals
      have hc : [GroupCode.OpNop {}, .OpVariable ⟨⟨5⟩, ⟨6⟩, .Function, none⟩] = start ++ rest := hc
      cases start with
      | nil => exact (hr (.OpVariable ⟨⟨5⟩, ⟨6⟩, .Function, none⟩) (by rw [← List.nil_append rest, ← hc]; simp)).1 trivial
      | cons s start =>
        have hx := (List.cons.inj hc).1
        subst hx
        exact hs _ (List.mem_cons_self ..)

/-- … a variable in the second block, … -/
example : Loose (moduleOf [] [functionOf [returning 1 [] none, returning 2
    [.OpVariable ⟨⟨5⟩, ⟨6⟩, .Function, none⟩] none]]) := by
  refine loose ?_ (fun _ _ hd => (by cases hd; exact List.cons_ne_nil _ _)) ?_
  · intro d hd b hb v hv
    cases List.mem_singleton.mp hd
    rcases List.mem_cons.mp hb with rfl | hb
    · cases hv
    · cases List.mem_singleton.mp hb
      simp [returning] at hv
      rw [hv]
  · intro h
    obtain ⟨start, rest, hc, hs, hr⟩ := h.next _ (List.mem_singleton.mpr rfl) _ _ rfl _ (List.mem_singleton.mpr rfl)
    have hc : [GroupCode.OpVariable ⟨⟨5⟩, ⟨6⟩, .Function, none⟩] = start ++ rest := hc
    cases start with
    | nil => exact (hr (.OpVariable ⟨⟨5⟩, ⟨6⟩, .Function, none⟩) (by rw [← List.nil_append rest, ← hc]; simp)).1 trivial
    | cons s start =>
      have hx := (List.cons.inj hc).1
      subst hx
      exact hs _ (List.mem_cons_self ..)

/-- … and a merge instruction before `OpReturn`. -/
example : Loose (moduleOf [] [functionOf [returning 1 [] (some (.OpSelectionMerge ⟨⟨2⟩, ⟨false, false⟩⟩))]]) := by
  refine loose ?_ (fun _ _ hd => (by cases hd; exact List.cons_ne_nil _ _)) ?_
  · intro d hd b hb v hv
    cases List.mem_singleton.mp hd
    cases List.mem_singleton.mp hb
    cases hv
  · intro h
    exact h.merge _ (List.mem_singleton.mpr rfl) _ (List.mem_singleton.mpr rfl)

end Magma.Props
