import Verif.Props.Expressible
import Verif.Props.Reader
import Verif.Props.Validate
import Verif.Props.EndToEnd
/-! C96: what can come out of a binary. -/

namespace Magma.Props
open Spec
variable {X Y : Type}

/-- C96: exactly which logical modules are read and validated from a binary: the instructions of the module can all
be spelled, its variables are in their place and its first function definition has a block. -/
theorem C96_modules (encX : X → UInt32 × List UInt32) {known : List (ExtInstSet X)}
    (henc : ∀ s ∈ known, EncodesSet encX s) (m : LogicalModule X) :
    (∃ bytes raw, readModule bytes known = .ok raw ∧ validate raw = .ok m) ↔
      (∀ before inst after, layout m = before ++ inst :: after → SerialisableInst encX known before inst) ∧
      VariablesPlaced m ∧ ∀ d ds, m.function_definitions = d :: ds → d.blocks ≠ [] := by
  constructor
  · rintro ⟨bytes, raw, hr, hv⟩
    obtain ⟨⟨-, -, hs⟩, -⟩ := C18_reserialise encX known henc bytes raw true hr
    obtain ⟨h1, h2, h3⟩ := (C21_layout_iff raw m).mp hv
    exact ⟨h1 ▸ hs, h2, h3⟩
  · rintro ⟨hs, h2, h3⟩
    refine ⟨_, ⟨⟨1, 0⟩, ⟨.KhronosReserved, 0⟩, 0, layout m⟩, C02_read_encode encX known _ true ⟨rfl, ?_, hs⟩,
      (C21_layout_iff _ m).mpr ⟨rfl, h2, h3⟩⟩
    intro n hn
    cases hn

theorem loop_bits : ∀ a b c d : Bool, (bit a 1 ||| bit b 2 ||| bit c 4 ||| bit d 8) &&& ~~~0xFFFF0000 =
    (bit a 1 ||| bit b 2 ||| bit c 4 ||| bit d 8) := by decide

theorem selection_bits : ∀ a b : Bool, (bit a 1 ||| bit b 2) &&& ~~~0xFFFF0000 = (bit a 1 ||| bit b 2) := by decide

/-! Every label, merge instruction and branch can be spelled. -/

section
variable (encX : X → UInt32 × List UInt32) (known : List (ExtInstSet X)) (before : List (Core X))

theorem spelled_label (op : OpLabel) : SerialisableInst encX known before (.OpLabel op) := by
  refine ⟨rfl, trivial, ?_, trivial⟩
  have h : (encodeInst encX (.OpLabel op)).length = 2 := rfl
  omega

theorem spelled_merge (g : GroupMerge) : SerialisableInst encX known before (mergeInst g) := by
  cases g with
  | OpLoopMerge op =>
    obtain ⟨m, c, ⟨a, b, d, e⟩⟩ := op
    cases e with
    | none =>
      refine ⟨rfl, ⟨?_, trivial⟩, ?_, trivial⟩
      · exact loop_bits a b d false
      · have h : (encodeInst encX (.OpLoopMerge ⟨m, c, ⟨a, b, d, none⟩⟩)).length = 4 := rfl
        exact Nat.lt_of_le_of_lt (Nat.le_of_eq h) (by decide)
    | some n =>
      refine ⟨rfl, ⟨?_, trivial⟩, ?_, trivial⟩
      · exact loop_bits a b d true
      · have h : (encodeInst encX (.OpLoopMerge ⟨m, c, ⟨a, b, d, some n⟩⟩)).length = 5 := rfl
        exact Nat.lt_of_le_of_lt (Nat.le_of_eq h) (by decide)
  | OpSelectionMerge op =>
    obtain ⟨m, ⟨a, b⟩⟩ := op
    refine ⟨rfl, ⟨?_, trivial⟩, ?_, trivial⟩
    · exact selection_bits a b
    · have h : (encodeInst encX (.OpSelectionMerge ⟨m, ⟨a, b⟩⟩)).length = 3 := rfl
      exact Nat.lt_of_le_of_lt (Nat.le_of_eq h) (by decide)

theorem spelled_branch (g : GroupBranch) : SerialisableInst encX known before (branchInst g) := by
  cases g with
  | OpBranch op =>
    refine ⟨rfl, trivial, ?_, trivial⟩
    have h : (encodeInst encX (.OpBranch op)).length = 2 := rfl
    exact Nat.lt_of_le_of_lt (Nat.le_of_eq h) (by decide)
  | OpBranchConditional op =>
    obtain ⟨c, t, f, w⟩ := op
    cases w with
    | none =>
      refine ⟨rfl, ⟨rfl, trivial⟩, ?_, trivial⟩
      have h : (encodeInst encX (.OpBranchConditional ⟨c, t, f, none⟩)).length = 4 := rfl
      exact Nat.lt_of_le_of_lt (Nat.le_of_eq h) (by decide)
    | some w =>
      refine ⟨rfl, trivial, ?_, trivial⟩
      have h : (encodeInst encX (.OpBranchConditional ⟨c, t, f, some w⟩)).length = 6 := rfl
      exact Nat.lt_of_le_of_lt (Nat.le_of_eq h) (by decide)
  | OpReturn op =>
    refine ⟨rfl, trivial, ?_, trivial⟩
    have h : (encodeInst encX (.OpReturn op)).length = 1 := rfl
    exact Nat.lt_of_le_of_lt (Nat.le_of_eq h) (by decide)

theorem spelled_function : SerialisableInst encX known before
    (.OpFunction ⟨⟨0⟩, ⟨0⟩, ⟨false, false, false, false⟩, ⟨0⟩⟩) := by
  refine ⟨rfl, ⟨by decide, trivial⟩, ?_, trivial⟩
  have h : (encodeInst encX (.OpFunction ⟨⟨0⟩, ⟨0⟩, ⟨false, false, false, false⟩, ⟨0⟩⟩)).length = 5 := rfl
  exact Nat.lt_of_le_of_lt (Nat.le_of_eq h) (by decide)

theorem spelled_function_end : SerialisableInst encX known before (.OpFunctionEnd {}) := by
  refine ⟨rfl, trivial, ?_, trivial⟩
  have h : (encodeInst encX (.OpFunctionEnd {})).length = 1 := rfl
  exact Nat.lt_of_le_of_lt (Nat.le_of_eq h) (by decide)

theorem spelled_memory_model : SerialisableInst encX known before (.OpMemoryModel ⟨.Logical, .Simple⟩) := by
  refine ⟨rfl, trivial, ?_, trivial⟩
  have h : (encodeInst encX (.OpMemoryModel ⟨.Logical, .Simple⟩)).length = 3 := rfl
  exact Nat.lt_of_le_of_lt (Nat.le_of_eq h) (by decide)

end

/-- A function that returns at once -/
def returnsAtOnce : FunctionDefinition X :=
  { function := ⟨⟨0⟩, ⟨0⟩, ⟨false, false, false, false⟩, ⟨0⟩⟩, parameters := [],
    blocks := [{ label := ⟨⟨0⟩⟩, code := [], merge := none, branch := .OpReturn {} }] }

/-- A function without its header and its code -/
def skeleton (f : FunctionDefinition Y) : FunctionDefinition X :=
  { function := ⟨⟨0⟩, ⟨0⟩, ⟨false, false, false, false⟩, ⟨0⟩⟩, parameters := [],
    blocks := f.blocks.map fun b => { label := b.label, code := [], merge := b.merge, branch := b.branch } }

/-- A module of a function that returns at once and the skeleton of another -/
def skeletonModule (f : FunctionDefinition Y) : LogicalModule X :=
  { capabilities := [], extensions := [], ext_inst_imports := [], memory_model := ⟨.Logical, .Simple⟩,
    entry_points := [], execution_modes := [], debug := [], annotations := [], globals := [],
    function_declarations := [], function_definitions := [returnsAtOnce, skeleton f] }

/-- C96: whatever `find_control_flow` does for any function, it does for some function that is read and validated
from a binary, however deep the recursion may get. -/
theorem C96_functions (f : FunctionDefinition Y) (known : List (ExtInstSet X)) :
    ∃ (bytes : List UInt8) (raw : RawModule X) (m : LogicalModule X) (g : FunctionDefinition X),
      readModule bytes known = .ok raw ∧ validate raw = .ok m ∧ g ∈ m.function_definitions ∧
      g.blocks.map (fun b => (labelId b, endOf b)) = f.blocks.map (fun b => (labelId b, endOf b)) ∧
      ∀ fuel, findControlFlow fuel g = findControlFlow fuel f := by
  have hb : (skeleton (X := X) f).blocks.map (fun b => (labelId b, endOf b)) =
      f.blocks.map (fun b => (labelId b, endOf b)) := by
    simp only [skeleton, List.map_map]
    rfl
  let raw : RawModule X := ⟨⟨1, 0⟩, ⟨.KhronosReserved, 0⟩, 0, layout (skeletonModule f)⟩
  have hs : Serialisable (fun _ => (0, [])) known raw := by
    refine ⟨rfl, nofun, fun before inst after h => ?_⟩
    have hm : inst ∈ layout (skeletonModule (X := X) f) := by
      show inst ∈ raw.instructions
      rw [h]
      exact List.mem_append_right _ List.mem_cons_self
    simp only [layout, skeletonModule, returnsAtOnce, skeleton, definitionInsts, blockInsts, List.map_nil, List.nil_append,
      List.flatMap_nil, List.append_nil, List.flatMap_cons, List.flatMap_map, List.mem_append, List.mem_cons,
      List.mem_flatMap, List.not_mem_nil, or_false, Option.toList_none, List.mem_map, List.cons_append,
      Option.mem_toList] at hm
    rcases hm with rfl | rfl | rfl | rfl | rfl | rfl | ⟨b, -, rfl | ⟨g, -, rfl⟩ | rfl⟩ | rfl
    · exact spelled_memory_model _ _ _
    · exact spelled_function _ _ _
    · exact spelled_label _ _ _ _
    · exact spelled_branch _ _ _ (.OpReturn {})
    · exact spelled_function_end _ _ _
    · exact spelled_function _ _ _
    · exact spelled_label _ _ _ _
    · exact spelled_merge _ _ _ _
    · exact spelled_branch _ _ _ _
    · exact spelled_function_end _ _ _
  refine ⟨_, raw, skeletonModule f, skeleton f, C02_read_encode _ known raw true hs,
    (C21_layout_iff raw _).mpr ⟨rfl, ⟨nofun, ?_⟩, ?_⟩, by simp [skeletonModule], hb, fun fuel => C32_contents hb fuel⟩
  · intro d hd b hbd v hv
    simp only [skeletonModule, List.mem_cons, List.not_mem_nil, or_false] at hd
    rcases hd with rfl | rfl
    · simp only [returnsAtOnce, List.mem_singleton] at hbd
      subst hbd
      cases hv
    · obtain ⟨b', -, rfl⟩ := List.mem_map.mp hbd
      cases hv
  · intro d ds h
    simp only [skeletonModule, List.cons.injEq] at h
    rw [← h.1]
    exact nofun

/-- C96: exactly which control flow is recovered from binaries: that of the well-formed programs in which a block that
occurs twice ends the same way twice, and no block is a header or merge block around it. -/
theorem C96_control_flow (known : List (ExtInstSet X)) (chain : ControlFlowChain) :
    (∃ (bytes : List UInt8) (raw : RawModule X) (m : LogicalModule X) (g : FunctionDefinition X) (fuel : Nat),
      readModule bytes known = .ok raw ∧ validate raw = .ok m ∧ g ∈ m.function_definitions ∧
      findControlFlow fuel g = .ok chain) ↔
      ∃ s : Program, s.WellFormed false false ∧ s.Consistent ∧ s.Nested [] none ∧ chain = s.toChain := by
  rw [← C57_image_all (X := X)]
  constructor
  · rintro ⟨_, _, _, g, fuel, -, -, -, h⟩
    exact ⟨g, fuel, h⟩
  · rintro ⟨f, fuel, h⟩
    obtain ⟨bytes, raw, m, g, h1, h2, h3, -, h4⟩ := C96_functions f known
    exact ⟨bytes, raw, m, g, fuel, h1, h2, h3, (h4 fuel).trans h⟩

/-- C96: so a binary can make `find_control_flow` recurse forever, and a binary can make it panic. -/
theorem C96_crashes (known : List (ExtInstSet X)) :
    (∃ (bytes : List UInt8) (raw : RawModule X) (m : LogicalModule X) (g : FunctionDefinition X),
      readModule bytes known = .ok raw ∧ validate raw = .ok m ∧ g ∈ m.function_definitions ∧
      ∀ fuel, findControlFlow fuel g = .error .diverge) ∧
    ∃ (bytes : List UInt8) (raw : RawModule X) (m : LogicalModule X) (g : FunctionDefinition X) (text : String),
      readModule bytes known = .ok raw ∧ validate raw = .ok m ∧ g ∈ m.function_definitions ∧
      ∀ fuel, findControlFlow (fuel + 1) g = .error (.panic text) := by
  constructor
  · obtain ⟨bytes, raw, m, g, h1, h2, h3, -, h4⟩ := C96_functions selfLoop known
    exact ⟨bytes, raw, m, g, h1, h2, h3, fun fuel => (h4 fuel).trans (C28_violated fuel)⟩
  · obtain ⟨bytes, raw, m, g, h1, h2, h3, -, h4⟩ := C96_functions loopCond known
    exact ⟨bytes, raw, m, g, _, h1, h2, h3, fun fuel => (h4 _).trans (C29_violated.1 fuel)⟩

/-- The module of the sample binary is one of those that come from binaries. -/
example : VariablesPlaced shaderLogical ∧ ∀ inst ∈ layout shaderLogical, supported inst = true := by
  obtain ⟨h1, h2, -⟩ := (C96_modules (fun e => nomatch e) (known := []) nofun shaderLogical).mp
    ⟨_, _, shader_read false, shader_validate⟩
  refine ⟨h2, fun inst hi => ?_⟩
  obtain ⟨before, after, h⟩ := List.append_of_mem hi
  exact (h1 before inst after h).1

/-- No binary gives a module with a string that has a NUL in it. -/
example : ¬ ∃ bytes raw, readModule bytes [] = .ok raw ∧
    validate raw = .ok { shaderLogical with extensions := ["a\x00b"] } := by
  intro h
  obtain ⟨h1, -, -⟩ := (C96_modules (X := Empty) (fun e => nomatch e) (known := []) nofun _).mp h
  exact absurd (h1 [] (.OpExtension ⟨"a\x00b"⟩) _ rfl).2.1.1 (by decide)

def endlessRaw : RawModule Empty := ⟨⟨1, 0⟩, ⟨.KhronosReserved, 0⟩, 0, [.OpMemoryModel ⟨.Logical, .Simple⟩,
  .OpFunction ⟨⟨0⟩, ⟨0⟩, ⟨false, false, false, false⟩, ⟨0⟩⟩, .OpLabel ⟨⟨10⟩⟩, .OpBranch ⟨⟨10⟩⟩, .OpFunctionEnd {}]⟩

def endlessModule : LogicalModule Empty :=
  { skeletonModule (X := Empty) selfLoop with function_definitions := [skeleton selfLoop] }

/-- A binary of 72 bytes for which `find_control_flow` recurses forever -/
example : readModule (bytesOf true [0x07230203, 0x10000, 0, 0, 0, 0x0003000E, 0, 0,
      0x00050036, 0, 0, 0, 0, 0x000200F8, 10, 0x000200F9, 10, 0x00010038]) [] = .ok endlessRaw ∧
    validate endlessRaw = .ok endlessModule ∧
    ∀ g ∈ endlessModule.function_definitions, ∀ fuel, findControlFlow fuel g = .error .diverge := by
  refine ⟨rfl, rfl, fun g hg fuel => ?_⟩
  cases List.mem_singleton.mp hg
  exact (C32_contents (f := skeleton (X := Empty) selfLoop) (g := selfLoop) rfl fuel).trans (C28_violated fuel)

end Magma.Props
