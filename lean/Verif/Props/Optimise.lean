import Verif.Proofs.Optimise
import Verif.Props.Reader
import Verif.Props.Validate
/-! C117: reading, validating, recovering control flow, removing what does not come to memory, and writing. -/

namespace Magma.Props
open Spec Optimise

/-! ### C117 -/

/-- C117: a binary that is read and validated is turned into one that is not longer, and that is read and validated as the
same module with less code. -/
theorem C117_accepted {bytes : List UInt8} {raw : RawModule Glsl.Inst} {m : LogicalModule Glsl.Inst}
    (hr : readModule bytes [Glsl.instSet] = .ok raw) (hv : validate raw = .ok m) (fuel rounds : Nat) (le : Bool) :
    ∃ bytes' raw', optimise fuel rounds le bytes = some bytes' ∧ bytes'.length ≤ bytes.length ∧
      readModule bytes' [Glsl.instSet] = .ok raw' ∧ validate raw' = .ok (lightenModule fuel rounds m) ∧
      raw'.instructions.Sublist raw.instructions ∧ raw' = { raw with instructions := raw'.instructions } := by
  obtain ⟨hs, -⟩ := C18_reserialise_glsl bytes raw le hr
  obtain ⟨pre, h1, h2⟩ := lighten_module fuel rounds m
  have hl := C20_lossless hv
  have hsub := definitions_sublist fuel rounds m.function_definitions
  have hins : raw.instructions = pre ++ m.function_definitions.flatMap definitionInsts := hl.symm.trans h1
  have hs' : Serialisable glslWords [Glsl.instSet] { raw with instructions := layout (lightenModule fuel rounds m) } := by
    rw [h2]
    refine serialisable_sublist hs hins hsub fun i hi id => ?_
    obtain ⟨d, -, hd⟩ := List.mem_flatMap.mp hi
    exact no_imports hd id
  have hsl : (layout (lightenModule fuel rounds m)).Sublist raw.instructions := by
    rw [h2, hins]
    exact (List.Sublist.refl _).append hsub
  refine ⟨_, _, by rw [optimise, hr]; simp only [hv], ?_, C02_read_encode glslWords [Glsl.instSet] _ le hs', ?_, hsl, rfl⟩
  · exact (encode_length le hsl).trans (C18_canonical_length glslWords [Glsl.instSet] encodesSet_glsl bytes raw le hr)
  · rw [C21_layout_iff]
    have hL := (C21_layout_iff raw m).mp hv
    refine ⟨rfl, ⟨hL.placed.inGlobals, ?_⟩, ?_⟩
    · intro d hd b hb v hvm
      obtain ⟨e, he, rfl⟩ := List.mem_map.mp hd
      obtain ⟨g, hg, heq⟩ := repeat_lighter fuel e rounds
      rw [heq] at hb
      obtain ⟨c, hc, rfl⟩ := List.mem_map.mp hb
      exact hL.placed.inBlocks e he c hc v ((hg c).subset hvm)
    · intro d ds hds
      obtain ⟨e, es, hes, rfl, -⟩ := List.map_eq_cons_iff.mp hds
      obtain ⟨g, hg, heq⟩ := repeat_lighter fuel e rounds
      rw [heq]
      simpa using hL.declared e es hes

/-- C117: a binary that is not read, or not validated, is turned down. -/
theorem C117_refused {bytes : List UInt8} {fuel rounds : Nat} {le : Bool} {bytes' : List UInt8}
    (h : optimise fuel rounds le bytes = some bytes') :
    ∃ raw m, readModule bytes [Glsl.instSet] = .ok raw ∧ validate raw = .ok m := by
  rw [optimise] at h
  split at h
  · cases h
  · rename_i raw hr
    split at h
    · cases h
    · rename_i m hv
      exact ⟨raw, m, hr, hv⟩

/-- C117: the functions of the new module have the control flow of the old ones, and do the same to memory, whatever the
instructions mean. -/
theorem C117_same (fuel rounds : Nat) (d : FunctionDefinition Glsl.Inst) :
    (∀ fuel', findControlFlow fuel' (Nat.repeat (lighten fuel) rounds d) = findControlFlow fuel' d) ∧
    ∀ first more, d.blocks = first :: more →
      SameMemory d.blocks (Nat.repeat (lighten fuel) rounds d).blocks ⟨labelId first⟩ := by
  induction rounds with
  | zero => exact ⟨fun _ => rfl, fun _ _ _ _ _ _ _ => ⟨rfl, rfl, fun _ => rfl⟩⟩
  | succ n ih =>
    obtain ⟨hf, hs⟩ := ih
    change (∀ fuel', findControlFlow fuel' (lighten fuel (Nat.repeat (lighten fuel) n d)) = _) ∧
      ∀ first more, _ → SameMemory _ (lighten fuel (Nat.repeat (lighten fuel) n d)).blocks _
    have hL := repeat_lighter fuel d n
    generalize Nat.repeat (lighten fuel) n d = e at hf hs hL ⊢
    rw [lighten]
    cases he : findControlFlow fuel e with
    | error _ => exact ⟨hf, hs⟩
    | ok chain =>
      refine ⟨fun fuel' => ?_, fun first more hb W D k c => ?_⟩
      · rw [← hf fuel']
        exact C114_same valueAccess _ e fuel'
      · obtain ⟨h1, h2, h3⟩ := hs first more hb W D k c
        obtain ⟨g, hg, rfl⟩ := hL
        have hb' : ({ d with blocks := d.blocks.map fun b => { b with code := g b } } : FunctionDefinition Glsl.Inst).blocks =
            { first with code := g first } :: more.map fun b => { b with code := g b } := by rw [hb]; rfl
        obtain ⟨-, h4, h5, h6⟩ := C115_memory he hb' D k c
        exact ⟨h1.trans h4, h2.trans h5, fun hret => (h3 hret).trans (h6 (h2 ▸ hret))⟩

/-- C117: after as many rounds as there are instructions in the blocks of a function, another round changes nothing. -/
theorem C117_settles (fuel rounds : Nat) (d : FunctionDefinition Glsl.Inst) (h : codeSize d ≤ rounds) :
    lighten fuel (Nat.repeat (lighten fuel) rounds d) = Nat.repeat (lighten fuel) rounds d :=
  repeat_settles fuel rounds d h

/-- C117: and then every instruction that is left gives something that comes to use. -/
theorem C117_useful {fuel : Nat} {d : FunctionDefinition Glsl.Inst} {chain : ControlFlowChain}
    (h : findControlFlow fuel d = .ok chain) (hs : lighten fuel d = d) {b : BasicBlock Glsl.Inst} (hb : b ∈ d.blocks)
    {before rest : List (GroupCode Glsl.Inst)} {i : GroupCode Glsl.Inst} (hc : b.code = before ++ i :: rest) :
    ComesToUse d.blocks b i rest := by
  rw [lighten, h] at hs
  have hp : memoryPruned chain d.blocks = d.blocks := congrArg (·.blocks) hs
  rw [memoryPruned, Access.pruneBlocks] at hp
  have hp := List.map_inj_left.mp (hp.trans (List.map_id d.blocks).symm) b hb
  have := prune_all _ _ _ (congrArg (·.code) hp) before i rest hc
  obtain ⟨v, hv, he⟩ := List.any_eq_true.mp this
  refine ⟨v, hv, ?_⟩
  rw [C114_reads] at he
  refine he.imp_right fun ⟨hw, ha⟩ => ⟨hw, ?_⟩
  rw [Bool.or_eq_true] at ha
  refine ha.symm.imp_right fun ho => ?_
  rw [outOf, List.any_eq_true] at ho
  obtain ⟨⟨id, needed⟩, hm, hn⟩ := ho
  rw [Bool.and_eq_true, beq_iff_eq] at hn
  have hid : id = ⟨labelId b⟩ := by
    obtain ⟨id⟩ := id
    exact congrArg _ hn.1
  subst hid
  exact (C114_after h _ _ _ _ hm v).mp hn.2

/-! ### Examples -/

/-- A function that loads 5 and stores it to 9; it also has a product, its sine, and a sum of both nobody asks for -/
def wasting : FunctionDefinition Glsl.Inst where
  function := ⟨⟨2⟩, ⟨12⟩, ⟨false, false, false, false⟩, ⟨3⟩⟩
  parameters := []
  blocks := [{ label := ⟨⟨10⟩⟩, merge := none, branch := .OpReturn {}
               code := [.OpLoad ⟨⟨2⟩, ⟨6⟩, ⟨5⟩, none⟩, .OpFMul ⟨⟨2⟩, ⟨7⟩, ⟨6⟩, ⟨6⟩⟩, .OpExtInst ⟨⟨2⟩, ⟨8⟩, ⟨1⟩, .Sin ⟨⟨7⟩⟩⟩,
                 .OpFAdd ⟨⟨2⟩, ⟨11⟩, ⟨7⟩, ⟨8⟩⟩, .OpStore ⟨⟨9⟩, ⟨6⟩, none⟩] }]

/-- Each round takes out the last of the three that is left. -/
example : (List.range 5).map (fun n => codeSize (Nat.repeat (lighten 9) n wasting)) = [5, 4, 3, 2, 2] := by decide +kernel
example : (Nat.repeat (lighten 9) 5 wasting).blocks.map (·.code) =
    [[.OpLoad ⟨⟨2⟩, ⟨6⟩, ⟨5⟩, none⟩, .OpStore ⟨⟨9⟩, ⟨6⟩, none⟩]] := by decide +kernel

/-- A module with the function -/
def wastingModule : LogicalModule Glsl.Inst :=
  { capabilities := [.Shader], extensions := [], ext_inst_imports := [⟨⟨1⟩, "GLSL.std.450"⟩],
    memory_model := ⟨.Logical, .Glsl450⟩, entry_points := [], execution_modes := [], debug := [], annotations := [],
    globals := [], function_declarations := [], function_definitions := [wasting] }

/-- Its instructions -/
def wastingRaw : RawModule Glsl.Inst :=
  { version := ⟨1, 0⟩, generator := ⟨.KhronosGlslang, 1⟩, bound := 20, instructions := layout wastingModule }

theorem wasting_read : readModule (encodeModule glslWords true wastingRaw) [Glsl.instSet] = .ok wastingRaw := by decide +kernel
theorem wasting_valid : validate wastingRaw = .ok wastingModule := by decide +kernel

/-- 48 words become 32. -/
example : (encodeModule glslWords true wastingRaw).length = 4 * 48 ∧
    (optimise 9 5 true (encodeModule glslWords true wastingRaw)).map (·.length) = some (4 * 32) := by decide +kernel
example : ∃ bytes' raw', optimise 9 5 true (encodeModule glslWords true wastingRaw) = some bytes' ∧
    readModule bytes' [Glsl.instSet] = .ok raw' ∧ validate raw' = .ok (lightenModule 9 5 wastingModule) :=
  have ⟨bytes', raw', h1, _, h2, h3, _⟩ := C117_accepted wasting_read wasting_valid 9 5 true
  ⟨bytes', raw', h1, h2, h3⟩
example : SameMemory wasting.blocks (Nat.repeat (lighten 9) 5 wasting).blocks ⟨10⟩ := (C117_same 9 5 wasting).2 _ _ rfl
example : lighten 9 (Nat.repeat (lighten 9) 5 wasting) = Nat.repeat (lighten 9) 5 wasting :=
  C117_settles 9 5 wasting (by decide)
example : ∀ b ∈ (Nat.repeat (lighten 9) 5 wasting).blocks, ∀ before i rest, b.code = before ++ i :: rest →
    ComesToUse (Nat.repeat (lighten 9) 5 wasting).blocks b i rest := fun b hb _ _ _ hc =>
  C117_useful (chain := .Atom ⟨10⟩) (((C117_same 9 5 wasting).1 9).trans rfl) (C117_settles 9 5 wasting (by decide)) hb hc

end Magma.Props
