import Verif.Proofs.Arrange
import Verif.Props.Chains
import Verif.Props.Forgets
import Verif.Props.Samples
import Verif.Props.Reader
import Verif.Props.Validate
/-! C118: putting the blocks of functions in the order that the standard demands. -/

namespace Magma.Props
open Spec Standard Arrange
variable {X : Type}

/-! ### C118 -/

/-- A way along branches leads to a block exactly if the recovered control flow comes to it. -/
theorem course_reached {f : FunctionDefinition X} {fuel : Nat} {chain : ControlFlowChain}
    (h : findControlFlow fuel f = .ok chain) {first : BasicBlock X} {more : List (BasicBlock X)}
    (hb : f.blocks = first :: more) (id : BlockId) :
    (∃ l, Course f.blocks (labelId first) (l ++ [id.val])) ↔ id ∈ reached chain := by
  rw [← C49_visited h hb]
  constructor
  · rintro ⟨l, hl⟩
    obtain ⟨ds, hd⟩ := course_run (labels_distinct h) hl
    exact ⟨ds, mem_map_val (by rw [hd]; simp)⟩
  · rintro ⟨ds, hd⟩
    obtain ⟨pre, post, hp⟩ := List.append_of_mem hd
    refine ⟨pre.map (·.val), ?_⟩
    have := run_course ds ⟨labelId first⟩ pre id post hp
    rwa [List.map_append] at this

/-- C118: in the order of the recovered control flow every block that can be visited comes after the blocks that dominate
it. -/
theorem C118_order {f : FunctionDefinition X} {fuel : Nat} {chain : ControlFlowChain}
    (h : findControlFlow fuel f = .ok chain) {first : BasicBlock X} {more : List (BasicBlock X)}
    (hb : f.blocks = first :: more) : DominatorsFirst (arrangeBlocks chain f.blocks) (labelId first) := by
  have hn := labels_distinct h
  have hp := arrange_perm chain hn
  intro pre b post he ⟨l, hl⟩ a ha
  have hl := Course.perm (fun _ hb => hp.mem_iff.mp hb) hl
  have ha : ∀ l, Course f.blocks (labelId first) (l ++ [labelId b]) → a ∈ l := fun l hl =>
    ha l (Course.perm (fun _ hb => hp.mem_iff.mpr hb) hl)
  have hc := (C91_dominates h hb ⟨a⟩ ⟨labelId b⟩).mp ha
  have hr : (⟨labelId b⟩ : BlockId) ∈ reached chain := (course_reached h hb ⟨labelId b⟩).mp ⟨l, hl⟩
  have hlab : a ∈ f.blocks.map labelId := by
    have := ha l hl
    have hmem : ∀ {u l}, Course f.blocks u l → ∀ x ∈ l, x ∈ f.blocks.map labelId := by
      intro u l hc
      induction hc with
      | stop hb =>
        intro x hx
        rw [List.mem_singleton.mp hx]
        exact List.mem_map_of_mem hb
      | step he _ ih =>
        intro x hx
        rcases List.mem_cons.mp hx with rfl | hx
        · obtain ⟨b, hb, rfl, -⟩ := he
          exact List.mem_map_of_mem hb
        · exact ih x hx
    exact hmem hl a (List.mem_append_left _ this)
  have first_place : ∀ u v, (reached chain).map (·.val) ++ chainIds chain = u ++ labelId b :: v → a ∈ u := by
    intro u v hu
    apply Classical.byContradiction
    intro hau
    rcases List.append_eq_append_iff.mp hu with ⟨w, rfl, -⟩ | ⟨w, hw, hx⟩
    · obtain ⟨p, q, hpq⟩ := List.append_of_mem hr
      have := comes_earlier (a := ⟨a⟩) chain p q hpq fun hm => hau (by
        rw [hpq]
        exact List.mem_append_left _ (List.mem_map.mpr ⟨⟨a⟩, List.mem_append_left _ hm, rfl⟩))
      rw [hc] at this
      cases this
    · cases w with
      | nil =>
        rw [List.append_nil] at hw
        obtain ⟨p, q, hpq⟩ := List.append_of_mem hr
        have := comes_earlier (a := ⟨a⟩) chain p q hpq fun hm => hau (by
          rw [← hw, hpq]
          exact List.mem_map.mpr ⟨⟨a⟩, List.mem_append_left _ hm, rfl⟩)
        rw [hc] at this
        cases this
      | cons y ys =>
        rw [List.cons_append, List.cons.injEq] at hx
        obtain ⟨rfl, -⟩ := hx
        obtain ⟨p, q, hpq, hp1, hp2⟩ := List.map_eq_append_iff.mp hw
        obtain ⟨c, q, rfl, hc1, -⟩ := List.map_eq_cons_iff.mp hp2
        have hcb : c = ⟨labelId b⟩ := by
          obtain ⟨c⟩ := c
          exact congrArg _ hc1
        subst hcb
        have := comes_earlier (a := ⟨a⟩) chain p q hpq fun hm => hau (by
          rw [← hp1]
          exact List.mem_map.mpr ⟨⟨a⟩, hm, rfl⟩)
        rw [hc] at this
        cases this
  refine arrange_before hn he ?_ hlab fun u v hu => firsts_before hu first_place
  exact mem_firsts.mpr (List.mem_append_left _ (List.mem_map.mpr ⟨_, hr, rfl⟩))

/-- C118: with ways to merge blocks and continue targets as well, this holds for all blocks of the recovered control
flow. -/
theorem C118_structural {f : FunctionDefinition X} {fuel : Nat} {chain : ControlFlowChain}
    (h : findControlFlow fuel f = .ok chain) {first : BasicBlock X} {more : List (BasicBlock X)}
    (hb : f.blocks = first :: more) : HeadersFirst (arrangeBlocks chain f.blocks) (labelId first) (chainIds chain) := by
  have hn := labels_distinct h
  have hp := arrange_perm chain hn
  intro pre b post he hin a hd hab
  have hd' : Dominates f.blocks (labelId first) a (labelId b) := fun l hl =>
    hd l (Walk.perm (fun _ hb => hp.mem_iff.mpr hb) hl)
  by_cases hr : (⟨labelId b⟩ : BlockId) ∈ reached chain
  · obtain ⟨l, hl⟩ := (course_reached h hb ⟨labelId b⟩).mpr hr
    refine C118_order h hb pre b post he ⟨l, Course.perm (fun _ hb => hp.mem_iff.mpr hb) hl⟩ a fun l hl => ?_
    have hl := Course.perm (fun _ hb => hp.mem_iff.mp hb) hl
    have hw := Course.walk hl (w := []) .start
    rw [List.append_nil, List.reverse_append] at hw
    have := hd' _ hw
    rw [List.mem_cons] at this
    exact List.mem_reverse.mp (this.resolve_left hab)
  · obtain ⟨s, first', more', hb', -, hs, hen, -, rfl⟩ := C30_accepted_iff.mp ⟨fuel, h⟩
    rw [hb] at hb'
    cases hb'
    have hids := (Program.chainIds_toChain s).1
    have earlier : ∀ p q, s.ids = p ++ (⟨labelId b⟩ : BlockId) :: q → (⟨a⟩ : BlockId) ∈ p := by
      intro p q hpq
      obtain ⟨l, hw, hA⟩ := leads_ids (first := labelId first) s none none (fun _ => False) _ p q hs hen
        ⟨[], .start, by simp⟩ hpq
      have := hd' l hw
      rw [List.mem_cons] at this
      rcases hA a (this.resolve_left hab) with hf | ⟨c, hc, hca⟩
      · exact hf.elim
      · cases hca
        exact hc
    have hlab : a ∈ f.blocks.map labelId := by
      rw [hids] at hin
      obtain ⟨c, hc, hcb⟩ := List.mem_map.mp hin
      obtain ⟨p, q, hpq⟩ := List.append_of_mem hc
      have hcb : c = ⟨labelId b⟩ := by
        obtain ⟨c⟩ := c
        exact congrArg _ hcb
      subst hcb
      have := earlier p q hpq
      refine C81_needed h a ?_
      rw [hids, hpq]
      exact List.mem_map.mpr ⟨⟨a⟩, List.mem_append_left _ this, rfl⟩
    refine arrange_before hn he (mem_firsts.mpr (List.mem_append_right _ hin)) hlab fun u v hu => firsts_before hu ?_
    intro u v hu
    rw [hids] at hu
    rcases List.append_eq_append_iff.mp hu with ⟨w, rfl, hx⟩ | ⟨w, hw, hx⟩
    · obtain ⟨p, q, hpq, hp1, hp2⟩ := List.map_eq_append_iff.mp hx
      obtain ⟨c, q, rfl, hc1, -⟩ := List.map_eq_cons_iff.mp hp2
      have hcb : c = ⟨labelId b⟩ := by
        obtain ⟨c⟩ := c
        exact congrArg _ hc1
      subst hcb
      refine List.mem_append_right _ ?_
      rw [← hp1]
      exact List.mem_map.mpr ⟨⟨a⟩, earlier p q hpq, rfl⟩
    · cases w with
      | nil =>
        rw [List.nil_append] at hx
        obtain ⟨c, q, hcq, hc1, -⟩ := List.map_eq_cons_iff.mp hx.symm
        have hcb : c = ⟨labelId b⟩ := by
          obtain ⟨c⟩ := c
          exact congrArg _ hc1
        subst hcb
        have := earlier [] q hcq
        cases this
      | cons y ys =>
        rw [List.cons_append, List.cons.injEq] at hx
        obtain ⟨rfl, -⟩ := hx
        exact absurd (mem_map_val (a := ⟨labelId b⟩) (by rw [hw]; simp)) hr

/-- C118: the blocks are the same ones, the first stays the first, and arranging them once more changes nothing. -/
theorem C118_blocks {f : FunctionDefinition X} {fuel : Nat} {chain : ControlFlowChain}
    (h : findControlFlow fuel f = .ok chain) {first : BasicBlock X} {more : List (BasicBlock X)}
    (hb : f.blocks = first :: more) : (∃ more', arrangeBlocks chain f.blocks = first :: more' ∧ more'.Perm more) ∧
    arrangeBlocks chain (arrangeBlocks chain f.blocks) = arrangeBlocks chain f.blocks :=
  ⟨arrange_first h hb, arrange_again chain (labels_distinct h)⟩

/-- C118: the control flow stays the same. -/
theorem C118_flow (fuel : Nat) (d : FunctionDefinition X) (fuel' : Nat) :
    findControlFlow fuel' (arrange fuel d) = findControlFlow fuel' d := by
  rw [arrange]
  split
  · rename_i chain h
    obtain ⟨_, first, more, hb, hn, -⟩ := C30_accepted_iff.mp ⟨fuel, h⟩
    obtain ⟨more', hm, hp⟩ := arrange_first h hb
    exact (C31_block_order hb (g := { d with blocks := arrangeBlocks chain d.blocks }) hm hp.symm hn fuel').symm
  · rfl

/-- C118: what is made of a function with recovered control flow keeps the rule, also with ways to merge blocks and continue
targets counted. -/
theorem C118_kept {d : FunctionDefinition X} {fuel : Nat} {chain : ControlFlowChain} (h : findControlFlow fuel d = .ok chain)
    {first : BasicBlock X} {more : List (BasicBlock X)} (hb : d.blocks = first :: more) :
    (∃ more', (arrange fuel d).blocks = first :: more') ∧ DominatorsFirst (arrange fuel d).blocks (labelId first) ∧
      HeadersFirst (arrange fuel d).blocks (labelId first) (chainIds chain) := by
  rw [arrange, h]
  obtain ⟨⟨more', hm, -⟩, -⟩ := C118_blocks h hb
  exact ⟨⟨more', hm⟩, C118_order h hb, C118_structural h hb⟩

/-- C118: whatever the instructions mean, the function computes what it did before. -/
theorem C118_computes {S : Type} (M : Machine X S) (fuel : Nat) (d : FunctionDefinition X) (n : Nat) (id : BlockId)
    (c : Config S) : runMachine M (arrange fuel d).blocks n id c = runMachine M d.blocks n id c := by
  rw [arrange]
  split
  · rename_i chain h
    have hn := labels_distinct h
    exact (runMachine_congr M (blockOf_perm (arrange_perm chain hn).symm hn) n id c).symm
  · rfl

/-- C118: whether the blocks of a function are in order is read off the recovered control flow. -/
theorem C118_check {f : FunctionDefinition X} {fuel : Nat} {chain : ControlFlowChain}
    (h : findControlFlow fuel f = .ok chain) {first : BasicBlock X} {more : List (BasicBlock X)}
    (hb : f.blocks = first :: more) :
    arrangedAfter chain [] f.blocks = true ↔ DominatorsFirst f.blocks (labelId first) := by
  have key : ∀ (bs : List (BasicBlock X)) (before : List UInt32), arrangedAfter chain before bs = true ↔
      ∀ pre b post, bs = pre ++ b :: post → (∃ l, Course f.blocks (labelId first) (l ++ [labelId b])) →
        ∀ a, (∀ l, Course f.blocks (labelId first) (l ++ [labelId b]) → a ∈ l) → a ∈ before ∨ a ∈ pre.map labelId := by
    intro bs
    induction bs with
    | nil =>
      refine fun before => ⟨fun _ pre b post h => ?_, fun _ => rfl⟩
      cases pre <;> cases h
    | cons b bs ih =>
      intro before
      rw [arrangedAfter, Bool.and_eq_true, ih, List.all_eq_true]
      constructor
      · rintro ⟨h1, h2⟩ pre c post he hr a ha
        cases pre with
        | nil =>
          rw [List.nil_append, List.cons.injEq] at he
          obtain ⟨rfl, -⟩ := he
          obtain ⟨l, hl⟩ := hr
          have har : (⟨a⟩ : BlockId) ∈ reached chain := by
            obtain ⟨ds, hd⟩ := course_run (labels_distinct h) hl
            exact (C49_visited h hb ⟨a⟩).mp ⟨ds, mem_map_val (by rw [hd]; exact List.mem_append_left _ (ha l hl))⟩
          have := h1 ⟨a⟩ har
          rw [List.contains_iff_mem.mpr ((course_reached h hb ⟨labelId b⟩).mp ⟨l, hl⟩),
            (C91_dominates h hb ⟨a⟩ ⟨labelId b⟩).mp ha] at this
          exact .inl (List.contains_iff_mem.mp this)
        | cons d pre =>
          rw [List.cons_append, List.cons.injEq] at he
          obtain ⟨rfl, he⟩ := he
          rcases h2 pre c post he hr a ha with h' | h'
          · rcases List.mem_cons.mp h' with rfl | h'
            · exact .inr List.mem_cons_self
            · exact .inl h'
          · exact .inr (List.mem_cons_of_mem _ h')
      · intro hall
        refine ⟨fun a har => ?_, fun pre c post he hr a ha => ?_⟩
        · cases hr : (reached chain).contains ⟨labelId b⟩ with
          | false => rfl
          | true =>
            cases hc : comes a ⟨labelId b⟩ chain with
            | true => rfl
            | false =>
              have hr := (course_reached h hb ⟨labelId b⟩).mpr (List.contains_iff_mem.mp hr)
              have := hall [] b bs rfl hr a.val ((C91_dominates h hb a ⟨labelId b⟩).mpr hc)
              simpa using this
        · rcases hall (b :: pre) c post (by rw [he]; rfl) hr a ha with h' | h'
          · exact .inl (List.mem_cons_of_mem _ h')
          · rcases List.mem_cons.mp h' with rfl | h'
            · exact .inl List.mem_cons_self
            · exact .inr h'
  rw [key]
  simp only [List.not_mem_nil, false_or]
  rfl

/-- C118: a binary that is read and validated is turned into one that is not longer, has the same instructions in another
order, and is read and validated as the same module with the blocks of its functions in order. -/
theorem C118_accepted {bytes : List UInt8} {raw : RawModule Glsl.Inst} {m : LogicalModule Glsl.Inst}
    (hr : readModule bytes [Glsl.instSet] = .ok raw) (hv : validate raw = .ok m) (fuel : Nat) (le : Bool) :
    ∃ bytes' raw', arrangeBinary fuel le bytes = some bytes' ∧ bytes'.length ≤ bytes.length ∧
      readModule bytes' [Glsl.instSet] = .ok raw' ∧ validate raw' = .ok (arrangeModule fuel m) ∧
      raw'.instructions.Perm raw.instructions ∧ raw' = { raw with instructions := raw'.instructions } := by
  obtain ⟨hs, -⟩ := C18_reserialise_glsl bytes raw le hr
  obtain ⟨pre, h1, h2⟩ := arrange_module fuel m
  have hl := C20_lossless hv
  have hperm := definitions_perm fuel m.function_definitions
  have hins : raw.instructions = pre ++ m.function_definitions.flatMap definitionInsts := hl.symm.trans h1
  have hs' : Serialisable glslWords [Glsl.instSet] { raw with instructions := layout (arrangeModule fuel m) } := by
    rw [h2]
    refine serialisable_members hs hins (fun i hi => hperm.mem_iff.mp hi) fun i hi id => ?_
    obtain ⟨d, -, hd⟩ := List.mem_flatMap.mp hi
    exact Optimise.no_imports hd id
  have hsl : (layout (arrangeModule fuel m)).Perm raw.instructions := by
    rw [h2, hins]
    exact (List.Perm.refl _).append hperm
  refine ⟨_, _, by rw [arrangeBinary, hr]; simp only [hv], ?_, C02_read_encode glslWords [Glsl.instSet] _ le hs', ?_, hsl, rfl⟩
  · exact (encode_perm le hsl).le.trans (C18_canonical_length glslWords [Glsl.instSet] encodesSet_glsl bytes raw le hr)
  · rw [C21_layout_iff]
    have hL := (C21_layout_iff raw m).mp hv
    refine ⟨rfl, ⟨hL.placed.inGlobals, ?_⟩, ?_⟩
    · intro d hd b hb v hvm
      obtain ⟨e, he, rfl⟩ := List.mem_map.mp hd
      obtain ⟨bs, hbs, heq⟩ := arrange_def fuel e
      rw [heq] at hb
      exact hL.placed.inBlocks e he b (hbs.mem_iff.mp hb) v hvm
    · intro d ds hds
      obtain ⟨e, es, hes, rfl, -⟩ := List.map_eq_cons_iff.mp hds
      obtain ⟨bs, hbs, heq⟩ := arrange_def fuel e
      rw [heq]
      exact fun hnil => hL.declared e es hes (by rw [show bs = [] from hnil] at hbs; exact hbs.symm.eq_nil)

/-! ### Examples -/

/-- A selection, with the second block of the left arm, and the merge block, before the arms -/
def jumbled : FunctionDefinition Glsl.Inst where
  function := ⟨⟨2⟩, ⟨9⟩, ⟨false, false, false, false⟩, ⟨3⟩⟩
  parameters := []
  blocks := [
    { label := ⟨⟨10⟩⟩, code := [], merge := some (.OpSelectionMerge ⟨⟨11⟩, ⟨false, false⟩⟩),
      branch := .OpBranchConditional ⟨⟨5⟩, ⟨12⟩, ⟨13⟩, none⟩ },
    { label := ⟨⟨14⟩⟩, code := [.OpLoad ⟨⟨2⟩, ⟨6⟩, ⟨5⟩, none⟩], merge := none, branch := .OpBranch ⟨⟨11⟩⟩ },
    { label := ⟨⟨11⟩⟩, code := [], merge := none, branch := .OpReturn {} },
    { label := ⟨⟨15⟩⟩, code := [], merge := none, branch := .OpReturn {} },
    { label := ⟨⟨13⟩⟩, code := [], merge := none, branch := .OpBranch ⟨⟨11⟩⟩ },
    { label := ⟨⟨12⟩⟩, code := [], merge := none, branch := .OpBranch ⟨⟨14⟩⟩ }]

/-- Its control flow -/
def jumbledChain : ControlFlowChain :=
  .Block [.Selection ⟨10⟩ (.Block [.Atom ⟨12⟩, .Atom ⟨14⟩]) (.Block [.Atom ⟨13⟩]) ⟨false, false⟩ none, .Atom ⟨11⟩]

theorem jumbled_flow : findControlFlow 9 jumbled = .ok jumbledChain := rfl

/-- The block that nothing leads to is last. -/
example : (arrange 9 jumbled).blocks.map labelId = [10, 12, 14, 13, 11, 15] := by decide +kernel
example : DominatorsFirst (arrange 9 jumbled).blocks 10 := C118_order jumbled_flow rfl
example : HeadersFirst (arrange 9 jumbled).blocks 10 [10, 12, 14, 13, 11] := C118_structural jumbled_flow rfl
example : findControlFlow 9 (arrange 9 jumbled) = .ok jumbledChain := (C118_flow 9 jumbled 9).trans jumbled_flow
example : arrangeBlocks jumbledChain (arrange 9 jumbled).blocks = (arrange 9 jumbled).blocks := (C118_blocks jumbled_flow rfl).2
theorem jumbled_unordered : ¬ DominatorsFirst jumbled.blocks 10 :=
  mt (C118_check jumbled_flow rfl).mpr (by decide +kernel)

/-- A module with the function -/
def jumbledModule : LogicalModule Glsl.Inst :=
  { capabilities := [.Shader], extensions := [], ext_inst_imports := [⟨⟨1⟩, "GLSL.std.450"⟩],
    memory_model := ⟨.Logical, .Glsl450⟩, entry_points := [], execution_modes := [], debug := [], annotations := [],
    globals := [], function_declarations := [], function_definitions := [jumbled] }

/-- Its instructions -/
def jumbledRaw : RawModule Glsl.Inst :=
  { version := ⟨1, 0⟩, generator := ⟨.KhronosGlslang, 1⟩, bound := 20, instructions := layout jumbledModule }

theorem jumbled_read : readModule (encodeModule glslWords true jumbledRaw) [Glsl.instSet] = .ok jumbledRaw := by decide +kernel
theorem jumbled_valid : validate jumbledRaw = .ok jumbledModule := by decide +kernel

example : ∃ bytes' raw', arrangeBinary 9 true (encodeModule glslWords true jumbledRaw) = some bytes' ∧
    readModule bytes' [Glsl.instSet] = .ok raw' ∧ validate raw' = .ok (arrangeModule 9 jumbledModule) :=
  have ⟨bytes', raw', h1, _, h2, h3, _⟩ := C118_accepted jumbled_read jumbled_valid 9 true
  ⟨bytes', raw', h1, h2, h3⟩

/-- C118: the crate itself accepts functions whose blocks are not in order. -/
theorem C118_unordered : ∃ bytes raw m, readModule bytes [Glsl.instSet] = .ok raw ∧ validate raw = .ok m ∧
    ∃ d ∈ m.function_definitions, ∃ first more fuel chain, d.blocks = first :: more ∧ findControlFlow fuel d = .ok chain ∧
      ¬ DominatorsFirst d.blocks (labelId first) :=
  ⟨_, _, _, jumbled_read, jumbled_valid, jumbled, List.mem_singleton.mpr rfl, _, _, _, _, rfl, jumbled_flow, jumbled_unordered⟩

/-- A selection with a loop without end in the left arm; block 30 is where that loop merges, and comes after block 40 in the
right arm. -/
def lateBlocks : List (BasicBlock Empty) := [
    { label := ⟨⟨10⟩⟩, code := [], merge := some (.OpSelectionMerge ⟨⟨11⟩, ⟨false, false⟩⟩),
      branch := .OpBranchConditional ⟨⟨5⟩, ⟨20⟩, ⟨40⟩, none⟩ },
    { label := ⟨⟨20⟩⟩, code := [], merge := some (.OpLoopMerge ⟨⟨30⟩, ⟨21⟩, ⟨false, false, false, none⟩⟩), branch := .OpBranch ⟨⟨21⟩⟩ },
    { label := ⟨⟨21⟩⟩, code := [], merge := none, branch := .OpBranch ⟨⟨20⟩⟩ },
    { label := ⟨⟨30⟩⟩, code := [], merge := none, branch := .OpBranch ⟨⟨11⟩⟩ },
    { label := ⟨⟨40⟩⟩, code := [], merge := none, branch := .OpBranch ⟨⟨30⟩⟩ },
    { label := ⟨⟨11⟩⟩, code := [], merge := none, branch := .OpReturn {} }]

/-- C118: the order in which the recovered control flow mentions the blocks is not enough by itself: it may mention a block
after a loop that never ends first, and then again after a block that dominates it. -/
theorem C118_mentions : ∃ chain, findControlFlow 9 (functionOf lateBlocks) = .ok chain ∧
    lateBlocks.map labelId = firsts (chainIds chain) ∧ ¬ DominatorsFirst lateBlocks 10 ∧
    (arrangeBlocks chain lateBlocks).map labelId = [10, 20, 21, 40, 30, 11] :=
  have h : findControlFlow 9 (functionOf lateBlocks) = .ok (.Block [.Selection ⟨10⟩
      (.Block [.Loop ⟨20⟩ (.Block [.Atom ⟨21⟩]) ⟨false, false, false, none⟩ none, .Atom ⟨30⟩])
      (.Block [.Atom ⟨40⟩, .Atom ⟨30⟩]) ⟨false, false⟩ none, .Atom ⟨11⟩]) := rfl
  ⟨_, h, by decide +kernel, mt (C118_check h rfl).mpr (by decide +kernel), by decide +kernel⟩

end Magma.Props
