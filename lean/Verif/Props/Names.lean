import Verif.Spec.Names
import Verif.Props.Operands
import Verif.Proofs.TextCore
import Verif.Model.Display
/-! C46: operands are printed with the names of the standard. -/

namespace Magma.Props
open Magma Magma.Spec

/-- Whatever number of the table (but those of `except`) an operand is read from, the operand is printed
as the name of that number, and as another text for the numbers of `except`; a number that is not in the
table is not read. -/
structure PrintsNames (α : Type) [MemoryBlockRead α] [Display α] (names : Table) (except : List UInt32) :
    Prop where
  named : ∀ w name, (w, name) ∈ names → w ∉ except → ∀ rest, ∃ a : α,
    MemoryBlockRead.read (w :: rest) = (.ok (rest, a) : R (Block × α)) ∧ Display.fmt a = name.toList
  misnamed : ∀ w ∈ except, (∃ name, (w, name) ∈ names) ∧ ∀ name, (w, name) ∈ names → ∀ rest, ∃ a : α,
    MemoryBlockRead.read (w :: rest) = (.ok (rest, a) : R (Block × α)) ∧ Display.fmt a ≠ name.toList
  complete : ∀ w rest rest' (a : α), MemoryBlockRead.read (w :: rest) = (.ok (rest', a) : R (Block × α)) →
    ∃ name, (w, name) ∈ names

theorem PrintsNames.of_table {α : Type} [MemoryBlockRead α] [Display α] {names : Table}
    {except : List UInt32} {table : List (UInt32 × α)} {e : UInt32 → ReadError}
    (hread : ∀ ws : Block, (MemoryBlockRead.read ws : R (Block × α)) = readEnum table e ws)
    (hn : ∀ p ∈ names, p.1 ∉ except → (table.lookup p.1).map Display.fmt = some p.2.toList)
    (he : ∀ w ∈ except, w ∈ names.map Prod.fst ∧ ∀ p ∈ names, p.1 = w →
      ((table.lookup p.1).map fun a => decide (Display.fmt a = p.2.toList)) = some false)
    (hc : ∀ k ∈ table.map Prod.fst, k ∈ names.map Prod.fst) : PrintsNames α names except := by
  constructor
  · intro w name hm hw rest
    have h := hn _ hm hw
    cases hl : table.lookup w with
    | none => rw [hl] at h; cases h
    | some a =>
      rw [hl] at h
      refine ⟨a, ?_, Option.some.inj h⟩
      rw [hread]
      simp only [readEnum, Block.readWord, ok_bind, hl]
      rfl
  · intro w hw
    obtain ⟨hm, hp⟩ := he w hw
    refine ⟨?_, fun name hn rest => ?_⟩
    · obtain ⟨p, hq, rfl⟩ := List.mem_map.mp hm
      exact ⟨p.2, hq⟩
    · have h := hp _ hn rfl
      cases hl : table.lookup w with
      | none => rw [hl] at h; cases h
      | some a =>
        rw [hl, Option.map_some, Option.some.injEq, decide_eq_false_iff_not] at h
        refine ⟨a, ?_, h⟩
        rw [hread]
        simp only [readEnum, Block.readWord, ok_bind, hl]
        rfl
  · intro w rest rest' a h
    rw [hread] at h
    simp only [readEnum, Block.readWord, ok_bind] at h
    cases hl : table.lookup w with
    | none => rw [hl] at h; cases h
    | some b =>
      obtain ⟨p, hp, rfl⟩ := List.mem_map.mp (hc w (List.mem_map.mpr ⟨_, mem_of_lookup hl, rfl⟩))
      exact ⟨p.2, hp⟩

/-- C46 for `BuiltIn`; misspelt are the names of 14 -/
theorem C46_built_in_partial : PrintsNames BuiltIn builtInNames [14] :=
  .of_table (table := BuiltIn.table) (fun _ => rfl) (by decide +kernel) (by decide +kernel) (by decide)

/-- C46 for `FunctionParameterAttribute` -/
theorem C46_function_parameter_attribute : PrintsNames FunctionParameterAttribute functionParameterAttributeNames [] :=
  .of_table (table := FunctionParameterAttribute.table) (fun _ => rfl) (by decide +kernel) (by decide +kernel) (by decide)

/-- C46 for `FpRoundingMode` -/
theorem C46_fp_rounding_mode : PrintsNames FpRoundingMode fpRoundingModeNames [] :=
  .of_table (table := FpRoundingMode.table) (fun _ => rfl) (by decide +kernel) (by decide +kernel) (by decide)

/-- C46 for `LinkageType` -/
theorem C46_linkage_type : PrintsNames LinkageType linkageTypeNames [] :=
  .of_table (table := LinkageType.table) (fun _ => rfl) (by decide +kernel) (by decide +kernel) (by decide)

/-- C46 for `AddressingModel` -/
theorem C46_addressing_model : PrintsNames AddressingModel addressingModelNames [] :=
  .of_table (table := AddressingModel.table) (fun _ => rfl) (by decide +kernel) (by decide +kernel) (by decide)

/-- C46 for `MemoryModel` -/
theorem C46_memory_model : PrintsNames MemoryModel memoryModelNames [] :=
  .of_table (table := MemoryModel.table) (fun _ => rfl) (by decide +kernel) (by decide +kernel) (by decide)

/-- C46 for `ExecutionModel`; misspelt are the names of 1 and 2 -/
theorem C46_execution_model_partial : PrintsNames ExecutionModel executionModelNames [1, 2] :=
  .of_table (table := ExecutionModel.table) (fun _ => rfl) (by decide +kernel) (by decide +kernel) (by decide)

/-- C46 for `Capability` -/
theorem C46_capability : PrintsNames Capability capabilityNames [] :=
  .of_table (table := Capability.table) (fun _ => rfl) (by decide +kernel) (by decide +kernel) (by decide)

/-- C46 for `Signedness` -/
theorem C46_signedness : PrintsNames Signedness signednessNames [] :=
  .of_table (table := Signedness.table) (fun _ => rfl) (by decide +kernel) (by decide +kernel) (by decide)

/-- C46 for `StorageClass` -/
theorem C46_storage_class : PrintsNames StorageClass storageClassNames [] :=
  .of_table (table := StorageClass.table) (fun _ => rfl) (by decide +kernel) (by decide +kernel) (by decide)

/-- C46 for `Dim` -/
theorem C46_dim : PrintsNames Dim dimNames [] :=
  .of_table (table := Dim.table) (fun _ => rfl) (by decide +kernel) (by decide +kernel) (by decide)

/-- C46 for `DepthStatus` -/
theorem C46_depth_status : PrintsNames DepthStatus depthStatusNames [] :=
  .of_table (table := DepthStatus.table) (fun _ => rfl) (by decide +kernel) (by decide +kernel) (by decide)

/-- C46 for `Arrayed` -/
theorem C46_arrayed : PrintsNames Arrayed arrayedNames [] :=
  .of_table (table := Arrayed.table) (fun _ => rfl) (by decide +kernel) (by decide +kernel) (by decide)

/-- C46 for `MS` -/
theorem C46_ms : PrintsNames MS mSNames [] :=
  .of_table (table := MS.table) (fun _ => rfl) (by decide +kernel) (by decide +kernel) (by decide)

/-- C46 for `SampledStatus` -/
theorem C46_sampled_status : PrintsNames SampledStatus sampledStatusNames [] :=
  .of_table (table := SampledStatus.table) (fun _ => rfl) (by decide +kernel) (by decide +kernel) (by decide)

/-- C46 for `ImageFormat` -/
theorem C46_image_format : PrintsNames ImageFormat imageFormatNames [] :=
  .of_table (table := ImageFormat.table) (fun _ => rfl) (by decide +kernel) (by decide +kernel) (by decide)

/-- C46 for `AccessQualifier` -/
theorem C46_access_qualifier : PrintsNames AccessQualifier accessQualifierNames [] :=
  .of_table (table := AccessQualifier.table) (fun _ => rfl) (by decide +kernel) (by decide +kernel) (by decide)

/-- C46 for source languages: a number without a name is printed as such -/
theorem C46_source_language (w : UInt32) (rest : List UInt32) : ∃ l : SourceLanguage,
    MemoryBlockRead.read (w :: rest) = (.ok (rest, l) : R (Block × SourceLanguage)) ∧
    ((∃ name, (w, name) ∈ sourceLanguageNames ∧ Display.fmt l = name.toList) ∨
      ((∀ name, (w, name) ∉ sourceLanguageNames) ∧
        Display.fmt l = "Unknown(".toList ++ decimal w.toNat ++ ")".toList)) := by
  have hn : ∀ p ∈ SourceLanguage.table, ∃ name, (p.1, name) ∈ sourceLanguageNames ∧
      (Display.fmt p.2 : Text) = name.toList := by
    intro p hp
    simp only [SourceLanguage.table, List.mem_cons, List.not_mem_nil, or_false] at hp
    rcases hp with rfl | rfl | rfl | rfl | rfl
    · exact ⟨"Unknown", by decide, rfl⟩
    · exact ⟨"ESSL", by decide, rfl⟩
    · exact ⟨"GLSL", by decide, rfl⟩
    · exact ⟨"OpenCL_C", by decide, rfl⟩
    · exact ⟨"OpenCL_CPP", by decide, rfl⟩
  cases hl : SourceLanguage.table.lookup w with
  | some l =>
    refine ⟨l, ?_, .inl (hn _ (mem_of_lookup hl))⟩
    simp only [MemoryBlockRead.read, Block.readWord, ok_bind, hl]
    rfl
  | none =>
    refine ⟨.Other w, ?_, .inr ⟨?_, by rw [decimal_eq]; rfl⟩⟩
    · simp only [MemoryBlockRead.read, Block.readWord, ok_bind, hl]
      rfl
    · intro name h
      have : ∀ p ∈ sourceLanguageNames, SourceLanguage.table.lookup p.1 ≠ none := by decide
      exact this _ h hl

/-- The text is the name of a number, alone or followed by a space and arguments. -/
def IsNamed (names : Table) (w : UInt32) (text : Text) : Prop :=
  ∃ name args, (w, name) ∈ names ∧ (args = [] ∨ ∃ t, args = ' ' :: t) ∧ text = name.toList ++ args

theorem isNamed_alone {names : Table} {w : UInt32} {name : String} (h : names.lookup w = some name) :
    IsNamed names w name.toList := ⟨name, [], mem_of_lookup h, .inl rfl, (List.append_nil _).symm⟩

theorem isNamed_args {names : Table} {w : UInt32} {name : String} {s t text : Text}
    (h : names.lookup w = some name) (hs : s = name.toList ++ [' ']) (ht : text = s ++ t) : IsNamed names w text :=
  ⟨name, ' ' :: t, mem_of_lookup h, .inr ⟨t, rfl⟩, by rw [ht, hs, List.append_assoc]; rfl⟩

/-- No name of the number is a prefix of the text, to judge by a start of it that is as long. -/
theorem not_isNamed {names : Table} {w : UInt32} {text : Text} (s t : Text)
    (h : ∀ p ∈ names, p.1 = w → p.2.toList.length ≤ s.length ∧ (p.2.toList.isPrefixOf s) = false)
    (ht : text = s ++ t) : ¬ IsNamed names w text := by
  rintro ⟨name, args, hm, -, he⟩
  obtain ⟨hl, hp⟩ := h _ hm rfl
  rw [Bool.eq_false_iff] at hp
  refine hp (List.isPrefixOf_iff_prefix.mpr ?_)
  rw [ht] at he
  exact List.prefix_of_prefix_length_le ⟨args, he.symm⟩ (List.prefix_append s t) hl

theorem append_three {α : Type} (s a b c : List α) : s ++ a ++ b ++ c = s ++ (a ++ b ++ c) := by
  simp only [List.append_assoc]

theorem append_five {α : Type} (s a b c d e : List α) :
    s ++ a ++ b ++ c ++ d ++ e = s ++ (a ++ b ++ c ++ d ++ e) := by
  simp only [List.append_assoc]

/-- C46 for execution modes; misspelt is the name of 26, whatever the number of vertices. -/
theorem C46_execution_mode_partial {w : UInt32} {ws rest : List UInt32} {a : ExecutionMode}
    (h : MemoryBlockRead.read (w :: ws) = (.ok (rest, a) : R (Block × ExecutionMode))) :
    IsNamed executionModeNames w (Display.fmt a) ↔ w ≠ 26 := by
  obtain rfl := (C12_execution_mode w ws).1 rest a h
  constructor
  · rintro hn hw
    rw [hw] at hn
    cases a <;> simp only [executionModeNumber] at hw <;> first
      | exact absurd hw (by decide)
      | exact not_isNamed (names := executionModeNames) "OutputVerticies ".toList _ (by decide +kernel) rfl hn
  · intro hw
    cases a <;> first
      | exact isNamed_alone rfl
      | exact isNamed_args rfl (by decide) rfl
      | exact isNamed_args rfl (by decide) (append_five _ _ _ _ _ _)
      | exact absurd rfl hw

theorem decoration39 {a : Decoration} (h : decorationNumber a = 39) : ∃ m, a = .FpRoundingMode m := by
  cases a <;> simp only [decorationNumber] at h <;> first
    | exact absurd h (by decide)
    | exact ⟨_, rfl⟩

theorem decoration40 {a : Decoration} (h : decorationNumber a = 40) : ∃ m, a = .FpFastMathMode m := by
  cases a <;> simp only [decorationNumber] at h <;> first
    | exact absurd h (by decide)
    | exact ⟨_, rfl⟩

/-- C46 for decorations; misspelt are the names of 39 and 40, whatever their operands. -/
theorem C46_decoration_partial {w : UInt32} {ws rest : List UInt32} {a : Decoration}
    (h : MemoryBlockRead.read (w :: ws) = (.ok (rest, a) : R (Block × Decoration))) :
    IsNamed decorationNames w (Display.fmt a) ↔ w ≠ 39 ∧ w ≠ 40 := by
  obtain rfl := (C12_decoration w ws).1 rest a h
  constructor
  · intro hn
    constructor <;> intro hw <;> rw [hw] at hn
    · obtain ⟨m, rfl⟩ := decoration39 hw
      exact not_isNamed (names := decorationNames) "FpRoundingMode ".toList _ (by decide +kernel) rfl hn
    · obtain ⟨m, rfl⟩ := decoration40 hw
      exact not_isNamed (names := decorationNames) "FpFastMathMode ".toList _ (by decide +kernel) rfl hn
  · rintro ⟨h39, h40⟩
    cases a <;> first
      | exact isNamed_alone rfl
      | exact isNamed_args rfl (by decide) rfl
      | exact isNamed_args rfl (by decide) (append_three _ _ _ _)
      | exact absurd rfl h39
      | exact absurd rfl h40

theorem joinParts_eq (l : List String) : joinParts (l.map String.toList) = (flagText l).toList := by
  have hb : ∀ l : List String, joinBar (l.map String.toList) = " | ".toList.intercalate (l.map String.toList) := by
    intro l
    induction l with
    | nil => rfl
    | cons a l ih =>
      cases l with
      | nil => simp [joinBar]
      | cons b l =>
        rw [List.map_cons, List.map_cons, List.intercalate_cons_cons]
        rw [List.map_cons] at ih
        rw [← ih]
        simp only [joinBar]
  cases l with
  | nil => rfl
  | cons a l =>
    rw [flagText, if_neg (by simp), String.toList_intercalate, ← hb]
    rfl

/-- C46 for memory access masks: the names of the bits that are set -/
theorem C46_memory_access {w : UInt32} {ws rest : List UInt32} {a : MemoryAccess}
    (h : MemoryBlockRead.read (w :: ws) = (.ok (rest, a) : R (Block × MemoryAccess))) :
    Display.fmt a = (flagText (namesOf memoryAccessBits 0 (bitOf w))).toList := by
  have hc := C11_memory_access_partial w ws
  by_cases hl : LowClear 3 w
  · rw [hc.1 hl] at h
    cases h
    simp only [namesOf, memoryAccessBits, Nat.reduceAdd]
    rw [← joinParts_eq]
    cases bitOf w 0 <;> cases bitOf w 1 <;> cases bitOf w 2 <;> rfl
  · rw [hc.2 hl] at h
    cases h

/-- C46 for fast math modes -/
theorem C46_fast_math {w : UInt32} {ws rest : List UInt32} {a : FpFastMathMode}
    (h : MemoryBlockRead.read (w :: ws) = (.ok (rest, a) : R (Block × FpFastMathMode))) :
    Display.fmt a = (flagText (namesOf fastMathBits 0 (bitOf w))).toList := by
  have hc := C11_fast_math_partial w ws
  by_cases hl : LowClear 6 w
  · rw [hc.1 hl] at h
    cases h
    simp only [namesOf, fastMathBits, Nat.reduceAdd]
    rw [← joinParts_eq]
    cases bitOf w 0 <;> cases bitOf w 1 <;> cases bitOf w 2 <;> cases bitOf w 3 <;> cases bitOf w 4 <;>
      rfl
  · rw [hc.2 hl] at h
    cases h

/-- C46 for selection control masks -/
theorem C46_selection_control {w : UInt32} {ws rest : List UInt32} {a : SelectionControl}
    (h : MemoryBlockRead.read (w :: ws) = (.ok (rest, a) : R (Block × SelectionControl))) :
    Display.fmt a = (flagText (namesOf selectionControlBits 0 (bitOf w))).toList := by
  have hc := C11_selection_control_partial w ws
  by_cases hl : LowClear 2 w
  · rw [hc.1 hl] at h
    cases h
    simp only [namesOf, selectionControlBits, Nat.reduceAdd]
    rw [← joinParts_eq]
    cases bitOf w 0 <;> cases bitOf w 1 <;> rfl
  · rw [hc.2 hl] at h
    cases h

/-- C46 for function control masks -/
theorem C46_function_control {w : UInt32} {ws rest : List UInt32} {a : FunctionControl}
    (h : MemoryBlockRead.read (w :: ws) = (.ok (rest, a) : R (Block × FunctionControl))) :
    Display.fmt a = (flagText (namesOf functionControlBits 0 (bitOf w))).toList := by
  rw [C11_function_control_partial w ws] at h
  cases h
  simp only [namesOf, functionControlBits, Nat.reduceAdd]
  rw [← joinParts_eq]
  cases bitOf w 0 <;> cases bitOf w 1 <;> cases bitOf w 2 <;> cases bitOf w 3 <;> rfl

/-- C46 for loop control masks: the dependency length is the word after the mask -/
theorem C46_loop_control {w : UInt32} {ws rest : List UInt32} {a : LoopControl}
    (h : MemoryBlockRead.read (w :: ws) = (.ok (rest, a) : R (Block × LoopControl))) :
    (bitOf w 3 = false ∧ Display.fmt a = (flagText (namesOf loopControlBits 0 (bitOf w))).toList) ∨
    ∃ n, ws = n :: rest ∧ bitOf w 3 = true ∧ Display.fmt a = (flagText
      (namesOf loopControlBits 0 (bitOf w) ++ ["DependencyLength(" ++ toString n.toNat ++ ")"])).toList := by
  have hc := C11_loop_control_partial w
  by_cases hl : LowClear 4 w
  · cases hb : bitOf w 3 with
    | false =>
      rw [(hc ws).1 hl hb] at h
      cases h
      refine .inl ⟨rfl, ?_⟩
      simp only [namesOf, loopControlBits, Nat.reduceAdd]
      rw [← joinParts_eq]
      cases bitOf w 0 <;> cases bitOf w 1 <;> cases bitOf w 2 <;> rfl
    | true =>
      cases ws with
      | nil =>
        rw [(hc []).2.2.1 hl hb] at h
        cases h
      | cons n ws =>
        rw [(hc ws).2.1 n hl hb] at h
        cases h
        refine .inr ⟨n, rfl, rfl, ?_⟩
        have e : (Display.fmt n : Text) = (toString n.toNat).toList := (decimal_eq n.toNat).symm
        simp only [namesOf, loopControlBits, Nat.reduceAdd]
        rw [← joinParts_eq]
        simp only [Display.fmt] at e ⊢
        rw [List.map_append, List.map_cons, String.toList_append, String.toList_append, ← e]
        cases bitOf w 0 <;> cases bitOf w 1 <;> cases bitOf w 2 <;> rfl
  · rw [(hc ws).2.2.2 hl] at h
    cases h

/-- C46 is violated: six names are printed otherwise than the standard spells them. -/
theorem C46_violated :
    ((MemoryBlockRead.read [1] : R (Block × ExecutionModel)) = .ok ([], .TesselationControl) ∧
      (Display.fmt ExecutionModel.TesselationControl : Text) ≠ "TessellationControl".toList ∧
      (1, "TessellationControl") ∈ executionModelNames) ∧
    ((MemoryBlockRead.read [2] : R (Block × ExecutionModel)) = .ok ([], .TesselationEvaluation) ∧
      (Display.fmt ExecutionModel.TesselationEvaluation : Text) ≠ "TessellationEvaluation".toList ∧
      (2, "TessellationEvaluation") ∈ executionModelNames) ∧
    ((MemoryBlockRead.read [14] : R (Block × BuiltIn)) = .ok ([], .PatchVerticies) ∧
      (Display.fmt BuiltIn.PatchVerticies : Text) ≠ "PatchVertices".toList ∧ (14, "PatchVertices") ∈ builtInNames) ∧
    ((MemoryBlockRead.read [26, 3] : R (Block × ExecutionMode)) = .ok ([], .OutputVerticies 3) ∧
      ¬ IsNamed executionModeNames 26 (Display.fmt (ExecutionMode.OutputVerticies 3))) ∧
    ((MemoryBlockRead.read [39, 0] : R (Block × Decoration)) = .ok ([], .FpRoundingMode .Rte) ∧
      ¬ IsNamed decorationNames 39 (Display.fmt (Decoration.FpRoundingMode .Rte))) ∧
    ((MemoryBlockRead.read [40, 1] : R (Block × Decoration)) =
        .ok ([], .FpFastMathMode ⟨true, false, false, false, false⟩) ∧
      ¬ IsNamed decorationNames 40 (Display.fmt (Decoration.FpFastMathMode ⟨true, false, false, false, false⟩))) := by
  exact ⟨⟨rfl, by decide, by decide⟩, ⟨rfl, by decide, by decide⟩, ⟨rfl, by decide, by decide⟩,
    ⟨rfl, not_isNamed _ [] (by decide +kernel) (List.append_nil _).symm⟩, ⟨rfl, not_isNamed _ [] (by decide +kernel) (List.append_nil _).symm⟩, ⟨rfl, not_isNamed _ [] (by decide +kernel) (List.append_nil _).symm⟩⟩

/-- The tables name no number twice. -/
example : (capabilityNames.map Prod.fst).Nodup ∧ (decorationNames.map Prod.fst).Nodup ∧
    (executionModeNames.map Prod.fst).Nodup ∧ (builtInNames.map Prod.fst).Nodup ∧
    (imageFormatNames.map Prod.fst).Nodup ∧ (storageClassNames.map Prod.fst).Nodup := by decide

example : (MemoryBlockRead.read [17, 8, 4, 1] : R (Block × ExecutionMode)) = .ok ([], .LocalSize 8 4 1) ∧
    (Display.fmt (ExecutionMode.LocalSize 8 4 1) : Text) = "LocalSize 8 4 1".toList := ⟨rfl, by decide +kernel⟩

example : (MemoryBlockRead.read [5, 9] : R (Block × MemoryAccess)) = .ok ([9], ⟨true, false, true⟩) ∧
    flagText (namesOf memoryAccessBits 0 (bitOf 5)) = "Volatile | Nontemporal" := ⟨rfl, by decide +kernel⟩

example : (MemoryBlockRead.read [9, 4] : R (Block × LoopControl)) = .ok ([], ⟨true, false, false, some 4⟩) ∧
    (Display.fmt (⟨true, false, false, some 4⟩ : LoopControl) : Text) = "Unroll | DependencyLength(4)".toList :=
  ⟨rfl, by decide +kernel⟩

/-- C46 for some operands -/
example : IsNamed executionModeNames 17 (Display.fmt (ExecutionMode.LocalSize 1 2 3)) :=
  (C46_execution_mode_partial (w := 17) (ws := [1, 2, 3, 4]) (rest := [4]) rfl).mpr (by decide)
example : Display.fmt (⟨true, true, false⟩ : MemoryAccess) = (flagText (namesOf memoryAccessBits 0 (bitOf 3))).toList :=
  C46_memory_access (w := 3) (ws := [4]) (rest := [4]) rfl
example : Display.fmt (⟨true, false⟩ : SelectionControl) = (flagText (namesOf selectionControlBits 0 (bitOf 1))).toList :=
  C46_selection_control (w := 1) (ws := [4]) (rest := [4]) rfl

end Magma.Props
