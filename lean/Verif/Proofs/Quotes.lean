import Verif.Proofs.Disassembly
/-! Instructions without strings have no quotes in their text, and it does not end as that of a linkage decoration. The
cases at the end are written by tools/gen_quotes.py. -/

namespace Magma.Quotes

/-- The text does not end in a kind of linkage. -/
def Unlinked (t : Text) : Prop := ∀ (l : LinkageType) (u : Text), t ≠ u ++ ' ' :: Display.fmt l

/-- No quote in it, and no kind of linkage at its end -/
def Tame (t : Text) : Prop := '"' ∉ t ∧ Unlinked t

theorem linkage_space (l : LinkageType) : ' ' ∉ Display.fmt l := by cases l <;> decide

theorem linkage_last (l : LinkageType) : ∃ u, Display.fmt l = u ++ ['t'] := by
  cases l
  · exact ⟨"Expor".toList, rfl⟩
  · exact ⟨"Impor".toList, rfl⟩

/-- What comes before the last word does not matter. -/
theorem unlinked_word {t w : Text} (h : Unlinked (' ' :: w)) : Unlinked (t ++ ' ' :: w) := by
  intro l u e
  rcases List.append_eq_append_iff.mp e with ⟨x, -, e'⟩ | ⟨x, -, e'⟩
  · exact h l x e'
  · cases x with
    | nil => exact h l [] e'.symm
    | cons c x =>
      have := (List.cons.inj e').2
      exact linkage_space l (by rw [this]; exact List.mem_append_right _ List.mem_cons_self)

/-- A text that ends in another character than kinds of linkage do -/
theorem unlinked_last {t v : Text} {c : Char} (e : t = v ++ [c]) (h : c ≠ 't') : Unlinked t := by
  intro l u e'
  obtain ⟨w, hw⟩ := linkage_last l
  rw [e, hw, show u ++ ' ' :: (w ++ ['t']) = (u ++ ' ' :: w) ++ ['t'] by simp] at e'
  exact h (List.cons.inj (List.append_inj' e' rfl).2).1

/-- A word without quotes that is not a kind of linkage -/
def okWord (w : Text) : Bool :=
  !w.contains '"' && !(" Export".toList.isSuffixOf (' ' :: w)) && !(" Import".toList.isSuffixOf (' ' :: w))

theorem okWord_tame {w : Text} (h : okWord w = true) : Tame (' ' :: w) := by
  simp only [okWord, Bool.and_eq_true, Bool.not_eq_true', List.contains_eq_mem, decide_eq_false_iff_not] at h
  obtain ⟨⟨h1, h2⟩, h3⟩ := h
  refine ⟨fun hm => (List.mem_cons.mp hm).elim (by decide) h1, fun l u e => ?_⟩
  have key (x : Text) (hx : ' ' :: w = u ++ x) (hf : x.isSuffixOf (' ' :: w) = false) : False := by
    have : x.isSuffixOf (' ' :: w) = true := List.isSuffixOf_iff_suffix.mpr ⟨u, hx.symm⟩
    rw [hf] at this
    cases this
  cases l
  · exact key _ e h2
  · exact key _ e h3

/-- A printed argument that has no quotes and is not a kind of linkage -/
class TameWord (α : Type) [DisplayArg α] : Prop where
  tame : ∀ a : α, Tame (' ' :: DisplayArg.displayArg a)

/-- Arguments that have no quotes and do not end in a kind of linkage -/
class TameArg (α : Type) [FormatArg α] : Prop where
  quote : ∀ a : α, '"' ∉ (FormatArg.formatArg a : Text)
  last : ∀ (a : α) {t : Text}, Unlinked t → Unlinked (t ++ FormatArg.formatArg a)

instance {α : Type} [DisplayArg α] [TameWord α] : TameArg α where
  quote a := (TameWord.tame a).1
  last a _ _ := unlinked_word (TameWord.tame a).2

instance {α : Type} [DisplayArg α] [TameWord α] : TameArg (Option α) where
  quote a := by
    cases a with
    | none => exact (by decide : '"' ∉ ([] : Text))
    | some a => exact (TameWord.tame a).1
  last a t h := by
    cases a with
    | none => exact (List.append_nil t).symm ▸ h
    | some a => exact unlinked_word (TameWord.tame a).2

instance {α : Type} [DisplayArg α] [TameWord α] : TameArg (List α) where
  quote a := by
    induction a with
    | nil => exact (by decide : '"' ∉ ([] : Text))
    | cons a as ih =>
      rw [formatArg_cons]
      exact fun hm => (List.mem_append.mp hm).elim (TameWord.tame a).1 ih
  last a t h := by
    induction a generalizing t with
    | nil => exact (List.append_nil t).symm ▸ h
    | cons a as ih =>
      rw [formatArg_cons, ← List.append_assoc]
      exact ih _ (unlinked_word (TameWord.tame a).2)

theorem tame_append {α : Type} [FormatArg α] [TameArg α] {s : Text} (hs : Tame s) (a : α) :
    Tame (s ++ FormatArg.formatArg a) :=
  ⟨fun hm => (List.mem_append.mp hm).elim hs.1 (TameArg.quote a), TameArg.last a hs.2⟩

/-- The left column and the name of an instruction -/
theorem tame_name {s n : Text} (hs : ∃ t, s = t ++ [' '] ∧ '"' ∉ t) (hn : okWord n = true) : Tame (s ++ n) := by
  obtain ⟨t, rfl, ht⟩ := hs
  have h := okWord_tame hn
  rw [List.append_assoc]
  exact ⟨fun hm => (List.mem_append.mp hm).elim ht h.1, unlinked_word h.2⟩

theorem noResult_left : ∃ t, fmtNoResult = t ++ [' '] ∧ '"' ∉ t :=
  ⟨List.replicate 14 ' ', rfl, by decide⟩

/-! ### Operands -/

theorem digits_quote (n : Nat) : '"' ∉ fmtNat n := fun h => digit_ne (fmtNat_digit h) (by decide) rfl

theorem digits_last (n : Nat) : ∃ u c, fmtNat n = u ++ [c] ∧ c.isDigit = true := by
  rcases List.eq_nil_or_concat (fmtNat n) with h | ⟨u, c, h⟩
  · obtain ⟨c, cs, h', -⟩ := fmtNat_head n
    rw [h] at h'
    cases h'
  · rw [List.concat_eq_append] at h
    exact ⟨u, c, h, fmtNat_digit (n := n) (by rw [h]; simp)⟩

/-- A text that ends in a number -/
theorem tame_number {s : Text} (hs : '"' ∉ s) (n : Nat) : Tame (s ++ fmtNat n) := by
  obtain ⟨u, c, h, hc⟩ := digits_last n
  refine ⟨fun hm => (List.mem_append.mp hm).elim hs (digits_quote n), ?_⟩
  exact unlinked_last (v := s ++ u) (c := c) (by rw [h, List.append_assoc]) (digit_ne hc (by decide))

theorem result_left (r : ResultId) : ∃ t, fmtResult r = t ++ [' '] ∧ '"' ∉ t := by
  refine ⟨padLeft 12 (Display.fmt (OpId.mk r.val)) ++ " =".toList, ?_, ?_⟩
  · rw [List.append_assoc]
    rfl
  · intro h
    simp only [padLeft, List.mem_append] at h
    rcases h with (h | h) | h
    · exact absurd (List.eq_of_mem_replicate h) (by decide)
    · have h : '"' ∈ '%' :: fmtNat r.val.toNat := h
      exact (List.mem_cons.mp h).elim (by decide) (digits_quote _)
    · exact absurd h (by decide)

instance : TameWord BuiltIn := ⟨fun a => by cases a <;> exact okWord_tame (by decide +kernel)⟩
instance : TameWord FunctionParameterAttribute := ⟨fun a => by cases a <;> exact okWord_tame (by decide +kernel)⟩
instance : TameWord FpRoundingMode := ⟨fun a => by cases a <;> exact okWord_tame (by decide +kernel)⟩
instance : TameWord AddressingModel := ⟨fun a => by cases a <;> exact okWord_tame (by decide +kernel)⟩
instance : TameWord MemoryModel := ⟨fun a => by cases a <;> exact okWord_tame (by decide +kernel)⟩
instance : TameWord ExecutionModel := ⟨fun a => by cases a <;> exact okWord_tame (by decide +kernel)⟩
instance : TameWord Capability := ⟨fun a => by cases a <;> exact okWord_tame (by decide +kernel)⟩
instance : TameWord Signedness := ⟨fun a => by cases a <;> exact okWord_tame (by decide +kernel)⟩
instance : TameWord StorageClass := ⟨fun a => by cases a <;> exact okWord_tame (by decide +kernel)⟩
instance : TameWord Dim := ⟨fun a => by cases a <;> exact okWord_tame (by decide +kernel)⟩
instance : TameWord DepthStatus := ⟨fun a => by cases a <;> exact okWord_tame (by decide +kernel)⟩
instance : TameWord Arrayed := ⟨fun a => by cases a <;> exact okWord_tame (by decide +kernel)⟩
instance : TameWord MS := ⟨fun a => by cases a <;> exact okWord_tame (by decide +kernel)⟩
instance : TameWord SampledStatus := ⟨fun a => by cases a <;> exact okWord_tame (by decide +kernel)⟩
instance : TameWord ImageFormat := ⟨fun a => by cases a <;> exact okWord_tame (by decide +kernel)⟩
instance : TameWord AccessQualifier := ⟨fun a => by cases a <;> exact okWord_tame (by decide +kernel)⟩
instance : TameWord FpFastMathMode := ⟨fun x => by
  obtain ⟨a, b, c, d, e⟩ := x
  cases a <;> cases b <;> cases c <;> cases d <;> cases e <;> exact okWord_tame (by decide +kernel)⟩
instance : TameWord MemoryAccess := ⟨fun x => by
  obtain ⟨a, b, c⟩ := x
  cases a <;> cases b <;> cases c <;> exact okWord_tame (by decide +kernel)⟩
instance : TameWord FunctionControl := ⟨fun x => by
  obtain ⟨a, b, c, d⟩ := x
  cases a <;> cases b <;> cases c <;> cases d <;> exact okWord_tame (by decide +kernel)⟩
instance : TameWord SelectionControl := ⟨fun x => by
  obtain ⟨a, b⟩ := x
  cases a <;> cases b <;> exact okWord_tame (by decide +kernel)⟩

theorem tame_u32 {s : Text} (hs : '"' ∉ s) (n : UInt32) : Tame (s ++ Display.fmt n) := tame_number hs n.toNat

theorem tame_id {s : Text} (hs : '"' ∉ s) (i : OpId) : Tame (s ++ Display.fmt i) := by
  show Tame (s ++ ('%' :: fmtNat i.val.toNat))
  rw [show s ++ '%' :: fmtNat i.val.toNat = (s ++ ['%']) ++ fmtNat i.val.toNat by simp]
  exact tame_number (fun hm => (List.mem_append.mp hm).elim hs (by decide)) _

theorem quote_append {s t : Text} (hs : '"' ∉ s) (ht : '"' ∉ t) : '"' ∉ s ++ t :=
  fun hm => (List.mem_append.mp hm).elim hs ht

theorem quote_u32 (n : UInt32) : '"' ∉ Display.fmt n := digits_quote n.toNat

theorem quote_id (i : OpId) : '"' ∉ Display.fmt i := (tame_id (s := []) (by decide) i).1

instance : TameWord UInt32 := ⟨fun n => tame_u32 (s := [' ']) (by decide) n⟩
instance : TameWord OpId := ⟨fun i => tame_id (s := [' ']) (by decide) i⟩
instance : TameWord SourceVersion := ⟨fun n => tame_u32 (s := [' ']) (by decide) n.val⟩
instance : TameWord MemberIndex := ⟨fun n => tame_u32 (s := [' ']) (by decide) n.val⟩
instance : TameWord PhiArg := ⟨fun a => tame_id (s := ' ' :: (Display.fmt a.«variable» ++ " ".toList))
  (quote_append (s := [' ']) (by decide) (quote_append (quote_id _) (by decide))) a.parent⟩
instance : TameWord BranchWeights := ⟨fun a => tame_u32 (s := ' ' :: (Display.fmt a.true_weight ++ " ".toList))
  (quote_append (s := [' ']) (by decide) (quote_append (quote_u32 _) (by decide))) a.false_weight⟩

/-- A number in parentheses -/
theorem tame_paren {s : Text} (hs : '"' ∉ s) (n : UInt32) : Tame (s ++ Display.fmt n ++ ")".toList) :=
  ⟨quote_append (quote_append hs (quote_u32 n)) (by decide), unlinked_last rfl (by decide)⟩

instance : TameWord SourceLanguage := ⟨fun a => by
  cases a with
  | Other n => exact tame_paren (s := " Unknown(".toList) (by decide) n
  | _ => exact okWord_tame (by decide +kernel)⟩

instance : TameWord LoopControl := ⟨fun a => by
  obtain ⟨u, d, i, l⟩ := a
  cases l with
  | none => cases u <;> cases d <;> cases i <;> exact okWord_tame (by decide +kernel)
  | some n =>
    cases u <;> cases d <;> cases i
    · exact tame_paren (s := " DependencyLength(".toList) (by decide) n
    · exact tame_paren (s := " DependencyInfinite | DependencyLength(".toList) (by decide) n
    · exact tame_paren (s := " DontUnroll | DependencyLength(".toList) (by decide) n
    · exact tame_paren (s := " DontUnroll | DependencyInfinite | DependencyLength(".toList) (by decide) n
    · exact tame_paren (s := " Unroll | DependencyLength(".toList) (by decide) n
    · exact tame_paren (s := " Unroll | DependencyInfinite | DependencyLength(".toList) (by decide) n
    · exact tame_paren (s := " Unroll | DontUnroll | DependencyLength(".toList) (by decide) n
    · exact tame_paren (s := " Unroll | DontUnroll | DependencyInfinite | DependencyLength(".toList) (by decide) n⟩

/-- A word and an operand -/
theorem tame_operand {α : Type} [Display α] [TameWord α] {s t : Text} (e : s = t ++ [' ']) (hs : '"' ∉ t) (a : α) :
    Tame (s ++ Display.fmt a) := by
  subst e
  have h := TameWord.tame a
  rw [List.append_assoc]
  exact ⟨fun hm => (List.mem_append.mp hm).elim hs h.1, unlinked_word h.2⟩

theorem tame_mode (m : ExecutionMode) : Tame (' ' :: Display.fmt m) := by
  cases m with
  | Invocations x => exact tame_operand (s := " Invocations ".toList) (t := " Invocations".toList) rfl (by decide) x
  | SpacingEqual => exact okWord_tame (w := "SpacingEqual".toList) (by decide +kernel)
  | SpacingFractionalEven => exact okWord_tame (w := "SpacingFractionalEven".toList) (by decide +kernel)
  | SpacingFractionalOdd => exact okWord_tame (w := "SpacingFractionalOdd".toList) (by decide +kernel)
  | VertexOrderCw => exact okWord_tame (w := "VertexOrderCw".toList) (by decide +kernel)
  | VertexOrderCcw => exact okWord_tame (w := "VertexOrderCcw".toList) (by decide +kernel)
  | PixelCenterInteger => exact okWord_tame (w := "PixelCenterInteger".toList) (by decide +kernel)
  | OriginUpperLeft => exact okWord_tame (w := "OriginUpperLeft".toList) (by decide +kernel)
  | OriginLowerLeft => exact okWord_tame (w := "OriginLowerLeft".toList) (by decide +kernel)
  | EarlyFragmentTests => exact okWord_tame (w := "EarlyFragmentTests".toList) (by decide +kernel)
  | PointMode => exact okWord_tame (w := "PointMode".toList) (by decide +kernel)
  | Xfb => exact okWord_tame (w := "Xfb".toList) (by decide +kernel)
  | DepthReplacing => exact okWord_tame (w := "DepthReplacing".toList) (by decide +kernel)
  | DepthGreater => exact okWord_tame (w := "DepthGreater".toList) (by decide +kernel)
  | DepthLess => exact okWord_tame (w := "DepthLess".toList) (by decide +kernel)
  | DepthUnchanged => exact okWord_tame (w := "DepthUnchanged".toList) (by decide +kernel)
  | LocalSize x y z =>
    exact tame_u32 (s := " LocalSize ".toList ++ Display.fmt x ++ " ".toList ++ Display.fmt y ++ " ".toList)
      (quote_append (quote_append (quote_append (quote_append (by decide) (quote_u32 x)) (by decide)) (quote_u32 y))
        (by decide)) z
  | LocalSizeHint x y z =>
    exact tame_u32 (s := " LocalSizeHint ".toList ++ Display.fmt x ++ " ".toList ++ Display.fmt y ++ " ".toList)
      (quote_append (quote_append (quote_append (quote_append (by decide) (quote_u32 x)) (by decide)) (quote_u32 y))
        (by decide)) z
  | InputPoints => exact okWord_tame (w := "InputPoints".toList) (by decide +kernel)
  | InputLines => exact okWord_tame (w := "InputLines".toList) (by decide +kernel)
  | InputLinesAdjacency => exact okWord_tame (w := "InputLinesAdjacency".toList) (by decide +kernel)
  | Triangles => exact okWord_tame (w := "Triangles".toList) (by decide +kernel)
  | InputTrianglesAdjacency => exact okWord_tame (w := "InputTrianglesAdjacency".toList) (by decide +kernel)
  | Quads => exact okWord_tame (w := "Quads".toList) (by decide +kernel)
  | Isolines => exact okWord_tame (w := "Isolines".toList) (by decide +kernel)
  | OutputVerticies x => exact tame_operand (s := " OutputVerticies ".toList) (t := " OutputVerticies".toList) rfl (by decide) x
  | OutputPoints => exact okWord_tame (w := "OutputPoints".toList) (by decide +kernel)
  | OutputLineStrip => exact okWord_tame (w := "OutputLineStrip".toList) (by decide +kernel)
  | OutputTriangleStrip => exact okWord_tame (w := "OutputTriangleStrip".toList) (by decide +kernel)
  | VecTypeHint x => exact tame_operand (s := " VecTypeHint ".toList) (t := " VecTypeHint".toList) rfl (by decide) x
  | ContractionOff => exact okWord_tame (w := "ContractionOff".toList) (by decide +kernel)

theorem tame_decoration (d : Decoration) (h : ∀ s l, d ≠ .LinkageAttributes s l) : Tame (' ' :: Display.fmt d) := by
  cases d with
  | RelaxedPrecision => exact okWord_tame (w := "RelaxedPrecision".toList) (by decide +kernel)
  | SpecId x => exact tame_operand (s := " SpecId ".toList) (t := " SpecId".toList) rfl (by decide) x
  | Block => exact okWord_tame (w := "Block".toList) (by decide +kernel)
  | BufferBlock => exact okWord_tame (w := "BufferBlock".toList) (by decide +kernel)
  | RowMajor => exact okWord_tame (w := "RowMajor".toList) (by decide +kernel)
  | ColMajor => exact okWord_tame (w := "ColMajor".toList) (by decide +kernel)
  | ArrayStride x => exact tame_operand (s := " ArrayStride ".toList) (t := " ArrayStride".toList) rfl (by decide) x
  | MatrixStride x => exact tame_operand (s := " MatrixStride ".toList) (t := " MatrixStride".toList) rfl (by decide) x
  | GlslShared => exact okWord_tame (w := "GLSLShared".toList) (by decide +kernel)
  | GlslPacked => exact okWord_tame (w := "GLSLPacked".toList) (by decide +kernel)
  | CPacked => exact okWord_tame (w := "CPacked".toList) (by decide +kernel)
  | BuiltIn x => exact tame_operand (s := " BuiltIn ".toList) (t := " BuiltIn".toList) rfl (by decide) x
  | NoPerspective => exact okWord_tame (w := "NoPerspective".toList) (by decide +kernel)
  | Flat => exact okWord_tame (w := "Flat".toList) (by decide +kernel)
  | Patch => exact okWord_tame (w := "Patch".toList) (by decide +kernel)
  | Centroid => exact okWord_tame (w := "Centroid".toList) (by decide +kernel)
  | Sample => exact okWord_tame (w := "Sample".toList) (by decide +kernel)
  | Invariant => exact okWord_tame (w := "Invariant".toList) (by decide +kernel)
  | Restrict => exact okWord_tame (w := "Restrict".toList) (by decide +kernel)
  | Aliased => exact okWord_tame (w := "Aliased".toList) (by decide +kernel)
  | Volatile => exact okWord_tame (w := "Volatile".toList) (by decide +kernel)
  | Constant => exact okWord_tame (w := "Constant".toList) (by decide +kernel)
  | Coherent => exact okWord_tame (w := "Coherent".toList) (by decide +kernel)
  | NonWritable => exact okWord_tame (w := "NonWritable".toList) (by decide +kernel)
  | NonReadable => exact okWord_tame (w := "NonReadable".toList) (by decide +kernel)
  | Uniform => exact okWord_tame (w := "Uniform".toList) (by decide +kernel)
  | SaturatedConversion => exact okWord_tame (w := "SaturatedConversion".toList) (by decide +kernel)
  | Stream x => exact tame_operand (s := " Stream ".toList) (t := " Stream".toList) rfl (by decide) x
  | Location x => exact tame_operand (s := " Location ".toList) (t := " Location".toList) rfl (by decide) x
  | Component x => exact tame_operand (s := " Component ".toList) (t := " Component".toList) rfl (by decide) x
  | Index x => exact tame_operand (s := " Index ".toList) (t := " Index".toList) rfl (by decide) x
  | Binding x => exact tame_operand (s := " Binding ".toList) (t := " Binding".toList) rfl (by decide) x
  | DescriptorSet x => exact tame_operand (s := " DescriptorSet ".toList) (t := " DescriptorSet".toList) rfl (by decide) x
  | Offset x => exact tame_operand (s := " Offset ".toList) (t := " Offset".toList) rfl (by decide) x
  | XfbBuffer x => exact tame_operand (s := " XfbBuffer ".toList) (t := " XfbBuffer".toList) rfl (by decide) x
  | XfbStride x => exact tame_operand (s := " XfbStride ".toList) (t := " XfbStride".toList) rfl (by decide) x
  | FuncParamAttr x => exact tame_operand (s := " FuncParamAttr ".toList) (t := " FuncParamAttr".toList) rfl (by decide) x
  | FpRoundingMode x => exact tame_operand (s := " FpRoundingMode ".toList) (t := " FpRoundingMode".toList) rfl (by decide) x
  | FpFastMathMode x => exact tame_operand (s := " FpFastMathMode ".toList) (t := " FpFastMathMode".toList) rfl (by decide) x
  | LinkageAttributes s l => exact absurd rfl (h s l)
  | NoContraction => exact okWord_tame (w := "NoContraction".toList) (by decide +kernel)
  | InputAttachmentIndex x => exact tame_operand (s := " InputAttachmentIndex ".toList) (t := " InputAttachmentIndex".toList) rfl (by decide) x
  | Alignment x => exact tame_operand (s := " Alignment ".toList) (t := " Alignment".toList) rfl (by decide) x

instance : TameArg ExecutionMode where
  quote a := (tame_mode a).1
  last a _ _ := unlinked_word (tame_mode a).2

/-! ### Instructions -/

theorem tame_OpNop (op : OpNop) : Tame (Display.fmt op) :=
  tame_name noResult_left (by decide +kernel)

theorem tame_OpUndef (op : OpUndef) : Tame (Display.fmt op) :=
  tame_append (tame_name (result_left _) (by decide +kernel)) op.result_type

theorem tame_OpMemoryModel (op : OpMemoryModel) : Tame (Display.fmt op) :=
  tame_append (tame_append (tame_name noResult_left (by decide +kernel)) op.addressing_model) op.memory_model

theorem tame_OpExecutionMode (op : OpExecutionMode) : Tame (Display.fmt op) :=
  tame_append (tame_append (tame_name noResult_left (by decide +kernel)) op.entry_point) op.mode

theorem tame_OpCapability (op : OpCapability) : Tame (Display.fmt op) :=
  tame_append (tame_name noResult_left (by decide +kernel)) op.capability

theorem tame_OpTypeVoid (op : OpTypeVoid) : Tame (Display.fmt op) :=
  tame_name (result_left _) (by decide +kernel)

theorem tame_OpTypeBool (op : OpTypeBool) : Tame (Display.fmt op) :=
  tame_name (result_left _) (by decide +kernel)

theorem tame_OpTypeInt (op : OpTypeInt) : Tame (Display.fmt op) :=
  tame_append (tame_append (tame_name (result_left _) (by decide +kernel)) op.width) op.signedness

theorem tame_OpTypeFloat (op : OpTypeFloat) : Tame (Display.fmt op) :=
  tame_append (tame_name (result_left _) (by decide +kernel)) op.width

theorem tame_OpTypeVector (op : OpTypeVector) : Tame (Display.fmt op) :=
  tame_append (tame_append (tame_name (result_left _) (by decide +kernel)) op.component_type) op.component_count

theorem tame_OpTypeMatrix (op : OpTypeMatrix) : Tame (Display.fmt op) :=
  tame_append (tame_append (tame_name (result_left _) (by decide +kernel)) op.column_type) op.column_count

theorem tame_OpTypeImage (op : OpTypeImage) : Tame (Display.fmt op) :=
  tame_append (tame_append (tame_append (tame_append (tame_append (tame_append (tame_append (tame_append (tame_name (result_left _) (by decide +kernel)) op.sampled_type) op.dim) op.depth) op.arrayed) op.ms) op.sampled) op.format) op.access_qualifier

theorem tame_OpTypeSampler (op : OpTypeSampler) : Tame (Display.fmt op) :=
  tame_name (result_left _) (by decide +kernel)

theorem tame_OpTypeSampledImage (op : OpTypeSampledImage) : Tame (Display.fmt op) :=
  tame_append (tame_name (result_left _) (by decide +kernel)) op.image_type

theorem tame_OpTypeArray (op : OpTypeArray) : Tame (Display.fmt op) :=
  tame_append (tame_append (tame_name (result_left _) (by decide +kernel)) op.element_type) op.length

theorem tame_OpTypeRuntimeArray (op : OpTypeRuntimeArray) : Tame (Display.fmt op) :=
  tame_append (tame_name (result_left _) (by decide +kernel)) op.element_type

theorem tame_OpTypeStruct (op : OpTypeStruct) : Tame (Display.fmt op) :=
  tame_append (tame_name (result_left _) (by decide +kernel)) op.member_types

theorem tame_OpTypePointer (op : OpTypePointer) : Tame (Display.fmt op) :=
  tame_append (tame_append (tame_name (result_left _) (by decide +kernel)) op.storage_class) op.pointed_type

theorem tame_OpTypeFunction (op : OpTypeFunction) : Tame (Display.fmt op) :=
  tame_append (tame_append (tame_name (result_left _) (by decide +kernel)) op.return_type) op.parameter_types

theorem tame_OpTypeEvent (op : OpTypeEvent) : Tame (Display.fmt op) :=
  tame_name (result_left _) (by decide +kernel)

theorem tame_OpTypeDeviceEvent (op : OpTypeDeviceEvent) : Tame (Display.fmt op) :=
  tame_name (result_left _) (by decide +kernel)

theorem tame_OpTypeQueue (op : OpTypeQueue) : Tame (Display.fmt op) :=
  tame_name (result_left _) (by decide +kernel)

theorem tame_OpTypePipe (op : OpTypePipe) : Tame (Display.fmt op) :=
  tame_append (tame_name (result_left _) (by decide +kernel)) op.access_qualifier

theorem tame_OpTypeForwardPointer (op : OpTypeForwardPointer) : Tame (Display.fmt op) :=
  tame_append (tame_append (tame_name noResult_left (by decide +kernel)) op.pointer_type) op.storage_class

theorem tame_OpConstant (op : OpConstant) : Tame (Display.fmt op) :=
  tame_append (tame_append (tame_name (result_left _) (by decide +kernel)) op.result_type) op.value

theorem tame_OpConstantComposite (op : OpConstantComposite) : Tame (Display.fmt op) :=
  tame_append (tame_append (tame_name (result_left _) (by decide +kernel)) op.result_type) op.constituents

theorem tame_OpFunction (op : OpFunction) : Tame (Display.fmt op) :=
  tame_append (tame_append (tame_append (tame_name (result_left _) (by decide +kernel)) op.result_type) op.function_control) op.function_type

theorem tame_OpFunctionParameter (op : OpFunctionParameter) : Tame (Display.fmt op) :=
  tame_append (tame_name (result_left _) (by decide +kernel)) op.result_type

theorem tame_OpFunctionEnd (op : OpFunctionEnd) : Tame (Display.fmt op) :=
  tame_name noResult_left (by decide +kernel)

theorem tame_OpVariable (op : OpVariable) : Tame (Display.fmt op) :=
  tame_append (tame_append (tame_append (tame_name (result_left _) (by decide +kernel)) op.result_type) op.storage_class) op.initializer

theorem tame_OpLoad (op : OpLoad) : Tame (Display.fmt op) :=
  tame_append (tame_append (tame_append (tame_name (result_left _) (by decide +kernel)) op.result_type) op.pointer) op.memory_access

theorem tame_OpStore (op : OpStore) : Tame (Display.fmt op) :=
  tame_append (tame_append (tame_append (tame_name noResult_left (by decide +kernel)) op.pointer) op.object) op.memory_access

theorem tame_OpAccessChain (op : OpAccessChain) : Tame (Display.fmt op) :=
  tame_append (tame_append (tame_append (tame_name (result_left _) (by decide +kernel)) op.result_type) op.base) op.indexes

theorem tame_OpConvertUToF (op : OpConvertUToF) : Tame (Display.fmt op) :=
  tame_append (tame_append (tame_name (result_left _) (by decide +kernel)) op.result_type) op.unsigned_value

theorem tame_OpBitcast (op : OpBitcast) : Tame (Display.fmt op) :=
  tame_append (tame_append (tame_name (result_left _) (by decide +kernel)) op.result_type) op.operand

theorem tame_OpIAdd (op : OpIAdd) : Tame (Display.fmt op) :=
  tame_append (tame_append (tame_append (tame_name (result_left _) (by decide +kernel)) op.result_type) op.operand1) op.operand2

theorem tame_OpFAdd (op : OpFAdd) : Tame (Display.fmt op) :=
  tame_append (tame_append (tame_append (tame_name (result_left _) (by decide +kernel)) op.result_type) op.operand1) op.operand2

theorem tame_OpISub (op : OpISub) : Tame (Display.fmt op) :=
  tame_append (tame_append (tame_append (tame_name (result_left _) (by decide +kernel)) op.result_type) op.operand1) op.operand2

theorem tame_OpFSub (op : OpFSub) : Tame (Display.fmt op) :=
  tame_append (tame_append (tame_append (tame_name (result_left _) (by decide +kernel)) op.result_type) op.operand1) op.operand2

theorem tame_OpIMul (op : OpIMul) : Tame (Display.fmt op) :=
  tame_append (tame_append (tame_append (tame_name (result_left _) (by decide +kernel)) op.result_type) op.operand1) op.operand2

theorem tame_OpFMul (op : OpFMul) : Tame (Display.fmt op) :=
  tame_append (tame_append (tame_append (tame_name (result_left _) (by decide +kernel)) op.result_type) op.operand1) op.operand2

theorem tame_OpUDiv (op : OpUDiv) : Tame (Display.fmt op) :=
  tame_append (tame_append (tame_append (tame_name (result_left _) (by decide +kernel)) op.result_type) op.operand1) op.operand2

theorem tame_OpSDiv (op : OpSDiv) : Tame (Display.fmt op) :=
  tame_append (tame_append (tame_append (tame_name (result_left _) (by decide +kernel)) op.result_type) op.operand1) op.operand2

theorem tame_OpFDiv (op : OpFDiv) : Tame (Display.fmt op) :=
  tame_append (tame_append (tame_append (tame_name (result_left _) (by decide +kernel)) op.result_type) op.operand1) op.operand2

theorem tame_OpUMod (op : OpUMod) : Tame (Display.fmt op) :=
  tame_append (tame_append (tame_append (tame_name (result_left _) (by decide +kernel)) op.result_type) op.operand1) op.operand2

theorem tame_OpSRem (op : OpSRem) : Tame (Display.fmt op) :=
  tame_append (tame_append (tame_append (tame_name (result_left _) (by decide +kernel)) op.result_type) op.operand1) op.operand2

theorem tame_OpSMod (op : OpSMod) : Tame (Display.fmt op) :=
  tame_append (tame_append (tame_append (tame_name (result_left _) (by decide +kernel)) op.result_type) op.operand1) op.operand2

theorem tame_OpFRem (op : OpFRem) : Tame (Display.fmt op) :=
  tame_append (tame_append (tame_append (tame_name (result_left _) (by decide +kernel)) op.result_type) op.operand1) op.operand2

theorem tame_OpFMod (op : OpFMod) : Tame (Display.fmt op) :=
  tame_append (tame_append (tame_append (tame_name (result_left _) (by decide +kernel)) op.result_type) op.operand1) op.operand2

theorem tame_OpIAddCarry (op : OpIAddCarry) : Tame (Display.fmt op) :=
  tame_append (tame_append (tame_append (tame_name (result_left _) (by decide +kernel)) op.result_type) op.operand1) op.operand2

theorem tame_OpISubBorrow (op : OpISubBorrow) : Tame (Display.fmt op) :=
  tame_append (tame_append (tame_append (tame_name (result_left _) (by decide +kernel)) op.result_type) op.operand1) op.operand2

theorem tame_OpUMulExtended (op : OpUMulExtended) : Tame (Display.fmt op) :=
  tame_append (tame_append (tame_append (tame_name (result_left _) (by decide +kernel)) op.result_type) op.operand1) op.operand2

theorem tame_OpSMulExtended (op : OpSMulExtended) : Tame (Display.fmt op) :=
  tame_append (tame_append (tame_append (tame_name (result_left _) (by decide +kernel)) op.result_type) op.operand1) op.operand2

theorem tame_OpBitwiseOr (op : OpBitwiseOr) : Tame (Display.fmt op) :=
  tame_append (tame_append (tame_append (tame_name (result_left _) (by decide +kernel)) op.result_type) op.operand1) op.operand2

theorem tame_OpBitwiseXor (op : OpBitwiseXor) : Tame (Display.fmt op) :=
  tame_append (tame_append (tame_append (tame_name (result_left _) (by decide +kernel)) op.result_type) op.operand1) op.operand2

theorem tame_OpBitwiseAnd (op : OpBitwiseAnd) : Tame (Display.fmt op) :=
  tame_append (tame_append (tame_append (tame_name (result_left _) (by decide +kernel)) op.result_type) op.operand1) op.operand2

theorem tame_OpIEqual (op : OpIEqual) : Tame (Display.fmt op) :=
  tame_append (tame_append (tame_append (tame_name (result_left _) (by decide +kernel)) op.result_type) op.operand1) op.operand2

theorem tame_OpINotEqual (op : OpINotEqual) : Tame (Display.fmt op) :=
  tame_append (tame_append (tame_append (tame_name (result_left _) (by decide +kernel)) op.result_type) op.operand1) op.operand2

theorem tame_OpUGreaterThan (op : OpUGreaterThan) : Tame (Display.fmt op) :=
  tame_append (tame_append (tame_append (tame_name (result_left _) (by decide +kernel)) op.result_type) op.operand1) op.operand2

theorem tame_OpSGreaterThan (op : OpSGreaterThan) : Tame (Display.fmt op) :=
  tame_append (tame_append (tame_append (tame_name (result_left _) (by decide +kernel)) op.result_type) op.operand1) op.operand2

theorem tame_OpUGreaterThanEqual (op : OpUGreaterThanEqual) : Tame (Display.fmt op) :=
  tame_append (tame_append (tame_append (tame_name (result_left _) (by decide +kernel)) op.result_type) op.operand1) op.operand2

theorem tame_OpSGreaterThanEqual (op : OpSGreaterThanEqual) : Tame (Display.fmt op) :=
  tame_append (tame_append (tame_append (tame_name (result_left _) (by decide +kernel)) op.result_type) op.operand1) op.operand2

theorem tame_OpULessThan (op : OpULessThan) : Tame (Display.fmt op) :=
  tame_append (tame_append (tame_append (tame_name (result_left _) (by decide +kernel)) op.result_type) op.operand1) op.operand2

theorem tame_OpSLessThan (op : OpSLessThan) : Tame (Display.fmt op) :=
  tame_append (tame_append (tame_append (tame_name (result_left _) (by decide +kernel)) op.result_type) op.operand1) op.operand2

theorem tame_OpULessThanEqual (op : OpULessThanEqual) : Tame (Display.fmt op) :=
  tame_append (tame_append (tame_append (tame_name (result_left _) (by decide +kernel)) op.result_type) op.operand1) op.operand2

theorem tame_OpSLessThanEqual (op : OpSLessThanEqual) : Tame (Display.fmt op) :=
  tame_append (tame_append (tame_append (tame_name (result_left _) (by decide +kernel)) op.result_type) op.operand1) op.operand2

theorem tame_OpFOrdEqual (op : OpFOrdEqual) : Tame (Display.fmt op) :=
  tame_append (tame_append (tame_append (tame_name (result_left _) (by decide +kernel)) op.result_type) op.operand1) op.operand2

theorem tame_OpFUnordEqual (op : OpFUnordEqual) : Tame (Display.fmt op) :=
  tame_append (tame_append (tame_append (tame_name (result_left _) (by decide +kernel)) op.result_type) op.operand1) op.operand2

theorem tame_OpFOrdNotEqual (op : OpFOrdNotEqual) : Tame (Display.fmt op) :=
  tame_append (tame_append (tame_append (tame_name (result_left _) (by decide +kernel)) op.result_type) op.operand1) op.operand2

theorem tame_OpFUnordNotEqual (op : OpFUnordNotEqual) : Tame (Display.fmt op) :=
  tame_append (tame_append (tame_append (tame_name (result_left _) (by decide +kernel)) op.result_type) op.operand1) op.operand2

theorem tame_OpFOrdLessThan (op : OpFOrdLessThan) : Tame (Display.fmt op) :=
  tame_append (tame_append (tame_append (tame_name (result_left _) (by decide +kernel)) op.result_type) op.operand1) op.operand2

theorem tame_OpFUnordLessThan (op : OpFUnordLessThan) : Tame (Display.fmt op) :=
  tame_append (tame_append (tame_append (tame_name (result_left _) (by decide +kernel)) op.result_type) op.operand1) op.operand2

theorem tame_OpFOrdGreaterThan (op : OpFOrdGreaterThan) : Tame (Display.fmt op) :=
  tame_append (tame_append (tame_append (tame_name (result_left _) (by decide +kernel)) op.result_type) op.operand1) op.operand2

theorem tame_OpFUnordGreaterThan (op : OpFUnordGreaterThan) : Tame (Display.fmt op) :=
  tame_append (tame_append (tame_append (tame_name (result_left _) (by decide +kernel)) op.result_type) op.operand1) op.operand2

theorem tame_OpFOrdLessThanEqual (op : OpFOrdLessThanEqual) : Tame (Display.fmt op) :=
  tame_append (tame_append (tame_append (tame_name (result_left _) (by decide +kernel)) op.result_type) op.operand1) op.operand2

theorem tame_OpFUnordLessThanEqual (op : OpFUnordLessThanEqual) : Tame (Display.fmt op) :=
  tame_append (tame_append (tame_append (tame_name (result_left _) (by decide +kernel)) op.result_type) op.operand1) op.operand2

theorem tame_OpFOrdGreaterThanEqual (op : OpFOrdGreaterThanEqual) : Tame (Display.fmt op) :=
  tame_append (tame_append (tame_append (tame_name (result_left _) (by decide +kernel)) op.result_type) op.operand1) op.operand2

theorem tame_OpFUnordGreaterThanEqual (op : OpFUnordGreaterThanEqual) : Tame (Display.fmt op) :=
  tame_append (tame_append (tame_append (tame_name (result_left _) (by decide +kernel)) op.result_type) op.operand1) op.operand2

theorem tame_OpPhi (op : OpPhi) : Tame (Display.fmt op) :=
  tame_append (tame_append (tame_name (result_left _) (by decide +kernel)) op.result_type) op.variables

theorem tame_OpLoopMerge (op : OpLoopMerge) : Tame (Display.fmt op) :=
  tame_append (tame_append (tame_append (tame_name noResult_left (by decide +kernel)) op.merge_block) op.continue_target) op.loop_control

theorem tame_OpSelectionMerge (op : OpSelectionMerge) : Tame (Display.fmt op) :=
  tame_append (tame_append (tame_name noResult_left (by decide +kernel)) op.merge_block) op.selection_control

theorem tame_OpLabel (op : OpLabel) : Tame (Display.fmt op) :=
  tame_name (result_left _) (by decide +kernel)

theorem tame_OpBranch (op : OpBranch) : Tame (Display.fmt op) :=
  tame_append (tame_name noResult_left (by decide +kernel)) op.target_label

theorem tame_OpBranchConditional (op : OpBranchConditional) : Tame (Display.fmt op) :=
  tame_append (tame_append (tame_append (tame_append (tame_name noResult_left (by decide +kernel)) op.condition) op.true_label) op.false_label) op.weights

theorem tame_OpReturn (op : OpReturn) : Tame (Display.fmt op) :=
  tame_name noResult_left (by decide +kernel)

theorem tame_decorate (op : OpDecorate) (h : ∀ s l, op.decoration ≠ .LinkageAttributes s l) : Tame (Display.fmt op) := by
  have h' := tame_append (tame_name noResult_left (by decide +kernel) : Tame (fmtNoResult ++ "OpDecorate".toList)) op.target
  have hd := tame_decoration _ h
  exact ⟨quote_append h'.1 hd.1, unlinked_word hd.2⟩

theorem tame_memberDecorate (op : OpMemberDecorate) (h : ∀ s l, op.decoration ≠ .LinkageAttributes s l) :
    Tame (Display.fmt op) := by
  have h' := tame_append (tame_append (tame_name noResult_left (by decide +kernel) :
    Tame (fmtNoResult ++ "OpMemberDecorate".toList)) op.structure_type) op.member
  have hd := tame_decoration _ h
  exact ⟨quote_append h'.1 hd.1, unlinked_word hd.2⟩

theorem tame_source (op : OpSource) (h : op.source = none) : Tame (Display.fmt op) := by
  obtain ⟨language, version, file, source⟩ := op
  cases h
  have h' := tame_append (tame_append (tame_append (tame_name noResult_left (by decide +kernel) :
    Tame (fmtNoResult ++ "OpSource".toList)) language) version) file
  rw [← List.append_nil (_ ++ _ : Text)] at h'
  exact h'

theorem tame_extInst {X : Type} [Display X] (op : OpExtInst X) (h : Tame (' ' :: Display.fmt op.instruction)) :
    Tame (Display.fmt op) := by
  have h' := tame_append (tame_append (tame_name (result_left op.result_id) (by decide +kernel) :
    Tame (fmtResult op.result_id ++ "OpExtInst".toList)) op.result_type) op.set
  exact ⟨quote_append h'.1 h.1, unlinked_word h.2⟩

end Magma.Quotes
