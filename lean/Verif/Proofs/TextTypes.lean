import Verif.Proofs.Text
/-! Generated by `tools/gen_text.py`: printed operands determine the operand. -/

namespace Magma

instance : Token BuiltIn := Token.enum BuiltIn.ctorIdx BuiltIn.ofNat BuiltIn.ofNat_ctorIdx 41
  (fun a => by cases a <;> decide) (by decide +kernel) (by decide +kernel)

instance : Token FunctionParameterAttribute := Token.enum FunctionParameterAttribute.ctorIdx FunctionParameterAttribute.ofNat FunctionParameterAttribute.ofNat_ctorIdx 8
  (fun a => by cases a <;> decide) (by decide +kernel) (by decide +kernel)

instance : Token FpRoundingMode := Token.enum FpRoundingMode.ctorIdx FpRoundingMode.ofNat FpRoundingMode.ofNat_ctorIdx 4
  (fun a => by cases a <;> decide) (by decide +kernel) (by decide +kernel)

instance : Token LinkageType := Token.enum LinkageType.ctorIdx LinkageType.ofNat LinkageType.ofNat_ctorIdx 2
  (fun a => by cases a <;> decide) (by decide +kernel) (by decide +kernel)

instance : Token AddressingModel := Token.enum AddressingModel.ctorIdx AddressingModel.ofNat AddressingModel.ofNat_ctorIdx 3
  (fun a => by cases a <;> decide) (by decide +kernel) (by decide +kernel)

instance : Token MemoryModel := Token.enum MemoryModel.ctorIdx MemoryModel.ofNat MemoryModel.ofNat_ctorIdx 3
  (fun a => by cases a <;> decide) (by decide +kernel) (by decide +kernel)

instance : Token ExecutionModel := Token.enum ExecutionModel.ctorIdx ExecutionModel.ofNat ExecutionModel.ofNat_ctorIdx 7
  (fun a => by cases a <;> decide) (by decide +kernel) (by decide +kernel)

instance : Token Capability := Token.enum Capability.ctorIdx Capability.ofNat Capability.ofNat_ctorIdx 56
  (fun a => by cases a <;> decide) (by decide +kernel) (by decide +kernel)

instance : Token Signedness := Token.enum Signedness.ctorIdx Signedness.ofNat Signedness.ofNat_ctorIdx 2
  (fun a => by cases a <;> decide) (by decide +kernel) (by decide +kernel)

instance : Token StorageClass := Token.enum StorageClass.ctorIdx StorageClass.ofNat StorageClass.ofNat_ctorIdx 12
  (fun a => by cases a <;> decide) (by decide +kernel) (by decide +kernel)

instance : Token Dim := Token.enum Dim.ctorIdx Dim.ofNat Dim.ofNat_ctorIdx 7
  (fun a => by cases a <;> decide) (by decide +kernel) (by decide +kernel)

instance : Token DepthStatus := Token.enum DepthStatus.ctorIdx DepthStatus.ofNat DepthStatus.ofNat_ctorIdx 3
  (fun a => by cases a <;> decide) (by decide +kernel) (by decide +kernel)

instance : Token Arrayed := Token.enum Arrayed.ctorIdx Arrayed.ofNat Arrayed.ofNat_ctorIdx 2
  (fun a => by cases a <;> decide) (by decide +kernel) (by decide +kernel)

instance : Token MS := Token.enum MS.ctorIdx MS.ofNat MS.ofNat_ctorIdx 2
  (fun a => by cases a <;> decide) (by decide +kernel) (by decide +kernel)

instance : Token SampledStatus := Token.enum SampledStatus.ctorIdx SampledStatus.ofNat SampledStatus.ofNat_ctorIdx 3
  (fun a => by cases a <;> decide) (by decide +kernel) (by decide +kernel)

instance : Token ImageFormat := Token.enum ImageFormat.ctorIdx ImageFormat.ofNat ImageFormat.ofNat_ctorIdx 40
  (fun a => by cases a <;> decide) (by decide +kernel) (by decide +kernel)

instance : Token AccessQualifier := Token.enum AccessQualifier.ctorIdx AccessQualifier.ofNat AccessQualifier.ofNat_ctorIdx 3
  (fun a => by cases a <;> decide) (by decide +kernel) (by decide +kernel)

/-- Printed flags, as one argument -/
def isFlags (t : Text) : Bool :=
  match t with
  | [] => false
  | c :: cs => c != '|' && (c :: cs).all fun c => decide (Plain c)

/-- The rest of a printed argument after another one -/
def isInside (u : Text) : Bool :=
  match u with
  | [] => true
  | ' ' :: '|' :: _ => true
  | c :: _ => c != ' '

theorem inside_of_isInside {u : Text} (h : isInside u = true) : u = [] ∨ Inside u := by
  unfold isInside at h
  split at h
  · exact .inl rfl
  · exact .inr (.inr ⟨_, rfl⟩)
  · exact .inr (.inl ⟨_, _, rfl, by simpa using h⟩)

/-- Different flags print differently, and neither is the start of the other. -/
def flagsOk {α : Type} [DecidableEq α] [Display α] (a b : α) : Bool :=
  (decide (Display.fmt a = Display.fmt b → a = b)) &&
  (!(Display.fmt a).isPrefixOf (Display.fmt b) || isInside ((Display.fmt b).drop (Display.fmt a).length))

theorem Token.flags {α : Type} [DecidableEq α] [Display α] (h : ∀ a b : α, flagsOk a b = true)
    (hf : ∀ a : α, isFlags (Display.fmt a) = true) : @Token α instDisplayArgOfDisplay where
  inj hs ht e := by
    refine delimited (f := Display.fmt) (fun a b => ?_) (fun a b u hu => ?_) hs ht e
    · have := h a b
      simp only [flagsOk, Bool.and_eq_true, decide_eq_true_eq] at this
      exact this.1
    · have := h a b
      simp only [flagsOk, Bool.and_eq_true, Bool.or_eq_true, Bool.not_eq_true'] at this
      rcases this.2 with h' | h'
      · rw [hu] at h'
        have : (Display.fmt a).isPrefixOf (Display.fmt a ++ u) = true :=
          List.isPrefixOf_iff_prefix.mpr (List.prefix_append _ _)
        rw [this] at h'
        cases h'
      · rw [hu, List.drop_left] at h'
        exact inside_of_isInside h'
  head a := by
    have := hf a
    show ∃ c cs, Display.fmt a = c :: cs ∧ c ≠ '|'
    cases ht : Display.fmt a with
    | nil => rw [ht] at this; cases this
    | cons c cs =>
      rw [ht] at this
      simp only [isFlags, Bool.and_eq_true, bne_iff_ne] at this
      exact ⟨c, cs, rfl, this.1⟩
  plain a c hc := by
    have := hf a
    have hc : c ∈ Display.fmt a := hc
    cases ht : Display.fmt a with
    | nil => rw [ht] at hc; cases hc
    | cons d ds =>
      rw [ht] at this hc
      simp only [isFlags, Bool.and_eq_true, List.all_eq_true, decide_eq_true_eq] at this
      exact this.2 c hc

instance : Token FpFastMathMode := Token.flags
  (fun a b => by
    obtain ⟨a0, a1, a2, a3, a4⟩ := a
    obtain ⟨b0, b1, b2, b3, b4⟩ := b
    have : ∀ a0 a1 a2 a3 a4 b0 b1 b2 b3 b4 : Bool, flagsOk (FpFastMathMode.mk a0 a1 a2 a3 a4) (.mk b0 b1 b2 b3 b4) = true := by decide +kernel
    exact this a0 a1 a2 a3 a4 b0 b1 b2 b3 b4)
  (fun a => by
    obtain ⟨a0, a1, a2, a3, a4⟩ := a
    have : ∀ a0 a1 a2 a3 a4 : Bool, isFlags (Display.fmt (FpFastMathMode.mk a0 a1 a2 a3 a4)) = true := by decide +kernel
    exact this a0 a1 a2 a3 a4)

instance : Token MemoryAccess := Token.flags
  (fun a b => by
    obtain ⟨a0, a1, a2⟩ := a
    obtain ⟨b0, b1, b2⟩ := b
    have : ∀ a0 a1 a2 b0 b1 b2 : Bool, flagsOk (MemoryAccess.mk a0 a1 a2) (.mk b0 b1 b2) = true := by decide +kernel
    exact this a0 a1 a2 b0 b1 b2)
  (fun a => by
    obtain ⟨a0, a1, a2⟩ := a
    have : ∀ a0 a1 a2 : Bool, isFlags (Display.fmt (MemoryAccess.mk a0 a1 a2)) = true := by decide +kernel
    exact this a0 a1 a2)

instance : Token FunctionControl := Token.flags
  (fun a b => by
    obtain ⟨a0, a1, a2, a3⟩ := a
    obtain ⟨b0, b1, b2, b3⟩ := b
    have : ∀ a0 a1 a2 a3 b0 b1 b2 b3 : Bool, flagsOk (FunctionControl.mk a0 a1 a2 a3) (.mk b0 b1 b2 b3) = true := by decide +kernel
    exact this a0 a1 a2 a3 b0 b1 b2 b3)
  (fun a => by
    obtain ⟨a0, a1, a2, a3⟩ := a
    have : ∀ a0 a1 a2 a3 : Bool, isFlags (Display.fmt (FunctionControl.mk a0 a1 a2 a3)) = true := by decide +kernel
    exact this a0 a1 a2 a3)

instance : Token SelectionControl := Token.flags
  (fun a b => by
    obtain ⟨a0, a1⟩ := a
    obtain ⟨b0, b1⟩ := b
    have : ∀ a0 a1 b0 b1 : Bool, flagsOk (SelectionControl.mk a0 a1) (.mk b0 b1) = true := by decide +kernel
    exact this a0 a1 b0 b1)
  (fun a => by
    obtain ⟨a0, a1⟩ := a
    have : ∀ a0 a1 : Bool, isFlags (Display.fmt (SelectionControl.mk a0 a1)) = true := by decide +kernel
    exact this a0 a1)

/-- The first words of the printed ExecutionMode -/
def ExecutionMode.words : List Text := ["Invocations".toList, "SpacingEqual".toList, "SpacingFractionalEven".toList, "SpacingFractionalOdd".toList, "VertexOrderCw".toList, "VertexOrderCcw".toList, "PixelCenterInteger".toList, "OriginUpperLeft".toList, "OriginLowerLeft".toList, "EarlyFragmentTests".toList, "PointMode".toList, "Xfb".toList, "DepthReplacing".toList, "DepthGreater".toList, "DepthLess".toList, "DepthUnchanged".toList, "LocalSize".toList, "LocalSizeHint".toList, "InputPoints".toList, "InputLines".toList, "InputLinesAdjacency".toList, "Triangles".toList, "InputTrianglesAdjacency".toList, "Quads".toList, "Isolines".toList, "OutputVerticies".toList, "OutputPoints".toList, "OutputLineStrip".toList, "OutputTriangleStrip".toList, "VecTypeHint".toList, "ContractionOff".toList]

theorem ExecutionMode.word (a : ExecutionMode) :
    ExecutionMode.words[a.ctorIdx]? = some ((Display.fmt a).takeWhile (· != ' ')) := by
  cases a <;> rfl

theorem ExecutionMode.ctorIdx_eq {a b : ExecutionMode} (h : Display.fmt a = Display.fmt b) : a.ctorIdx = b.ctorIdx := by
  have hn : ExecutionMode.words.Nodup := by decide +kernel
  have ha := ExecutionMode.word a
  have hb := ExecutionMode.word b
  have hlt : a.ctorIdx < ExecutionMode.words.length := by
    rcases Nat.lt_or_ge a.ctorIdx ExecutionMode.words.length with h' | h'
    · exact h'
    · rw [List.getElem?_eq_none h'] at ha
      cases ha
  rw [h] at ha
  exact (List.getElem?_inj hlt hn).mp (ha.trans hb.symm)

theorem display_inj {α : Type} [Display α] [Token α] {a b : α} (h : Display.fmt a = Display.fmt b) :
    a = b := by
  have h : DisplayArg.displayArg a ++ [] = DisplayArg.displayArg b ++ [] := by
    rw [List.append_nil, List.append_nil]; exact h
  exact (Token.inj follows_nil follows_nil h).1

theorem three_inj {n : Text} {x y z x' y' z' : UInt32}
    (h : n ++ Display.fmt x ++ " ".toList ++ Display.fmt y ++ " ".toList ++ Display.fmt z =
      n ++ Display.fmt x' ++ " ".toList ++ Display.fmt y' ++ " ".toList ++ Display.fmt z') :
    x = x' ∧ y = y' ∧ z = z' := by
  have h : n ++ (DisplayArg.displayArg x ++ ((FormatArg.formatArg y : Text) ++ FormatArg.formatArg z)) =
      n ++ (DisplayArg.displayArg x' ++ ((FormatArg.formatArg y' : Text) ++ FormatArg.formatArg z')) := by
    simp only [List.append_assoc] at h
    exact h
  obtain ⟨h1, h⟩ := Token.inj (arg_follows _ _) (arg_follows _ _) (List.append_cancel_left h)
  obtain ⟨h2, h⟩ := arg_inj (Arg.follows _) (Arg.follows _) h
  exact ⟨h1, h2, Arg.inj h⟩

theorem ExecutionMode.fmt_inj (a b : ExecutionMode) (h : Display.fmt a = Display.fmt b) : a = b := by
  have hi := ExecutionMode.ctorIdx_eq h
  cases a with
  | Invocations x =>
    refine ExecutionMode.Invocations.elim (motive := fun b => Display.fmt (ExecutionMode.Invocations x) = Display.fmt b → ExecutionMode.Invocations x = b) b
      (Eq.symm hi) (fun x' h => ?_) h
    have h : "Invocations ".toList ++ Display.fmt x = "Invocations ".toList ++ Display.fmt x' := h
    rw [display_inj (List.append_cancel_left h)]
  | SpacingEqual => exact ExecutionMode.SpacingEqual.elim b (Eq.symm hi) rfl
  | SpacingFractionalEven => exact ExecutionMode.SpacingFractionalEven.elim b (Eq.symm hi) rfl
  | SpacingFractionalOdd => exact ExecutionMode.SpacingFractionalOdd.elim b (Eq.symm hi) rfl
  | VertexOrderCw => exact ExecutionMode.VertexOrderCw.elim b (Eq.symm hi) rfl
  | VertexOrderCcw => exact ExecutionMode.VertexOrderCcw.elim b (Eq.symm hi) rfl
  | PixelCenterInteger => exact ExecutionMode.PixelCenterInteger.elim b (Eq.symm hi) rfl
  | OriginUpperLeft => exact ExecutionMode.OriginUpperLeft.elim b (Eq.symm hi) rfl
  | OriginLowerLeft => exact ExecutionMode.OriginLowerLeft.elim b (Eq.symm hi) rfl
  | EarlyFragmentTests => exact ExecutionMode.EarlyFragmentTests.elim b (Eq.symm hi) rfl
  | PointMode => exact ExecutionMode.PointMode.elim b (Eq.symm hi) rfl
  | Xfb => exact ExecutionMode.Xfb.elim b (Eq.symm hi) rfl
  | DepthReplacing => exact ExecutionMode.DepthReplacing.elim b (Eq.symm hi) rfl
  | DepthGreater => exact ExecutionMode.DepthGreater.elim b (Eq.symm hi) rfl
  | DepthLess => exact ExecutionMode.DepthLess.elim b (Eq.symm hi) rfl
  | DepthUnchanged => exact ExecutionMode.DepthUnchanged.elim b (Eq.symm hi) rfl
  | LocalSize x y z =>
    refine ExecutionMode.LocalSize.elim (motive := fun b => Display.fmt (ExecutionMode.LocalSize x y z) = Display.fmt b →
      ExecutionMode.LocalSize x y z = b) b (Eq.symm hi) (fun x' y' z' h => ?_) h
    have h : "LocalSize ".toList ++ Display.fmt x ++ " ".toList ++ Display.fmt y ++ " ".toList ++ Display.fmt z =
      "LocalSize ".toList ++ Display.fmt x' ++ " ".toList ++ Display.fmt y' ++ " ".toList ++ Display.fmt z' := h
    obtain ⟨h1, h2, h3⟩ := three_inj h
    rw [h1, h2, h3]
  | LocalSizeHint x y z =>
    refine ExecutionMode.LocalSizeHint.elim (motive := fun b => Display.fmt (ExecutionMode.LocalSizeHint x y z) = Display.fmt b →
      ExecutionMode.LocalSizeHint x y z = b) b (Eq.symm hi) (fun x' y' z' h => ?_) h
    have h : "LocalSizeHint ".toList ++ Display.fmt x ++ " ".toList ++ Display.fmt y ++ " ".toList ++ Display.fmt z =
      "LocalSizeHint ".toList ++ Display.fmt x' ++ " ".toList ++ Display.fmt y' ++ " ".toList ++ Display.fmt z' := h
    obtain ⟨h1, h2, h3⟩ := three_inj h
    rw [h1, h2, h3]
  | InputPoints => exact ExecutionMode.InputPoints.elim b (Eq.symm hi) rfl
  | InputLines => exact ExecutionMode.InputLines.elim b (Eq.symm hi) rfl
  | InputLinesAdjacency => exact ExecutionMode.InputLinesAdjacency.elim b (Eq.symm hi) rfl
  | Triangles => exact ExecutionMode.Triangles.elim b (Eq.symm hi) rfl
  | InputTrianglesAdjacency => exact ExecutionMode.InputTrianglesAdjacency.elim b (Eq.symm hi) rfl
  | Quads => exact ExecutionMode.Quads.elim b (Eq.symm hi) rfl
  | Isolines => exact ExecutionMode.Isolines.elim b (Eq.symm hi) rfl
  | OutputVerticies x =>
    refine ExecutionMode.OutputVerticies.elim (motive := fun b => Display.fmt (ExecutionMode.OutputVerticies x) = Display.fmt b → ExecutionMode.OutputVerticies x = b) b
      (Eq.symm hi) (fun x' h => ?_) h
    have h : "OutputVerticies ".toList ++ Display.fmt x = "OutputVerticies ".toList ++ Display.fmt x' := h
    rw [display_inj (List.append_cancel_left h)]
  | OutputPoints => exact ExecutionMode.OutputPoints.elim b (Eq.symm hi) rfl
  | OutputLineStrip => exact ExecutionMode.OutputLineStrip.elim b (Eq.symm hi) rfl
  | OutputTriangleStrip => exact ExecutionMode.OutputTriangleStrip.elim b (Eq.symm hi) rfl
  | VecTypeHint x =>
    refine ExecutionMode.VecTypeHint.elim (motive := fun b => Display.fmt (ExecutionMode.VecTypeHint x) = Display.fmt b → ExecutionMode.VecTypeHint x = b) b
      (Eq.symm hi) (fun x' h => ?_) h
    have h : "VecTypeHint ".toList ++ Display.fmt x = "VecTypeHint ".toList ++ Display.fmt x' := h
    rw [display_inj (List.append_cancel_left h)]
  | ContractionOff => exact ExecutionMode.ContractionOff.elim b (Eq.symm hi) rfl

instance : Arg ExecutionMode where
  inj h := ExecutionMode.fmt_inj _ _ (List.cons.inj h).2
  follows a := by
    refine .inr ?_
    cases a <;> exact ⟨_, _, rfl, by decide⟩

theorem plain_append {s t : Text} (hs : ∀ c ∈ s, Plain c) (ht : ∀ c ∈ t, Plain c) :
    ∀ c ∈ s ++ t, Plain c := by
  intro c h
  rcases List.mem_append.mp h with h | h
  · exact hs c h
  · exact ht c h

theorem display_plain {α : Type} [Display α] [Token α] (a : α) : ∀ c ∈ Display.fmt a, Plain c :=
  Token.plain a

theorem ExecutionMode.fmt_plain (a : ExecutionMode) : ∀ c ∈ Display.fmt a, Plain c := by
  cases a with
  | Invocations x => exact plain_append (by decide) (display_plain x)
  | SpacingEqual => exact (by decide : ∀ c ∈ "SpacingEqual".toList, Plain c)
  | SpacingFractionalEven => exact (by decide : ∀ c ∈ "SpacingFractionalEven".toList, Plain c)
  | SpacingFractionalOdd => exact (by decide : ∀ c ∈ "SpacingFractionalOdd".toList, Plain c)
  | VertexOrderCw => exact (by decide : ∀ c ∈ "VertexOrderCw".toList, Plain c)
  | VertexOrderCcw => exact (by decide : ∀ c ∈ "VertexOrderCcw".toList, Plain c)
  | PixelCenterInteger => exact (by decide : ∀ c ∈ "PixelCenterInteger".toList, Plain c)
  | OriginUpperLeft => exact (by decide : ∀ c ∈ "OriginUpperLeft".toList, Plain c)
  | OriginLowerLeft => exact (by decide : ∀ c ∈ "OriginLowerLeft".toList, Plain c)
  | EarlyFragmentTests => exact (by decide : ∀ c ∈ "EarlyFragmentTests".toList, Plain c)
  | PointMode => exact (by decide : ∀ c ∈ "PointMode".toList, Plain c)
  | Xfb => exact (by decide : ∀ c ∈ "Xfb".toList, Plain c)
  | DepthReplacing => exact (by decide : ∀ c ∈ "DepthReplacing".toList, Plain c)
  | DepthGreater => exact (by decide : ∀ c ∈ "DepthGreater".toList, Plain c)
  | DepthLess => exact (by decide : ∀ c ∈ "DepthLess".toList, Plain c)
  | DepthUnchanged => exact (by decide : ∀ c ∈ "DepthUnchanged".toList, Plain c)
  | LocalSize x y z => exact plain_append (plain_append (plain_append (plain_append
      (plain_append (by decide) (display_plain x)) (by decide)) (display_plain y)) (by decide)) (display_plain z)
  | LocalSizeHint x y z => exact plain_append (plain_append (plain_append (plain_append
      (plain_append (by decide) (display_plain x)) (by decide)) (display_plain y)) (by decide)) (display_plain z)
  | InputPoints => exact (by decide : ∀ c ∈ "InputPoints".toList, Plain c)
  | InputLines => exact (by decide : ∀ c ∈ "InputLines".toList, Plain c)
  | InputLinesAdjacency => exact (by decide : ∀ c ∈ "InputLinesAdjacency".toList, Plain c)
  | Triangles => exact (by decide : ∀ c ∈ "Triangles".toList, Plain c)
  | InputTrianglesAdjacency => exact (by decide : ∀ c ∈ "InputTrianglesAdjacency".toList, Plain c)
  | Quads => exact (by decide : ∀ c ∈ "Quads".toList, Plain c)
  | Isolines => exact (by decide : ∀ c ∈ "Isolines".toList, Plain c)
  | OutputVerticies x => exact plain_append (by decide) (display_plain x)
  | OutputPoints => exact (by decide : ∀ c ∈ "OutputPoints".toList, Plain c)
  | OutputLineStrip => exact (by decide : ∀ c ∈ "OutputLineStrip".toList, Plain c)
  | OutputTriangleStrip => exact (by decide : ∀ c ∈ "OutputTriangleStrip".toList, Plain c)
  | VecTypeHint x => exact plain_append (by decide) (display_plain x)
  | ContractionOff => exact (by decide : ∀ c ∈ "ContractionOff".toList, Plain c)

/-- The first words of the printed Decoration -/
def Decoration.words : List Text := ["RelaxedPrecision".toList, "SpecId".toList, "Block".toList, "BufferBlock".toList, "RowMajor".toList, "ColMajor".toList, "ArrayStride".toList, "MatrixStride".toList, "GLSLShared".toList, "GLSLPacked".toList, "CPacked".toList, "BuiltIn".toList, "NoPerspective".toList, "Flat".toList, "Patch".toList, "Centroid".toList, "Sample".toList, "Invariant".toList, "Restrict".toList, "Aliased".toList, "Volatile".toList, "Constant".toList, "Coherent".toList, "NonWritable".toList, "NonReadable".toList, "Uniform".toList, "SaturatedConversion".toList, "Stream".toList, "Location".toList, "Component".toList, "Index".toList, "Binding".toList, "DescriptorSet".toList, "Offset".toList, "XfbBuffer".toList, "XfbStride".toList, "FuncParamAttr".toList, "FpRoundingMode".toList, "FpFastMathMode".toList, "LinkageAttributes".toList, "NoContraction".toList, "InputAttachmentIndex".toList, "Alignment".toList]

theorem Decoration.word (a : Decoration) :
    Decoration.words[a.ctorIdx]? = some ((Display.fmt a).takeWhile (· != ' ')) := by
  cases a <;> rfl

theorem Decoration.ctorIdx_eq {a b : Decoration} (h : Display.fmt a = Display.fmt b) : a.ctorIdx = b.ctorIdx := by
  have hn : Decoration.words.Nodup := by decide +kernel
  have ha := Decoration.word a
  have hb := Decoration.word b
  have hlt : a.ctorIdx < Decoration.words.length := by
    rcases Nat.lt_or_ge a.ctorIdx Decoration.words.length with h' | h'
    · exact h'
    · rw [List.getElem?_eq_none h'] at ha
      cases ha
  rw [h] at ha
  exact (List.getElem?_inj hlt hn).mp (ha.trans hb.symm)

theorem Decoration.fmt_inj (a b : Decoration) (h : Display.fmt a = Display.fmt b) : a = b := by
  have hi := Decoration.ctorIdx_eq h
  cases a with
  | RelaxedPrecision => exact Decoration.RelaxedPrecision.elim b (Eq.symm hi) rfl
  | SpecId x =>
    refine Decoration.SpecId.elim (motive := fun b => Display.fmt (Decoration.SpecId x) = Display.fmt b → Decoration.SpecId x = b) b
      (Eq.symm hi) (fun x' h => ?_) h
    have h : "SpecId ".toList ++ Display.fmt x = "SpecId ".toList ++ Display.fmt x' := h
    rw [display_inj (List.append_cancel_left h)]
  | Block => exact Decoration.Block.elim b (Eq.symm hi) rfl
  | BufferBlock => exact Decoration.BufferBlock.elim b (Eq.symm hi) rfl
  | RowMajor => exact Decoration.RowMajor.elim b (Eq.symm hi) rfl
  | ColMajor => exact Decoration.ColMajor.elim b (Eq.symm hi) rfl
  | ArrayStride x =>
    refine Decoration.ArrayStride.elim (motive := fun b => Display.fmt (Decoration.ArrayStride x) = Display.fmt b → Decoration.ArrayStride x = b) b
      (Eq.symm hi) (fun x' h => ?_) h
    have h : "ArrayStride ".toList ++ Display.fmt x = "ArrayStride ".toList ++ Display.fmt x' := h
    rw [display_inj (List.append_cancel_left h)]
  | MatrixStride x =>
    refine Decoration.MatrixStride.elim (motive := fun b => Display.fmt (Decoration.MatrixStride x) = Display.fmt b → Decoration.MatrixStride x = b) b
      (Eq.symm hi) (fun x' h => ?_) h
    have h : "MatrixStride ".toList ++ Display.fmt x = "MatrixStride ".toList ++ Display.fmt x' := h
    rw [display_inj (List.append_cancel_left h)]
  | GlslShared => exact Decoration.GlslShared.elim b (Eq.symm hi) rfl
  | GlslPacked => exact Decoration.GlslPacked.elim b (Eq.symm hi) rfl
  | CPacked => exact Decoration.CPacked.elim b (Eq.symm hi) rfl
  | BuiltIn x =>
    refine Decoration.BuiltIn.elim (motive := fun b => Display.fmt (Decoration.BuiltIn x) = Display.fmt b → Decoration.BuiltIn x = b) b
      (Eq.symm hi) (fun x' h => ?_) h
    have h : "BuiltIn ".toList ++ Display.fmt x = "BuiltIn ".toList ++ Display.fmt x' := h
    rw [display_inj (List.append_cancel_left h)]
  | NoPerspective => exact Decoration.NoPerspective.elim b (Eq.symm hi) rfl
  | Flat => exact Decoration.Flat.elim b (Eq.symm hi) rfl
  | Patch => exact Decoration.Patch.elim b (Eq.symm hi) rfl
  | Centroid => exact Decoration.Centroid.elim b (Eq.symm hi) rfl
  | Sample => exact Decoration.Sample.elim b (Eq.symm hi) rfl
  | Invariant => exact Decoration.Invariant.elim b (Eq.symm hi) rfl
  | Restrict => exact Decoration.Restrict.elim b (Eq.symm hi) rfl
  | Aliased => exact Decoration.Aliased.elim b (Eq.symm hi) rfl
  | Volatile => exact Decoration.Volatile.elim b (Eq.symm hi) rfl
  | Constant => exact Decoration.Constant.elim b (Eq.symm hi) rfl
  | Coherent => exact Decoration.Coherent.elim b (Eq.symm hi) rfl
  | NonWritable => exact Decoration.NonWritable.elim b (Eq.symm hi) rfl
  | NonReadable => exact Decoration.NonReadable.elim b (Eq.symm hi) rfl
  | Uniform => exact Decoration.Uniform.elim b (Eq.symm hi) rfl
  | SaturatedConversion => exact Decoration.SaturatedConversion.elim b (Eq.symm hi) rfl
  | Stream x =>
    refine Decoration.Stream.elim (motive := fun b => Display.fmt (Decoration.Stream x) = Display.fmt b → Decoration.Stream x = b) b
      (Eq.symm hi) (fun x' h => ?_) h
    have h : "Stream ".toList ++ Display.fmt x = "Stream ".toList ++ Display.fmt x' := h
    rw [display_inj (List.append_cancel_left h)]
  | Location x =>
    refine Decoration.Location.elim (motive := fun b => Display.fmt (Decoration.Location x) = Display.fmt b → Decoration.Location x = b) b
      (Eq.symm hi) (fun x' h => ?_) h
    have h : "Location ".toList ++ Display.fmt x = "Location ".toList ++ Display.fmt x' := h
    rw [display_inj (List.append_cancel_left h)]
  | Component x =>
    refine Decoration.Component.elim (motive := fun b => Display.fmt (Decoration.Component x) = Display.fmt b → Decoration.Component x = b) b
      (Eq.symm hi) (fun x' h => ?_) h
    have h : "Component ".toList ++ Display.fmt x = "Component ".toList ++ Display.fmt x' := h
    rw [display_inj (List.append_cancel_left h)]
  | Index x =>
    refine Decoration.Index.elim (motive := fun b => Display.fmt (Decoration.Index x) = Display.fmt b → Decoration.Index x = b) b
      (Eq.symm hi) (fun x' h => ?_) h
    have h : "Index ".toList ++ Display.fmt x = "Index ".toList ++ Display.fmt x' := h
    rw [display_inj (List.append_cancel_left h)]
  | Binding x =>
    refine Decoration.Binding.elim (motive := fun b => Display.fmt (Decoration.Binding x) = Display.fmt b → Decoration.Binding x = b) b
      (Eq.symm hi) (fun x' h => ?_) h
    have h : "Binding ".toList ++ Display.fmt x = "Binding ".toList ++ Display.fmt x' := h
    rw [display_inj (List.append_cancel_left h)]
  | DescriptorSet x =>
    refine Decoration.DescriptorSet.elim (motive := fun b => Display.fmt (Decoration.DescriptorSet x) = Display.fmt b → Decoration.DescriptorSet x = b) b
      (Eq.symm hi) (fun x' h => ?_) h
    have h : "DescriptorSet ".toList ++ Display.fmt x = "DescriptorSet ".toList ++ Display.fmt x' := h
    rw [display_inj (List.append_cancel_left h)]
  | Offset x =>
    refine Decoration.Offset.elim (motive := fun b => Display.fmt (Decoration.Offset x) = Display.fmt b → Decoration.Offset x = b) b
      (Eq.symm hi) (fun x' h => ?_) h
    have h : "Offset ".toList ++ Display.fmt x = "Offset ".toList ++ Display.fmt x' := h
    rw [display_inj (List.append_cancel_left h)]
  | XfbBuffer x =>
    refine Decoration.XfbBuffer.elim (motive := fun b => Display.fmt (Decoration.XfbBuffer x) = Display.fmt b → Decoration.XfbBuffer x = b) b
      (Eq.symm hi) (fun x' h => ?_) h
    have h : "XfbBuffer ".toList ++ Display.fmt x = "XfbBuffer ".toList ++ Display.fmt x' := h
    rw [display_inj (List.append_cancel_left h)]
  | XfbStride x =>
    refine Decoration.XfbStride.elim (motive := fun b => Display.fmt (Decoration.XfbStride x) = Display.fmt b → Decoration.XfbStride x = b) b
      (Eq.symm hi) (fun x' h => ?_) h
    have h : "XfbStride ".toList ++ Display.fmt x = "XfbStride ".toList ++ Display.fmt x' := h
    rw [display_inj (List.append_cancel_left h)]
  | FuncParamAttr x =>
    refine Decoration.FuncParamAttr.elim (motive := fun b => Display.fmt (Decoration.FuncParamAttr x) = Display.fmt b → Decoration.FuncParamAttr x = b) b
      (Eq.symm hi) (fun x' h => ?_) h
    have h : "FuncParamAttr ".toList ++ Display.fmt x = "FuncParamAttr ".toList ++ Display.fmt x' := h
    rw [display_inj (List.append_cancel_left h)]
  | FpRoundingMode x =>
    refine Decoration.FpRoundingMode.elim (motive := fun b => Display.fmt (Decoration.FpRoundingMode x) = Display.fmt b → Decoration.FpRoundingMode x = b) b
      (Eq.symm hi) (fun x' h => ?_) h
    have h : "FpRoundingMode ".toList ++ Display.fmt x = "FpRoundingMode ".toList ++ Display.fmt x' := h
    rw [display_inj (List.append_cancel_left h)]
  | FpFastMathMode x =>
    refine Decoration.FpFastMathMode.elim (motive := fun b => Display.fmt (Decoration.FpFastMathMode x) = Display.fmt b → Decoration.FpFastMathMode x = b) b
      (Eq.symm hi) (fun x' h => ?_) h
    have h : "FpFastMathMode ".toList ++ Display.fmt x = "FpFastMathMode ".toList ++ Display.fmt x' := h
    rw [display_inj (List.append_cancel_left h)]
  | LinkageAttributes x y =>
    refine Decoration.LinkageAttributes.elim (motive := fun b => Display.fmt (Decoration.LinkageAttributes x y) = Display.fmt b →
      Decoration.LinkageAttributes x y = b) b (Eq.symm hi) (fun x' y' h => ?_) h
    have h : "LinkageAttributes ".toList ++ x.toList ++ " ".toList ++ Display.fmt y =
      "LinkageAttributes ".toList ++ x'.toList ++ " ".toList ++ Display.fmt y' := h
    obtain ⟨h1, h2⟩ := List.append_inj' h (by cases y <;> cases y' <;> rfl)
    have h1 := List.append_cancel_left (List.append_cancel_right h1)
    rw [String.ext_iff.mpr h1, display_inj h2]
  | NoContraction => exact Decoration.NoContraction.elim b (Eq.symm hi) rfl
  | InputAttachmentIndex x =>
    refine Decoration.InputAttachmentIndex.elim (motive := fun b => Display.fmt (Decoration.InputAttachmentIndex x) = Display.fmt b → Decoration.InputAttachmentIndex x = b) b
      (Eq.symm hi) (fun x' h => ?_) h
    have h : "InputAttachmentIndex ".toList ++ Display.fmt x = "InputAttachmentIndex ".toList ++ Display.fmt x' := h
    rw [display_inj (List.append_cancel_left h)]
  | Alignment x =>
    refine Decoration.Alignment.elim (motive := fun b => Display.fmt (Decoration.Alignment x) = Display.fmt b → Decoration.Alignment x = b) b
      (Eq.symm hi) (fun x' h => ?_) h
    have h : "Alignment ".toList ++ Display.fmt x = "Alignment ".toList ++ Display.fmt x' := h
    rw [display_inj (List.append_cancel_left h)]

instance : Arg Decoration where
  inj h := Decoration.fmt_inj _ _ (List.cons.inj h).2
  follows a := by
    refine .inr ?_
    cases a <;> exact ⟨_, _, rfl, by decide⟩

theorem Decoration.fmt_plain (a : Decoration) (h : ∀ n l, a = .LinkageAttributes n l → ∀ c ∈ n.toList, Plain c) : ∀ c ∈ Display.fmt a, Plain c := by
  cases a with
  | RelaxedPrecision => exact (by decide : ∀ c ∈ "RelaxedPrecision".toList, Plain c)
  | SpecId x => exact plain_append (by decide) (display_plain x)
  | Block => exact (by decide : ∀ c ∈ "Block".toList, Plain c)
  | BufferBlock => exact (by decide : ∀ c ∈ "BufferBlock".toList, Plain c)
  | RowMajor => exact (by decide : ∀ c ∈ "RowMajor".toList, Plain c)
  | ColMajor => exact (by decide : ∀ c ∈ "ColMajor".toList, Plain c)
  | ArrayStride x => exact plain_append (by decide) (display_plain x)
  | MatrixStride x => exact plain_append (by decide) (display_plain x)
  | GlslShared => exact (by decide : ∀ c ∈ "GLSLShared".toList, Plain c)
  | GlslPacked => exact (by decide : ∀ c ∈ "GLSLPacked".toList, Plain c)
  | CPacked => exact (by decide : ∀ c ∈ "CPacked".toList, Plain c)
  | BuiltIn x => exact plain_append (by decide) (display_plain x)
  | NoPerspective => exact (by decide : ∀ c ∈ "NoPerspective".toList, Plain c)
  | Flat => exact (by decide : ∀ c ∈ "Flat".toList, Plain c)
  | Patch => exact (by decide : ∀ c ∈ "Patch".toList, Plain c)
  | Centroid => exact (by decide : ∀ c ∈ "Centroid".toList, Plain c)
  | Sample => exact (by decide : ∀ c ∈ "Sample".toList, Plain c)
  | Invariant => exact (by decide : ∀ c ∈ "Invariant".toList, Plain c)
  | Restrict => exact (by decide : ∀ c ∈ "Restrict".toList, Plain c)
  | Aliased => exact (by decide : ∀ c ∈ "Aliased".toList, Plain c)
  | Volatile => exact (by decide : ∀ c ∈ "Volatile".toList, Plain c)
  | Constant => exact (by decide : ∀ c ∈ "Constant".toList, Plain c)
  | Coherent => exact (by decide : ∀ c ∈ "Coherent".toList, Plain c)
  | NonWritable => exact (by decide : ∀ c ∈ "NonWritable".toList, Plain c)
  | NonReadable => exact (by decide : ∀ c ∈ "NonReadable".toList, Plain c)
  | Uniform => exact (by decide : ∀ c ∈ "Uniform".toList, Plain c)
  | SaturatedConversion => exact (by decide : ∀ c ∈ "SaturatedConversion".toList, Plain c)
  | Stream x => exact plain_append (by decide) (display_plain x)
  | Location x => exact plain_append (by decide) (display_plain x)
  | Component x => exact plain_append (by decide) (display_plain x)
  | Index x => exact plain_append (by decide) (display_plain x)
  | Binding x => exact plain_append (by decide) (display_plain x)
  | DescriptorSet x => exact plain_append (by decide) (display_plain x)
  | Offset x => exact plain_append (by decide) (display_plain x)
  | XfbBuffer x => exact plain_append (by decide) (display_plain x)
  | XfbStride x => exact plain_append (by decide) (display_plain x)
  | FuncParamAttr x => exact plain_append (by decide) (display_plain x)
  | FpRoundingMode x => exact plain_append (by decide) (display_plain x)
  | FpFastMathMode x => exact plain_append (by decide) (display_plain x)
  | LinkageAttributes x y =>
    exact plain_append (plain_append (plain_append (by decide) (h x y rfl)) (by decide)) (display_plain y)
  | NoContraction => exact (by decide : ∀ c ∈ "NoContraction".toList, Plain c)
  | InputAttachmentIndex x => exact plain_append (by decide) (display_plain x)
  | Alignment x => exact plain_append (by decide) (display_plain x)

instance : PlainArg ExecutionMode where
  plain a := plain_append (s := [' ']) (by decide) (ExecutionMode.fmt_plain a)

/-! ### The remaining operand types -/

instance : Token PhiArg where
  inj {a b s t} hs ht h := by
    obtain ⟨av, ap⟩ := a
    obtain ⟨bv, bp⟩ := b
    have h : DisplayArg.displayArg av ++ ((FormatArg.formatArg ap : Text) ++ s) =
        DisplayArg.displayArg bv ++ ((FormatArg.formatArg bp : Text) ++ t) := by
      have h : Display.fmt av ++ " ".toList ++ Display.fmt ap ++ s =
        Display.fmt bv ++ " ".toList ++ Display.fmt bp ++ t := h
      simp only [List.append_assoc] at h
      exact h
    obtain ⟨h1, h⟩ := Token.inj (arg_follows _ _) (arg_follows _ _) h
    obtain ⟨h2, h⟩ := arg_inj hs ht h
    exact ⟨by rw [h1, h2], h⟩
  head a := by
    obtain ⟨c, cs, h, hc⟩ := Token.head a.«variable»
    refine ⟨c, cs ++ (" ".toList ++ Display.fmt a.parent), ?_, hc⟩
    show Display.fmt a.«variable» ++ " ".toList ++ Display.fmt a.parent = _
    have h : Display.fmt a.«variable» = c :: cs := h
    rw [h, List.append_assoc]
    rfl
  plain a := plain_append (plain_append (display_plain a.«variable») (by decide)) (display_plain a.parent)

instance : Token BranchWeights where
  inj {a b s t} hs ht h := by
    obtain ⟨av, ap⟩ := a
    obtain ⟨bv, bp⟩ := b
    have h : DisplayArg.displayArg av ++ ((FormatArg.formatArg ap : Text) ++ s) =
        DisplayArg.displayArg bv ++ ((FormatArg.formatArg bp : Text) ++ t) := by
      have h : Display.fmt av ++ " ".toList ++ Display.fmt ap ++ s =
        Display.fmt bv ++ " ".toList ++ Display.fmt bp ++ t := h
      simp only [List.append_assoc] at h
      exact h
    obtain ⟨h1, h⟩ := Token.inj (arg_follows _ _) (arg_follows _ _) h
    obtain ⟨h2, h⟩ := arg_inj hs ht h
    exact ⟨by rw [h1, h2], h⟩
  head a := by
    obtain ⟨c, cs, h, hc⟩ := Token.head a.true_weight
    refine ⟨c, cs ++ (" ".toList ++ Display.fmt a.false_weight), ?_, hc⟩
    show Display.fmt a.true_weight ++ " ".toList ++ Display.fmt a.false_weight = _
    have h : Display.fmt a.true_weight = c :: cs := h
    rw [h, List.append_assoc]
    rfl
  plain a := plain_append (plain_append (display_plain a.true_weight) (by decide)) (display_plain a.false_weight)

instance : Arg String where
  inj {a b} h := by
    have h : " \"".toList ++ a.toList ++ "\"".toList = " \"".toList ++ b.toList ++ "\"".toList := h
    exact String.ext_iff.mpr (List.append_cancel_left (List.append_cancel_right h))
  follows a := .inr ⟨'"', a.toList ++ ['"'], rfl, by decide⟩

instance : Arg (Option String) where
  inj {a b} h := by
    cases a with
    | none =>
      cases b with
      | none => rfl
      | some b => exact absurd (h : ([] : Text) = ' ' :: DisplayArg.displayArg b) (by rintro ⟨⟩)
    | some a =>
      cases b with
      | none => exact absurd (h : ' ' :: DisplayArg.displayArg a = ([] : Text)) (by rintro ⟨⟩)
      | some b => exact congrArg some (Arg.inj (α := String) h)
  follows a := by
    cases a with
    | none => exact follows_nil
    | some a => exact Arg.follows (α := String) a

theorem SourceLanguage.fmt_other (n : UInt32) (c : Char) (h : c ∈ Display.fmt (SourceLanguage.Other n)) :
    c ≠ ' ' ∧ Plain c := by
  have h : c ∈ "Unknown(".toList ++ Display.fmt n ++ ")".toList := h
  rcases List.mem_append.mp h with h | h
  · rcases List.mem_append.mp h with h | h
    · exact (by decide : ∀ c ∈ "Unknown(".toList, c ≠ ' ' ∧ Plain c) c h
    · exact ⟨fun e => fmtNat_space _ (e ▸ h), display_plain n c h⟩
  · exact (by decide : ∀ c ∈ ")".toList, c ≠ ' ' ∧ Plain c) c h

theorem SourceLanguage.fmt_mem (a : SourceLanguage) (c : Char) (h : c ∈ Display.fmt a) :
    c ≠ ' ' ∧ Plain c := by
  cases a with
  | Unknown => exact (by decide : ∀ c ∈ "Unknown".toList, c ≠ ' ' ∧ Plain c) c h
  | Essl => exact (by decide : ∀ c ∈ "ESSL".toList, c ≠ ' ' ∧ Plain c) c h
  | Glsl => exact (by decide : ∀ c ∈ "GLSL".toList, c ≠ ' ' ∧ Plain c) c h
  | OpenCL_C => exact (by decide : ∀ c ∈ "OpenCL_C".toList, c ≠ ' ' ∧ Plain c) c h
  | OpenCL_Cpp => exact (by decide : ∀ c ∈ "OpenCL_CPP".toList, c ≠ ' ' ∧ Plain c) c h
  | Other n => exact fmt_other n c h

/-- The text before a parenthesis -/
def SourceLanguage.words : List Text :=
  ["Unknown".toList, "ESSL".toList, "GLSL".toList, "OpenCL_C".toList, "OpenCL_CPP".toList, "Unknown(".toList]

theorem SourceLanguage.fmt_inj (a b : SourceLanguage) (h : Display.fmt a = Display.fmt b) : a = b := by
  have other (n : UInt32) : (Display.fmt (SourceLanguage.Other n)).take 8 = "Unknown(".toList := rfl
  cases a with
  | Other n =>
    cases b with
    | Other m =>
      have h : "Unknown(".toList ++ Display.fmt n ++ ")".toList =
        "Unknown(".toList ++ Display.fmt m ++ ")".toList := h
      rw [display_inj (List.append_cancel_left (List.append_cancel_right h))]
    | _ =>
      have h' := congrArg (List.take 8) h
      rw [other] at h'
      exact absurd h' (by decide)
  | _ =>
    cases b with
    | Other m =>
      have h' := congrArg (List.take 8) h
      rw [other] at h'
      exact absurd h' (by decide)
    | _ => first
      | rfl
      | exact absurd h (by decide)

instance : Token SourceLanguage := Token.word SourceLanguage.fmt_inj
  (fun a h => (SourceLanguage.fmt_mem a _ h).1 rfl)
  (fun a => by cases a <;> exact ⟨_, _, rfl, by decide⟩)
  (fun a c h => (SourceLanguage.fmt_mem a c h).2)

/-! #### Loop control -/

theorem mem_joinBar {ps : List Text} {c : Char} (h : c ∈ joinBar ps) :
    c = ' ' ∨ c = '|' ∨ ∃ p ∈ ps, c ∈ p := by
  induction ps using joinBar.induct with
  | case1 => cases h
  | case2 p => exact .inr (.inr ⟨p, by simp, h⟩)
  | case3 p ps hne ih =>
    cases ps with
    | nil => exact absurd rfl hne
    | cons q qs =>
      have h : c ∈ p ++ " | ".toList ++ joinBar (q :: qs) := h
      rcases List.mem_append.mp h with h | h
      · rcases List.mem_append.mp h with h | h
        · exact .inr (.inr ⟨p, by simp, h⟩)
        · have : ∀ c ∈ " | ".toList, c = ' ' ∨ c = '|' := by decide
          rcases this c h with h | h
          · exact .inl h
          · exact .inr (.inl h)
      · rcases ih h with h | h | ⟨p', hp', h⟩
        · exact .inl h
        · exact .inr (.inl h)
        · exact .inr (.inr ⟨p', List.mem_cons_of_mem _ hp', h⟩)

theorem split_inj {d : Char} {x y s t : Text} (hx : d ∉ x) (hy : d ∉ y) (h : x ++ d :: s = y ++ d :: t) :
    x = y ∧ s = t := by
  induction x generalizing y with
  | nil =>
    cases y with
    | nil => exact ⟨rfl, (List.cons.inj h).2⟩
    | cons c cs =>
      have := (List.cons.inj h).1
      subst this
      exact absurd (List.mem_cons_self) hy
  | cons c cs ih =>
    cases y with
    | nil =>
      have := (List.cons.inj h).1
      subst this
      exact absurd (List.mem_cons_self) hx
    | cons c' cs' =>
      obtain ⟨h0, h⟩ := List.cons.inj h
      obtain ⟨h1, h2⟩ := ih (fun m => hx (List.mem_cons_of_mem _ m))
        (fun m => hy (List.mem_cons_of_mem _ m)) h
      exact ⟨by rw [h0, h1], h2⟩

theorem joinBar_inj {ps qs : List Text} (hp : ∀ p ∈ ps, p ≠ [] ∧ '|' ∉ p) (hq : ∀ p ∈ qs, p ≠ [] ∧ '|' ∉ p)
    (h : joinBar ps = joinBar qs) : ps = qs := by
  have bar (p q : Text) (ps : List Text) : joinBar (p :: q :: ps) = p ++ [' '] ++ '|' :: ' ' :: joinBar (q :: ps) := by
    show p ++ " | ".toList ++ joinBar (q :: ps) = _
    rw [List.append_assoc, List.append_assoc]
    rfl
  have notin {p : Text} (h : '|' ∉ p) : '|' ∉ p ++ [' '] := by
    intro m
    rcases List.mem_append.mp m with m | m
    · exact h m
    · exact absurd m (by decide)
  induction ps generalizing qs with
  | nil =>
    cases qs with
    | nil => rfl
    | cons q qs =>
      cases qs with
      | nil => exact absurd h.symm (hq q (by simp)).1
      | cons q' qs =>
        rw [bar] at h
        exact absurd (congrArg List.length h) (by simp [joinBar])
  | cons p ps ih =>
    cases qs with
    | nil =>
      cases ps with
      | nil => exact absurd h (hp p (by simp)).1
      | cons q' qs =>
        rw [bar] at h
        exact absurd (congrArg List.length h) (by simp [joinBar])
    | cons q qs =>
      cases ps with
      | nil =>
        cases qs with
        | nil => have h : p = q := h; rw [h]
        | cons q' qs =>
          rw [bar] at h
          refine absurd ?_ (hp p (by simp)).2
          have h : p = _ := h
          rw [h]
          simp
      | cons p' ps =>
        cases qs with
        | nil =>
          rw [bar] at h
          refine absurd ?_ (hq q (by simp)).2
          have h : _ = q := h
          rw [← h]
          simp
        | cons q' qs =>
          rw [bar, bar] at h
          obtain ⟨h1, h2⟩ := split_inj (notin (hp p (by simp)).2) (notin (hq q (by simp)).2) h
          rw [List.append_cancel_right h1,
            ih (fun x hx => hp x (List.mem_cons_of_mem _ hx)) (fun x hx => hq x (List.mem_cons_of_mem _ hx))
              (List.cons.inj h2).2]

theorem joinParts_inj {ps qs : List Text} (hp : ∀ p ∈ ps, p ≠ [] ∧ '|' ∉ p ∧ p ≠ "None".toList)
    (hq : ∀ p ∈ qs, p ≠ [] ∧ '|' ∉ p ∧ p ≠ "None".toList) (h : joinParts ps = joinParts qs) : ps = qs := by
  have hp' : ∀ p ∈ ps, p ≠ [] ∧ '|' ∉ p := fun p m => ⟨(hp p m).1, (hp p m).2.1⟩
  have hq' : ∀ p ∈ qs, p ≠ [] ∧ '|' ∉ p := fun p m => ⟨(hq p m).1, (hq p m).2.1⟩
  have none (qs : List Text) (hq' : ∀ p ∈ qs, p ≠ [] ∧ '|' ∉ p) (h : joinBar ["None".toList] = joinBar qs) :
      qs = ["None".toList] :=
    (joinBar_inj (by intro p m; cases List.mem_singleton.mp m; decide) hq' h).symm
  cases ps with
  | nil =>
    cases qs with
    | nil => rfl
    | cons q qs =>
      have := none (q :: qs) hq' h
      exact absurd (List.cons.inj this).1 (hq q (by simp)).2.2
  | cons p ps =>
    cases qs with
    | nil =>
      have := none (p :: ps) hp' h.symm
      exact absurd (List.cons.inj this).1 (hp p (by simp)).2.2
    | cons q qs => exact joinBar_inj hp' hq' h

/-- The flags printed for a loop control -/
def LoopControl.parts (x : LoopControl) : List Text :=
  (if x.unroll then ["Unroll".toList] else []) ++
    (if x.dont_unroll then ["DontUnroll".toList] else []) ++
    (if x.dependency_infinite then ["DependencyInfinite".toList] else []) ++
    (match x.dependency_length with
      | some len => ["DependencyLength(".toList ++ Display.fmt len ++ ")".toList] | none => [])

/-- What a flag of a loop control looks like -/
def LoopControl.IsPart (p : Text) : Prop :=
  p = "Unroll".toList ∨ p = "DontUnroll".toList ∨ p = "DependencyInfinite".toList ∨
    ∃ len : UInt32, p = "DependencyLength(".toList ++ Display.fmt len ++ ")".toList

theorem LoopControl.part (x : LoopControl) : ∀ p ∈ x.parts, LoopControl.IsPart p := by
  intro p h
  obtain ⟨u, d, i, l⟩ := x
  simp only [parts, List.mem_append] at h
  rcases h with ((h | h) | h) | h
  · cases u
    · cases h
    · exact .inl (List.mem_singleton.mp h)
  · cases d
    · cases h
    · exact .inr (.inl (List.mem_singleton.mp h))
  · cases i
    · cases h
    · exact .inr (.inr (.inl (List.mem_singleton.mp h)))
  · cases l with
    | none => cases h
    | some n => exact .inr (.inr (.inr ⟨n, List.mem_singleton.mp h⟩))

theorem LoopControl.part_ok {p : Text} (h : LoopControl.IsPart p) :
    p ≠ [] ∧ '|' ∉ p ∧ p ≠ "None".toList ∧ ∀ c ∈ p, Plain c := by
  rcases h with rfl | rfl | rfl | ⟨n, rfl⟩
  · decide
  · decide
  · decide
  · refine ⟨by rintro ⟨⟩, ?_, ?_, plain_append (plain_append (by decide) (display_plain n)) (by decide)⟩
    · intro h
      rcases List.mem_append.mp h with h | h
      · rcases List.mem_append.mp h with h | h
        · exact absurd h (by decide)
        · exact digit_ne (fmtNat_digit h) (d := '|') (by decide) rfl
      · exact absurd h (by decide)
    · intro h
      exact absurd (List.cons.inj h).1 (by decide)

theorem mem_flag {b : Bool} {s t : Text} : t ∈ (if b then [s] else []) ↔ b = true ∧ t = s := by
  cases b <;> simp

theorem LoopControl.fmt_inj (a b : LoopControl) (h : Display.fmt a = Display.fmt b) : a = b := by
  have h : joinParts a.parts = joinParts b.parts := h
  have ok (x : LoopControl) (p : Text) (m : p ∈ x.parts) : p ≠ [] ∧ '|' ∉ p ∧ p ≠ "None".toList :=
    have := part_ok (part x p m)
    ⟨this.1, this.2.1, this.2.2.1⟩
  have h := joinParts_inj (ok a) (ok b) h
  have len (n m : UInt32) (h : "DependencyLength(".toList ++ Display.fmt n ++ ")".toList =
      "DependencyLength(".toList ++ Display.fmt m ++ ")".toList) : n = m :=
    display_inj (List.append_cancel_left (List.append_cancel_right h))
  obtain ⟨u, d, i, l⟩ := a
  obtain ⟨u', d', i', l'⟩ := b
  have first (s : Text) (n : UInt32) (hs : s[6]? ≠ some 'e' ∨ s[10]? ≠ some 'L') :
      s ≠ "DependencyLength(".toList ++ Display.fmt n ++ ")".toList := by
    rintro rfl
    rcases hs with hs | hs <;> exact hs rfl
  have mU (x : LoopControl) : x.unroll = true ↔ "Unroll".toList ∈ x.parts := by
    constructor
    · intro h
      exact (List.mem_append_left _ (List.mem_append_left _ (List.mem_append_left _ (mem_flag.mpr ⟨h, rfl⟩))))
    · intro h
      rcases List.mem_append.mp h with h | h
      · rcases List.mem_append.mp h with h | h
        · rcases List.mem_append.mp h with h | h
          · exact (mem_flag.mp h).1
          · exact absurd (mem_flag.mp h).2 (by decide)
        · exact absurd (mem_flag.mp h).2 (by decide)
      · cases hl : x.dependency_length with
        | none => rw [hl] at h; cases h
        | some n =>
          rw [hl] at h
          exact absurd (List.mem_singleton.mp h) (first _ n (by decide))
  have mD (x : LoopControl) : x.dont_unroll = true ↔ "DontUnroll".toList ∈ x.parts := by
    constructor
    · intro h
      exact (List.mem_append_left _ (List.mem_append_left _ (List.mem_append_right _ (mem_flag.mpr ⟨h, rfl⟩))))
    · intro h
      rcases List.mem_append.mp h with h | h
      · rcases List.mem_append.mp h with h | h
        · rcases List.mem_append.mp h with h | h
          · exact absurd (mem_flag.mp h).2 (by decide)
          · exact (mem_flag.mp h).1
        · exact absurd (mem_flag.mp h).2 (by decide)
      · cases hl : x.dependency_length with
        | none => rw [hl] at h; cases h
        | some n =>
          rw [hl] at h
          exact absurd (List.mem_singleton.mp h) (first _ n (by decide))
  have mI (x : LoopControl) : x.dependency_infinite = true ↔ "DependencyInfinite".toList ∈ x.parts := by
    constructor
    · intro h
      exact (List.mem_append_left _ (List.mem_append_right _ (mem_flag.mpr ⟨h, rfl⟩)))
    · intro h
      rcases List.mem_append.mp h with h | h
      · rcases List.mem_append.mp h with h | h
        · rcases List.mem_append.mp h with h | h
          · exact absurd (mem_flag.mp h).2 (by decide)
          · exact absurd (mem_flag.mp h).2 (by decide)
        · exact (mem_flag.mp h).1
      · cases hl : x.dependency_length with
        | none => rw [hl] at h; cases h
        | some n =>
          rw [hl] at h
          exact absurd (List.mem_singleton.mp h) (first _ n (by decide))
  have hu : u = u' := Bool.eq_iff_iff.mpr
    ((mU ⟨u, d, i, l⟩).trans (h ▸ (mU ⟨u', d', i', l'⟩).symm))
  have hd : d = d' := Bool.eq_iff_iff.mpr
    ((mD ⟨u, d, i, l⟩).trans (h ▸ (mD ⟨u', d', i', l'⟩).symm))
  have hi : i = i' := Bool.eq_iff_iff.mpr
    ((mI ⟨u, d, i, l⟩).trans (h ▸ (mI ⟨u', d', i', l'⟩).symm))
  cases hu
  cases hd
  cases hi
  have h := List.append_cancel_left h
  cases l with
  | none => cases l' with
    | none => rfl
    | some m => exact absurd (congrArg List.length h) (show ¬ 0 = 1 by decide)
  | some n => cases l' with
    | none => exact absurd (congrArg List.length h) (show ¬ 1 = 0 by decide)
    | some m => rw [len n m (List.cons.inj h).1]

theorem joinParts_plain {ps : List Text} (h : ∀ p ∈ ps, ∀ c ∈ p, Plain c) : ∀ c ∈ joinParts ps, Plain c := by
  intro c hc
  simp only [joinParts] at hc
  split at hc
  · exact (by decide : ∀ c ∈ "None".toList, Plain c) c hc
  · rcases mem_joinBar hc with rfl | rfl | ⟨p, hp, hc⟩
    · decide
    · decide
    · exact h p hp c hc

theorem LoopControl.fmt_plain (a : LoopControl) : ∀ c ∈ Display.fmt a, Plain c :=
  joinParts_plain (ps := a.parts) fun p hp => (part_ok (part a p hp)).2.2.2

instance : Arg LoopControl where
  inj h := LoopControl.fmt_inj _ _ (List.cons.inj h).2
  follows a := by
    refine .inr ?_
    obtain ⟨u, d, i, l⟩ := a
    cases u <;> cases d <;> cases i <;> cases l <;> exact ⟨_, _, rfl, by decide⟩

instance : PlainArg LoopControl where
  plain a := plain_append (s := [' ']) (by decide) (LoopControl.fmt_plain a)

end Magma
