import Verif.Proofs.TextTypes
/-! Generated by `tools/gen_text.py`: a printed instruction determines the instruction. -/

namespace Magma

/-- Nothing, or a space and more -/
def Spaced (s : Text) : Prop := s = [] ∨ ∃ t, s = ' ' :: t

theorem Spaced.append {s t : Text} (hs : Spaced s) (ht : Spaced t) : Spaced (s ++ t) := by
  rcases hs with rfl | ⟨s, rfl⟩
  · exact ht
  · exact .inr ⟨s ++ t, rfl⟩

/-- Arguments are preceded by a space. -/
class SpacedArg (α : Type) [FormatArg α] : Prop where
  spaced : ∀ a : α, Spaced (FormatArg.formatArg a)

instance {α : Type} [DisplayArg α] : SpacedArg α where
  spaced a := .inr ⟨DisplayArg.displayArg a, rfl⟩
instance {α : Type} [DisplayArg α] : SpacedArg (Option α) where
  spaced a := by
    cases a with
    | none => exact .inl rfl
    | some a => exact .inr ⟨DisplayArg.displayArg a, rfl⟩
instance {α : Type} [DisplayArg α] : SpacedArg (List α) where
  spaced a := by
    cases a with
    | nil => exact .inl rfl
    | cons a as => exact .inr ⟨_, rfl⟩

export SpacedArg (spaced)

theorem spaced_nil : Spaced [] := .inl rfl

theorem assoc1 {p n x0 : Text} : p ++ n ++ x0 = p ++ (n ++ (x0)) := by
  simp only [List.append_assoc]

theorem assoc2 {p n x0 x1 : Text} : p ++ n ++ x0 ++ x1 = p ++ (n ++ (x0 ++ x1)) := by
  simp only [List.append_assoc]

theorem assoc3 {p n x0 x1 x2 : Text} : p ++ n ++ x0 ++ x1 ++ x2 = p ++ (n ++ (x0 ++ (x1 ++ x2))) := by
  simp only [List.append_assoc]

theorem assoc4 {p n x0 x1 x2 x3 : Text} : p ++ n ++ x0 ++ x1 ++ x2 ++ x3 = p ++ (n ++ (x0 ++ (x1 ++ (x2 ++ x3)))) := by
  simp only [List.append_assoc]

theorem assoc5 {p n x0 x1 x2 x3 x4 : Text} : p ++ n ++ x0 ++ x1 ++ x2 ++ x3 ++ x4 = p ++ (n ++ (x0 ++ (x1 ++ (x2 ++ (x3 ++ x4))))) := by
  simp only [List.append_assoc]

theorem assoc6 {p n x0 x1 x2 x3 x4 x5 : Text} : p ++ n ++ x0 ++ x1 ++ x2 ++ x3 ++ x4 ++ x5 = p ++ (n ++ (x0 ++ (x1 ++ (x2 ++ (x3 ++ (x4 ++ x5)))))) := by
  simp only [List.append_assoc]

theorem assoc7 {p n x0 x1 x2 x3 x4 x5 x6 : Text} : p ++ n ++ x0 ++ x1 ++ x2 ++ x3 ++ x4 ++ x5 ++ x6 = p ++ (n ++ (x0 ++ (x1 ++ (x2 ++ (x3 ++ (x4 ++ (x5 ++ x6))))))) := by
  simp only [List.append_assoc]

theorem assoc8 {p n x0 x1 x2 x3 x4 x5 x6 x7 : Text} : p ++ n ++ x0 ++ x1 ++ x2 ++ x3 ++ x4 ++ x5 ++ x6 ++ x7 = p ++ (n ++ (x0 ++ (x1 ++ (x2 ++ (x3 ++ (x4 ++ (x5 ++ (x6 ++ x7)))))))) := by
  simp only [List.append_assoc]

theorem assoc0 {p n : Text} : p ++ n = p ++ (n ++ []) := by rw [List.append_nil]

theorem line_append {s t : Text} (hs : '\n' ∉ s) (ht : '\n' ∉ t) : '\n' ∉ s ++ t := by
  intro h
  rcases List.mem_append.mp h with h | h
  · exact hs h
  · exact ht h

theorem line_of_plain {s : Text} (h : ∀ c ∈ s, Plain c) : '\n' ∉ s := fun m => (h _ m).1 rfl

theorem line_string {s : String} (h : '\n' ∉ s.toList) : '\n' ∉ (FormatArg.formatArg s : Text) :=
  line_append (s := [' ']) (by decide) (line_append (line_append (by decide) h) (by decide))

theorem line_option_string {s : Option String} (h : ∀ t, s = some t → '\n' ∉ t.toList) :
    '\n' ∉ (FormatArg.formatArg s : Text) := by
  cases s with
  | none => exact (by decide : '\n' ∉ ([] : Text))
  | some s => exact line_string (h s rfl)

theorem Decoration.fmt_line {d : Decoration} (h : ∀ s l, d = .LinkageAttributes s l → '\n' ∉ s.toList) :
    '\n' ∉ Display.fmt d := by
  cases d with
  | RelaxedPrecision => exact (by decide : '\n' ∉ "RelaxedPrecision".toList)
  | SpecId x => exact line_append (by decide) (line_of_plain (display_plain x))
  | Block => exact (by decide : '\n' ∉ "Block".toList)
  | BufferBlock => exact (by decide : '\n' ∉ "BufferBlock".toList)
  | RowMajor => exact (by decide : '\n' ∉ "RowMajor".toList)
  | ColMajor => exact (by decide : '\n' ∉ "ColMajor".toList)
  | ArrayStride x => exact line_append (by decide) (line_of_plain (display_plain x))
  | MatrixStride x => exact line_append (by decide) (line_of_plain (display_plain x))
  | GlslShared => exact (by decide : '\n' ∉ "GLSLShared".toList)
  | GlslPacked => exact (by decide : '\n' ∉ "GLSLPacked".toList)
  | CPacked => exact (by decide : '\n' ∉ "CPacked".toList)
  | BuiltIn x => exact line_append (by decide) (line_of_plain (display_plain x))
  | NoPerspective => exact (by decide : '\n' ∉ "NoPerspective".toList)
  | Flat => exact (by decide : '\n' ∉ "Flat".toList)
  | Patch => exact (by decide : '\n' ∉ "Patch".toList)
  | Centroid => exact (by decide : '\n' ∉ "Centroid".toList)
  | Sample => exact (by decide : '\n' ∉ "Sample".toList)
  | Invariant => exact (by decide : '\n' ∉ "Invariant".toList)
  | Restrict => exact (by decide : '\n' ∉ "Restrict".toList)
  | Aliased => exact (by decide : '\n' ∉ "Aliased".toList)
  | Volatile => exact (by decide : '\n' ∉ "Volatile".toList)
  | Constant => exact (by decide : '\n' ∉ "Constant".toList)
  | Coherent => exact (by decide : '\n' ∉ "Coherent".toList)
  | NonWritable => exact (by decide : '\n' ∉ "NonWritable".toList)
  | NonReadable => exact (by decide : '\n' ∉ "NonReadable".toList)
  | Uniform => exact (by decide : '\n' ∉ "Uniform".toList)
  | SaturatedConversion => exact (by decide : '\n' ∉ "SaturatedConversion".toList)
  | Stream x => exact line_append (by decide) (line_of_plain (display_plain x))
  | Location x => exact line_append (by decide) (line_of_plain (display_plain x))
  | Component x => exact line_append (by decide) (line_of_plain (display_plain x))
  | Index x => exact line_append (by decide) (line_of_plain (display_plain x))
  | Binding x => exact line_append (by decide) (line_of_plain (display_plain x))
  | DescriptorSet x => exact line_append (by decide) (line_of_plain (display_plain x))
  | Offset x => exact line_append (by decide) (line_of_plain (display_plain x))
  | XfbBuffer x => exact line_append (by decide) (line_of_plain (display_plain x))
  | XfbStride x => exact line_append (by decide) (line_of_plain (display_plain x))
  | FuncParamAttr x => exact line_append (by decide) (line_of_plain (display_plain x))
  | FpRoundingMode x => exact line_append (by decide) (line_of_plain (display_plain x))
  | FpFastMathMode x => exact line_append (by decide) (line_of_plain (display_plain x))
  | LinkageAttributes x y =>
    exact line_append (line_append (line_append (by decide) (h x y rfl)) (by decide)) (line_of_plain (display_plain y))
  | NoContraction => exact (by decide : '\n' ∉ "NoContraction".toList)
  | InputAttachmentIndex x => exact line_append (by decide) (line_of_plain (display_plain x))
  | Alignment x => exact line_append (by decide) (line_of_plain (display_plain x))

theorem line_decoration {d : Decoration} (h : ∀ s l, d = .LinkageAttributes s l → '\n' ∉ s.toList) :
    '\n' ∉ (FormatArg.formatArg d : Text) :=
  line_append (s := [' ']) (by decide) (Decoration.fmt_line h)

theorem OpNop.layout (op : OpNop) :
    ∃ s, Spaced s ∧ Display.fmt op = fmtNoResult ++ ("OpNop".toList ++ s) :=
  ⟨_, spaced_nil, assoc0⟩

theorem OpNop.fmt_inj {a b : OpNop} (_ : Display.fmt a = Display.fmt b) : a = b := rfl

theorem OpNop.fmt_plain (op : OpNop) : ∀ c ∈ Display.fmt op, Plain c :=
  plain_append fmtNoResult_plain (by decide)

theorem OpUndef.layout (op : OpUndef) :
    ∃ s, Spaced s ∧ Display.fmt op = fmtResult op.result_id ++ ("OpUndef".toList ++ s) :=
  ⟨_, (spaced op.result_type), assoc1⟩

theorem OpUndef.fmt_inj {a b : OpUndef} (h : Display.fmt a = Display.fmt b) : a = b := by
  have h := assoc1.symm.trans (h.trans assoc1)
  obtain ⟨hr, h⟩ := fmtResult_inj h
  have h := List.append_cancel_left h
  have h0 := Arg.inj h
  cases a
  cases b
  rw [OpUndef.mk.injEq]
  exact ⟨h0, hr⟩

theorem OpUndef.fmt_plain (op : OpUndef) : ∀ c ∈ Display.fmt op, Plain c :=
  plain_append (plain_append (fmtResult_plain _) (by decide)) (PlainArg.plain op.result_type)

theorem OpSourceContinued.layout (op : OpSourceContinued) :
    ∃ s, Spaced s ∧ Display.fmt op = fmtNoResult ++ ("OpSourceContinued".toList ++ s) :=
  ⟨_, (spaced op.continued_source), assoc1⟩

theorem OpSourceContinued.fmt_inj {a b : OpSourceContinued} (h : Display.fmt a = Display.fmt b) : a = b := by
  have h := assoc1.symm.trans (h.trans assoc1)
  have h := List.append_cancel_left h
  have h := List.append_cancel_left h
  have h0 := Arg.inj h
  cases a
  cases b
  rw [OpSourceContinued.mk.injEq]
  exact h0

theorem OpSourceContinued.fmt_line (op : OpSourceContinued) (h_continued_source : '\n' ∉ op.continued_source.toList) : '\n' ∉ Display.fmt op :=
  line_append (line_append (line_of_plain fmtNoResult_plain) (by decide)) (line_string h_continued_source)

theorem OpSource.layout (op : OpSource) :
    ∃ s, Spaced s ∧ Display.fmt op = fmtNoResult ++ ("OpSource".toList ++ s) :=
  ⟨_, (Spaced.append (spaced op.language) (Spaced.append (spaced op.version) (Spaced.append (spaced op.file) (spaced op.source)))), assoc4⟩

theorem file_source_follows (f : Option OpId) (s : Option String) :
    Follows (FormatArg.formatArg f ++ FormatArg.formatArg s) := by
  cases f with
  | none => exact Arg.follows s
  | some f => exact arg_follows f _

theorem file_source_inj {f g : Option OpId} {s t : Option String}
    (h : (FormatArg.formatArg f : Text) ++ FormatArg.formatArg s =
      FormatArg.formatArg g ++ FormatArg.formatArg t) : f = g ∧ s = t := by
  have differ (f : OpId) (s t : Option String)
      (h : (FormatArg.formatArg f : Text) ++ FormatArg.formatArg s = FormatArg.formatArg t) : False := by
    cases t with
    | none => exact absurd h (show ¬ (' ' :: _ = []) by rintro ⟨⟩)
    | some t =>
      have h := (List.cons.inj (List.cons.inj h).2).1
      exact absurd h (show ¬ ('%' = '"') by decide)
  cases f with
  | none =>
    cases g with
    | none => exact ⟨rfl, Arg.inj h⟩
    | some g => exact absurd h.symm (differ g t s)
  | some f =>
    cases g with
    | none => exact absurd h (differ f s t)
    | some g =>
      obtain ⟨h1, h2⟩ := arg_inj (α := OpId) (Arg.follows _) (Arg.follows _) h
      exact ⟨by rw [h1], Arg.inj h2⟩

theorem OpSource.fmt_inj {a b : OpSource} (h : Display.fmt a = Display.fmt b) : a = b := by
  have h := assoc4.symm.trans (h.trans assoc4)
  have h := List.append_cancel_left h
  have h := List.append_cancel_left h
  obtain ⟨h0, h⟩ := arg_inj (arg_follows _ _) (arg_follows _ _) h
  obtain ⟨h1, h⟩ := arg_inj (file_source_follows _ _) (file_source_follows _ _) h
  obtain ⟨h2, h3⟩ := file_source_inj h
  cases a
  cases b
  rw [OpSource.mk.injEq]
  exact ⟨h0, h1, h2, h3⟩

theorem OpSource.fmt_line (op : OpSource) (h_source : ∀ s, op.source = some s → '\n' ∉ s.toList) : '\n' ∉ Display.fmt op :=
  line_append (line_append (line_append (line_append (line_append (line_of_plain fmtNoResult_plain) (by decide)) (line_of_plain (PlainArg.plain op.language))) (line_of_plain (PlainArg.plain op.version))) (line_of_plain (PlainArg.plain op.file))) (line_option_string h_source)

theorem OpSourceExtension.layout (op : OpSourceExtension) :
    ∃ s, Spaced s ∧ Display.fmt op = fmtNoResult ++ ("OpSourceExtension".toList ++ s) :=
  ⟨_, (spaced op.extension), assoc1⟩

theorem OpSourceExtension.fmt_inj {a b : OpSourceExtension} (h : Display.fmt a = Display.fmt b) : a = b := by
  have h := assoc1.symm.trans (h.trans assoc1)
  have h := List.append_cancel_left h
  have h := List.append_cancel_left h
  have h0 := Arg.inj h
  cases a
  cases b
  rw [OpSourceExtension.mk.injEq]
  exact h0

theorem OpSourceExtension.fmt_line (op : OpSourceExtension) (h_extension : '\n' ∉ op.extension.toList) : '\n' ∉ Display.fmt op :=
  line_append (line_append (line_of_plain fmtNoResult_plain) (by decide)) (line_string h_extension)

theorem OpName.layout (op : OpName) :
    ∃ s, Spaced s ∧ Display.fmt op = fmtNoResult ++ ("OpName".toList ++ s) :=
  ⟨_, (Spaced.append (spaced op.target) (spaced op.name)), assoc2⟩

theorem OpName.fmt_inj {a b : OpName} (h : Display.fmt a = Display.fmt b) : a = b := by
  have h := assoc2.symm.trans (h.trans assoc2)
  have h := List.append_cancel_left h
  have h := List.append_cancel_left h
  obtain ⟨h0, h⟩ := arg_inj (Arg.follows _) (Arg.follows _) h
  have h1 := Arg.inj h
  cases a
  cases b
  rw [OpName.mk.injEq]
  exact ⟨h0, h1⟩

theorem OpName.fmt_line (op : OpName) (h_name : '\n' ∉ op.name.toList) : '\n' ∉ Display.fmt op :=
  line_append (line_append (line_append (line_of_plain fmtNoResult_plain) (by decide)) (line_of_plain (PlainArg.plain op.target))) (line_string h_name)

theorem OpMemberName.layout (op : OpMemberName) :
    ∃ s, Spaced s ∧ Display.fmt op = fmtNoResult ++ ("OpMemberName".toList ++ s) :=
  ⟨_, (Spaced.append (spaced op.struct_type) (Spaced.append (spaced op.member) (spaced op.name))), assoc3⟩

theorem OpMemberName.fmt_inj {a b : OpMemberName} (h : Display.fmt a = Display.fmt b) : a = b := by
  have h := assoc3.symm.trans (h.trans assoc3)
  have h := List.append_cancel_left h
  have h := List.append_cancel_left h
  obtain ⟨h0, h⟩ := arg_inj (arg_follows _ _) (arg_follows _ _) h
  obtain ⟨h1, h⟩ := arg_inj (Arg.follows _) (Arg.follows _) h
  have h2 := Arg.inj h
  cases a
  cases b
  rw [OpMemberName.mk.injEq]
  exact ⟨h0, h1, h2⟩

theorem OpMemberName.fmt_line (op : OpMemberName) (h_name : '\n' ∉ op.name.toList) : '\n' ∉ Display.fmt op :=
  line_append (line_append (line_append (line_append (line_of_plain fmtNoResult_plain) (by decide)) (line_of_plain (PlainArg.plain op.struct_type))) (line_of_plain (PlainArg.plain op.member))) (line_string h_name)

theorem OpString.layout (op : OpString) :
    ∃ s, Spaced s ∧ Display.fmt op = fmtResult op.result_id ++ ("OpString".toList ++ s) :=
  ⟨_, (spaced op.string), assoc1⟩

theorem OpString.fmt_inj {a b : OpString} (h : Display.fmt a = Display.fmt b) : a = b := by
  have h := assoc1.symm.trans (h.trans assoc1)
  obtain ⟨hr, h⟩ := fmtResult_inj h
  have h := List.append_cancel_left h
  have h0 := Arg.inj h
  cases a
  cases b
  rw [OpString.mk.injEq]
  exact ⟨hr, h0⟩

theorem OpString.fmt_line (op : OpString) (h_string : '\n' ∉ op.string.toList) : '\n' ∉ Display.fmt op :=
  line_append (line_append (line_of_plain (fmtResult_plain _)) (by decide)) (line_string h_string)

theorem OpExtension.layout (op : OpExtension) :
    ∃ s, Spaced s ∧ Display.fmt op = fmtNoResult ++ ("OpExtension".toList ++ s) :=
  ⟨_, (spaced op.name), assoc1⟩

theorem OpExtension.fmt_inj {a b : OpExtension} (h : Display.fmt a = Display.fmt b) : a = b := by
  have h := assoc1.symm.trans (h.trans assoc1)
  have h := List.append_cancel_left h
  have h := List.append_cancel_left h
  have h0 := Arg.inj h
  cases a
  cases b
  rw [OpExtension.mk.injEq]
  exact h0

theorem OpExtension.fmt_line (op : OpExtension) (h_name : '\n' ∉ op.name.toList) : '\n' ∉ Display.fmt op :=
  line_append (line_append (line_of_plain fmtNoResult_plain) (by decide)) (line_string h_name)

theorem OpExtInstImport.layout (op : OpExtInstImport) :
    ∃ s, Spaced s ∧ Display.fmt op = fmtResult op.result_id ++ ("OpExtInstImport".toList ++ s) :=
  ⟨_, (spaced op.name), assoc1⟩

theorem OpExtInstImport.fmt_inj {a b : OpExtInstImport} (h : Display.fmt a = Display.fmt b) : a = b := by
  have h := assoc1.symm.trans (h.trans assoc1)
  obtain ⟨hr, h⟩ := fmtResult_inj h
  have h := List.append_cancel_left h
  have h0 := Arg.inj h
  cases a
  cases b
  rw [OpExtInstImport.mk.injEq]
  exact ⟨hr, h0⟩

theorem OpExtInstImport.fmt_line (op : OpExtInstImport) (h_name : '\n' ∉ op.name.toList) : '\n' ∉ Display.fmt op :=
  line_append (line_append (line_of_plain (fmtResult_plain _)) (by decide)) (line_string h_name)

theorem OpExtInst.layout {X : Type} [Display X] (op : OpExtInst X) :
    ∃ s, Spaced s ∧ Display.fmt op = fmtResult op.result_id ++ ("OpExtInst".toList ++ s) :=
  ⟨_, (Spaced.append (spaced op.result_type) (Spaced.append (spaced op.set) (spaced op.instruction))), assoc3⟩

theorem id_inj {i j : OpId} {s t : Text}
    (h : (FormatArg.formatArg i : Text) ++ ' ' :: s = FormatArg.formatArg j ++ ' ' :: t) :
    i = j ∧ ' ' :: s = ' ' :: t := by
  have hs (i : OpId) : ' ' ∉ Display.fmt i := by
    intro hi
    rcases mem_display_id hi with hi | hi
    · exact absurd hi (by decide)
    · exact absurd hi (by decide)
  obtain ⟨h1, h2⟩ := split_inj (hs i) (hs j) (List.cons.inj h).2
  exact ⟨display_inj h1, by rw [h2]⟩

theorem OpExtInst.fmt_inj {X : Type} [Display X] {a b : OpExtInst X} (hx : ∀ x y : X, Display.fmt x = Display.fmt y → x = y) (h : Display.fmt a = Display.fmt b) : a = b := by
  have h := assoc3.symm.trans (h.trans assoc3)
  obtain ⟨hr, h⟩ := fmtResult_inj h
  have h := List.append_cancel_left h
  obtain ⟨h0, h⟩ := arg_inj (arg_follows _ _) (arg_follows _ _) h
  obtain ⟨h1, h⟩ := id_inj h
  have h2 := hx _ _ (List.cons.inj h).2
  cases a
  cases b
  rw [OpExtInst.mk.injEq]
  exact ⟨h0, hr, h1, h2⟩

theorem OpExtInst.fmt_plain {X : Type} [Display X] (op : OpExtInst X) (hx : ∀ x : X, ∀ c ∈ Display.fmt x, Plain c) : ∀ c ∈ Display.fmt op, Plain c :=
  plain_append (plain_append (plain_append (plain_append (fmtResult_plain _) (by decide)) (PlainArg.plain op.result_type)) (PlainArg.plain op.set)) (plain_append (s := [' ']) (by decide) (hx _))

theorem OpMemoryModel.layout (op : OpMemoryModel) :
    ∃ s, Spaced s ∧ Display.fmt op = fmtNoResult ++ ("OpMemoryModel".toList ++ s) :=
  ⟨_, (Spaced.append (spaced op.addressing_model) (spaced op.memory_model)), assoc2⟩

theorem OpMemoryModel.fmt_inj {a b : OpMemoryModel} (h : Display.fmt a = Display.fmt b) : a = b := by
  have h := assoc2.symm.trans (h.trans assoc2)
  have h := List.append_cancel_left h
  have h := List.append_cancel_left h
  obtain ⟨h0, h⟩ := arg_inj (Arg.follows _) (Arg.follows _) h
  have h1 := Arg.inj h
  cases a
  cases b
  rw [OpMemoryModel.mk.injEq]
  exact ⟨h0, h1⟩

theorem OpMemoryModel.fmt_plain (op : OpMemoryModel) : ∀ c ∈ Display.fmt op, Plain c :=
  plain_append (plain_append (plain_append fmtNoResult_plain (by decide)) (PlainArg.plain op.addressing_model)) (PlainArg.plain op.memory_model)

theorem OpEntryPoint.layout (op : OpEntryPoint) :
    ∃ s, Spaced s ∧ Display.fmt op = fmtNoResult ++ ("OpEntryPoint".toList ++ s) :=
  ⟨_, (Spaced.append (spaced op.execution_model) (Spaced.append (spaced op.entry_point) (Spaced.append (spaced op.name) (spaced op.interface)))), assoc4⟩

theorem quoted_follows (s : String) (t : Text) : Follows (FormatArg.formatArg s ++ t) :=
  .inr ⟨'"', _, rfl, by decide⟩

theorem quoted_inj {s t : String} {a b : List OpId}
    (h : (FormatArg.formatArg s : Text) ++ FormatArg.formatArg a =
      FormatArg.formatArg t ++ FormatArg.formatArg b) : s = t ∧ a = b := by
  have q (a : List OpId) : '"' ∉ (FormatArg.formatArg a : Text).reverse := by
    intro hm
    have hm := List.mem_reverse.mp hm
    obtain ⟨i, -, hi⟩ := List.mem_flatMap.mp hm
    have hi : '"' ∈ ' ' :: Display.fmt i := hi
    rcases List.mem_cons.mp hi with hi | hi
    · exact absurd hi (by decide)
    · rcases mem_display_id hi with hi | hi
      · exact absurd hi (by decide)
      · exact absurd hi (by decide)
  have e (s : String) (a : List OpId) : ((FormatArg.formatArg s : Text) ++ FormatArg.formatArg a).reverse =
      (FormatArg.formatArg a : Text).reverse ++ '"' :: (' ' :: '"' :: s.toList).reverse := by
    have : (FormatArg.formatArg s : Text) = (' ' :: '"' :: s.toList) ++ ['"'] := rfl
    rw [this]
    simp
  have h := congrArg List.reverse h
  rw [e, e] at h
  obtain ⟨h1, h2⟩ := split_inj (q a) (q b) h
  have h2 := List.reverse_inj.mp h2
  exact ⟨String.ext_iff.mpr (List.cons.inj (List.cons.inj h2).2).2, Arg.inj (List.reverse_inj.mp h1)⟩

theorem OpEntryPoint.fmt_inj {a b : OpEntryPoint} (h : Display.fmt a = Display.fmt b) : a = b := by
  have h := assoc4.symm.trans (h.trans assoc4)
  have h := List.append_cancel_left h
  have h := List.append_cancel_left h
  obtain ⟨h0, h⟩ := arg_inj (arg_follows _ _) (arg_follows _ _) h
  obtain ⟨h1, h⟩ := arg_inj (quoted_follows _ _) (quoted_follows _ _) h
  obtain ⟨h2, h3⟩ := quoted_inj h
  cases a
  cases b
  rw [OpEntryPoint.mk.injEq]
  exact ⟨h0, h1, h2, h3⟩

theorem OpEntryPoint.fmt_line (op : OpEntryPoint) (h_name : '\n' ∉ op.name.toList) : '\n' ∉ Display.fmt op :=
  line_append (line_append (line_append (line_append (line_append (line_of_plain fmtNoResult_plain) (by decide)) (line_of_plain (PlainArg.plain op.execution_model))) (line_of_plain (PlainArg.plain op.entry_point))) (line_string h_name)) (line_of_plain (PlainArg.plain op.interface))

theorem OpExecutionMode.layout (op : OpExecutionMode) :
    ∃ s, Spaced s ∧ Display.fmt op = fmtNoResult ++ ("OpExecutionMode".toList ++ s) :=
  ⟨_, (Spaced.append (spaced op.entry_point) (spaced op.mode)), assoc2⟩

theorem OpExecutionMode.fmt_inj {a b : OpExecutionMode} (h : Display.fmt a = Display.fmt b) : a = b := by
  have h := assoc2.symm.trans (h.trans assoc2)
  have h := List.append_cancel_left h
  have h := List.append_cancel_left h
  obtain ⟨h0, h⟩ := arg_inj (Arg.follows _) (Arg.follows _) h
  have h1 := Arg.inj h
  cases a
  cases b
  rw [OpExecutionMode.mk.injEq]
  exact ⟨h0, h1⟩

theorem OpExecutionMode.fmt_plain (op : OpExecutionMode) : ∀ c ∈ Display.fmt op, Plain c :=
  plain_append (plain_append (plain_append fmtNoResult_plain (by decide)) (PlainArg.plain op.entry_point)) (PlainArg.plain op.mode)

theorem OpCapability.layout (op : OpCapability) :
    ∃ s, Spaced s ∧ Display.fmt op = fmtNoResult ++ ("OpCapability".toList ++ s) :=
  ⟨_, (spaced op.capability), assoc1⟩

theorem OpCapability.fmt_inj {a b : OpCapability} (h : Display.fmt a = Display.fmt b) : a = b := by
  have h := assoc1.symm.trans (h.trans assoc1)
  have h := List.append_cancel_left h
  have h := List.append_cancel_left h
  have h0 := Arg.inj h
  cases a
  cases b
  rw [OpCapability.mk.injEq]
  exact h0

theorem OpCapability.fmt_plain (op : OpCapability) : ∀ c ∈ Display.fmt op, Plain c :=
  plain_append (plain_append fmtNoResult_plain (by decide)) (PlainArg.plain op.capability)

theorem OpTypeVoid.layout (op : OpTypeVoid) :
    ∃ s, Spaced s ∧ Display.fmt op = fmtResult op.result_id ++ ("OpTypeVoid".toList ++ s) :=
  ⟨_, spaced_nil, assoc0⟩

theorem OpTypeVoid.fmt_inj {a b : OpTypeVoid} (h : Display.fmt a = Display.fmt b) : a = b := by
  have h := assoc0.symm.trans (h.trans assoc0)
  obtain ⟨hr, h⟩ := fmtResult_inj h
  have h := List.append_cancel_left h
  cases a
  cases b
  rw [OpTypeVoid.mk.injEq]
  exact hr

theorem OpTypeVoid.fmt_plain (op : OpTypeVoid) : ∀ c ∈ Display.fmt op, Plain c :=
  plain_append (fmtResult_plain _) (by decide)

theorem OpTypeBool.layout (op : OpTypeBool) :
    ∃ s, Spaced s ∧ Display.fmt op = fmtResult op.result_id ++ ("OpTypeBool".toList ++ s) :=
  ⟨_, spaced_nil, assoc0⟩

theorem OpTypeBool.fmt_inj {a b : OpTypeBool} (h : Display.fmt a = Display.fmt b) : a = b := by
  have h := assoc0.symm.trans (h.trans assoc0)
  obtain ⟨hr, h⟩ := fmtResult_inj h
  have h := List.append_cancel_left h
  cases a
  cases b
  rw [OpTypeBool.mk.injEq]
  exact hr

theorem OpTypeBool.fmt_plain (op : OpTypeBool) : ∀ c ∈ Display.fmt op, Plain c :=
  plain_append (fmtResult_plain _) (by decide)

theorem OpTypeInt.layout (op : OpTypeInt) :
    ∃ s, Spaced s ∧ Display.fmt op = fmtResult op.result_id ++ ("OpTypeInt".toList ++ s) :=
  ⟨_, (Spaced.append (spaced op.width) (spaced op.signedness)), assoc2⟩

theorem OpTypeInt.fmt_inj {a b : OpTypeInt} (h : Display.fmt a = Display.fmt b) : a = b := by
  have h := assoc2.symm.trans (h.trans assoc2)
  obtain ⟨hr, h⟩ := fmtResult_inj h
  have h := List.append_cancel_left h
  obtain ⟨h0, h⟩ := arg_inj (Arg.follows _) (Arg.follows _) h
  have h1 := Arg.inj h
  cases a
  cases b
  rw [OpTypeInt.mk.injEq]
  exact ⟨hr, h0, h1⟩

theorem OpTypeInt.fmt_plain (op : OpTypeInt) : ∀ c ∈ Display.fmt op, Plain c :=
  plain_append (plain_append (plain_append (fmtResult_plain _) (by decide)) (PlainArg.plain op.width)) (PlainArg.plain op.signedness)

theorem OpTypeFloat.layout (op : OpTypeFloat) :
    ∃ s, Spaced s ∧ Display.fmt op = fmtResult op.result_id ++ ("OpTypeFloat".toList ++ s) :=
  ⟨_, (spaced op.width), assoc1⟩

theorem OpTypeFloat.fmt_inj {a b : OpTypeFloat} (h : Display.fmt a = Display.fmt b) : a = b := by
  have h := assoc1.symm.trans (h.trans assoc1)
  obtain ⟨hr, h⟩ := fmtResult_inj h
  have h := List.append_cancel_left h
  have h0 := Arg.inj h
  cases a
  cases b
  rw [OpTypeFloat.mk.injEq]
  exact ⟨hr, h0⟩

theorem OpTypeFloat.fmt_plain (op : OpTypeFloat) : ∀ c ∈ Display.fmt op, Plain c :=
  plain_append (plain_append (fmtResult_plain _) (by decide)) (PlainArg.plain op.width)

theorem OpTypeVector.layout (op : OpTypeVector) :
    ∃ s, Spaced s ∧ Display.fmt op = fmtResult op.result_id ++ ("OpTypeVector".toList ++ s) :=
  ⟨_, (Spaced.append (spaced op.component_type) (spaced op.component_count)), assoc2⟩

theorem OpTypeVector.fmt_inj {a b : OpTypeVector} (h : Display.fmt a = Display.fmt b) : a = b := by
  have h := assoc2.symm.trans (h.trans assoc2)
  obtain ⟨hr, h⟩ := fmtResult_inj h
  have h := List.append_cancel_left h
  obtain ⟨h0, h⟩ := arg_inj (Arg.follows _) (Arg.follows _) h
  have h1 := Arg.inj h
  cases a
  cases b
  rw [OpTypeVector.mk.injEq]
  exact ⟨hr, h0, h1⟩

theorem OpTypeVector.fmt_plain (op : OpTypeVector) : ∀ c ∈ Display.fmt op, Plain c :=
  plain_append (plain_append (plain_append (fmtResult_plain _) (by decide)) (PlainArg.plain op.component_type)) (PlainArg.plain op.component_count)

theorem OpTypeMatrix.layout (op : OpTypeMatrix) :
    ∃ s, Spaced s ∧ Display.fmt op = fmtResult op.result_id ++ ("OpTypeMatrix".toList ++ s) :=
  ⟨_, (Spaced.append (spaced op.column_type) (spaced op.column_count)), assoc2⟩

theorem OpTypeMatrix.fmt_inj {a b : OpTypeMatrix} (h : Display.fmt a = Display.fmt b) : a = b := by
  have h := assoc2.symm.trans (h.trans assoc2)
  obtain ⟨hr, h⟩ := fmtResult_inj h
  have h := List.append_cancel_left h
  obtain ⟨h0, h⟩ := arg_inj (Arg.follows _) (Arg.follows _) h
  have h1 := Arg.inj h
  cases a
  cases b
  rw [OpTypeMatrix.mk.injEq]
  exact ⟨hr, h0, h1⟩

theorem OpTypeMatrix.fmt_plain (op : OpTypeMatrix) : ∀ c ∈ Display.fmt op, Plain c :=
  plain_append (plain_append (plain_append (fmtResult_plain _) (by decide)) (PlainArg.plain op.column_type)) (PlainArg.plain op.column_count)

theorem OpTypeImage.layout (op : OpTypeImage) :
    ∃ s, Spaced s ∧ Display.fmt op = fmtResult op.result_id ++ ("OpTypeImage".toList ++ s) :=
  ⟨_, (Spaced.append (spaced op.sampled_type) (Spaced.append (spaced op.dim) (Spaced.append (spaced op.depth) (Spaced.append (spaced op.arrayed) (Spaced.append (spaced op.ms) (Spaced.append (spaced op.sampled) (Spaced.append (spaced op.format) (spaced op.access_qualifier)))))))), assoc8⟩

theorem OpTypeImage.fmt_inj {a b : OpTypeImage} (h : Display.fmt a = Display.fmt b) : a = b := by
  have h := assoc8.symm.trans (h.trans assoc8)
  obtain ⟨hr, h⟩ := fmtResult_inj h
  have h := List.append_cancel_left h
  obtain ⟨h0, h⟩ := arg_inj (arg_follows _ _) (arg_follows _ _) h
  obtain ⟨h1, h⟩ := arg_inj (arg_follows _ _) (arg_follows _ _) h
  obtain ⟨h2, h⟩ := arg_inj (arg_follows _ _) (arg_follows _ _) h
  obtain ⟨h3, h⟩ := arg_inj (arg_follows _ _) (arg_follows _ _) h
  obtain ⟨h4, h⟩ := arg_inj (arg_follows _ _) (arg_follows _ _) h
  obtain ⟨h5, h⟩ := arg_inj (arg_follows _ _) (arg_follows _ _) h
  obtain ⟨h6, h⟩ := arg_inj (Arg.follows _) (Arg.follows _) h
  have h7 := Arg.inj h
  cases a
  cases b
  rw [OpTypeImage.mk.injEq]
  exact ⟨hr, h0, h1, h2, h3, h4, h5, h6, h7⟩

theorem OpTypeImage.fmt_plain (op : OpTypeImage) : ∀ c ∈ Display.fmt op, Plain c :=
  plain_append (plain_append (plain_append (plain_append (plain_append (plain_append (plain_append (plain_append (plain_append (fmtResult_plain _) (by decide)) (PlainArg.plain op.sampled_type)) (PlainArg.plain op.dim)) (PlainArg.plain op.depth)) (PlainArg.plain op.arrayed)) (PlainArg.plain op.ms)) (PlainArg.plain op.sampled)) (PlainArg.plain op.format)) (PlainArg.plain op.access_qualifier)

theorem OpTypeSampler.layout (op : OpTypeSampler) :
    ∃ s, Spaced s ∧ Display.fmt op = fmtResult op.result_id ++ ("OpTypeSampler".toList ++ s) :=
  ⟨_, spaced_nil, assoc0⟩

theorem OpTypeSampler.fmt_inj {a b : OpTypeSampler} (h : Display.fmt a = Display.fmt b) : a = b := by
  have h := assoc0.symm.trans (h.trans assoc0)
  obtain ⟨hr, h⟩ := fmtResult_inj h
  have h := List.append_cancel_left h
  cases a
  cases b
  rw [OpTypeSampler.mk.injEq]
  exact hr

theorem OpTypeSampler.fmt_plain (op : OpTypeSampler) : ∀ c ∈ Display.fmt op, Plain c :=
  plain_append (fmtResult_plain _) (by decide)

theorem OpTypeSampledImage.layout (op : OpTypeSampledImage) :
    ∃ s, Spaced s ∧ Display.fmt op = fmtResult op.result_id ++ ("OpTypeSampledImage".toList ++ s) :=
  ⟨_, (spaced op.image_type), assoc1⟩

theorem OpTypeSampledImage.fmt_inj {a b : OpTypeSampledImage} (h : Display.fmt a = Display.fmt b) : a = b := by
  have h := assoc1.symm.trans (h.trans assoc1)
  obtain ⟨hr, h⟩ := fmtResult_inj h
  have h := List.append_cancel_left h
  have h0 := Arg.inj h
  cases a
  cases b
  rw [OpTypeSampledImage.mk.injEq]
  exact ⟨hr, h0⟩

theorem OpTypeSampledImage.fmt_plain (op : OpTypeSampledImage) : ∀ c ∈ Display.fmt op, Plain c :=
  plain_append (plain_append (fmtResult_plain _) (by decide)) (PlainArg.plain op.image_type)

theorem OpTypeArray.layout (op : OpTypeArray) :
    ∃ s, Spaced s ∧ Display.fmt op = fmtResult op.result_id ++ ("OpTypeArray".toList ++ s) :=
  ⟨_, (Spaced.append (spaced op.element_type) (spaced op.length)), assoc2⟩

theorem OpTypeArray.fmt_inj {a b : OpTypeArray} (h : Display.fmt a = Display.fmt b) : a = b := by
  have h := assoc2.symm.trans (h.trans assoc2)
  obtain ⟨hr, h⟩ := fmtResult_inj h
  have h := List.append_cancel_left h
  obtain ⟨h0, h⟩ := arg_inj (Arg.follows _) (Arg.follows _) h
  have h1 := Arg.inj h
  cases a
  cases b
  rw [OpTypeArray.mk.injEq]
  exact ⟨hr, h0, h1⟩

theorem OpTypeArray.fmt_plain (op : OpTypeArray) : ∀ c ∈ Display.fmt op, Plain c :=
  plain_append (plain_append (plain_append (fmtResult_plain _) (by decide)) (PlainArg.plain op.element_type)) (PlainArg.plain op.length)

theorem OpTypeRuntimeArray.layout (op : OpTypeRuntimeArray) :
    ∃ s, Spaced s ∧ Display.fmt op = fmtResult op.result_id ++ ("OpTypeRuntimeArray".toList ++ s) :=
  ⟨_, (spaced op.element_type), assoc1⟩

theorem OpTypeRuntimeArray.fmt_inj {a b : OpTypeRuntimeArray} (h : Display.fmt a = Display.fmt b) : a = b := by
  have h := assoc1.symm.trans (h.trans assoc1)
  obtain ⟨hr, h⟩ := fmtResult_inj h
  have h := List.append_cancel_left h
  have h0 := Arg.inj h
  cases a
  cases b
  rw [OpTypeRuntimeArray.mk.injEq]
  exact ⟨hr, h0⟩

theorem OpTypeRuntimeArray.fmt_plain (op : OpTypeRuntimeArray) : ∀ c ∈ Display.fmt op, Plain c :=
  plain_append (plain_append (fmtResult_plain _) (by decide)) (PlainArg.plain op.element_type)

theorem OpTypeStruct.layout (op : OpTypeStruct) :
    ∃ s, Spaced s ∧ Display.fmt op = fmtResult op.result_id ++ ("OpTypeStruct".toList ++ s) :=
  ⟨_, (spaced op.member_types), assoc1⟩

theorem OpTypeStruct.fmt_inj {a b : OpTypeStruct} (h : Display.fmt a = Display.fmt b) : a = b := by
  have h := assoc1.symm.trans (h.trans assoc1)
  obtain ⟨hr, h⟩ := fmtResult_inj h
  have h := List.append_cancel_left h
  have h0 := Arg.inj h
  cases a
  cases b
  rw [OpTypeStruct.mk.injEq]
  exact ⟨hr, h0⟩

theorem OpTypeStruct.fmt_plain (op : OpTypeStruct) : ∀ c ∈ Display.fmt op, Plain c :=
  plain_append (plain_append (fmtResult_plain _) (by decide)) (PlainArg.plain op.member_types)

theorem OpTypeOpaque.layout (op : OpTypeOpaque) :
    ∃ s, Spaced s ∧ Display.fmt op = fmtResult op.result_id ++ ("OpTypeOpaque".toList ++ s) :=
  ⟨_, (spaced op.name), assoc1⟩

theorem OpTypeOpaque.fmt_inj {a b : OpTypeOpaque} (h : Display.fmt a = Display.fmt b) : a = b := by
  have h := assoc1.symm.trans (h.trans assoc1)
  obtain ⟨hr, h⟩ := fmtResult_inj h
  have h := List.append_cancel_left h
  have h0 := Arg.inj h
  cases a
  cases b
  rw [OpTypeOpaque.mk.injEq]
  exact ⟨hr, h0⟩

theorem OpTypeOpaque.fmt_line (op : OpTypeOpaque) (h_name : '\n' ∉ op.name.toList) : '\n' ∉ Display.fmt op :=
  line_append (line_append (line_of_plain (fmtResult_plain _)) (by decide)) (line_string h_name)

theorem OpTypePointer.layout (op : OpTypePointer) :
    ∃ s, Spaced s ∧ Display.fmt op = fmtResult op.result_id ++ ("OpTypePointer".toList ++ s) :=
  ⟨_, (Spaced.append (spaced op.storage_class) (spaced op.pointed_type)), assoc2⟩

theorem OpTypePointer.fmt_inj {a b : OpTypePointer} (h : Display.fmt a = Display.fmt b) : a = b := by
  have h := assoc2.symm.trans (h.trans assoc2)
  obtain ⟨hr, h⟩ := fmtResult_inj h
  have h := List.append_cancel_left h
  obtain ⟨h0, h⟩ := arg_inj (Arg.follows _) (Arg.follows _) h
  have h1 := Arg.inj h
  cases a
  cases b
  rw [OpTypePointer.mk.injEq]
  exact ⟨hr, h0, h1⟩

theorem OpTypePointer.fmt_plain (op : OpTypePointer) : ∀ c ∈ Display.fmt op, Plain c :=
  plain_append (plain_append (plain_append (fmtResult_plain _) (by decide)) (PlainArg.plain op.storage_class)) (PlainArg.plain op.pointed_type)

theorem OpTypeFunction.layout (op : OpTypeFunction) :
    ∃ s, Spaced s ∧ Display.fmt op = fmtResult op.result_id ++ ("OpTypeFunction".toList ++ s) :=
  ⟨_, (Spaced.append (spaced op.return_type) (spaced op.parameter_types)), assoc2⟩

theorem OpTypeFunction.fmt_inj {a b : OpTypeFunction} (h : Display.fmt a = Display.fmt b) : a = b := by
  have h := assoc2.symm.trans (h.trans assoc2)
  obtain ⟨hr, h⟩ := fmtResult_inj h
  have h := List.append_cancel_left h
  obtain ⟨h0, h⟩ := arg_inj (Arg.follows _) (Arg.follows _) h
  have h1 := Arg.inj h
  cases a
  cases b
  rw [OpTypeFunction.mk.injEq]
  exact ⟨hr, h0, h1⟩

theorem OpTypeFunction.fmt_plain (op : OpTypeFunction) : ∀ c ∈ Display.fmt op, Plain c :=
  plain_append (plain_append (plain_append (fmtResult_plain _) (by decide)) (PlainArg.plain op.return_type)) (PlainArg.plain op.parameter_types)

theorem OpTypeEvent.layout (op : OpTypeEvent) :
    ∃ s, Spaced s ∧ Display.fmt op = fmtResult op.result_id ++ ("OpTypeEvent".toList ++ s) :=
  ⟨_, spaced_nil, assoc0⟩

theorem OpTypeEvent.fmt_inj {a b : OpTypeEvent} (h : Display.fmt a = Display.fmt b) : a = b := by
  have h := assoc0.symm.trans (h.trans assoc0)
  obtain ⟨hr, h⟩ := fmtResult_inj h
  have h := List.append_cancel_left h
  cases a
  cases b
  rw [OpTypeEvent.mk.injEq]
  exact hr

theorem OpTypeEvent.fmt_plain (op : OpTypeEvent) : ∀ c ∈ Display.fmt op, Plain c :=
  plain_append (fmtResult_plain _) (by decide)

theorem OpTypeDeviceEvent.layout (op : OpTypeDeviceEvent) :
    ∃ s, Spaced s ∧ Display.fmt op = fmtResult op.result_id ++ ("OpTypeDeviceEvent".toList ++ s) :=
  ⟨_, spaced_nil, assoc0⟩

theorem OpTypeDeviceEvent.fmt_inj {a b : OpTypeDeviceEvent} (h : Display.fmt a = Display.fmt b) : a = b := by
  have h := assoc0.symm.trans (h.trans assoc0)
  obtain ⟨hr, h⟩ := fmtResult_inj h
  have h := List.append_cancel_left h
  cases a
  cases b
  rw [OpTypeDeviceEvent.mk.injEq]
  exact hr

theorem OpTypeDeviceEvent.fmt_plain (op : OpTypeDeviceEvent) : ∀ c ∈ Display.fmt op, Plain c :=
  plain_append (fmtResult_plain _) (by decide)

theorem OpTypeQueue.layout (op : OpTypeQueue) :
    ∃ s, Spaced s ∧ Display.fmt op = fmtResult op.result_id ++ ("OpTypeQueue".toList ++ s) :=
  ⟨_, spaced_nil, assoc0⟩

theorem OpTypeQueue.fmt_inj {a b : OpTypeQueue} (h : Display.fmt a = Display.fmt b) : a = b := by
  have h := assoc0.symm.trans (h.trans assoc0)
  obtain ⟨hr, h⟩ := fmtResult_inj h
  have h := List.append_cancel_left h
  cases a
  cases b
  rw [OpTypeQueue.mk.injEq]
  exact hr

theorem OpTypeQueue.fmt_plain (op : OpTypeQueue) : ∀ c ∈ Display.fmt op, Plain c :=
  plain_append (fmtResult_plain _) (by decide)

theorem OpTypePipe.layout (op : OpTypePipe) :
    ∃ s, Spaced s ∧ Display.fmt op = fmtResult op.result_id ++ ("OpTypePipe".toList ++ s) :=
  ⟨_, (spaced op.access_qualifier), assoc1⟩

theorem OpTypePipe.fmt_inj {a b : OpTypePipe} (h : Display.fmt a = Display.fmt b) : a = b := by
  have h := assoc1.symm.trans (h.trans assoc1)
  obtain ⟨hr, h⟩ := fmtResult_inj h
  have h := List.append_cancel_left h
  have h0 := Arg.inj h
  cases a
  cases b
  rw [OpTypePipe.mk.injEq]
  exact ⟨hr, h0⟩

theorem OpTypePipe.fmt_plain (op : OpTypePipe) : ∀ c ∈ Display.fmt op, Plain c :=
  plain_append (plain_append (fmtResult_plain _) (by decide)) (PlainArg.plain op.access_qualifier)

theorem OpTypeForwardPointer.layout (op : OpTypeForwardPointer) :
    ∃ s, Spaced s ∧ Display.fmt op = fmtNoResult ++ ("OpTypeForwardPointer".toList ++ s) :=
  ⟨_, (Spaced.append (spaced op.pointer_type) (spaced op.storage_class)), assoc2⟩

theorem OpTypeForwardPointer.fmt_inj {a b : OpTypeForwardPointer} (h : Display.fmt a = Display.fmt b) : a = b := by
  have h := assoc2.symm.trans (h.trans assoc2)
  have h := List.append_cancel_left h
  have h := List.append_cancel_left h
  obtain ⟨h0, h⟩ := arg_inj (Arg.follows _) (Arg.follows _) h
  have h1 := Arg.inj h
  cases a
  cases b
  rw [OpTypeForwardPointer.mk.injEq]
  exact ⟨h0, h1⟩

theorem OpTypeForwardPointer.fmt_plain (op : OpTypeForwardPointer) : ∀ c ∈ Display.fmt op, Plain c :=
  plain_append (plain_append (plain_append fmtNoResult_plain (by decide)) (PlainArg.plain op.pointer_type)) (PlainArg.plain op.storage_class)

theorem OpConstant.layout (op : OpConstant) :
    ∃ s, Spaced s ∧ Display.fmt op = fmtResult op.result_id ++ ("OpConstant".toList ++ s) :=
  ⟨_, (Spaced.append (spaced op.result_type) (spaced op.value)), assoc2⟩

theorem OpConstant.fmt_inj {a b : OpConstant} (h : Display.fmt a = Display.fmt b) : a = b := by
  have h := assoc2.symm.trans (h.trans assoc2)
  obtain ⟨hr, h⟩ := fmtResult_inj h
  have h := List.append_cancel_left h
  obtain ⟨h0, h⟩ := arg_inj (Arg.follows _) (Arg.follows _) h
  have h1 := Arg.inj h
  cases a
  cases b
  rw [OpConstant.mk.injEq]
  exact ⟨h0, hr, h1⟩

theorem OpConstant.fmt_plain (op : OpConstant) : ∀ c ∈ Display.fmt op, Plain c :=
  plain_append (plain_append (plain_append (fmtResult_plain _) (by decide)) (PlainArg.plain op.result_type)) (PlainArg.plain op.value)

theorem OpConstantComposite.layout (op : OpConstantComposite) :
    ∃ s, Spaced s ∧ Display.fmt op = fmtResult op.result_id ++ ("OpConstantComposite".toList ++ s) :=
  ⟨_, (Spaced.append (spaced op.result_type) (spaced op.constituents)), assoc2⟩

theorem OpConstantComposite.fmt_inj {a b : OpConstantComposite} (h : Display.fmt a = Display.fmt b) : a = b := by
  have h := assoc2.symm.trans (h.trans assoc2)
  obtain ⟨hr, h⟩ := fmtResult_inj h
  have h := List.append_cancel_left h
  obtain ⟨h0, h⟩ := arg_inj (Arg.follows _) (Arg.follows _) h
  have h1 := Arg.inj h
  cases a
  cases b
  rw [OpConstantComposite.mk.injEq]
  exact ⟨h0, hr, h1⟩

theorem OpConstantComposite.fmt_plain (op : OpConstantComposite) : ∀ c ∈ Display.fmt op, Plain c :=
  plain_append (plain_append (plain_append (fmtResult_plain _) (by decide)) (PlainArg.plain op.result_type)) (PlainArg.plain op.constituents)

theorem OpFunction.layout (op : OpFunction) :
    ∃ s, Spaced s ∧ Display.fmt op = fmtResult op.result_id ++ ("OpFunction".toList ++ s) :=
  ⟨_, (Spaced.append (spaced op.result_type) (Spaced.append (spaced op.function_control) (spaced op.function_type))), assoc3⟩

theorem OpFunction.fmt_inj {a b : OpFunction} (h : Display.fmt a = Display.fmt b) : a = b := by
  have h := assoc3.symm.trans (h.trans assoc3)
  obtain ⟨hr, h⟩ := fmtResult_inj h
  have h := List.append_cancel_left h
  obtain ⟨h0, h⟩ := arg_inj (arg_follows _ _) (arg_follows _ _) h
  obtain ⟨h1, h⟩ := arg_inj (Arg.follows _) (Arg.follows _) h
  have h2 := Arg.inj h
  cases a
  cases b
  rw [OpFunction.mk.injEq]
  exact ⟨h0, hr, h1, h2⟩

theorem OpFunction.fmt_plain (op : OpFunction) : ∀ c ∈ Display.fmt op, Plain c :=
  plain_append (plain_append (plain_append (plain_append (fmtResult_plain _) (by decide)) (PlainArg.plain op.result_type)) (PlainArg.plain op.function_control)) (PlainArg.plain op.function_type)

theorem OpFunctionParameter.layout (op : OpFunctionParameter) :
    ∃ s, Spaced s ∧ Display.fmt op = fmtResult op.result_id ++ ("OpFunctionParameter".toList ++ s) :=
  ⟨_, (spaced op.result_type), assoc1⟩

theorem OpFunctionParameter.fmt_inj {a b : OpFunctionParameter} (h : Display.fmt a = Display.fmt b) : a = b := by
  have h := assoc1.symm.trans (h.trans assoc1)
  obtain ⟨hr, h⟩ := fmtResult_inj h
  have h := List.append_cancel_left h
  have h0 := Arg.inj h
  cases a
  cases b
  rw [OpFunctionParameter.mk.injEq]
  exact ⟨h0, hr⟩

theorem OpFunctionParameter.fmt_plain (op : OpFunctionParameter) : ∀ c ∈ Display.fmt op, Plain c :=
  plain_append (plain_append (fmtResult_plain _) (by decide)) (PlainArg.plain op.result_type)

theorem OpFunctionEnd.layout (op : OpFunctionEnd) :
    ∃ s, Spaced s ∧ Display.fmt op = fmtNoResult ++ ("OpFunctionEnd".toList ++ s) :=
  ⟨_, spaced_nil, assoc0⟩

theorem OpFunctionEnd.fmt_inj {a b : OpFunctionEnd} (_ : Display.fmt a = Display.fmt b) : a = b := rfl

theorem OpFunctionEnd.fmt_plain (op : OpFunctionEnd) : ∀ c ∈ Display.fmt op, Plain c :=
  plain_append fmtNoResult_plain (by decide)

theorem OpVariable.layout (op : OpVariable) :
    ∃ s, Spaced s ∧ Display.fmt op = fmtResult op.result_id ++ ("OpVariable".toList ++ s) :=
  ⟨_, (Spaced.append (spaced op.result_type) (Spaced.append (spaced op.storage_class) (spaced op.initializer))), assoc3⟩

theorem OpVariable.fmt_inj {a b : OpVariable} (h : Display.fmt a = Display.fmt b) : a = b := by
  have h := assoc3.symm.trans (h.trans assoc3)
  obtain ⟨hr, h⟩ := fmtResult_inj h
  have h := List.append_cancel_left h
  obtain ⟨h0, h⟩ := arg_inj (arg_follows _ _) (arg_follows _ _) h
  obtain ⟨h1, h⟩ := arg_inj (Arg.follows _) (Arg.follows _) h
  have h2 := Arg.inj h
  cases a
  cases b
  rw [OpVariable.mk.injEq]
  exact ⟨h0, hr, h1, h2⟩

theorem OpVariable.fmt_plain (op : OpVariable) : ∀ c ∈ Display.fmt op, Plain c :=
  plain_append (plain_append (plain_append (plain_append (fmtResult_plain _) (by decide)) (PlainArg.plain op.result_type)) (PlainArg.plain op.storage_class)) (PlainArg.plain op.initializer)

theorem OpLoad.layout (op : OpLoad) :
    ∃ s, Spaced s ∧ Display.fmt op = fmtResult op.result_id ++ ("OpLoad".toList ++ s) :=
  ⟨_, (Spaced.append (spaced op.result_type) (Spaced.append (spaced op.pointer) (spaced op.memory_access))), assoc3⟩

theorem OpLoad.fmt_inj {a b : OpLoad} (h : Display.fmt a = Display.fmt b) : a = b := by
  have h := assoc3.symm.trans (h.trans assoc3)
  obtain ⟨hr, h⟩ := fmtResult_inj h
  have h := List.append_cancel_left h
  obtain ⟨h0, h⟩ := arg_inj (arg_follows _ _) (arg_follows _ _) h
  obtain ⟨h1, h⟩ := arg_inj (Arg.follows _) (Arg.follows _) h
  have h2 := Arg.inj h
  cases a
  cases b
  rw [OpLoad.mk.injEq]
  exact ⟨h0, hr, h1, h2⟩

theorem OpLoad.fmt_plain (op : OpLoad) : ∀ c ∈ Display.fmt op, Plain c :=
  plain_append (plain_append (plain_append (plain_append (fmtResult_plain _) (by decide)) (PlainArg.plain op.result_type)) (PlainArg.plain op.pointer)) (PlainArg.plain op.memory_access)

theorem OpStore.layout (op : OpStore) :
    ∃ s, Spaced s ∧ Display.fmt op = fmtNoResult ++ ("OpStore".toList ++ s) :=
  ⟨_, (Spaced.append (spaced op.pointer) (Spaced.append (spaced op.object) (spaced op.memory_access))), assoc3⟩

theorem OpStore.fmt_inj {a b : OpStore} (h : Display.fmt a = Display.fmt b) : a = b := by
  have h := assoc3.symm.trans (h.trans assoc3)
  have h := List.append_cancel_left h
  have h := List.append_cancel_left h
  obtain ⟨h0, h⟩ := arg_inj (arg_follows _ _) (arg_follows _ _) h
  obtain ⟨h1, h⟩ := arg_inj (Arg.follows _) (Arg.follows _) h
  have h2 := Arg.inj h
  cases a
  cases b
  rw [OpStore.mk.injEq]
  exact ⟨h0, h1, h2⟩

theorem OpStore.fmt_plain (op : OpStore) : ∀ c ∈ Display.fmt op, Plain c :=
  plain_append (plain_append (plain_append (plain_append fmtNoResult_plain (by decide)) (PlainArg.plain op.pointer)) (PlainArg.plain op.object)) (PlainArg.plain op.memory_access)

theorem OpAccessChain.layout (op : OpAccessChain) :
    ∃ s, Spaced s ∧ Display.fmt op = fmtResult op.result_id ++ ("OpAccessChain".toList ++ s) :=
  ⟨_, (Spaced.append (spaced op.result_type) (Spaced.append (spaced op.base) (spaced op.indexes))), assoc3⟩

theorem OpAccessChain.fmt_inj {a b : OpAccessChain} (h : Display.fmt a = Display.fmt b) : a = b := by
  have h := assoc3.symm.trans (h.trans assoc3)
  obtain ⟨hr, h⟩ := fmtResult_inj h
  have h := List.append_cancel_left h
  obtain ⟨h0, h⟩ := arg_inj (arg_follows _ _) (arg_follows _ _) h
  obtain ⟨h1, h⟩ := arg_inj (Arg.follows _) (Arg.follows _) h
  have h2 := Arg.inj h
  cases a
  cases b
  rw [OpAccessChain.mk.injEq]
  exact ⟨h0, hr, h1, h2⟩

theorem OpAccessChain.fmt_plain (op : OpAccessChain) : ∀ c ∈ Display.fmt op, Plain c :=
  plain_append (plain_append (plain_append (plain_append (fmtResult_plain _) (by decide)) (PlainArg.plain op.result_type)) (PlainArg.plain op.base)) (PlainArg.plain op.indexes)

theorem OpDecorate.layout (op : OpDecorate) :
    ∃ s, Spaced s ∧ Display.fmt op = fmtNoResult ++ ("OpDecorate".toList ++ s) :=
  ⟨_, (Spaced.append (spaced op.target) (spaced op.decoration)), assoc2⟩

theorem OpDecorate.fmt_inj {a b : OpDecorate} (h : Display.fmt a = Display.fmt b) : a = b := by
  have h := assoc2.symm.trans (h.trans assoc2)
  have h := List.append_cancel_left h
  have h := List.append_cancel_left h
  obtain ⟨h0, h⟩ := arg_inj (Arg.follows _) (Arg.follows _) h
  have h1 := Arg.inj h
  cases a
  cases b
  rw [OpDecorate.mk.injEq]
  exact ⟨h0, h1⟩

theorem OpDecorate.fmt_line (op : OpDecorate) (h_decoration : ∀ s l, op.decoration = .LinkageAttributes s l → '\n' ∉ s.toList) : '\n' ∉ Display.fmt op :=
  line_append (line_append (line_append (line_of_plain fmtNoResult_plain) (by decide)) (line_of_plain (PlainArg.plain op.target))) (line_decoration h_decoration)

theorem OpMemberDecorate.layout (op : OpMemberDecorate) :
    ∃ s, Spaced s ∧ Display.fmt op = fmtNoResult ++ ("OpMemberDecorate".toList ++ s) :=
  ⟨_, (Spaced.append (spaced op.structure_type) (Spaced.append (spaced op.member) (spaced op.decoration))), assoc3⟩

theorem OpMemberDecorate.fmt_inj {a b : OpMemberDecorate} (h : Display.fmt a = Display.fmt b) : a = b := by
  have h := assoc3.symm.trans (h.trans assoc3)
  have h := List.append_cancel_left h
  have h := List.append_cancel_left h
  obtain ⟨h0, h⟩ := arg_inj (arg_follows _ _) (arg_follows _ _) h
  obtain ⟨h1, h⟩ := arg_inj (Arg.follows _) (Arg.follows _) h
  have h2 := Arg.inj h
  cases a
  cases b
  rw [OpMemberDecorate.mk.injEq]
  exact ⟨h0, h1, h2⟩

theorem OpMemberDecorate.fmt_line (op : OpMemberDecorate) (h_decoration : ∀ s l, op.decoration = .LinkageAttributes s l → '\n' ∉ s.toList) : '\n' ∉ Display.fmt op :=
  line_append (line_append (line_append (line_append (line_of_plain fmtNoResult_plain) (by decide)) (line_of_plain (PlainArg.plain op.structure_type))) (line_of_plain (PlainArg.plain op.member))) (line_decoration h_decoration)

theorem OpConvertUToF.layout (op : OpConvertUToF) :
    ∃ s, Spaced s ∧ Display.fmt op = fmtResult op.result_id ++ ("OpConvertUToF".toList ++ s) :=
  ⟨_, (Spaced.append (spaced op.result_type) (spaced op.unsigned_value)), assoc2⟩

theorem OpConvertUToF.fmt_inj {a b : OpConvertUToF} (h : Display.fmt a = Display.fmt b) : a = b := by
  have h := assoc2.symm.trans (h.trans assoc2)
  obtain ⟨hr, h⟩ := fmtResult_inj h
  have h := List.append_cancel_left h
  obtain ⟨h0, h⟩ := arg_inj (Arg.follows _) (Arg.follows _) h
  have h1 := Arg.inj h
  cases a
  cases b
  rw [OpConvertUToF.mk.injEq]
  exact ⟨h0, hr, h1⟩

theorem OpConvertUToF.fmt_plain (op : OpConvertUToF) : ∀ c ∈ Display.fmt op, Plain c :=
  plain_append (plain_append (plain_append (fmtResult_plain _) (by decide)) (PlainArg.plain op.result_type)) (PlainArg.plain op.unsigned_value)

theorem OpBitcast.layout (op : OpBitcast) :
    ∃ s, Spaced s ∧ Display.fmt op = fmtResult op.result_id ++ ("OpBitcast".toList ++ s) :=
  ⟨_, (Spaced.append (spaced op.result_type) (spaced op.operand)), assoc2⟩

theorem OpBitcast.fmt_inj {a b : OpBitcast} (h : Display.fmt a = Display.fmt b) : a = b := by
  have h := assoc2.symm.trans (h.trans assoc2)
  obtain ⟨hr, h⟩ := fmtResult_inj h
  have h := List.append_cancel_left h
  obtain ⟨h0, h⟩ := arg_inj (Arg.follows _) (Arg.follows _) h
  have h1 := Arg.inj h
  cases a
  cases b
  rw [OpBitcast.mk.injEq]
  exact ⟨h0, hr, h1⟩

theorem OpBitcast.fmt_plain (op : OpBitcast) : ∀ c ∈ Display.fmt op, Plain c :=
  plain_append (plain_append (plain_append (fmtResult_plain _) (by decide)) (PlainArg.plain op.result_type)) (PlainArg.plain op.operand)

theorem OpIAdd.layout (op : OpIAdd) :
    ∃ s, Spaced s ∧ Display.fmt op = fmtResult op.result_id ++ ("OpIAdd".toList ++ s) :=
  ⟨_, (Spaced.append (spaced op.result_type) (Spaced.append (spaced op.operand1) (spaced op.operand2))), assoc3⟩

theorem OpIAdd.fmt_inj {a b : OpIAdd} (h : Display.fmt a = Display.fmt b) : a = b := by
  have h := assoc3.symm.trans (h.trans assoc3)
  obtain ⟨hr, h⟩ := fmtResult_inj h
  have h := List.append_cancel_left h
  obtain ⟨h0, h⟩ := arg_inj (arg_follows _ _) (arg_follows _ _) h
  obtain ⟨h1, h⟩ := arg_inj (Arg.follows _) (Arg.follows _) h
  have h2 := Arg.inj h
  cases a
  cases b
  rw [OpIAdd.mk.injEq]
  exact ⟨h0, hr, h1, h2⟩

theorem OpIAdd.fmt_plain (op : OpIAdd) : ∀ c ∈ Display.fmt op, Plain c :=
  plain_append (plain_append (plain_append (plain_append (fmtResult_plain _) (by decide)) (PlainArg.plain op.result_type)) (PlainArg.plain op.operand1)) (PlainArg.plain op.operand2)

theorem OpFAdd.layout (op : OpFAdd) :
    ∃ s, Spaced s ∧ Display.fmt op = fmtResult op.result_id ++ ("OpFAdd".toList ++ s) :=
  ⟨_, (Spaced.append (spaced op.result_type) (Spaced.append (spaced op.operand1) (spaced op.operand2))), assoc3⟩

theorem OpFAdd.fmt_inj {a b : OpFAdd} (h : Display.fmt a = Display.fmt b) : a = b := by
  have h := assoc3.symm.trans (h.trans assoc3)
  obtain ⟨hr, h⟩ := fmtResult_inj h
  have h := List.append_cancel_left h
  obtain ⟨h0, h⟩ := arg_inj (arg_follows _ _) (arg_follows _ _) h
  obtain ⟨h1, h⟩ := arg_inj (Arg.follows _) (Arg.follows _) h
  have h2 := Arg.inj h
  cases a
  cases b
  rw [OpFAdd.mk.injEq]
  exact ⟨h0, hr, h1, h2⟩

theorem OpFAdd.fmt_plain (op : OpFAdd) : ∀ c ∈ Display.fmt op, Plain c :=
  plain_append (plain_append (plain_append (plain_append (fmtResult_plain _) (by decide)) (PlainArg.plain op.result_type)) (PlainArg.plain op.operand1)) (PlainArg.plain op.operand2)

theorem OpISub.layout (op : OpISub) :
    ∃ s, Spaced s ∧ Display.fmt op = fmtResult op.result_id ++ ("OpISub".toList ++ s) :=
  ⟨_, (Spaced.append (spaced op.result_type) (Spaced.append (spaced op.operand1) (spaced op.operand2))), assoc3⟩

theorem OpISub.fmt_inj {a b : OpISub} (h : Display.fmt a = Display.fmt b) : a = b := by
  have h := assoc3.symm.trans (h.trans assoc3)
  obtain ⟨hr, h⟩ := fmtResult_inj h
  have h := List.append_cancel_left h
  obtain ⟨h0, h⟩ := arg_inj (arg_follows _ _) (arg_follows _ _) h
  obtain ⟨h1, h⟩ := arg_inj (Arg.follows _) (Arg.follows _) h
  have h2 := Arg.inj h
  cases a
  cases b
  rw [OpISub.mk.injEq]
  exact ⟨h0, hr, h1, h2⟩

theorem OpISub.fmt_plain (op : OpISub) : ∀ c ∈ Display.fmt op, Plain c :=
  plain_append (plain_append (plain_append (plain_append (fmtResult_plain _) (by decide)) (PlainArg.plain op.result_type)) (PlainArg.plain op.operand1)) (PlainArg.plain op.operand2)

theorem OpFSub.layout (op : OpFSub) :
    ∃ s, Spaced s ∧ Display.fmt op = fmtResult op.result_id ++ ("OpFSub".toList ++ s) :=
  ⟨_, (Spaced.append (spaced op.result_type) (Spaced.append (spaced op.operand1) (spaced op.operand2))), assoc3⟩

theorem OpFSub.fmt_inj {a b : OpFSub} (h : Display.fmt a = Display.fmt b) : a = b := by
  have h := assoc3.symm.trans (h.trans assoc3)
  obtain ⟨hr, h⟩ := fmtResult_inj h
  have h := List.append_cancel_left h
  obtain ⟨h0, h⟩ := arg_inj (arg_follows _ _) (arg_follows _ _) h
  obtain ⟨h1, h⟩ := arg_inj (Arg.follows _) (Arg.follows _) h
  have h2 := Arg.inj h
  cases a
  cases b
  rw [OpFSub.mk.injEq]
  exact ⟨h0, hr, h1, h2⟩

theorem OpFSub.fmt_plain (op : OpFSub) : ∀ c ∈ Display.fmt op, Plain c :=
  plain_append (plain_append (plain_append (plain_append (fmtResult_plain _) (by decide)) (PlainArg.plain op.result_type)) (PlainArg.plain op.operand1)) (PlainArg.plain op.operand2)

theorem OpIMul.layout (op : OpIMul) :
    ∃ s, Spaced s ∧ Display.fmt op = fmtResult op.result_id ++ ("OpIMul".toList ++ s) :=
  ⟨_, (Spaced.append (spaced op.result_type) (Spaced.append (spaced op.operand1) (spaced op.operand2))), assoc3⟩

theorem OpIMul.fmt_inj {a b : OpIMul} (h : Display.fmt a = Display.fmt b) : a = b := by
  have h := assoc3.symm.trans (h.trans assoc3)
  obtain ⟨hr, h⟩ := fmtResult_inj h
  have h := List.append_cancel_left h
  obtain ⟨h0, h⟩ := arg_inj (arg_follows _ _) (arg_follows _ _) h
  obtain ⟨h1, h⟩ := arg_inj (Arg.follows _) (Arg.follows _) h
  have h2 := Arg.inj h
  cases a
  cases b
  rw [OpIMul.mk.injEq]
  exact ⟨h0, hr, h1, h2⟩

theorem OpIMul.fmt_plain (op : OpIMul) : ∀ c ∈ Display.fmt op, Plain c :=
  plain_append (plain_append (plain_append (plain_append (fmtResult_plain _) (by decide)) (PlainArg.plain op.result_type)) (PlainArg.plain op.operand1)) (PlainArg.plain op.operand2)

theorem OpFMul.layout (op : OpFMul) :
    ∃ s, Spaced s ∧ Display.fmt op = fmtResult op.result_id ++ ("OpFMul".toList ++ s) :=
  ⟨_, (Spaced.append (spaced op.result_type) (Spaced.append (spaced op.operand1) (spaced op.operand2))), assoc3⟩

theorem OpFMul.fmt_inj {a b : OpFMul} (h : Display.fmt a = Display.fmt b) : a = b := by
  have h := assoc3.symm.trans (h.trans assoc3)
  obtain ⟨hr, h⟩ := fmtResult_inj h
  have h := List.append_cancel_left h
  obtain ⟨h0, h⟩ := arg_inj (arg_follows _ _) (arg_follows _ _) h
  obtain ⟨h1, h⟩ := arg_inj (Arg.follows _) (Arg.follows _) h
  have h2 := Arg.inj h
  cases a
  cases b
  rw [OpFMul.mk.injEq]
  exact ⟨h0, hr, h1, h2⟩

theorem OpFMul.fmt_plain (op : OpFMul) : ∀ c ∈ Display.fmt op, Plain c :=
  plain_append (plain_append (plain_append (plain_append (fmtResult_plain _) (by decide)) (PlainArg.plain op.result_type)) (PlainArg.plain op.operand1)) (PlainArg.plain op.operand2)

theorem OpUDiv.layout (op : OpUDiv) :
    ∃ s, Spaced s ∧ Display.fmt op = fmtResult op.result_id ++ ("OpUDiv".toList ++ s) :=
  ⟨_, (Spaced.append (spaced op.result_type) (Spaced.append (spaced op.operand1) (spaced op.operand2))), assoc3⟩

theorem OpUDiv.fmt_inj {a b : OpUDiv} (h : Display.fmt a = Display.fmt b) : a = b := by
  have h := assoc3.symm.trans (h.trans assoc3)
  obtain ⟨hr, h⟩ := fmtResult_inj h
  have h := List.append_cancel_left h
  obtain ⟨h0, h⟩ := arg_inj (arg_follows _ _) (arg_follows _ _) h
  obtain ⟨h1, h⟩ := arg_inj (Arg.follows _) (Arg.follows _) h
  have h2 := Arg.inj h
  cases a
  cases b
  rw [OpUDiv.mk.injEq]
  exact ⟨h0, hr, h1, h2⟩

theorem OpUDiv.fmt_plain (op : OpUDiv) : ∀ c ∈ Display.fmt op, Plain c :=
  plain_append (plain_append (plain_append (plain_append (fmtResult_plain _) (by decide)) (PlainArg.plain op.result_type)) (PlainArg.plain op.operand1)) (PlainArg.plain op.operand2)

theorem OpSDiv.layout (op : OpSDiv) :
    ∃ s, Spaced s ∧ Display.fmt op = fmtResult op.result_id ++ ("OpSDiv".toList ++ s) :=
  ⟨_, (Spaced.append (spaced op.result_type) (Spaced.append (spaced op.operand1) (spaced op.operand2))), assoc3⟩

theorem OpSDiv.fmt_inj {a b : OpSDiv} (h : Display.fmt a = Display.fmt b) : a = b := by
  have h := assoc3.symm.trans (h.trans assoc3)
  obtain ⟨hr, h⟩ := fmtResult_inj h
  have h := List.append_cancel_left h
  obtain ⟨h0, h⟩ := arg_inj (arg_follows _ _) (arg_follows _ _) h
  obtain ⟨h1, h⟩ := arg_inj (Arg.follows _) (Arg.follows _) h
  have h2 := Arg.inj h
  cases a
  cases b
  rw [OpSDiv.mk.injEq]
  exact ⟨h0, hr, h1, h2⟩

theorem OpSDiv.fmt_plain (op : OpSDiv) : ∀ c ∈ Display.fmt op, Plain c :=
  plain_append (plain_append (plain_append (plain_append (fmtResult_plain _) (by decide)) (PlainArg.plain op.result_type)) (PlainArg.plain op.operand1)) (PlainArg.plain op.operand2)

theorem OpFDiv.layout (op : OpFDiv) :
    ∃ s, Spaced s ∧ Display.fmt op = fmtResult op.result_id ++ ("OpFDiv".toList ++ s) :=
  ⟨_, (Spaced.append (spaced op.result_type) (Spaced.append (spaced op.operand1) (spaced op.operand2))), assoc3⟩

theorem OpFDiv.fmt_inj {a b : OpFDiv} (h : Display.fmt a = Display.fmt b) : a = b := by
  have h := assoc3.symm.trans (h.trans assoc3)
  obtain ⟨hr, h⟩ := fmtResult_inj h
  have h := List.append_cancel_left h
  obtain ⟨h0, h⟩ := arg_inj (arg_follows _ _) (arg_follows _ _) h
  obtain ⟨h1, h⟩ := arg_inj (Arg.follows _) (Arg.follows _) h
  have h2 := Arg.inj h
  cases a
  cases b
  rw [OpFDiv.mk.injEq]
  exact ⟨h0, hr, h1, h2⟩

theorem OpFDiv.fmt_plain (op : OpFDiv) : ∀ c ∈ Display.fmt op, Plain c :=
  plain_append (plain_append (plain_append (plain_append (fmtResult_plain _) (by decide)) (PlainArg.plain op.result_type)) (PlainArg.plain op.operand1)) (PlainArg.plain op.operand2)

theorem OpUMod.layout (op : OpUMod) :
    ∃ s, Spaced s ∧ Display.fmt op = fmtResult op.result_id ++ ("OpUMod".toList ++ s) :=
  ⟨_, (Spaced.append (spaced op.result_type) (Spaced.append (spaced op.operand1) (spaced op.operand2))), assoc3⟩

theorem OpUMod.fmt_inj {a b : OpUMod} (h : Display.fmt a = Display.fmt b) : a = b := by
  have h := assoc3.symm.trans (h.trans assoc3)
  obtain ⟨hr, h⟩ := fmtResult_inj h
  have h := List.append_cancel_left h
  obtain ⟨h0, h⟩ := arg_inj (arg_follows _ _) (arg_follows _ _) h
  obtain ⟨h1, h⟩ := arg_inj (Arg.follows _) (Arg.follows _) h
  have h2 := Arg.inj h
  cases a
  cases b
  rw [OpUMod.mk.injEq]
  exact ⟨h0, hr, h1, h2⟩

theorem OpUMod.fmt_plain (op : OpUMod) : ∀ c ∈ Display.fmt op, Plain c :=
  plain_append (plain_append (plain_append (plain_append (fmtResult_plain _) (by decide)) (PlainArg.plain op.result_type)) (PlainArg.plain op.operand1)) (PlainArg.plain op.operand2)

theorem OpSRem.layout (op : OpSRem) :
    ∃ s, Spaced s ∧ Display.fmt op = fmtResult op.result_id ++ ("OpSRem".toList ++ s) :=
  ⟨_, (Spaced.append (spaced op.result_type) (Spaced.append (spaced op.operand1) (spaced op.operand2))), assoc3⟩

theorem OpSRem.fmt_inj {a b : OpSRem} (h : Display.fmt a = Display.fmt b) : a = b := by
  have h := assoc3.symm.trans (h.trans assoc3)
  obtain ⟨hr, h⟩ := fmtResult_inj h
  have h := List.append_cancel_left h
  obtain ⟨h0, h⟩ := arg_inj (arg_follows _ _) (arg_follows _ _) h
  obtain ⟨h1, h⟩ := arg_inj (Arg.follows _) (Arg.follows _) h
  have h2 := Arg.inj h
  cases a
  cases b
  rw [OpSRem.mk.injEq]
  exact ⟨h0, hr, h1, h2⟩

theorem OpSRem.fmt_plain (op : OpSRem) : ∀ c ∈ Display.fmt op, Plain c :=
  plain_append (plain_append (plain_append (plain_append (fmtResult_plain _) (by decide)) (PlainArg.plain op.result_type)) (PlainArg.plain op.operand1)) (PlainArg.plain op.operand2)

theorem OpSMod.layout (op : OpSMod) :
    ∃ s, Spaced s ∧ Display.fmt op = fmtResult op.result_id ++ ("OpSMod".toList ++ s) :=
  ⟨_, (Spaced.append (spaced op.result_type) (Spaced.append (spaced op.operand1) (spaced op.operand2))), assoc3⟩

theorem OpSMod.fmt_inj {a b : OpSMod} (h : Display.fmt a = Display.fmt b) : a = b := by
  have h := assoc3.symm.trans (h.trans assoc3)
  obtain ⟨hr, h⟩ := fmtResult_inj h
  have h := List.append_cancel_left h
  obtain ⟨h0, h⟩ := arg_inj (arg_follows _ _) (arg_follows _ _) h
  obtain ⟨h1, h⟩ := arg_inj (Arg.follows _) (Arg.follows _) h
  have h2 := Arg.inj h
  cases a
  cases b
  rw [OpSMod.mk.injEq]
  exact ⟨h0, hr, h1, h2⟩

theorem OpSMod.fmt_plain (op : OpSMod) : ∀ c ∈ Display.fmt op, Plain c :=
  plain_append (plain_append (plain_append (plain_append (fmtResult_plain _) (by decide)) (PlainArg.plain op.result_type)) (PlainArg.plain op.operand1)) (PlainArg.plain op.operand2)

theorem OpFRem.layout (op : OpFRem) :
    ∃ s, Spaced s ∧ Display.fmt op = fmtResult op.result_id ++ ("OpFRem".toList ++ s) :=
  ⟨_, (Spaced.append (spaced op.result_type) (Spaced.append (spaced op.operand1) (spaced op.operand2))), assoc3⟩

theorem OpFRem.fmt_inj {a b : OpFRem} (h : Display.fmt a = Display.fmt b) : a = b := by
  have h := assoc3.symm.trans (h.trans assoc3)
  obtain ⟨hr, h⟩ := fmtResult_inj h
  have h := List.append_cancel_left h
  obtain ⟨h0, h⟩ := arg_inj (arg_follows _ _) (arg_follows _ _) h
  obtain ⟨h1, h⟩ := arg_inj (Arg.follows _) (Arg.follows _) h
  have h2 := Arg.inj h
  cases a
  cases b
  rw [OpFRem.mk.injEq]
  exact ⟨h0, hr, h1, h2⟩

theorem OpFRem.fmt_plain (op : OpFRem) : ∀ c ∈ Display.fmt op, Plain c :=
  plain_append (plain_append (plain_append (plain_append (fmtResult_plain _) (by decide)) (PlainArg.plain op.result_type)) (PlainArg.plain op.operand1)) (PlainArg.plain op.operand2)

theorem OpFMod.layout (op : OpFMod) :
    ∃ s, Spaced s ∧ Display.fmt op = fmtResult op.result_id ++ ("OpFMod".toList ++ s) :=
  ⟨_, (Spaced.append (spaced op.result_type) (Spaced.append (spaced op.operand1) (spaced op.operand2))), assoc3⟩

theorem OpFMod.fmt_inj {a b : OpFMod} (h : Display.fmt a = Display.fmt b) : a = b := by
  have h := assoc3.symm.trans (h.trans assoc3)
  obtain ⟨hr, h⟩ := fmtResult_inj h
  have h := List.append_cancel_left h
  obtain ⟨h0, h⟩ := arg_inj (arg_follows _ _) (arg_follows _ _) h
  obtain ⟨h1, h⟩ := arg_inj (Arg.follows _) (Arg.follows _) h
  have h2 := Arg.inj h
  cases a
  cases b
  rw [OpFMod.mk.injEq]
  exact ⟨h0, hr, h1, h2⟩

theorem OpFMod.fmt_plain (op : OpFMod) : ∀ c ∈ Display.fmt op, Plain c :=
  plain_append (plain_append (plain_append (plain_append (fmtResult_plain _) (by decide)) (PlainArg.plain op.result_type)) (PlainArg.plain op.operand1)) (PlainArg.plain op.operand2)

theorem OpIAddCarry.layout (op : OpIAddCarry) :
    ∃ s, Spaced s ∧ Display.fmt op = fmtResult op.result_id ++ ("OpIAddCarry".toList ++ s) :=
  ⟨_, (Spaced.append (spaced op.result_type) (Spaced.append (spaced op.operand1) (spaced op.operand2))), assoc3⟩

theorem OpIAddCarry.fmt_inj {a b : OpIAddCarry} (h : Display.fmt a = Display.fmt b) : a = b := by
  have h := assoc3.symm.trans (h.trans assoc3)
  obtain ⟨hr, h⟩ := fmtResult_inj h
  have h := List.append_cancel_left h
  obtain ⟨h0, h⟩ := arg_inj (arg_follows _ _) (arg_follows _ _) h
  obtain ⟨h1, h⟩ := arg_inj (Arg.follows _) (Arg.follows _) h
  have h2 := Arg.inj h
  cases a
  cases b
  rw [OpIAddCarry.mk.injEq]
  exact ⟨h0, hr, h1, h2⟩

theorem OpIAddCarry.fmt_plain (op : OpIAddCarry) : ∀ c ∈ Display.fmt op, Plain c :=
  plain_append (plain_append (plain_append (plain_append (fmtResult_plain _) (by decide)) (PlainArg.plain op.result_type)) (PlainArg.plain op.operand1)) (PlainArg.plain op.operand2)

theorem OpISubBorrow.layout (op : OpISubBorrow) :
    ∃ s, Spaced s ∧ Display.fmt op = fmtResult op.result_id ++ ("OpISubBorrow".toList ++ s) :=
  ⟨_, (Spaced.append (spaced op.result_type) (Spaced.append (spaced op.operand1) (spaced op.operand2))), assoc3⟩

theorem OpISubBorrow.fmt_inj {a b : OpISubBorrow} (h : Display.fmt a = Display.fmt b) : a = b := by
  have h := assoc3.symm.trans (h.trans assoc3)
  obtain ⟨hr, h⟩ := fmtResult_inj h
  have h := List.append_cancel_left h
  obtain ⟨h0, h⟩ := arg_inj (arg_follows _ _) (arg_follows _ _) h
  obtain ⟨h1, h⟩ := arg_inj (Arg.follows _) (Arg.follows _) h
  have h2 := Arg.inj h
  cases a
  cases b
  rw [OpISubBorrow.mk.injEq]
  exact ⟨h0, hr, h1, h2⟩

theorem OpISubBorrow.fmt_plain (op : OpISubBorrow) : ∀ c ∈ Display.fmt op, Plain c :=
  plain_append (plain_append (plain_append (plain_append (fmtResult_plain _) (by decide)) (PlainArg.plain op.result_type)) (PlainArg.plain op.operand1)) (PlainArg.plain op.operand2)

theorem OpUMulExtended.layout (op : OpUMulExtended) :
    ∃ s, Spaced s ∧ Display.fmt op = fmtResult op.result_id ++ ("OpUMulExtended".toList ++ s) :=
  ⟨_, (Spaced.append (spaced op.result_type) (Spaced.append (spaced op.operand1) (spaced op.operand2))), assoc3⟩

theorem OpUMulExtended.fmt_inj {a b : OpUMulExtended} (h : Display.fmt a = Display.fmt b) : a = b := by
  have h := assoc3.symm.trans (h.trans assoc3)
  obtain ⟨hr, h⟩ := fmtResult_inj h
  have h := List.append_cancel_left h
  obtain ⟨h0, h⟩ := arg_inj (arg_follows _ _) (arg_follows _ _) h
  obtain ⟨h1, h⟩ := arg_inj (Arg.follows _) (Arg.follows _) h
  have h2 := Arg.inj h
  cases a
  cases b
  rw [OpUMulExtended.mk.injEq]
  exact ⟨h0, hr, h1, h2⟩

theorem OpUMulExtended.fmt_plain (op : OpUMulExtended) : ∀ c ∈ Display.fmt op, Plain c :=
  plain_append (plain_append (plain_append (plain_append (fmtResult_plain _) (by decide)) (PlainArg.plain op.result_type)) (PlainArg.plain op.operand1)) (PlainArg.plain op.operand2)

theorem OpSMulExtended.layout (op : OpSMulExtended) :
    ∃ s, Spaced s ∧ Display.fmt op = fmtResult op.result_id ++ ("OpSMulExtended".toList ++ s) :=
  ⟨_, (Spaced.append (spaced op.result_type) (Spaced.append (spaced op.operand1) (spaced op.operand2))), assoc3⟩

theorem OpSMulExtended.fmt_inj {a b : OpSMulExtended} (h : Display.fmt a = Display.fmt b) : a = b := by
  have h := assoc3.symm.trans (h.trans assoc3)
  obtain ⟨hr, h⟩ := fmtResult_inj h
  have h := List.append_cancel_left h
  obtain ⟨h0, h⟩ := arg_inj (arg_follows _ _) (arg_follows _ _) h
  obtain ⟨h1, h⟩ := arg_inj (Arg.follows _) (Arg.follows _) h
  have h2 := Arg.inj h
  cases a
  cases b
  rw [OpSMulExtended.mk.injEq]
  exact ⟨h0, hr, h1, h2⟩

theorem OpSMulExtended.fmt_plain (op : OpSMulExtended) : ∀ c ∈ Display.fmt op, Plain c :=
  plain_append (plain_append (plain_append (plain_append (fmtResult_plain _) (by decide)) (PlainArg.plain op.result_type)) (PlainArg.plain op.operand1)) (PlainArg.plain op.operand2)

theorem OpBitwiseOr.layout (op : OpBitwiseOr) :
    ∃ s, Spaced s ∧ Display.fmt op = fmtResult op.result_id ++ ("OpBitwiseOr".toList ++ s) :=
  ⟨_, (Spaced.append (spaced op.result_type) (Spaced.append (spaced op.operand1) (spaced op.operand2))), assoc3⟩

theorem OpBitwiseOr.fmt_inj {a b : OpBitwiseOr} (h : Display.fmt a = Display.fmt b) : a = b := by
  have h := assoc3.symm.trans (h.trans assoc3)
  obtain ⟨hr, h⟩ := fmtResult_inj h
  have h := List.append_cancel_left h
  obtain ⟨h0, h⟩ := arg_inj (arg_follows _ _) (arg_follows _ _) h
  obtain ⟨h1, h⟩ := arg_inj (Arg.follows _) (Arg.follows _) h
  have h2 := Arg.inj h
  cases a
  cases b
  rw [OpBitwiseOr.mk.injEq]
  exact ⟨h0, hr, h1, h2⟩

theorem OpBitwiseOr.fmt_plain (op : OpBitwiseOr) : ∀ c ∈ Display.fmt op, Plain c :=
  plain_append (plain_append (plain_append (plain_append (fmtResult_plain _) (by decide)) (PlainArg.plain op.result_type)) (PlainArg.plain op.operand1)) (PlainArg.plain op.operand2)

theorem OpBitwiseXor.layout (op : OpBitwiseXor) :
    ∃ s, Spaced s ∧ Display.fmt op = fmtResult op.result_id ++ ("OpBitwiseXor".toList ++ s) :=
  ⟨_, (Spaced.append (spaced op.result_type) (Spaced.append (spaced op.operand1) (spaced op.operand2))), assoc3⟩

theorem OpBitwiseXor.fmt_inj {a b : OpBitwiseXor} (h : Display.fmt a = Display.fmt b) : a = b := by
  have h := assoc3.symm.trans (h.trans assoc3)
  obtain ⟨hr, h⟩ := fmtResult_inj h
  have h := List.append_cancel_left h
  obtain ⟨h0, h⟩ := arg_inj (arg_follows _ _) (arg_follows _ _) h
  obtain ⟨h1, h⟩ := arg_inj (Arg.follows _) (Arg.follows _) h
  have h2 := Arg.inj h
  cases a
  cases b
  rw [OpBitwiseXor.mk.injEq]
  exact ⟨h0, hr, h1, h2⟩

theorem OpBitwiseXor.fmt_plain (op : OpBitwiseXor) : ∀ c ∈ Display.fmt op, Plain c :=
  plain_append (plain_append (plain_append (plain_append (fmtResult_plain _) (by decide)) (PlainArg.plain op.result_type)) (PlainArg.plain op.operand1)) (PlainArg.plain op.operand2)

theorem OpBitwiseAnd.layout (op : OpBitwiseAnd) :
    ∃ s, Spaced s ∧ Display.fmt op = fmtResult op.result_id ++ ("OpBitwiseAnd".toList ++ s) :=
  ⟨_, (Spaced.append (spaced op.result_type) (Spaced.append (spaced op.operand1) (spaced op.operand2))), assoc3⟩

theorem OpBitwiseAnd.fmt_inj {a b : OpBitwiseAnd} (h : Display.fmt a = Display.fmt b) : a = b := by
  have h := assoc3.symm.trans (h.trans assoc3)
  obtain ⟨hr, h⟩ := fmtResult_inj h
  have h := List.append_cancel_left h
  obtain ⟨h0, h⟩ := arg_inj (arg_follows _ _) (arg_follows _ _) h
  obtain ⟨h1, h⟩ := arg_inj (Arg.follows _) (Arg.follows _) h
  have h2 := Arg.inj h
  cases a
  cases b
  rw [OpBitwiseAnd.mk.injEq]
  exact ⟨h0, hr, h1, h2⟩

theorem OpBitwiseAnd.fmt_plain (op : OpBitwiseAnd) : ∀ c ∈ Display.fmt op, Plain c :=
  plain_append (plain_append (plain_append (plain_append (fmtResult_plain _) (by decide)) (PlainArg.plain op.result_type)) (PlainArg.plain op.operand1)) (PlainArg.plain op.operand2)

theorem OpIEqual.layout (op : OpIEqual) :
    ∃ s, Spaced s ∧ Display.fmt op = fmtResult op.result_id ++ ("OpIEqual".toList ++ s) :=
  ⟨_, (Spaced.append (spaced op.result_type) (Spaced.append (spaced op.operand1) (spaced op.operand2))), assoc3⟩

theorem OpIEqual.fmt_inj {a b : OpIEqual} (h : Display.fmt a = Display.fmt b) : a = b := by
  have h := assoc3.symm.trans (h.trans assoc3)
  obtain ⟨hr, h⟩ := fmtResult_inj h
  have h := List.append_cancel_left h
  obtain ⟨h0, h⟩ := arg_inj (arg_follows _ _) (arg_follows _ _) h
  obtain ⟨h1, h⟩ := arg_inj (Arg.follows _) (Arg.follows _) h
  have h2 := Arg.inj h
  cases a
  cases b
  rw [OpIEqual.mk.injEq]
  exact ⟨h0, hr, h1, h2⟩

theorem OpIEqual.fmt_plain (op : OpIEqual) : ∀ c ∈ Display.fmt op, Plain c :=
  plain_append (plain_append (plain_append (plain_append (fmtResult_plain _) (by decide)) (PlainArg.plain op.result_type)) (PlainArg.plain op.operand1)) (PlainArg.plain op.operand2)

theorem OpINotEqual.layout (op : OpINotEqual) :
    ∃ s, Spaced s ∧ Display.fmt op = fmtResult op.result_id ++ ("OpINotEqual".toList ++ s) :=
  ⟨_, (Spaced.append (spaced op.result_type) (Spaced.append (spaced op.operand1) (spaced op.operand2))), assoc3⟩

theorem OpINotEqual.fmt_inj {a b : OpINotEqual} (h : Display.fmt a = Display.fmt b) : a = b := by
  have h := assoc3.symm.trans (h.trans assoc3)
  obtain ⟨hr, h⟩ := fmtResult_inj h
  have h := List.append_cancel_left h
  obtain ⟨h0, h⟩ := arg_inj (arg_follows _ _) (arg_follows _ _) h
  obtain ⟨h1, h⟩ := arg_inj (Arg.follows _) (Arg.follows _) h
  have h2 := Arg.inj h
  cases a
  cases b
  rw [OpINotEqual.mk.injEq]
  exact ⟨h0, hr, h1, h2⟩

theorem OpINotEqual.fmt_plain (op : OpINotEqual) : ∀ c ∈ Display.fmt op, Plain c :=
  plain_append (plain_append (plain_append (plain_append (fmtResult_plain _) (by decide)) (PlainArg.plain op.result_type)) (PlainArg.plain op.operand1)) (PlainArg.plain op.operand2)

theorem OpUGreaterThan.layout (op : OpUGreaterThan) :
    ∃ s, Spaced s ∧ Display.fmt op = fmtResult op.result_id ++ ("OpUGreaterThan".toList ++ s) :=
  ⟨_, (Spaced.append (spaced op.result_type) (Spaced.append (spaced op.operand1) (spaced op.operand2))), assoc3⟩

theorem OpUGreaterThan.fmt_inj {a b : OpUGreaterThan} (h : Display.fmt a = Display.fmt b) : a = b := by
  have h := assoc3.symm.trans (h.trans assoc3)
  obtain ⟨hr, h⟩ := fmtResult_inj h
  have h := List.append_cancel_left h
  obtain ⟨h0, h⟩ := arg_inj (arg_follows _ _) (arg_follows _ _) h
  obtain ⟨h1, h⟩ := arg_inj (Arg.follows _) (Arg.follows _) h
  have h2 := Arg.inj h
  cases a
  cases b
  rw [OpUGreaterThan.mk.injEq]
  exact ⟨h0, hr, h1, h2⟩

theorem OpUGreaterThan.fmt_plain (op : OpUGreaterThan) : ∀ c ∈ Display.fmt op, Plain c :=
  plain_append (plain_append (plain_append (plain_append (fmtResult_plain _) (by decide)) (PlainArg.plain op.result_type)) (PlainArg.plain op.operand1)) (PlainArg.plain op.operand2)

theorem OpSGreaterThan.layout (op : OpSGreaterThan) :
    ∃ s, Spaced s ∧ Display.fmt op = fmtResult op.result_id ++ ("OpSGreaterThan".toList ++ s) :=
  ⟨_, (Spaced.append (spaced op.result_type) (Spaced.append (spaced op.operand1) (spaced op.operand2))), assoc3⟩

theorem OpSGreaterThan.fmt_inj {a b : OpSGreaterThan} (h : Display.fmt a = Display.fmt b) : a = b := by
  have h := assoc3.symm.trans (h.trans assoc3)
  obtain ⟨hr, h⟩ := fmtResult_inj h
  have h := List.append_cancel_left h
  obtain ⟨h0, h⟩ := arg_inj (arg_follows _ _) (arg_follows _ _) h
  obtain ⟨h1, h⟩ := arg_inj (Arg.follows _) (Arg.follows _) h
  have h2 := Arg.inj h
  cases a
  cases b
  rw [OpSGreaterThan.mk.injEq]
  exact ⟨h0, hr, h1, h2⟩

theorem OpSGreaterThan.fmt_plain (op : OpSGreaterThan) : ∀ c ∈ Display.fmt op, Plain c :=
  plain_append (plain_append (plain_append (plain_append (fmtResult_plain _) (by decide)) (PlainArg.plain op.result_type)) (PlainArg.plain op.operand1)) (PlainArg.plain op.operand2)

theorem OpUGreaterThanEqual.layout (op : OpUGreaterThanEqual) :
    ∃ s, Spaced s ∧ Display.fmt op = fmtResult op.result_id ++ ("OpUGreaterThanEqual".toList ++ s) :=
  ⟨_, (Spaced.append (spaced op.result_type) (Spaced.append (spaced op.operand1) (spaced op.operand2))), assoc3⟩

theorem OpUGreaterThanEqual.fmt_inj {a b : OpUGreaterThanEqual} (h : Display.fmt a = Display.fmt b) : a = b := by
  have h := assoc3.symm.trans (h.trans assoc3)
  obtain ⟨hr, h⟩ := fmtResult_inj h
  have h := List.append_cancel_left h
  obtain ⟨h0, h⟩ := arg_inj (arg_follows _ _) (arg_follows _ _) h
  obtain ⟨h1, h⟩ := arg_inj (Arg.follows _) (Arg.follows _) h
  have h2 := Arg.inj h
  cases a
  cases b
  rw [OpUGreaterThanEqual.mk.injEq]
  exact ⟨h0, hr, h1, h2⟩

theorem OpUGreaterThanEqual.fmt_plain (op : OpUGreaterThanEqual) : ∀ c ∈ Display.fmt op, Plain c :=
  plain_append (plain_append (plain_append (plain_append (fmtResult_plain _) (by decide)) (PlainArg.plain op.result_type)) (PlainArg.plain op.operand1)) (PlainArg.plain op.operand2)

theorem OpSGreaterThanEqual.layout (op : OpSGreaterThanEqual) :
    ∃ s, Spaced s ∧ Display.fmt op = fmtResult op.result_id ++ ("OpSGreaterThanEqual".toList ++ s) :=
  ⟨_, (Spaced.append (spaced op.result_type) (Spaced.append (spaced op.operand1) (spaced op.operand2))), assoc3⟩

theorem OpSGreaterThanEqual.fmt_inj {a b : OpSGreaterThanEqual} (h : Display.fmt a = Display.fmt b) : a = b := by
  have h := assoc3.symm.trans (h.trans assoc3)
  obtain ⟨hr, h⟩ := fmtResult_inj h
  have h := List.append_cancel_left h
  obtain ⟨h0, h⟩ := arg_inj (arg_follows _ _) (arg_follows _ _) h
  obtain ⟨h1, h⟩ := arg_inj (Arg.follows _) (Arg.follows _) h
  have h2 := Arg.inj h
  cases a
  cases b
  rw [OpSGreaterThanEqual.mk.injEq]
  exact ⟨h0, hr, h1, h2⟩

theorem OpSGreaterThanEqual.fmt_plain (op : OpSGreaterThanEqual) : ∀ c ∈ Display.fmt op, Plain c :=
  plain_append (plain_append (plain_append (plain_append (fmtResult_plain _) (by decide)) (PlainArg.plain op.result_type)) (PlainArg.plain op.operand1)) (PlainArg.plain op.operand2)

theorem OpULessThan.layout (op : OpULessThan) :
    ∃ s, Spaced s ∧ Display.fmt op = fmtResult op.result_id ++ ("OpULessThan".toList ++ s) :=
  ⟨_, (Spaced.append (spaced op.result_type) (Spaced.append (spaced op.operand1) (spaced op.operand2))), assoc3⟩

theorem OpULessThan.fmt_inj {a b : OpULessThan} (h : Display.fmt a = Display.fmt b) : a = b := by
  have h := assoc3.symm.trans (h.trans assoc3)
  obtain ⟨hr, h⟩ := fmtResult_inj h
  have h := List.append_cancel_left h
  obtain ⟨h0, h⟩ := arg_inj (arg_follows _ _) (arg_follows _ _) h
  obtain ⟨h1, h⟩ := arg_inj (Arg.follows _) (Arg.follows _) h
  have h2 := Arg.inj h
  cases a
  cases b
  rw [OpULessThan.mk.injEq]
  exact ⟨h0, hr, h1, h2⟩

theorem OpULessThan.fmt_plain (op : OpULessThan) : ∀ c ∈ Display.fmt op, Plain c :=
  plain_append (plain_append (plain_append (plain_append (fmtResult_plain _) (by decide)) (PlainArg.plain op.result_type)) (PlainArg.plain op.operand1)) (PlainArg.plain op.operand2)

theorem OpSLessThan.layout (op : OpSLessThan) :
    ∃ s, Spaced s ∧ Display.fmt op = fmtResult op.result_id ++ ("OpSLessThan".toList ++ s) :=
  ⟨_, (Spaced.append (spaced op.result_type) (Spaced.append (spaced op.operand1) (spaced op.operand2))), assoc3⟩

theorem OpSLessThan.fmt_inj {a b : OpSLessThan} (h : Display.fmt a = Display.fmt b) : a = b := by
  have h := assoc3.symm.trans (h.trans assoc3)
  obtain ⟨hr, h⟩ := fmtResult_inj h
  have h := List.append_cancel_left h
  obtain ⟨h0, h⟩ := arg_inj (arg_follows _ _) (arg_follows _ _) h
  obtain ⟨h1, h⟩ := arg_inj (Arg.follows _) (Arg.follows _) h
  have h2 := Arg.inj h
  cases a
  cases b
  rw [OpSLessThan.mk.injEq]
  exact ⟨h0, hr, h1, h2⟩

theorem OpSLessThan.fmt_plain (op : OpSLessThan) : ∀ c ∈ Display.fmt op, Plain c :=
  plain_append (plain_append (plain_append (plain_append (fmtResult_plain _) (by decide)) (PlainArg.plain op.result_type)) (PlainArg.plain op.operand1)) (PlainArg.plain op.operand2)

theorem OpULessThanEqual.layout (op : OpULessThanEqual) :
    ∃ s, Spaced s ∧ Display.fmt op = fmtResult op.result_id ++ ("OpULessThanEqual".toList ++ s) :=
  ⟨_, (Spaced.append (spaced op.result_type) (Spaced.append (spaced op.operand1) (spaced op.operand2))), assoc3⟩

theorem OpULessThanEqual.fmt_inj {a b : OpULessThanEqual} (h : Display.fmt a = Display.fmt b) : a = b := by
  have h := assoc3.symm.trans (h.trans assoc3)
  obtain ⟨hr, h⟩ := fmtResult_inj h
  have h := List.append_cancel_left h
  obtain ⟨h0, h⟩ := arg_inj (arg_follows _ _) (arg_follows _ _) h
  obtain ⟨h1, h⟩ := arg_inj (Arg.follows _) (Arg.follows _) h
  have h2 := Arg.inj h
  cases a
  cases b
  rw [OpULessThanEqual.mk.injEq]
  exact ⟨h0, hr, h1, h2⟩

theorem OpULessThanEqual.fmt_plain (op : OpULessThanEqual) : ∀ c ∈ Display.fmt op, Plain c :=
  plain_append (plain_append (plain_append (plain_append (fmtResult_plain _) (by decide)) (PlainArg.plain op.result_type)) (PlainArg.plain op.operand1)) (PlainArg.plain op.operand2)

theorem OpSLessThanEqual.layout (op : OpSLessThanEqual) :
    ∃ s, Spaced s ∧ Display.fmt op = fmtResult op.result_id ++ ("OpSLessThanEqual".toList ++ s) :=
  ⟨_, (Spaced.append (spaced op.result_type) (Spaced.append (spaced op.operand1) (spaced op.operand2))), assoc3⟩

theorem OpSLessThanEqual.fmt_inj {a b : OpSLessThanEqual} (h : Display.fmt a = Display.fmt b) : a = b := by
  have h := assoc3.symm.trans (h.trans assoc3)
  obtain ⟨hr, h⟩ := fmtResult_inj h
  have h := List.append_cancel_left h
  obtain ⟨h0, h⟩ := arg_inj (arg_follows _ _) (arg_follows _ _) h
  obtain ⟨h1, h⟩ := arg_inj (Arg.follows _) (Arg.follows _) h
  have h2 := Arg.inj h
  cases a
  cases b
  rw [OpSLessThanEqual.mk.injEq]
  exact ⟨h0, hr, h1, h2⟩

theorem OpSLessThanEqual.fmt_plain (op : OpSLessThanEqual) : ∀ c ∈ Display.fmt op, Plain c :=
  plain_append (plain_append (plain_append (plain_append (fmtResult_plain _) (by decide)) (PlainArg.plain op.result_type)) (PlainArg.plain op.operand1)) (PlainArg.plain op.operand2)

theorem OpFOrdEqual.layout (op : OpFOrdEqual) :
    ∃ s, Spaced s ∧ Display.fmt op = fmtResult op.result_id ++ ("OpFOrdEqual".toList ++ s) :=
  ⟨_, (Spaced.append (spaced op.result_type) (Spaced.append (spaced op.operand1) (spaced op.operand2))), assoc3⟩

theorem OpFOrdEqual.fmt_inj {a b : OpFOrdEqual} (h : Display.fmt a = Display.fmt b) : a = b := by
  have h := assoc3.symm.trans (h.trans assoc3)
  obtain ⟨hr, h⟩ := fmtResult_inj h
  have h := List.append_cancel_left h
  obtain ⟨h0, h⟩ := arg_inj (arg_follows _ _) (arg_follows _ _) h
  obtain ⟨h1, h⟩ := arg_inj (Arg.follows _) (Arg.follows _) h
  have h2 := Arg.inj h
  cases a
  cases b
  rw [OpFOrdEqual.mk.injEq]
  exact ⟨h0, hr, h1, h2⟩

theorem OpFOrdEqual.fmt_plain (op : OpFOrdEqual) : ∀ c ∈ Display.fmt op, Plain c :=
  plain_append (plain_append (plain_append (plain_append (fmtResult_plain _) (by decide)) (PlainArg.plain op.result_type)) (PlainArg.plain op.operand1)) (PlainArg.plain op.operand2)

theorem OpFUnordEqual.layout (op : OpFUnordEqual) :
    ∃ s, Spaced s ∧ Display.fmt op = fmtResult op.result_id ++ ("OpFUnordEqual".toList ++ s) :=
  ⟨_, (Spaced.append (spaced op.result_type) (Spaced.append (spaced op.operand1) (spaced op.operand2))), assoc3⟩

theorem OpFUnordEqual.fmt_inj {a b : OpFUnordEqual} (h : Display.fmt a = Display.fmt b) : a = b := by
  have h := assoc3.symm.trans (h.trans assoc3)
  obtain ⟨hr, h⟩ := fmtResult_inj h
  have h := List.append_cancel_left h
  obtain ⟨h0, h⟩ := arg_inj (arg_follows _ _) (arg_follows _ _) h
  obtain ⟨h1, h⟩ := arg_inj (Arg.follows _) (Arg.follows _) h
  have h2 := Arg.inj h
  cases a
  cases b
  rw [OpFUnordEqual.mk.injEq]
  exact ⟨h0, hr, h1, h2⟩

theorem OpFUnordEqual.fmt_plain (op : OpFUnordEqual) : ∀ c ∈ Display.fmt op, Plain c :=
  plain_append (plain_append (plain_append (plain_append (fmtResult_plain _) (by decide)) (PlainArg.plain op.result_type)) (PlainArg.plain op.operand1)) (PlainArg.plain op.operand2)

theorem OpFOrdNotEqual.layout (op : OpFOrdNotEqual) :
    ∃ s, Spaced s ∧ Display.fmt op = fmtResult op.result_id ++ ("OpFOrdNotEqual".toList ++ s) :=
  ⟨_, (Spaced.append (spaced op.result_type) (Spaced.append (spaced op.operand1) (spaced op.operand2))), assoc3⟩

theorem OpFOrdNotEqual.fmt_inj {a b : OpFOrdNotEqual} (h : Display.fmt a = Display.fmt b) : a = b := by
  have h := assoc3.symm.trans (h.trans assoc3)
  obtain ⟨hr, h⟩ := fmtResult_inj h
  have h := List.append_cancel_left h
  obtain ⟨h0, h⟩ := arg_inj (arg_follows _ _) (arg_follows _ _) h
  obtain ⟨h1, h⟩ := arg_inj (Arg.follows _) (Arg.follows _) h
  have h2 := Arg.inj h
  cases a
  cases b
  rw [OpFOrdNotEqual.mk.injEq]
  exact ⟨h0, hr, h1, h2⟩

theorem OpFOrdNotEqual.fmt_plain (op : OpFOrdNotEqual) : ∀ c ∈ Display.fmt op, Plain c :=
  plain_append (plain_append (plain_append (plain_append (fmtResult_plain _) (by decide)) (PlainArg.plain op.result_type)) (PlainArg.plain op.operand1)) (PlainArg.plain op.operand2)

theorem OpFUnordNotEqual.layout (op : OpFUnordNotEqual) :
    ∃ s, Spaced s ∧ Display.fmt op = fmtResult op.result_id ++ ("OpFUnordNotEqual".toList ++ s) :=
  ⟨_, (Spaced.append (spaced op.result_type) (Spaced.append (spaced op.operand1) (spaced op.operand2))), assoc3⟩

theorem OpFUnordNotEqual.fmt_inj {a b : OpFUnordNotEqual} (h : Display.fmt a = Display.fmt b) : a = b := by
  have h := assoc3.symm.trans (h.trans assoc3)
  obtain ⟨hr, h⟩ := fmtResult_inj h
  have h := List.append_cancel_left h
  obtain ⟨h0, h⟩ := arg_inj (arg_follows _ _) (arg_follows _ _) h
  obtain ⟨h1, h⟩ := arg_inj (Arg.follows _) (Arg.follows _) h
  have h2 := Arg.inj h
  cases a
  cases b
  rw [OpFUnordNotEqual.mk.injEq]
  exact ⟨h0, hr, h1, h2⟩

theorem OpFUnordNotEqual.fmt_plain (op : OpFUnordNotEqual) : ∀ c ∈ Display.fmt op, Plain c :=
  plain_append (plain_append (plain_append (plain_append (fmtResult_plain _) (by decide)) (PlainArg.plain op.result_type)) (PlainArg.plain op.operand1)) (PlainArg.plain op.operand2)

theorem OpFOrdLessThan.layout (op : OpFOrdLessThan) :
    ∃ s, Spaced s ∧ Display.fmt op = fmtResult op.result_id ++ ("OpFOrdLessThan".toList ++ s) :=
  ⟨_, (Spaced.append (spaced op.result_type) (Spaced.append (spaced op.operand1) (spaced op.operand2))), assoc3⟩

theorem OpFOrdLessThan.fmt_inj {a b : OpFOrdLessThan} (h : Display.fmt a = Display.fmt b) : a = b := by
  have h := assoc3.symm.trans (h.trans assoc3)
  obtain ⟨hr, h⟩ := fmtResult_inj h
  have h := List.append_cancel_left h
  obtain ⟨h0, h⟩ := arg_inj (arg_follows _ _) (arg_follows _ _) h
  obtain ⟨h1, h⟩ := arg_inj (Arg.follows _) (Arg.follows _) h
  have h2 := Arg.inj h
  cases a
  cases b
  rw [OpFOrdLessThan.mk.injEq]
  exact ⟨h0, hr, h1, h2⟩

theorem OpFOrdLessThan.fmt_plain (op : OpFOrdLessThan) : ∀ c ∈ Display.fmt op, Plain c :=
  plain_append (plain_append (plain_append (plain_append (fmtResult_plain _) (by decide)) (PlainArg.plain op.result_type)) (PlainArg.plain op.operand1)) (PlainArg.plain op.operand2)

theorem OpFUnordLessThan.layout (op : OpFUnordLessThan) :
    ∃ s, Spaced s ∧ Display.fmt op = fmtResult op.result_id ++ ("OpFUnordLessThan".toList ++ s) :=
  ⟨_, (Spaced.append (spaced op.result_type) (Spaced.append (spaced op.operand1) (spaced op.operand2))), assoc3⟩

theorem OpFUnordLessThan.fmt_inj {a b : OpFUnordLessThan} (h : Display.fmt a = Display.fmt b) : a = b := by
  have h := assoc3.symm.trans (h.trans assoc3)
  obtain ⟨hr, h⟩ := fmtResult_inj h
  have h := List.append_cancel_left h
  obtain ⟨h0, h⟩ := arg_inj (arg_follows _ _) (arg_follows _ _) h
  obtain ⟨h1, h⟩ := arg_inj (Arg.follows _) (Arg.follows _) h
  have h2 := Arg.inj h
  cases a
  cases b
  rw [OpFUnordLessThan.mk.injEq]
  exact ⟨h0, hr, h1, h2⟩

theorem OpFUnordLessThan.fmt_plain (op : OpFUnordLessThan) : ∀ c ∈ Display.fmt op, Plain c :=
  plain_append (plain_append (plain_append (plain_append (fmtResult_plain _) (by decide)) (PlainArg.plain op.result_type)) (PlainArg.plain op.operand1)) (PlainArg.plain op.operand2)

theorem OpFOrdGreaterThan.layout (op : OpFOrdGreaterThan) :
    ∃ s, Spaced s ∧ Display.fmt op = fmtResult op.result_id ++ ("OpFOrdGreaterThan".toList ++ s) :=
  ⟨_, (Spaced.append (spaced op.result_type) (Spaced.append (spaced op.operand1) (spaced op.operand2))), assoc3⟩

theorem OpFOrdGreaterThan.fmt_inj {a b : OpFOrdGreaterThan} (h : Display.fmt a = Display.fmt b) : a = b := by
  have h := assoc3.symm.trans (h.trans assoc3)
  obtain ⟨hr, h⟩ := fmtResult_inj h
  have h := List.append_cancel_left h
  obtain ⟨h0, h⟩ := arg_inj (arg_follows _ _) (arg_follows _ _) h
  obtain ⟨h1, h⟩ := arg_inj (Arg.follows _) (Arg.follows _) h
  have h2 := Arg.inj h
  cases a
  cases b
  rw [OpFOrdGreaterThan.mk.injEq]
  exact ⟨h0, hr, h1, h2⟩

theorem OpFOrdGreaterThan.fmt_plain (op : OpFOrdGreaterThan) : ∀ c ∈ Display.fmt op, Plain c :=
  plain_append (plain_append (plain_append (plain_append (fmtResult_plain _) (by decide)) (PlainArg.plain op.result_type)) (PlainArg.plain op.operand1)) (PlainArg.plain op.operand2)

theorem OpFUnordGreaterThan.layout (op : OpFUnordGreaterThan) :
    ∃ s, Spaced s ∧ Display.fmt op = fmtResult op.result_id ++ ("OpFUnordGreaterThan".toList ++ s) :=
  ⟨_, (Spaced.append (spaced op.result_type) (Spaced.append (spaced op.operand1) (spaced op.operand2))), assoc3⟩

theorem OpFUnordGreaterThan.fmt_inj {a b : OpFUnordGreaterThan} (h : Display.fmt a = Display.fmt b) : a = b := by
  have h := assoc3.symm.trans (h.trans assoc3)
  obtain ⟨hr, h⟩ := fmtResult_inj h
  have h := List.append_cancel_left h
  obtain ⟨h0, h⟩ := arg_inj (arg_follows _ _) (arg_follows _ _) h
  obtain ⟨h1, h⟩ := arg_inj (Arg.follows _) (Arg.follows _) h
  have h2 := Arg.inj h
  cases a
  cases b
  rw [OpFUnordGreaterThan.mk.injEq]
  exact ⟨h0, hr, h1, h2⟩

theorem OpFUnordGreaterThan.fmt_plain (op : OpFUnordGreaterThan) : ∀ c ∈ Display.fmt op, Plain c :=
  plain_append (plain_append (plain_append (plain_append (fmtResult_plain _) (by decide)) (PlainArg.plain op.result_type)) (PlainArg.plain op.operand1)) (PlainArg.plain op.operand2)

theorem OpFOrdLessThanEqual.layout (op : OpFOrdLessThanEqual) :
    ∃ s, Spaced s ∧ Display.fmt op = fmtResult op.result_id ++ ("OpFOrdLessThanEqual".toList ++ s) :=
  ⟨_, (Spaced.append (spaced op.result_type) (Spaced.append (spaced op.operand1) (spaced op.operand2))), assoc3⟩

theorem OpFOrdLessThanEqual.fmt_inj {a b : OpFOrdLessThanEqual} (h : Display.fmt a = Display.fmt b) : a = b := by
  have h := assoc3.symm.trans (h.trans assoc3)
  obtain ⟨hr, h⟩ := fmtResult_inj h
  have h := List.append_cancel_left h
  obtain ⟨h0, h⟩ := arg_inj (arg_follows _ _) (arg_follows _ _) h
  obtain ⟨h1, h⟩ := arg_inj (Arg.follows _) (Arg.follows _) h
  have h2 := Arg.inj h
  cases a
  cases b
  rw [OpFOrdLessThanEqual.mk.injEq]
  exact ⟨h0, hr, h1, h2⟩

theorem OpFOrdLessThanEqual.fmt_plain (op : OpFOrdLessThanEqual) : ∀ c ∈ Display.fmt op, Plain c :=
  plain_append (plain_append (plain_append (plain_append (fmtResult_plain _) (by decide)) (PlainArg.plain op.result_type)) (PlainArg.plain op.operand1)) (PlainArg.plain op.operand2)

theorem OpFUnordLessThanEqual.layout (op : OpFUnordLessThanEqual) :
    ∃ s, Spaced s ∧ Display.fmt op = fmtResult op.result_id ++ ("OpFUnordLessThanEqual".toList ++ s) :=
  ⟨_, (Spaced.append (spaced op.result_type) (Spaced.append (spaced op.operand1) (spaced op.operand2))), assoc3⟩

theorem OpFUnordLessThanEqual.fmt_inj {a b : OpFUnordLessThanEqual} (h : Display.fmt a = Display.fmt b) : a = b := by
  have h := assoc3.symm.trans (h.trans assoc3)
  obtain ⟨hr, h⟩ := fmtResult_inj h
  have h := List.append_cancel_left h
  obtain ⟨h0, h⟩ := arg_inj (arg_follows _ _) (arg_follows _ _) h
  obtain ⟨h1, h⟩ := arg_inj (Arg.follows _) (Arg.follows _) h
  have h2 := Arg.inj h
  cases a
  cases b
  rw [OpFUnordLessThanEqual.mk.injEq]
  exact ⟨h0, hr, h1, h2⟩

theorem OpFUnordLessThanEqual.fmt_plain (op : OpFUnordLessThanEqual) : ∀ c ∈ Display.fmt op, Plain c :=
  plain_append (plain_append (plain_append (plain_append (fmtResult_plain _) (by decide)) (PlainArg.plain op.result_type)) (PlainArg.plain op.operand1)) (PlainArg.plain op.operand2)

theorem OpFOrdGreaterThanEqual.layout (op : OpFOrdGreaterThanEqual) :
    ∃ s, Spaced s ∧ Display.fmt op = fmtResult op.result_id ++ ("OpFOrdGreaterThanEqual".toList ++ s) :=
  ⟨_, (Spaced.append (spaced op.result_type) (Spaced.append (spaced op.operand1) (spaced op.operand2))), assoc3⟩

theorem OpFOrdGreaterThanEqual.fmt_inj {a b : OpFOrdGreaterThanEqual} (h : Display.fmt a = Display.fmt b) : a = b := by
  have h := assoc3.symm.trans (h.trans assoc3)
  obtain ⟨hr, h⟩ := fmtResult_inj h
  have h := List.append_cancel_left h
  obtain ⟨h0, h⟩ := arg_inj (arg_follows _ _) (arg_follows _ _) h
  obtain ⟨h1, h⟩ := arg_inj (Arg.follows _) (Arg.follows _) h
  have h2 := Arg.inj h
  cases a
  cases b
  rw [OpFOrdGreaterThanEqual.mk.injEq]
  exact ⟨h0, hr, h1, h2⟩

theorem OpFOrdGreaterThanEqual.fmt_plain (op : OpFOrdGreaterThanEqual) : ∀ c ∈ Display.fmt op, Plain c :=
  plain_append (plain_append (plain_append (plain_append (fmtResult_plain _) (by decide)) (PlainArg.plain op.result_type)) (PlainArg.plain op.operand1)) (PlainArg.plain op.operand2)

theorem OpFUnordGreaterThanEqual.layout (op : OpFUnordGreaterThanEqual) :
    ∃ s, Spaced s ∧ Display.fmt op = fmtResult op.result_id ++ ("OpFUnordGreaterThanEqual".toList ++ s) :=
  ⟨_, (Spaced.append (spaced op.result_type) (Spaced.append (spaced op.operand1) (spaced op.operand2))), assoc3⟩

theorem OpFUnordGreaterThanEqual.fmt_inj {a b : OpFUnordGreaterThanEqual} (h : Display.fmt a = Display.fmt b) : a = b := by
  have h := assoc3.symm.trans (h.trans assoc3)
  obtain ⟨hr, h⟩ := fmtResult_inj h
  have h := List.append_cancel_left h
  obtain ⟨h0, h⟩ := arg_inj (arg_follows _ _) (arg_follows _ _) h
  obtain ⟨h1, h⟩ := arg_inj (Arg.follows _) (Arg.follows _) h
  have h2 := Arg.inj h
  cases a
  cases b
  rw [OpFUnordGreaterThanEqual.mk.injEq]
  exact ⟨h0, hr, h1, h2⟩

theorem OpFUnordGreaterThanEqual.fmt_plain (op : OpFUnordGreaterThanEqual) : ∀ c ∈ Display.fmt op, Plain c :=
  plain_append (plain_append (plain_append (plain_append (fmtResult_plain _) (by decide)) (PlainArg.plain op.result_type)) (PlainArg.plain op.operand1)) (PlainArg.plain op.operand2)

theorem OpPhi.layout (op : OpPhi) :
    ∃ s, Spaced s ∧ Display.fmt op = fmtResult op.result_id ++ ("OpPhi".toList ++ s) :=
  ⟨_, (Spaced.append (spaced op.result_type) (spaced op.variables)), assoc2⟩

theorem OpPhi.fmt_inj {a b : OpPhi} (h : Display.fmt a = Display.fmt b) : a = b := by
  have h := assoc2.symm.trans (h.trans assoc2)
  obtain ⟨hr, h⟩ := fmtResult_inj h
  have h := List.append_cancel_left h
  obtain ⟨h0, h⟩ := arg_inj (Arg.follows _) (Arg.follows _) h
  have h1 := Arg.inj h
  cases a
  cases b
  rw [OpPhi.mk.injEq]
  exact ⟨h0, hr, h1⟩

theorem OpPhi.fmt_plain (op : OpPhi) : ∀ c ∈ Display.fmt op, Plain c :=
  plain_append (plain_append (plain_append (fmtResult_plain _) (by decide)) (PlainArg.plain op.result_type)) (PlainArg.plain op.variables)

theorem OpLoopMerge.layout (op : OpLoopMerge) :
    ∃ s, Spaced s ∧ Display.fmt op = fmtNoResult ++ ("OpLoopMerge".toList ++ s) :=
  ⟨_, (Spaced.append (spaced op.merge_block) (Spaced.append (spaced op.continue_target) (spaced op.loop_control))), assoc3⟩

theorem OpLoopMerge.fmt_inj {a b : OpLoopMerge} (h : Display.fmt a = Display.fmt b) : a = b := by
  have h := assoc3.symm.trans (h.trans assoc3)
  have h := List.append_cancel_left h
  have h := List.append_cancel_left h
  obtain ⟨h0, h⟩ := arg_inj (arg_follows _ _) (arg_follows _ _) h
  obtain ⟨h1, h⟩ := arg_inj (Arg.follows _) (Arg.follows _) h
  have h2 := Arg.inj h
  cases a
  cases b
  rw [OpLoopMerge.mk.injEq]
  exact ⟨h0, h1, h2⟩

theorem OpLoopMerge.fmt_plain (op : OpLoopMerge) : ∀ c ∈ Display.fmt op, Plain c :=
  plain_append (plain_append (plain_append (plain_append fmtNoResult_plain (by decide)) (PlainArg.plain op.merge_block)) (PlainArg.plain op.continue_target)) (PlainArg.plain op.loop_control)

theorem OpSelectionMerge.layout (op : OpSelectionMerge) :
    ∃ s, Spaced s ∧ Display.fmt op = fmtNoResult ++ ("OpSelectionMerge".toList ++ s) :=
  ⟨_, (Spaced.append (spaced op.merge_block) (spaced op.selection_control)), assoc2⟩

theorem OpSelectionMerge.fmt_inj {a b : OpSelectionMerge} (h : Display.fmt a = Display.fmt b) : a = b := by
  have h := assoc2.symm.trans (h.trans assoc2)
  have h := List.append_cancel_left h
  have h := List.append_cancel_left h
  obtain ⟨h0, h⟩ := arg_inj (Arg.follows _) (Arg.follows _) h
  have h1 := Arg.inj h
  cases a
  cases b
  rw [OpSelectionMerge.mk.injEq]
  exact ⟨h0, h1⟩

theorem OpSelectionMerge.fmt_plain (op : OpSelectionMerge) : ∀ c ∈ Display.fmt op, Plain c :=
  plain_append (plain_append (plain_append fmtNoResult_plain (by decide)) (PlainArg.plain op.merge_block)) (PlainArg.plain op.selection_control)

theorem OpLabel.layout (op : OpLabel) :
    ∃ s, Spaced s ∧ Display.fmt op = fmtResult op.result_id ++ ("OpLabel".toList ++ s) :=
  ⟨_, spaced_nil, assoc0⟩

theorem OpLabel.fmt_inj {a b : OpLabel} (h : Display.fmt a = Display.fmt b) : a = b := by
  have h := assoc0.symm.trans (h.trans assoc0)
  obtain ⟨hr, h⟩ := fmtResult_inj h
  have h := List.append_cancel_left h
  cases a
  cases b
  rw [OpLabel.mk.injEq]
  exact hr

theorem OpLabel.fmt_plain (op : OpLabel) : ∀ c ∈ Display.fmt op, Plain c :=
  plain_append (fmtResult_plain _) (by decide)

theorem OpBranch.layout (op : OpBranch) :
    ∃ s, Spaced s ∧ Display.fmt op = fmtNoResult ++ ("OpBranch".toList ++ s) :=
  ⟨_, (spaced op.target_label), assoc1⟩

theorem OpBranch.fmt_inj {a b : OpBranch} (h : Display.fmt a = Display.fmt b) : a = b := by
  have h := assoc1.symm.trans (h.trans assoc1)
  have h := List.append_cancel_left h
  have h := List.append_cancel_left h
  have h0 := Arg.inj h
  cases a
  cases b
  rw [OpBranch.mk.injEq]
  exact h0

theorem OpBranch.fmt_plain (op : OpBranch) : ∀ c ∈ Display.fmt op, Plain c :=
  plain_append (plain_append fmtNoResult_plain (by decide)) (PlainArg.plain op.target_label)

theorem OpBranchConditional.layout (op : OpBranchConditional) :
    ∃ s, Spaced s ∧ Display.fmt op = fmtNoResult ++ ("OpBranchConditional".toList ++ s) :=
  ⟨_, (Spaced.append (spaced op.condition) (Spaced.append (spaced op.true_label) (Spaced.append (spaced op.false_label) (spaced op.weights)))), assoc4⟩

theorem OpBranchConditional.fmt_inj {a b : OpBranchConditional} (h : Display.fmt a = Display.fmt b) : a = b := by
  have h := assoc4.symm.trans (h.trans assoc4)
  have h := List.append_cancel_left h
  have h := List.append_cancel_left h
  obtain ⟨h0, h⟩ := arg_inj (arg_follows _ _) (arg_follows _ _) h
  obtain ⟨h1, h⟩ := arg_inj (arg_follows _ _) (arg_follows _ _) h
  obtain ⟨h2, h⟩ := arg_inj (Arg.follows _) (Arg.follows _) h
  have h3 := Arg.inj h
  cases a
  cases b
  rw [OpBranchConditional.mk.injEq]
  exact ⟨h0, h1, h2, h3⟩

theorem OpBranchConditional.fmt_plain (op : OpBranchConditional) : ∀ c ∈ Display.fmt op, Plain c :=
  plain_append (plain_append (plain_append (plain_append (plain_append fmtNoResult_plain (by decide)) (PlainArg.plain op.condition)) (PlainArg.plain op.true_label)) (PlainArg.plain op.false_label)) (PlainArg.plain op.weights)

theorem OpReturn.layout (op : OpReturn) :
    ∃ s, Spaced s ∧ Display.fmt op = fmtNoResult ++ ("OpReturn".toList ++ s) :=
  ⟨_, spaced_nil, assoc0⟩

theorem OpReturn.fmt_inj {a b : OpReturn} (_ : Display.fmt a = Display.fmt b) : a = b := rfl

theorem OpReturn.fmt_plain (op : OpReturn) : ∀ c ∈ Display.fmt op, Plain c :=
  plain_append fmtNoResult_plain (by decide)

end Magma
