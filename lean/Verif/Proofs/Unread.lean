import Verif.Proofs.UnreadShown
/-! Generated by `tools/gen_unread.py`: the cases of the lemmas about instructions that are printed but not read. -/

namespace Magma

theorem OpLine.layout (op : OpLine) :
    ∃ s, Spaced s ∧ Display.fmt op = fmtNoResult ++ ("OpLine".toList ++ s) :=
  ⟨_, (Spaced.append (spaced op.file) (Spaced.append (spaced op.line) (spaced op.column))), assoc3⟩

theorem OpLine.fmt_inj {a b : OpLine} (h : Display.fmt a = Display.fmt b) : a = b := by
  have h := assoc3.symm.trans (h.trans assoc3)
  have h := List.append_cancel_left h
  have h := List.append_cancel_left h
  obtain ⟨h0, h⟩ := arg_inj (arg_follows _ _) (arg_follows _ _) h
  obtain ⟨h1, h⟩ := arg_inj (Arg.follows _) (Arg.follows _) h
  have h2 := Arg.inj h
  cases a
  cases b
  rw [OpLine.mk.injEq]
  exact ⟨h0, h1, h2⟩

theorem OpLine.shown (op : OpLine) :
    Display.fmt op = Spec.unreadLine (Spec.unreadCode (.OpLine op)) (Spec.unreadWords (.OpLine op)) :=
  assoc3.trans ((line_plain _ "OpLine" rfl rfl ((shown_mid op.file _ _).trans (congrArg (_ ++ ·) ((shown_mid op.line _ _).trans (congrArg (_ ++ ·) (shown_end op.column)))))).trans
    (congrArg (Spec.unreadLine _) append3.symm))

theorem OpNoLine.layout (op : OpNoLine) :
    ∃ s, Spaced s ∧ Display.fmt op = fmtNoResult ++ ("OpNoLine".toList ++ s) :=
  ⟨_, spaced_nil, assoc0⟩

theorem OpNoLine.fmt_inj {a b : OpNoLine} (h : Display.fmt a = Display.fmt b) : a = b := by
  cases a
  cases b
  rfl

theorem OpNoLine.shown (op : OpNoLine) :
    Display.fmt op = Spec.unreadLine (Spec.unreadCode (.OpNoLine op)) (Spec.unreadWords (.OpNoLine op)) :=
  assoc0.trans (line_plain0 _ "OpNoLine" rfl rfl)

theorem OpDecorationGroup.layout (op : OpDecorationGroup) :
    ∃ s, Spaced s ∧ Display.fmt op = fmtResult op.result_id ++ ("OpDecorationGroup".toList ++ s) :=
  ⟨_, spaced_nil, assoc0⟩

theorem OpDecorationGroup.fmt_inj {a b : OpDecorationGroup} (h : Display.fmt a = Display.fmt b) : a = b := by
  have h := assoc0.symm.trans (h.trans assoc0)
  obtain ⟨hr, h⟩ := fmtResult_inj h
  have h := List.append_cancel_left h
  cases a
  cases b
  rw [OpDecorationGroup.mk.injEq]
  exact hr

theorem OpDecorationGroup.shown (op : OpDecorationGroup) :
    Display.fmt op = Spec.unreadLine (Spec.unreadCode (.OpDecorationGroup op)) (Spec.unreadWords (.OpDecorationGroup op)) :=
  assoc0.trans (line_result0 _ "OpDecorationGroup" op.result_id rfl rfl)

theorem OpGroupDecorate.layout (op : OpGroupDecorate) :
    ∃ s, Spaced s ∧ Display.fmt op = fmtNoResult ++ ("OpGroupDecorate".toList ++ s) :=
  ⟨_, (Spaced.append (spaced op.decoration_group) (spaced op.targets)), assoc2⟩

theorem OpGroupDecorate.fmt_inj {a b : OpGroupDecorate} (h : Display.fmt a = Display.fmt b) : a = b := by
  have h := assoc2.symm.trans (h.trans assoc2)
  have h := List.append_cancel_left h
  have h := List.append_cancel_left h
  obtain ⟨h0, h⟩ := arg_inj (Arg.follows _) (Arg.follows _) h
  have h1 := Arg.inj h
  cases a
  cases b
  rw [OpGroupDecorate.mk.injEq]
  exact ⟨h0, h1⟩

theorem OpGroupDecorate.shown (op : OpGroupDecorate) :
    Display.fmt op = Spec.unreadLine (Spec.unreadCode (.OpGroupDecorate op)) (Spec.unreadWords (.OpGroupDecorate op)) :=
  assoc2.trans (line_plain _ "OpGroupDecorate" rfl rfl ((shown_mid op.decoration_group _ _).trans (congrArg (_ ++ ·) (shown_all op.targets))))

theorem OpTypeReserveId.layout (op : OpTypeReserveId) :
    ∃ s, Spaced s ∧ Display.fmt op = fmtResult op.result_id ++ ("OpTypeReserveId".toList ++ s) :=
  ⟨_, spaced_nil, assoc0⟩

theorem OpTypeReserveId.fmt_inj {a b : OpTypeReserveId} (h : Display.fmt a = Display.fmt b) : a = b := by
  have h := assoc0.symm.trans (h.trans assoc0)
  obtain ⟨hr, h⟩ := fmtResult_inj h
  have h := List.append_cancel_left h
  cases a
  cases b
  rw [OpTypeReserveId.mk.injEq]
  exact hr

theorem OpTypeReserveId.shown (op : OpTypeReserveId) :
    Display.fmt op = Spec.unreadLine (Spec.unreadCode (.OpTypeReserveId op)) (Spec.unreadWords (.OpTypeReserveId op)) :=
  assoc0.trans (line_result0 _ "OpTypeReserveId" op.result_id rfl rfl)

theorem OpConstantTrue.layout (op : OpConstantTrue) :
    ∃ s, Spaced s ∧ Display.fmt op = fmtResult op.result_id ++ ("OpConstantTrue".toList ++ s) :=
  ⟨_, (spaced op.result_type), assoc1⟩

theorem OpConstantTrue.fmt_inj {a b : OpConstantTrue} (h : Display.fmt a = Display.fmt b) : a = b := by
  have h := assoc1.symm.trans (h.trans assoc1)
  obtain ⟨hr, h⟩ := fmtResult_inj h
  have h := List.append_cancel_left h
  have h0 := Arg.inj h
  cases a
  cases b
  rw [OpConstantTrue.mk.injEq]
  exact ⟨h0, hr⟩

theorem OpConstantTrue.shown (op : OpConstantTrue) :
    Display.fmt op = Spec.unreadLine (Spec.unreadCode (.OpConstantTrue op)) (Spec.unreadWords (.OpConstantTrue op)) :=
  assoc1.trans (line_typed0 _ "OpConstantTrue" op.result_type op.result_id rfl rfl)

theorem OpConstantFalse.layout (op : OpConstantFalse) :
    ∃ s, Spaced s ∧ Display.fmt op = fmtResult op.result_id ++ ("OpConstantFalse".toList ++ s) :=
  ⟨_, (spaced op.result_type), assoc1⟩

theorem OpConstantFalse.fmt_inj {a b : OpConstantFalse} (h : Display.fmt a = Display.fmt b) : a = b := by
  have h := assoc1.symm.trans (h.trans assoc1)
  obtain ⟨hr, h⟩ := fmtResult_inj h
  have h := List.append_cancel_left h
  have h0 := Arg.inj h
  cases a
  cases b
  rw [OpConstantFalse.mk.injEq]
  exact ⟨h0, hr⟩

theorem OpConstantFalse.shown (op : OpConstantFalse) :
    Display.fmt op = Spec.unreadLine (Spec.unreadCode (.OpConstantFalse op)) (Spec.unreadWords (.OpConstantFalse op)) :=
  assoc1.trans (line_typed0 _ "OpConstantFalse" op.result_type op.result_id rfl rfl)

theorem OpConstantSampler.layout (op : OpConstantSampler) :
    ∃ s, Spaced s ∧ Display.fmt op = fmtResult op.result_id ++ ("OpConstantSampler".toList ++ s) :=
  ⟨_, (Spaced.append (spaced op.result_type) (Spaced.append (spaced op.addressing_mode) (Spaced.append (spaced op.param) (spaced op.filter_mode)))), assoc4⟩

theorem OpConstantSampler.fmt_inj {a b : OpConstantSampler} (h : Display.fmt a = Display.fmt b) : a = b := by
  have h := assoc4.symm.trans (h.trans assoc4)
  obtain ⟨hr, h⟩ := fmtResult_inj h
  have h := List.append_cancel_left h
  obtain ⟨h0, h⟩ := arg_inj (arg_follows _ _) (arg_follows _ _) h
  obtain ⟨h1, h⟩ := arg_inj (arg_follows _ _) (arg_follows _ _) h
  obtain ⟨h2, h⟩ := arg_inj (Arg.follows _) (Arg.follows _) h
  have h3 := Arg.inj h
  cases a
  cases b
  rw [OpConstantSampler.mk.injEq]
  exact ⟨h0, hr, h1, h2, h3⟩

theorem OpConstantSampler.shown (op : OpConstantSampler) :
    Display.fmt op = Spec.unreadLine (Spec.unreadCode (.OpConstantSampler op)) (Spec.unreadWords (.OpConstantSampler op)) :=
  assoc4.trans ((line_typed _ "OpConstantSampler" op.result_type op.result_id rfl rfl ((shown_mid op.addressing_mode _ _).trans (congrArg (_ ++ ·) ((shown_mid op.param _ _).trans (congrArg (_ ++ ·) (shown_end op.filter_mode)))))).trans
    (congrArg (Spec.unreadLine _) append5.symm))

theorem OpConstantNull.layout (op : OpConstantNull) :
    ∃ s, Spaced s ∧ Display.fmt op = fmtResult op.result_id ++ ("OpConstantNull".toList ++ s) :=
  ⟨_, (spaced op.result_type), assoc1⟩

theorem OpConstantNull.fmt_inj {a b : OpConstantNull} (h : Display.fmt a = Display.fmt b) : a = b := by
  have h := assoc1.symm.trans (h.trans assoc1)
  obtain ⟨hr, h⟩ := fmtResult_inj h
  have h := List.append_cancel_left h
  have h0 := Arg.inj h
  cases a
  cases b
  rw [OpConstantNull.mk.injEq]
  exact ⟨h0, hr⟩

theorem OpConstantNull.shown (op : OpConstantNull) :
    Display.fmt op = Spec.unreadLine (Spec.unreadCode (.OpConstantNull op)) (Spec.unreadWords (.OpConstantNull op)) :=
  assoc1.trans (line_typed0 _ "OpConstantNull" op.result_type op.result_id rfl rfl)

theorem OpSpecConstantTrue.layout (op : OpSpecConstantTrue) :
    ∃ s, Spaced s ∧ Display.fmt op = fmtResult op.result_id ++ ("OpSpecConstantTrue".toList ++ s) :=
  ⟨_, (spaced op.result_type), assoc1⟩

theorem OpSpecConstantTrue.fmt_inj {a b : OpSpecConstantTrue} (h : Display.fmt a = Display.fmt b) : a = b := by
  have h := assoc1.symm.trans (h.trans assoc1)
  obtain ⟨hr, h⟩ := fmtResult_inj h
  have h := List.append_cancel_left h
  have h0 := Arg.inj h
  cases a
  cases b
  rw [OpSpecConstantTrue.mk.injEq]
  exact ⟨h0, hr⟩

theorem OpSpecConstantTrue.shown (op : OpSpecConstantTrue) :
    Display.fmt op = Spec.unreadLine (Spec.unreadCode (.OpSpecConstantTrue op)) (Spec.unreadWords (.OpSpecConstantTrue op)) :=
  assoc1.trans (line_typed0 _ "OpSpecConstantTrue" op.result_type op.result_id rfl rfl)

theorem OpSpecConstantFalse.layout (op : OpSpecConstantFalse) :
    ∃ s, Spaced s ∧ Display.fmt op = fmtResult op.result_id ++ ("OpSpecConstantFalse".toList ++ s) :=
  ⟨_, (spaced op.result_type), assoc1⟩

theorem OpSpecConstantFalse.fmt_inj {a b : OpSpecConstantFalse} (h : Display.fmt a = Display.fmt b) : a = b := by
  have h := assoc1.symm.trans (h.trans assoc1)
  obtain ⟨hr, h⟩ := fmtResult_inj h
  have h := List.append_cancel_left h
  have h0 := Arg.inj h
  cases a
  cases b
  rw [OpSpecConstantFalse.mk.injEq]
  exact ⟨h0, hr⟩

theorem OpSpecConstantFalse.shown (op : OpSpecConstantFalse) :
    Display.fmt op = Spec.unreadLine (Spec.unreadCode (.OpSpecConstantFalse op)) (Spec.unreadWords (.OpSpecConstantFalse op)) :=
  assoc1.trans (line_typed0 _ "OpSpecConstantFalse" op.result_type op.result_id rfl rfl)

theorem OpSpecConstant.layout (op : OpSpecConstant) :
    ∃ s, Spaced s ∧ Display.fmt op = fmtResult op.result_id ++ ("OpSpecConstant".toList ++ s) :=
  ⟨_, (Spaced.append (spaced op.result_type) (spaced op.value)), assoc2⟩

theorem OpSpecConstant.fmt_inj {a b : OpSpecConstant} (h : Display.fmt a = Display.fmt b) : a = b := by
  have h := assoc2.symm.trans (h.trans assoc2)
  obtain ⟨hr, h⟩ := fmtResult_inj h
  have h := List.append_cancel_left h
  obtain ⟨h0, h⟩ := arg_inj (Arg.follows _) (Arg.follows _) h
  have h1 := Arg.inj h
  cases a
  cases b
  rw [OpSpecConstant.mk.injEq]
  exact ⟨h0, hr, h1⟩

theorem OpSpecConstant.shown (op : OpSpecConstant) :
    Display.fmt op = Spec.unreadLine (Spec.unreadCode (.OpSpecConstant op)) (Spec.unreadWords (.OpSpecConstant op)) :=
  assoc2.trans ((line_typed _ "OpSpecConstant" op.result_type op.result_id rfl rfl (shown_all op.value)).trans
    (congrArg (Spec.unreadLine _) append3.symm))

theorem OpSpecConstantComposite.layout (op : OpSpecConstantComposite) :
    ∃ s, Spaced s ∧ Display.fmt op = fmtResult op.result_id ++ ("OpSpecConstantComposite".toList ++ s) :=
  ⟨_, (Spaced.append (spaced op.result_type) (spaced op.constituents)), assoc2⟩

theorem OpSpecConstantComposite.fmt_inj {a b : OpSpecConstantComposite} (h : Display.fmt a = Display.fmt b) : a = b := by
  have h := assoc2.symm.trans (h.trans assoc2)
  obtain ⟨hr, h⟩ := fmtResult_inj h
  have h := List.append_cancel_left h
  obtain ⟨h0, h⟩ := arg_inj (Arg.follows _) (Arg.follows _) h
  have h1 := Arg.inj h
  cases a
  cases b
  rw [OpSpecConstantComposite.mk.injEq]
  exact ⟨h0, hr, h1⟩

theorem OpSpecConstantComposite.shown (op : OpSpecConstantComposite) :
    Display.fmt op = Spec.unreadLine (Spec.unreadCode (.OpSpecConstantComposite op)) (Spec.unreadWords (.OpSpecConstantComposite op)) :=
  assoc2.trans ((line_typed _ "OpSpecConstantComposite" op.result_type op.result_id rfl rfl (shown_all op.constituents)).trans
    (congrArg (Spec.unreadLine _) append3.symm))

theorem OpImageTexelPointer.layout (op : OpImageTexelPointer) :
    ∃ s, Spaced s ∧ Display.fmt op = fmtResult op.result_id ++ ("OpImageTexelPointer".toList ++ s) :=
  ⟨_, (Spaced.append (spaced op.result_type) (Spaced.append (spaced op.image) (Spaced.append (spaced op.coordinate) (spaced op.sample)))), assoc4⟩

theorem OpImageTexelPointer.fmt_inj {a b : OpImageTexelPointer} (h : Display.fmt a = Display.fmt b) : a = b := by
  have h := assoc4.symm.trans (h.trans assoc4)
  obtain ⟨hr, h⟩ := fmtResult_inj h
  have h := List.append_cancel_left h
  obtain ⟨h0, h⟩ := arg_inj (arg_follows _ _) (arg_follows _ _) h
  obtain ⟨h1, h⟩ := arg_inj (arg_follows _ _) (arg_follows _ _) h
  obtain ⟨h2, h⟩ := arg_inj (Arg.follows _) (Arg.follows _) h
  have h3 := Arg.inj h
  cases a
  cases b
  rw [OpImageTexelPointer.mk.injEq]
  exact ⟨h0, hr, h1, h2, h3⟩

theorem OpImageTexelPointer.shown (op : OpImageTexelPointer) :
    Display.fmt op = Spec.unreadLine (Spec.unreadCode (.OpImageTexelPointer op)) (Spec.unreadWords (.OpImageTexelPointer op)) :=
  assoc4.trans ((line_typed _ "OpImageTexelPointer" op.result_type op.result_id rfl rfl ((shown_mid op.image _ _).trans (congrArg (_ ++ ·) ((shown_mid op.coordinate _ _).trans (congrArg (_ ++ ·) (shown_end op.sample)))))).trans
    (congrArg (Spec.unreadLine _) append5.symm))

theorem OpCopyMemory.layout (op : OpCopyMemory) :
    ∃ s, Spaced s ∧ Display.fmt op = fmtNoResult ++ ("OpCopyMemory".toList ++ s) :=
  ⟨_, (Spaced.append (spaced op.target) (Spaced.append (spaced op.source) (spaced op.memory_access))), assoc3⟩

theorem OpCopyMemory.fmt_inj {a b : OpCopyMemory} (h : Display.fmt a = Display.fmt b) : a = b := by
  have h := assoc3.symm.trans (h.trans assoc3)
  have h := List.append_cancel_left h
  have h := List.append_cancel_left h
  obtain ⟨h0, h⟩ := arg_inj (arg_follows _ _) (arg_follows _ _) h
  obtain ⟨h1, h⟩ := arg_inj (Arg.follows _) (Arg.follows _) h
  have h2 := Arg.inj h
  cases a
  cases b
  rw [OpCopyMemory.mk.injEq]
  exact ⟨h0, h1, h2⟩

theorem OpCopyMemory.shown (op : OpCopyMemory) :
    Display.fmt op = Spec.unreadLine (Spec.unreadCode (.OpCopyMemory op)) (Spec.unreadWords (.OpCopyMemory op)) :=
  assoc3.trans ((line_plain _ "OpCopyMemory" rfl rfl ((shown_mid op.target _ _).trans (congrArg (_ ++ ·) ((shown_mid op.source _ _).trans (congrArg (_ ++ ·) (shown_any op.memory_access)))))).trans
    (congrArg (Spec.unreadLine _) append3.symm))

theorem OpCopyMemorySized.layout (op : OpCopyMemorySized) :
    ∃ s, Spaced s ∧ Display.fmt op = fmtNoResult ++ ("OpCopyMemorySized".toList ++ s) :=
  ⟨_, (Spaced.append (spaced op.target) (Spaced.append (spaced op.source) (Spaced.append (spaced op.size) (spaced op.memory_access)))), assoc4⟩

theorem OpCopyMemorySized.fmt_inj {a b : OpCopyMemorySized} (h : Display.fmt a = Display.fmt b) : a = b := by
  have h := assoc4.symm.trans (h.trans assoc4)
  have h := List.append_cancel_left h
  have h := List.append_cancel_left h
  obtain ⟨h0, h⟩ := arg_inj (arg_follows _ _) (arg_follows _ _) h
  obtain ⟨h1, h⟩ := arg_inj (arg_follows _ _) (arg_follows _ _) h
  obtain ⟨h2, h⟩ := arg_inj (Arg.follows _) (Arg.follows _) h
  have h3 := Arg.inj h
  cases a
  cases b
  rw [OpCopyMemorySized.mk.injEq]
  exact ⟨h0, h1, h2, h3⟩

theorem OpCopyMemorySized.shown (op : OpCopyMemorySized) :
    Display.fmt op = Spec.unreadLine (Spec.unreadCode (.OpCopyMemorySized op)) (Spec.unreadWords (.OpCopyMemorySized op)) :=
  assoc4.trans ((line_plain _ "OpCopyMemorySized" rfl rfl ((shown_mid op.target _ _).trans (congrArg (_ ++ ·) ((shown_mid op.source _ _).trans (congrArg (_ ++ ·) ((shown_mid op.size _ _).trans (congrArg (_ ++ ·) (shown_any op.memory_access)))))))).trans
    (congrArg (Spec.unreadLine _) append4.symm))

theorem OpInBoundsAccessChain.layout (op : OpInBoundsAccessChain) :
    ∃ s, Spaced s ∧ Display.fmt op = fmtResult op.result_id ++ ("OpInBoundsAccessChain".toList ++ s) :=
  ⟨_, (Spaced.append (spaced op.result_type) (Spaced.append (spaced op.base) (spaced op.indexes))), assoc3⟩

theorem OpInBoundsAccessChain.fmt_inj {a b : OpInBoundsAccessChain} (h : Display.fmt a = Display.fmt b) : a = b := by
  have h := assoc3.symm.trans (h.trans assoc3)
  obtain ⟨hr, h⟩ := fmtResult_inj h
  have h := List.append_cancel_left h
  obtain ⟨h0, h⟩ := arg_inj (arg_follows _ _) (arg_follows _ _) h
  obtain ⟨h1, h⟩ := arg_inj (Arg.follows _) (Arg.follows _) h
  have h2 := Arg.inj h
  cases a
  cases b
  rw [OpInBoundsAccessChain.mk.injEq]
  exact ⟨h0, hr, h1, h2⟩

theorem OpInBoundsAccessChain.shown (op : OpInBoundsAccessChain) :
    Display.fmt op = Spec.unreadLine (Spec.unreadCode (.OpInBoundsAccessChain op)) (Spec.unreadWords (.OpInBoundsAccessChain op)) :=
  assoc3.trans ((line_typed _ "OpInBoundsAccessChain" op.result_type op.result_id rfl rfl ((shown_mid op.base _ _).trans (congrArg (_ ++ ·) (shown_all op.indexes)))).trans
    (congrArg (Spec.unreadLine _) append4.symm))

theorem OpPtrAccessChain.layout (op : OpPtrAccessChain) :
    ∃ s, Spaced s ∧ Display.fmt op = fmtResult op.result_id ++ ("OpPtrAccessChain".toList ++ s) :=
  ⟨_, (Spaced.append (spaced op.result_type) (Spaced.append (spaced op.base) (Spaced.append (spaced op.element) (spaced op.indexes)))), assoc4⟩

theorem OpPtrAccessChain.fmt_inj {a b : OpPtrAccessChain} (h : Display.fmt a = Display.fmt b) : a = b := by
  have h := assoc4.symm.trans (h.trans assoc4)
  obtain ⟨hr, h⟩ := fmtResult_inj h
  have h := List.append_cancel_left h
  obtain ⟨h0, h⟩ := arg_inj (arg_follows _ _) (arg_follows _ _) h
  obtain ⟨h1, h⟩ := arg_inj (arg_follows _ _) (arg_follows _ _) h
  obtain ⟨h2, h⟩ := arg_inj (Arg.follows _) (Arg.follows _) h
  have h3 := Arg.inj h
  cases a
  cases b
  rw [OpPtrAccessChain.mk.injEq]
  exact ⟨h0, hr, h1, h2, h3⟩

theorem OpPtrAccessChain.shown (op : OpPtrAccessChain) :
    Display.fmt op = Spec.unreadLine (Spec.unreadCode (.OpPtrAccessChain op)) (Spec.unreadWords (.OpPtrAccessChain op)) :=
  assoc4.trans ((line_typed _ "OpPtrAccessChain" op.result_type op.result_id rfl rfl ((shown_mid op.base _ _).trans (congrArg (_ ++ ·) ((shown_mid op.element _ _).trans (congrArg (_ ++ ·) (shown_all op.indexes)))))).trans
    (congrArg (Spec.unreadLine _) append5.symm))

theorem OpArrayLength.layout (op : OpArrayLength) :
    ∃ s, Spaced s ∧ Display.fmt op = fmtResult op.result_id ++ ("OpArrayLength".toList ++ s) :=
  ⟨_, (Spaced.append (spaced op.result_type) (Spaced.append (spaced op.«structure») (spaced op.array_member))), assoc3⟩

theorem OpArrayLength.fmt_inj {a b : OpArrayLength} (h : Display.fmt a = Display.fmt b) : a = b := by
  have h := assoc3.symm.trans (h.trans assoc3)
  obtain ⟨hr, h⟩ := fmtResult_inj h
  have h := List.append_cancel_left h
  obtain ⟨h0, h⟩ := arg_inj (arg_follows _ _) (arg_follows _ _) h
  obtain ⟨h1, h⟩ := arg_inj (Arg.follows _) (Arg.follows _) h
  have h2 := Arg.inj h
  cases a
  cases b
  rw [OpArrayLength.mk.injEq]
  exact ⟨h0, hr, h1, h2⟩

theorem OpArrayLength.shown (op : OpArrayLength) :
    Display.fmt op = Spec.unreadLine (Spec.unreadCode (.OpArrayLength op)) (Spec.unreadWords (.OpArrayLength op)) :=
  assoc3.trans ((line_typed _ "OpArrayLength" op.result_type op.result_id rfl rfl ((shown_mid op.«structure» _ _).trans (congrArg (_ ++ ·) (shown_end op.array_member)))).trans
    (congrArg (Spec.unreadLine _) append4.symm))

theorem OpGenericPtrMemSemantics.layout (op : OpGenericPtrMemSemantics) :
    ∃ s, Spaced s ∧ Display.fmt op = fmtResult op.result_id ++ ("OpGenericPtrMemSemantics".toList ++ s) :=
  ⟨_, (Spaced.append (spaced op.result_type) (spaced op.pointer)), assoc2⟩

theorem OpGenericPtrMemSemantics.fmt_inj {a b : OpGenericPtrMemSemantics} (h : Display.fmt a = Display.fmt b) : a = b := by
  have h := assoc2.symm.trans (h.trans assoc2)
  obtain ⟨hr, h⟩ := fmtResult_inj h
  have h := List.append_cancel_left h
  obtain ⟨h0, h⟩ := arg_inj (Arg.follows _) (Arg.follows _) h
  have h1 := Arg.inj h
  cases a
  cases b
  rw [OpGenericPtrMemSemantics.mk.injEq]
  exact ⟨h0, hr, h1⟩

theorem OpGenericPtrMemSemantics.shown (op : OpGenericPtrMemSemantics) :
    Display.fmt op = Spec.unreadLine (Spec.unreadCode (.OpGenericPtrMemSemantics op)) (Spec.unreadWords (.OpGenericPtrMemSemantics op)) :=
  assoc2.trans ((line_typed _ "OpGenericPtrMemSemantics" op.result_type op.result_id rfl rfl (shown_end op.pointer)).trans
    (congrArg (Spec.unreadLine _) append3.symm))

theorem OpInBoundsPtrAccessChain.layout (op : OpInBoundsPtrAccessChain) :
    ∃ s, Spaced s ∧ Display.fmt op = fmtResult op.result_id ++ ("OpInBoundsPtrAccessChain".toList ++ s) :=
  ⟨_, (Spaced.append (spaced op.result_type) (Spaced.append (spaced op.base) (Spaced.append (spaced op.element) (spaced op.indexes)))), assoc4⟩

theorem OpInBoundsPtrAccessChain.fmt_inj {a b : OpInBoundsPtrAccessChain} (h : Display.fmt a = Display.fmt b) : a = b := by
  have h := assoc4.symm.trans (h.trans assoc4)
  obtain ⟨hr, h⟩ := fmtResult_inj h
  have h := List.append_cancel_left h
  obtain ⟨h0, h⟩ := arg_inj (arg_follows _ _) (arg_follows _ _) h
  obtain ⟨h1, h⟩ := arg_inj (arg_follows _ _) (arg_follows _ _) h
  obtain ⟨h2, h⟩ := arg_inj (Arg.follows _) (Arg.follows _) h
  have h3 := Arg.inj h
  cases a
  cases b
  rw [OpInBoundsPtrAccessChain.mk.injEq]
  exact ⟨h0, hr, h1, h2, h3⟩

theorem OpInBoundsPtrAccessChain.shown (op : OpInBoundsPtrAccessChain) :
    Display.fmt op = Spec.unreadLine (Spec.unreadCode (.OpInBoundsPtrAccessChain op)) (Spec.unreadWords (.OpInBoundsPtrAccessChain op)) :=
  assoc4.trans ((line_typed _ "OpInBoundsPtrAccessChain" op.result_type op.result_id rfl rfl ((shown_mid op.base _ _).trans (congrArg (_ ++ ·) ((shown_mid op.element _ _).trans (congrArg (_ ++ ·) (shown_all op.indexes)))))).trans
    (congrArg (Spec.unreadLine _) append5.symm))

theorem OpFunctionCall.layout (op : OpFunctionCall) :
    ∃ s, Spaced s ∧ Display.fmt op = fmtResult op.result_id ++ ("OpFunctionCall".toList ++ s) :=
  ⟨_, (Spaced.append (spaced op.result_type) (Spaced.append (spaced op.function) (spaced op.arguments))), assoc3⟩

theorem OpFunctionCall.fmt_inj {a b : OpFunctionCall} (h : Display.fmt a = Display.fmt b) : a = b := by
  have h := assoc3.symm.trans (h.trans assoc3)
  obtain ⟨hr, h⟩ := fmtResult_inj h
  have h := List.append_cancel_left h
  obtain ⟨h0, h⟩ := arg_inj (arg_follows _ _) (arg_follows _ _) h
  obtain ⟨h1, h⟩ := arg_inj (Arg.follows _) (Arg.follows _) h
  have h2 := Arg.inj h
  cases a
  cases b
  rw [OpFunctionCall.mk.injEq]
  exact ⟨h0, hr, h1, h2⟩

theorem OpFunctionCall.shown (op : OpFunctionCall) :
    Display.fmt op = Spec.unreadLine (Spec.unreadCode (.OpFunctionCall op)) (Spec.unreadWords (.OpFunctionCall op)) :=
  assoc3.trans ((line_typed _ "OpFunctionCall" op.result_type op.result_id rfl rfl ((shown_mid op.function _ _).trans (congrArg (_ ++ ·) (shown_all op.arguments)))).trans
    (congrArg (Spec.unreadLine _) append4.symm))

theorem OpSampledImage.layout (op : OpSampledImage) :
    ∃ s, Spaced s ∧ Display.fmt op = fmtResult op.result_id ++ ("OpSampledImage".toList ++ s) :=
  ⟨_, (Spaced.append (spaced op.result_type) (Spaced.append (spaced op.image) (spaced op.sampler))), assoc3⟩

theorem OpSampledImage.fmt_inj {a b : OpSampledImage} (h : Display.fmt a = Display.fmt b) : a = b := by
  have h := assoc3.symm.trans (h.trans assoc3)
  obtain ⟨hr, h⟩ := fmtResult_inj h
  have h := List.append_cancel_left h
  obtain ⟨h0, h⟩ := arg_inj (arg_follows _ _) (arg_follows _ _) h
  obtain ⟨h1, h⟩ := arg_inj (Arg.follows _) (Arg.follows _) h
  have h2 := Arg.inj h
  cases a
  cases b
  rw [OpSampledImage.mk.injEq]
  exact ⟨h0, hr, h1, h2⟩

theorem OpSampledImage.shown (op : OpSampledImage) :
    Display.fmt op = Spec.unreadLine (Spec.unreadCode (.OpSampledImage op)) (Spec.unreadWords (.OpSampledImage op)) :=
  assoc3.trans ((line_typed _ "OpSampledImage" op.result_type op.result_id rfl rfl ((shown_mid op.image _ _).trans (congrArg (_ ++ ·) (shown_end op.sampler)))).trans
    (congrArg (Spec.unreadLine _) append4.symm))

theorem OpConvertFToU.layout (op : OpConvertFToU) :
    ∃ s, Spaced s ∧ Display.fmt op = fmtResult op.result_id ++ ("OpConvertFToU".toList ++ s) :=
  ⟨_, (Spaced.append (spaced op.result_type) (spaced op.float_value)), assoc2⟩

theorem OpConvertFToU.fmt_inj {a b : OpConvertFToU} (h : Display.fmt a = Display.fmt b) : a = b := by
  have h := assoc2.symm.trans (h.trans assoc2)
  obtain ⟨hr, h⟩ := fmtResult_inj h
  have h := List.append_cancel_left h
  obtain ⟨h0, h⟩ := arg_inj (Arg.follows _) (Arg.follows _) h
  have h1 := Arg.inj h
  cases a
  cases b
  rw [OpConvertFToU.mk.injEq]
  exact ⟨h0, hr, h1⟩

theorem OpConvertFToU.shown (op : OpConvertFToU) :
    Display.fmt op = Spec.unreadLine (Spec.unreadCode (.OpConvertFToU op)) (Spec.unreadWords (.OpConvertFToU op)) :=
  assoc2.trans ((line_typed _ "OpConvertFToU" op.result_type op.result_id rfl rfl (shown_end op.float_value)).trans
    (congrArg (Spec.unreadLine _) append3.symm))

theorem OpConvertFToS.layout (op : OpConvertFToS) :
    ∃ s, Spaced s ∧ Display.fmt op = fmtResult op.result_id ++ ("OpConvertFToS".toList ++ s) :=
  ⟨_, (Spaced.append (spaced op.result_type) (spaced op.float_value)), assoc2⟩

theorem OpConvertFToS.fmt_inj {a b : OpConvertFToS} (h : Display.fmt a = Display.fmt b) : a = b := by
  have h := assoc2.symm.trans (h.trans assoc2)
  obtain ⟨hr, h⟩ := fmtResult_inj h
  have h := List.append_cancel_left h
  obtain ⟨h0, h⟩ := arg_inj (Arg.follows _) (Arg.follows _) h
  have h1 := Arg.inj h
  cases a
  cases b
  rw [OpConvertFToS.mk.injEq]
  exact ⟨h0, hr, h1⟩

theorem OpConvertFToS.shown (op : OpConvertFToS) :
    Display.fmt op = Spec.unreadLine (Spec.unreadCode (.OpConvertFToS op)) (Spec.unreadWords (.OpConvertFToS op)) :=
  assoc2.trans ((line_typed _ "OpConvertFToS" op.result_type op.result_id rfl rfl (shown_end op.float_value)).trans
    (congrArg (Spec.unreadLine _) append3.symm))

theorem OpConvertSToF.layout (op : OpConvertSToF) :
    ∃ s, Spaced s ∧ Display.fmt op = fmtResult op.result_id ++ ("OpConvertSToF".toList ++ s) :=
  ⟨_, (Spaced.append (spaced op.result_type) (spaced op.signed_value)), assoc2⟩

theorem OpConvertSToF.fmt_inj {a b : OpConvertSToF} (h : Display.fmt a = Display.fmt b) : a = b := by
  have h := assoc2.symm.trans (h.trans assoc2)
  obtain ⟨hr, h⟩ := fmtResult_inj h
  have h := List.append_cancel_left h
  obtain ⟨h0, h⟩ := arg_inj (Arg.follows _) (Arg.follows _) h
  have h1 := Arg.inj h
  cases a
  cases b
  rw [OpConvertSToF.mk.injEq]
  exact ⟨h0, hr, h1⟩

theorem OpConvertSToF.shown (op : OpConvertSToF) :
    Display.fmt op = Spec.unreadLine (Spec.unreadCode (.OpConvertSToF op)) (Spec.unreadWords (.OpConvertSToF op)) :=
  assoc2.trans ((line_typed _ "OpConvertSToF" op.result_type op.result_id rfl rfl (shown_end op.signed_value)).trans
    (congrArg (Spec.unreadLine _) append3.symm))

theorem OpUConvert.layout (op : OpUConvert) :
    ∃ s, Spaced s ∧ Display.fmt op = fmtResult op.result_id ++ ("OpUConvert".toList ++ s) :=
  ⟨_, (Spaced.append (spaced op.result_type) (spaced op.unsigned_value)), assoc2⟩

theorem OpUConvert.fmt_inj {a b : OpUConvert} (h : Display.fmt a = Display.fmt b) : a = b := by
  have h := assoc2.symm.trans (h.trans assoc2)
  obtain ⟨hr, h⟩ := fmtResult_inj h
  have h := List.append_cancel_left h
  obtain ⟨h0, h⟩ := arg_inj (Arg.follows _) (Arg.follows _) h
  have h1 := Arg.inj h
  cases a
  cases b
  rw [OpUConvert.mk.injEq]
  exact ⟨h0, hr, h1⟩

theorem OpUConvert.shown (op : OpUConvert) :
    Display.fmt op = Spec.unreadLine (Spec.unreadCode (.OpUConvert op)) (Spec.unreadWords (.OpUConvert op)) :=
  assoc2.trans ((line_typed _ "OpUConvert" op.result_type op.result_id rfl rfl (shown_end op.unsigned_value)).trans
    (congrArg (Spec.unreadLine _) append3.symm))

theorem OpSConvert.layout (op : OpSConvert) :
    ∃ s, Spaced s ∧ Display.fmt op = fmtResult op.result_id ++ ("OpSConvert".toList ++ s) :=
  ⟨_, (Spaced.append (spaced op.result_type) (spaced op.signed_value)), assoc2⟩

theorem OpSConvert.fmt_inj {a b : OpSConvert} (h : Display.fmt a = Display.fmt b) : a = b := by
  have h := assoc2.symm.trans (h.trans assoc2)
  obtain ⟨hr, h⟩ := fmtResult_inj h
  have h := List.append_cancel_left h
  obtain ⟨h0, h⟩ := arg_inj (Arg.follows _) (Arg.follows _) h
  have h1 := Arg.inj h
  cases a
  cases b
  rw [OpSConvert.mk.injEq]
  exact ⟨h0, hr, h1⟩

theorem OpSConvert.shown (op : OpSConvert) :
    Display.fmt op = Spec.unreadLine (Spec.unreadCode (.OpSConvert op)) (Spec.unreadWords (.OpSConvert op)) :=
  assoc2.trans ((line_typed _ "OpSConvert" op.result_type op.result_id rfl rfl (shown_end op.signed_value)).trans
    (congrArg (Spec.unreadLine _) append3.symm))

theorem OpFConvert.layout (op : OpFConvert) :
    ∃ s, Spaced s ∧ Display.fmt op = fmtResult op.result_id ++ ("OpFConvert".toList ++ s) :=
  ⟨_, (Spaced.append (spaced op.result_type) (spaced op.float_value)), assoc2⟩

theorem OpFConvert.fmt_inj {a b : OpFConvert} (h : Display.fmt a = Display.fmt b) : a = b := by
  have h := assoc2.symm.trans (h.trans assoc2)
  obtain ⟨hr, h⟩ := fmtResult_inj h
  have h := List.append_cancel_left h
  obtain ⟨h0, h⟩ := arg_inj (Arg.follows _) (Arg.follows _) h
  have h1 := Arg.inj h
  cases a
  cases b
  rw [OpFConvert.mk.injEq]
  exact ⟨h0, hr, h1⟩

theorem OpFConvert.shown (op : OpFConvert) :
    Display.fmt op = Spec.unreadLine (Spec.unreadCode (.OpFConvert op)) (Spec.unreadWords (.OpFConvert op)) :=
  assoc2.trans ((line_typed _ "OpFConvert" op.result_type op.result_id rfl rfl (shown_end op.float_value)).trans
    (congrArg (Spec.unreadLine _) append3.symm))

theorem OpQuantizeToF16.layout (op : OpQuantizeToF16) :
    ∃ s, Spaced s ∧ Display.fmt op = fmtResult op.result_id ++ ("OpQuantizeToF16".toList ++ s) :=
  ⟨_, (Spaced.append (spaced op.result_type) (spaced op.value)), assoc2⟩

theorem OpQuantizeToF16.fmt_inj {a b : OpQuantizeToF16} (h : Display.fmt a = Display.fmt b) : a = b := by
  have h := assoc2.symm.trans (h.trans assoc2)
  obtain ⟨hr, h⟩ := fmtResult_inj h
  have h := List.append_cancel_left h
  obtain ⟨h0, h⟩ := arg_inj (Arg.follows _) (Arg.follows _) h
  have h1 := Arg.inj h
  cases a
  cases b
  rw [OpQuantizeToF16.mk.injEq]
  exact ⟨h0, hr, h1⟩

theorem OpQuantizeToF16.shown (op : OpQuantizeToF16) :
    Display.fmt op = Spec.unreadLine (Spec.unreadCode (.OpQuantizeToF16 op)) (Spec.unreadWords (.OpQuantizeToF16 op)) :=
  assoc2.trans ((line_typed _ "OpQuantizeToF16" op.result_type op.result_id rfl rfl (shown_end op.value)).trans
    (congrArg (Spec.unreadLine _) append3.symm))

theorem OpConvertPtrToU.layout (op : OpConvertPtrToU) :
    ∃ s, Spaced s ∧ Display.fmt op = fmtResult op.result_id ++ ("OpConvertPtrToU".toList ++ s) :=
  ⟨_, (Spaced.append (spaced op.result_type) (spaced op.pointer)), assoc2⟩

theorem OpConvertPtrToU.fmt_inj {a b : OpConvertPtrToU} (h : Display.fmt a = Display.fmt b) : a = b := by
  have h := assoc2.symm.trans (h.trans assoc2)
  obtain ⟨hr, h⟩ := fmtResult_inj h
  have h := List.append_cancel_left h
  obtain ⟨h0, h⟩ := arg_inj (Arg.follows _) (Arg.follows _) h
  have h1 := Arg.inj h
  cases a
  cases b
  rw [OpConvertPtrToU.mk.injEq]
  exact ⟨h0, hr, h1⟩

theorem OpConvertPtrToU.shown (op : OpConvertPtrToU) :
    Display.fmt op = Spec.unreadLine (Spec.unreadCode (.OpConvertPtrToU op)) (Spec.unreadWords (.OpConvertPtrToU op)) :=
  assoc2.trans ((line_typed _ "OpConvertPtrToU" op.result_type op.result_id rfl rfl (shown_end op.pointer)).trans
    (congrArg (Spec.unreadLine _) append3.symm))

theorem OpSatConvertSToU.layout (op : OpSatConvertSToU) :
    ∃ s, Spaced s ∧ Display.fmt op = fmtResult op.result_id ++ ("OpSatConvertSToU".toList ++ s) :=
  ⟨_, (Spaced.append (spaced op.result_type) (spaced op.signed_value)), assoc2⟩

theorem OpSatConvertSToU.fmt_inj {a b : OpSatConvertSToU} (h : Display.fmt a = Display.fmt b) : a = b := by
  have h := assoc2.symm.trans (h.trans assoc2)
  obtain ⟨hr, h⟩ := fmtResult_inj h
  have h := List.append_cancel_left h
  obtain ⟨h0, h⟩ := arg_inj (Arg.follows _) (Arg.follows _) h
  have h1 := Arg.inj h
  cases a
  cases b
  rw [OpSatConvertSToU.mk.injEq]
  exact ⟨h0, hr, h1⟩

theorem OpSatConvertSToU.shown (op : OpSatConvertSToU) :
    Display.fmt op = Spec.unreadLine (Spec.unreadCode (.OpSatConvertSToU op)) (Spec.unreadWords (.OpSatConvertSToU op)) :=
  assoc2.trans ((line_typed _ "OpSatConvertSToU" op.result_type op.result_id rfl rfl (shown_end op.signed_value)).trans
    (congrArg (Spec.unreadLine _) append3.symm))

theorem OpSatConvertUToS.layout (op : OpSatConvertUToS) :
    ∃ s, Spaced s ∧ Display.fmt op = fmtResult op.result_id ++ ("OpSatConvertUToS".toList ++ s) :=
  ⟨_, (Spaced.append (spaced op.result_type) (spaced op.unsigned_value)), assoc2⟩

theorem OpSatConvertUToS.fmt_inj {a b : OpSatConvertUToS} (h : Display.fmt a = Display.fmt b) : a = b := by
  have h := assoc2.symm.trans (h.trans assoc2)
  obtain ⟨hr, h⟩ := fmtResult_inj h
  have h := List.append_cancel_left h
  obtain ⟨h0, h⟩ := arg_inj (Arg.follows _) (Arg.follows _) h
  have h1 := Arg.inj h
  cases a
  cases b
  rw [OpSatConvertUToS.mk.injEq]
  exact ⟨h0, hr, h1⟩

theorem OpSatConvertUToS.shown (op : OpSatConvertUToS) :
    Display.fmt op = Spec.unreadLine (Spec.unreadCode (.OpSatConvertUToS op)) (Spec.unreadWords (.OpSatConvertUToS op)) :=
  assoc2.trans ((line_typed _ "OpSatConvertUToS" op.result_type op.result_id rfl rfl (shown_end op.unsigned_value)).trans
    (congrArg (Spec.unreadLine _) append3.symm))

theorem OpConvertUToPtr.layout (op : OpConvertUToPtr) :
    ∃ s, Spaced s ∧ Display.fmt op = fmtResult op.result_id ++ ("OpConvertUToPtr".toList ++ s) :=
  ⟨_, (Spaced.append (spaced op.result_type) (spaced op.integer_value)), assoc2⟩

theorem OpConvertUToPtr.fmt_inj {a b : OpConvertUToPtr} (h : Display.fmt a = Display.fmt b) : a = b := by
  have h := assoc2.symm.trans (h.trans assoc2)
  obtain ⟨hr, h⟩ := fmtResult_inj h
  have h := List.append_cancel_left h
  obtain ⟨h0, h⟩ := arg_inj (Arg.follows _) (Arg.follows _) h
  have h1 := Arg.inj h
  cases a
  cases b
  rw [OpConvertUToPtr.mk.injEq]
  exact ⟨h0, hr, h1⟩

theorem OpConvertUToPtr.shown (op : OpConvertUToPtr) :
    Display.fmt op = Spec.unreadLine (Spec.unreadCode (.OpConvertUToPtr op)) (Spec.unreadWords (.OpConvertUToPtr op)) :=
  assoc2.trans ((line_typed _ "OpConvertUToPtr" op.result_type op.result_id rfl rfl (shown_end op.integer_value)).trans
    (congrArg (Spec.unreadLine _) append3.symm))

theorem OpPtrCastToGeneric.layout (op : OpPtrCastToGeneric) :
    ∃ s, Spaced s ∧ Display.fmt op = fmtResult op.result_id ++ ("OpPtrCastToGeneric".toList ++ s) :=
  ⟨_, (Spaced.append (spaced op.result_type) (spaced op.pointer)), assoc2⟩

theorem OpPtrCastToGeneric.fmt_inj {a b : OpPtrCastToGeneric} (h : Display.fmt a = Display.fmt b) : a = b := by
  have h := assoc2.symm.trans (h.trans assoc2)
  obtain ⟨hr, h⟩ := fmtResult_inj h
  have h := List.append_cancel_left h
  obtain ⟨h0, h⟩ := arg_inj (Arg.follows _) (Arg.follows _) h
  have h1 := Arg.inj h
  cases a
  cases b
  rw [OpPtrCastToGeneric.mk.injEq]
  exact ⟨h0, hr, h1⟩

theorem OpPtrCastToGeneric.shown (op : OpPtrCastToGeneric) :
    Display.fmt op = Spec.unreadLine (Spec.unreadCode (.OpPtrCastToGeneric op)) (Spec.unreadWords (.OpPtrCastToGeneric op)) :=
  assoc2.trans ((line_typed _ "OpPtrCastToGeneric" op.result_type op.result_id rfl rfl (shown_end op.pointer)).trans
    (congrArg (Spec.unreadLine _) append3.symm))

theorem OpGenericCastToPtr.layout (op : OpGenericCastToPtr) :
    ∃ s, Spaced s ∧ Display.fmt op = fmtResult op.result_id ++ ("OpGenericCastToPtr".toList ++ s) :=
  ⟨_, (Spaced.append (spaced op.result_type) (spaced op.pointer)), assoc2⟩

theorem OpGenericCastToPtr.fmt_inj {a b : OpGenericCastToPtr} (h : Display.fmt a = Display.fmt b) : a = b := by
  have h := assoc2.symm.trans (h.trans assoc2)
  obtain ⟨hr, h⟩ := fmtResult_inj h
  have h := List.append_cancel_left h
  obtain ⟨h0, h⟩ := arg_inj (Arg.follows _) (Arg.follows _) h
  have h1 := Arg.inj h
  cases a
  cases b
  rw [OpGenericCastToPtr.mk.injEq]
  exact ⟨h0, hr, h1⟩

theorem OpGenericCastToPtr.shown (op : OpGenericCastToPtr) :
    Display.fmt op = Spec.unreadLine (Spec.unreadCode (.OpGenericCastToPtr op)) (Spec.unreadWords (.OpGenericCastToPtr op)) :=
  assoc2.trans ((line_typed _ "OpGenericCastToPtr" op.result_type op.result_id rfl rfl (shown_end op.pointer)).trans
    (congrArg (Spec.unreadLine _) append3.symm))

theorem OpGenericCastToPtrExplicit.layout (op : OpGenericCastToPtrExplicit) :
    ∃ s, Spaced s ∧ Display.fmt op = fmtResult op.result_id ++ ("OpGenericCastToPtrExplicit".toList ++ s) :=
  ⟨_, (Spaced.append (spaced op.result_type) (Spaced.append (spaced op.pointer) (spaced op.storage_class))), assoc3⟩

theorem OpGenericCastToPtrExplicit.fmt_inj {a b : OpGenericCastToPtrExplicit} (h : Display.fmt a = Display.fmt b) : a = b := by
  have h := assoc3.symm.trans (h.trans assoc3)
  obtain ⟨hr, h⟩ := fmtResult_inj h
  have h := List.append_cancel_left h
  obtain ⟨h0, h⟩ := arg_inj (arg_follows _ _) (arg_follows _ _) h
  obtain ⟨h1, h⟩ := arg_inj (Arg.follows _) (Arg.follows _) h
  have h2 := Arg.inj h
  cases a
  cases b
  rw [OpGenericCastToPtrExplicit.mk.injEq]
  exact ⟨h0, hr, h1, h2⟩

theorem OpGenericCastToPtrExplicit.shown (op : OpGenericCastToPtrExplicit) :
    Display.fmt op = Spec.unreadLine (Spec.unreadCode (.OpGenericCastToPtrExplicit op)) (Spec.unreadWords (.OpGenericCastToPtrExplicit op)) :=
  assoc3.trans ((line_typed _ "OpGenericCastToPtrExplicit" op.result_type op.result_id rfl rfl ((shown_mid op.pointer _ _).trans (congrArg (_ ++ ·) (shown_end op.storage_class)))).trans
    (congrArg (Spec.unreadLine _) append4.symm))

theorem OpVectorExtractDynamic.layout (op : OpVectorExtractDynamic) :
    ∃ s, Spaced s ∧ Display.fmt op = fmtResult op.result_id ++ ("OpVectorExtractDynamic".toList ++ s) :=
  ⟨_, (Spaced.append (spaced op.result_type) (Spaced.append (spaced op.vector) (spaced op.index))), assoc3⟩

theorem OpVectorExtractDynamic.fmt_inj {a b : OpVectorExtractDynamic} (h : Display.fmt a = Display.fmt b) : a = b := by
  have h := assoc3.symm.trans (h.trans assoc3)
  obtain ⟨hr, h⟩ := fmtResult_inj h
  have h := List.append_cancel_left h
  obtain ⟨h0, h⟩ := arg_inj (arg_follows _ _) (arg_follows _ _) h
  obtain ⟨h1, h⟩ := arg_inj (Arg.follows _) (Arg.follows _) h
  have h2 := Arg.inj h
  cases a
  cases b
  rw [OpVectorExtractDynamic.mk.injEq]
  exact ⟨h0, hr, h1, h2⟩

theorem OpVectorExtractDynamic.shown (op : OpVectorExtractDynamic) :
    Display.fmt op = Spec.unreadLine (Spec.unreadCode (.OpVectorExtractDynamic op)) (Spec.unreadWords (.OpVectorExtractDynamic op)) :=
  assoc3.trans ((line_typed _ "OpVectorExtractDynamic" op.result_type op.result_id rfl rfl ((shown_mid op.vector _ _).trans (congrArg (_ ++ ·) (shown_end op.index)))).trans
    (congrArg (Spec.unreadLine _) append4.symm))

theorem OpVectorInsertDynamic.layout (op : OpVectorInsertDynamic) :
    ∃ s, Spaced s ∧ Display.fmt op = fmtResult op.result_id ++ ("OpVectorInsertDynamic".toList ++ s) :=
  ⟨_, (Spaced.append (spaced op.result_type) (Spaced.append (spaced op.vector) (Spaced.append (spaced op.component) (spaced op.index)))), assoc4⟩

theorem OpVectorInsertDynamic.fmt_inj {a b : OpVectorInsertDynamic} (h : Display.fmt a = Display.fmt b) : a = b := by
  have h := assoc4.symm.trans (h.trans assoc4)
  obtain ⟨hr, h⟩ := fmtResult_inj h
  have h := List.append_cancel_left h
  obtain ⟨h0, h⟩ := arg_inj (arg_follows _ _) (arg_follows _ _) h
  obtain ⟨h1, h⟩ := arg_inj (arg_follows _ _) (arg_follows _ _) h
  obtain ⟨h2, h⟩ := arg_inj (Arg.follows _) (Arg.follows _) h
  have h3 := Arg.inj h
  cases a
  cases b
  rw [OpVectorInsertDynamic.mk.injEq]
  exact ⟨h0, hr, h1, h2, h3⟩

theorem OpVectorInsertDynamic.shown (op : OpVectorInsertDynamic) :
    Display.fmt op = Spec.unreadLine (Spec.unreadCode (.OpVectorInsertDynamic op)) (Spec.unreadWords (.OpVectorInsertDynamic op)) :=
  assoc4.trans ((line_typed _ "OpVectorInsertDynamic" op.result_type op.result_id rfl rfl ((shown_mid op.vector _ _).trans (congrArg (_ ++ ·) ((shown_mid op.component _ _).trans (congrArg (_ ++ ·) (shown_end op.index)))))).trans
    (congrArg (Spec.unreadLine _) append5.symm))

theorem OpVectorShuffle.layout (op : OpVectorShuffle) :
    ∃ s, Spaced s ∧ Display.fmt op = fmtResult op.result_id ++ ("OpVectorShuffle".toList ++ s) :=
  ⟨_, (Spaced.append (spaced op.result_type) (Spaced.append (spaced op.operand1) (Spaced.append (spaced op.operand2) (spaced op.components)))), assoc4⟩

theorem OpVectorShuffle.fmt_inj {a b : OpVectorShuffle} (h : Display.fmt a = Display.fmt b) : a = b := by
  have h := assoc4.symm.trans (h.trans assoc4)
  obtain ⟨hr, h⟩ := fmtResult_inj h
  have h := List.append_cancel_left h
  obtain ⟨h0, h⟩ := arg_inj (arg_follows _ _) (arg_follows _ _) h
  obtain ⟨h1, h⟩ := arg_inj (arg_follows _ _) (arg_follows _ _) h
  obtain ⟨h2, h⟩ := arg_inj (Arg.follows _) (Arg.follows _) h
  have h3 := Arg.inj h
  cases a
  cases b
  rw [OpVectorShuffle.mk.injEq]
  exact ⟨h0, hr, h1, h2, h3⟩

theorem OpVectorShuffle.shown (op : OpVectorShuffle) :
    Display.fmt op = Spec.unreadLine (Spec.unreadCode (.OpVectorShuffle op)) (Spec.unreadWords (.OpVectorShuffle op)) :=
  assoc4.trans ((line_typed _ "OpVectorShuffle" op.result_type op.result_id rfl rfl ((shown_mid op.operand1 _ _).trans (congrArg (_ ++ ·) ((shown_mid op.operand2 _ _).trans (congrArg (_ ++ ·) (shown_all op.components)))))).trans
    (congrArg (Spec.unreadLine _) append5.symm))

theorem OpCompositeConstruct.layout (op : OpCompositeConstruct) :
    ∃ s, Spaced s ∧ Display.fmt op = fmtResult op.result_id ++ ("OpCompositeConstruct".toList ++ s) :=
  ⟨_, (Spaced.append (spaced op.result_type) (spaced op.constituents)), assoc2⟩

theorem OpCompositeConstruct.fmt_inj {a b : OpCompositeConstruct} (h : Display.fmt a = Display.fmt b) : a = b := by
  have h := assoc2.symm.trans (h.trans assoc2)
  obtain ⟨hr, h⟩ := fmtResult_inj h
  have h := List.append_cancel_left h
  obtain ⟨h0, h⟩ := arg_inj (Arg.follows _) (Arg.follows _) h
  have h1 := Arg.inj h
  cases a
  cases b
  rw [OpCompositeConstruct.mk.injEq]
  exact ⟨h0, hr, h1⟩

theorem OpCompositeExtract.layout (op : OpCompositeExtract) :
    ∃ s, Spaced s ∧ Display.fmt op = fmtResult op.result_id ++ ("OpCompositeExtract".toList ++ s) :=
  ⟨_, (Spaced.append (spaced op.result_type) (Spaced.append (spaced op.composite) (spaced op.indexes))), assoc3⟩

theorem OpCompositeExtract.fmt_inj {a b : OpCompositeExtract} (h : Display.fmt a = Display.fmt b) : a = b := by
  have h := assoc3.symm.trans (h.trans assoc3)
  obtain ⟨hr, h⟩ := fmtResult_inj h
  have h := List.append_cancel_left h
  obtain ⟨h0, h⟩ := arg_inj (arg_follows _ _) (arg_follows _ _) h
  obtain ⟨h1, h⟩ := arg_inj (Arg.follows _) (Arg.follows _) h
  have h2 := Arg.inj h
  cases a
  cases b
  rw [OpCompositeExtract.mk.injEq]
  exact ⟨h0, hr, h1, h2⟩

theorem OpCompositeExtract.shown (op : OpCompositeExtract) :
    Display.fmt op = Spec.unreadLine (Spec.unreadCode (.OpCompositeExtract op)) (Spec.unreadWords (.OpCompositeExtract op)) :=
  assoc3.trans ((line_typed _ "OpCompositeExtract" op.result_type op.result_id rfl rfl ((shown_mid op.composite _ _).trans (congrArg (_ ++ ·) (shown_all op.indexes)))).trans
    (congrArg (Spec.unreadLine _) append4.symm))

theorem OpCompositeInsert.layout (op : OpCompositeInsert) :
    ∃ s, Spaced s ∧ Display.fmt op = fmtResult op.result_id ++ ("OpCompositeInsert".toList ++ s) :=
  ⟨_, (Spaced.append (spaced op.result_type) (Spaced.append (spaced op.object) (Spaced.append (spaced op.composite) (spaced op.indexes)))), assoc4⟩

theorem OpCompositeInsert.fmt_inj {a b : OpCompositeInsert} (h : Display.fmt a = Display.fmt b) : a = b := by
  have h := assoc4.symm.trans (h.trans assoc4)
  obtain ⟨hr, h⟩ := fmtResult_inj h
  have h := List.append_cancel_left h
  obtain ⟨h0, h⟩ := arg_inj (arg_follows _ _) (arg_follows _ _) h
  obtain ⟨h1, h⟩ := arg_inj (arg_follows _ _) (arg_follows _ _) h
  obtain ⟨h2, h⟩ := arg_inj (Arg.follows _) (Arg.follows _) h
  have h3 := Arg.inj h
  cases a
  cases b
  rw [OpCompositeInsert.mk.injEq]
  exact ⟨h0, hr, h1, h2, h3⟩

theorem OpCompositeInsert.shown (op : OpCompositeInsert) :
    Display.fmt op = Spec.unreadLine (Spec.unreadCode (.OpCompositeInsert op)) (Spec.unreadWords (.OpCompositeInsert op)) :=
  assoc4.trans ((line_typed _ "OpCompositeInsert" op.result_type op.result_id rfl rfl ((shown_mid op.object _ _).trans (congrArg (_ ++ ·) ((shown_mid op.composite _ _).trans (congrArg (_ ++ ·) (shown_all op.indexes)))))).trans
    (congrArg (Spec.unreadLine _) append5.symm))

theorem OpCopyObject.layout (op : OpCopyObject) :
    ∃ s, Spaced s ∧ Display.fmt op = fmtResult op.result_id ++ ("OpCopyObject".toList ++ s) :=
  ⟨_, (Spaced.append (spaced op.result_type) (spaced op.operand)), assoc2⟩

theorem OpCopyObject.fmt_inj {a b : OpCopyObject} (h : Display.fmt a = Display.fmt b) : a = b := by
  have h := assoc2.symm.trans (h.trans assoc2)
  obtain ⟨hr, h⟩ := fmtResult_inj h
  have h := List.append_cancel_left h
  obtain ⟨h0, h⟩ := arg_inj (Arg.follows _) (Arg.follows _) h
  have h1 := Arg.inj h
  cases a
  cases b
  rw [OpCopyObject.mk.injEq]
  exact ⟨h0, hr, h1⟩

theorem OpCopyObject.shown (op : OpCopyObject) :
    Display.fmt op = Spec.unreadLine (Spec.unreadCode (.OpCopyObject op)) (Spec.unreadWords (.OpCopyObject op)) :=
  assoc2.trans ((line_typed _ "OpCopyObject" op.result_type op.result_id rfl rfl (shown_end op.operand)).trans
    (congrArg (Spec.unreadLine _) append3.symm))

theorem OpTranspose.layout (op : OpTranspose) :
    ∃ s, Spaced s ∧ Display.fmt op = fmtResult op.result_id ++ ("OpTranspose".toList ++ s) :=
  ⟨_, (Spaced.append (spaced op.result_type) (spaced op.matrix)), assoc2⟩

theorem OpTranspose.fmt_inj {a b : OpTranspose} (h : Display.fmt a = Display.fmt b) : a = b := by
  have h := assoc2.symm.trans (h.trans assoc2)
  obtain ⟨hr, h⟩ := fmtResult_inj h
  have h := List.append_cancel_left h
  obtain ⟨h0, h⟩ := arg_inj (Arg.follows _) (Arg.follows _) h
  have h1 := Arg.inj h
  cases a
  cases b
  rw [OpTranspose.mk.injEq]
  exact ⟨h0, hr, h1⟩

theorem OpTranspose.shown (op : OpTranspose) :
    Display.fmt op = Spec.unreadLine (Spec.unreadCode (.OpTranspose op)) (Spec.unreadWords (.OpTranspose op)) :=
  assoc2.trans ((line_typed _ "OpTranspose" op.result_type op.result_id rfl rfl (shown_end op.matrix)).trans
    (congrArg (Spec.unreadLine _) append3.symm))

theorem OpSNegate.layout (op : OpSNegate) :
    ∃ s, Spaced s ∧ Display.fmt op = fmtResult op.result_id ++ ("OpSNegate".toList ++ s) :=
  ⟨_, (Spaced.append (spaced op.result_type) (spaced op.operand)), assoc2⟩

theorem OpSNegate.fmt_inj {a b : OpSNegate} (h : Display.fmt a = Display.fmt b) : a = b := by
  have h := assoc2.symm.trans (h.trans assoc2)
  obtain ⟨hr, h⟩ := fmtResult_inj h
  have h := List.append_cancel_left h
  obtain ⟨h0, h⟩ := arg_inj (Arg.follows _) (Arg.follows _) h
  have h1 := Arg.inj h
  cases a
  cases b
  rw [OpSNegate.mk.injEq]
  exact ⟨h0, hr, h1⟩

theorem OpSNegate.shown (op : OpSNegate) :
    Display.fmt op = Spec.unreadLine (Spec.unreadCode (.OpSNegate op)) (Spec.unreadWords (.OpSNegate op)) :=
  assoc2.trans ((line_typed _ "OpSNegate" op.result_type op.result_id rfl rfl (shown_end op.operand)).trans
    (congrArg (Spec.unreadLine _) append3.symm))

theorem OpFNegate.layout (op : OpFNegate) :
    ∃ s, Spaced s ∧ Display.fmt op = fmtResult op.result_id ++ ("OpFNegate".toList ++ s) :=
  ⟨_, (Spaced.append (spaced op.result_type) (spaced op.operand)), assoc2⟩

theorem OpFNegate.fmt_inj {a b : OpFNegate} (h : Display.fmt a = Display.fmt b) : a = b := by
  have h := assoc2.symm.trans (h.trans assoc2)
  obtain ⟨hr, h⟩ := fmtResult_inj h
  have h := List.append_cancel_left h
  obtain ⟨h0, h⟩ := arg_inj (Arg.follows _) (Arg.follows _) h
  have h1 := Arg.inj h
  cases a
  cases b
  rw [OpFNegate.mk.injEq]
  exact ⟨h0, hr, h1⟩

theorem OpFNegate.shown (op : OpFNegate) :
    Display.fmt op = Spec.unreadLine (Spec.unreadCode (.OpFNegate op)) (Spec.unreadWords (.OpFNegate op)) :=
  assoc2.trans ((line_typed _ "OpFNegate" op.result_type op.result_id rfl rfl (shown_end op.operand)).trans
    (congrArg (Spec.unreadLine _) append3.symm))

theorem OpVectorTimesScalar.layout (op : OpVectorTimesScalar) :
    ∃ s, Spaced s ∧ Display.fmt op = fmtResult op.result_id ++ ("OpVectorTimesScalar".toList ++ s) :=
  ⟨_, (Spaced.append (spaced op.result_type) (Spaced.append (spaced op.vector) (spaced op.scalar))), assoc3⟩

theorem OpVectorTimesScalar.fmt_inj {a b : OpVectorTimesScalar} (h : Display.fmt a = Display.fmt b) : a = b := by
  have h := assoc3.symm.trans (h.trans assoc3)
  obtain ⟨hr, h⟩ := fmtResult_inj h
  have h := List.append_cancel_left h
  obtain ⟨h0, h⟩ := arg_inj (arg_follows _ _) (arg_follows _ _) h
  obtain ⟨h1, h⟩ := arg_inj (Arg.follows _) (Arg.follows _) h
  have h2 := Arg.inj h
  cases a
  cases b
  rw [OpVectorTimesScalar.mk.injEq]
  exact ⟨h0, hr, h1, h2⟩

theorem OpVectorTimesScalar.shown (op : OpVectorTimesScalar) :
    Display.fmt op = Spec.unreadLine (Spec.unreadCode (.OpVectorTimesScalar op)) (Spec.unreadWords (.OpVectorTimesScalar op)) :=
  assoc3.trans ((line_typed _ "OpVectorTimesScalar" op.result_type op.result_id rfl rfl ((shown_mid op.vector _ _).trans (congrArg (_ ++ ·) (shown_end op.scalar)))).trans
    (congrArg (Spec.unreadLine _) append4.symm))

theorem OpMatrixTimesScalar.layout (op : OpMatrixTimesScalar) :
    ∃ s, Spaced s ∧ Display.fmt op = fmtResult op.result_id ++ ("OpMatrixTimesScalar".toList ++ s) :=
  ⟨_, (Spaced.append (spaced op.result_type) (Spaced.append (spaced op.matrix) (spaced op.scalar))), assoc3⟩

theorem OpMatrixTimesScalar.fmt_inj {a b : OpMatrixTimesScalar} (h : Display.fmt a = Display.fmt b) : a = b := by
  have h := assoc3.symm.trans (h.trans assoc3)
  obtain ⟨hr, h⟩ := fmtResult_inj h
  have h := List.append_cancel_left h
  obtain ⟨h0, h⟩ := arg_inj (arg_follows _ _) (arg_follows _ _) h
  obtain ⟨h1, h⟩ := arg_inj (Arg.follows _) (Arg.follows _) h
  have h2 := Arg.inj h
  cases a
  cases b
  rw [OpMatrixTimesScalar.mk.injEq]
  exact ⟨h0, hr, h1, h2⟩

theorem OpMatrixTimesScalar.shown (op : OpMatrixTimesScalar) :
    Display.fmt op = Spec.unreadLine (Spec.unreadCode (.OpMatrixTimesScalar op)) (Spec.unreadWords (.OpMatrixTimesScalar op)) :=
  assoc3.trans ((line_typed _ "OpMatrixTimesScalar" op.result_type op.result_id rfl rfl ((shown_mid op.matrix _ _).trans (congrArg (_ ++ ·) (shown_end op.scalar)))).trans
    (congrArg (Spec.unreadLine _) append4.symm))

theorem OpVectorTimesMatrix.layout (op : OpVectorTimesMatrix) :
    ∃ s, Spaced s ∧ Display.fmt op = fmtResult op.result_id ++ ("OpVectorTimesMatrix".toList ++ s) :=
  ⟨_, (Spaced.append (spaced op.result_type) (Spaced.append (spaced op.vector) (spaced op.matrix))), assoc3⟩

theorem OpVectorTimesMatrix.fmt_inj {a b : OpVectorTimesMatrix} (h : Display.fmt a = Display.fmt b) : a = b := by
  have h := assoc3.symm.trans (h.trans assoc3)
  obtain ⟨hr, h⟩ := fmtResult_inj h
  have h := List.append_cancel_left h
  obtain ⟨h0, h⟩ := arg_inj (arg_follows _ _) (arg_follows _ _) h
  obtain ⟨h1, h⟩ := arg_inj (Arg.follows _) (Arg.follows _) h
  have h2 := Arg.inj h
  cases a
  cases b
  rw [OpVectorTimesMatrix.mk.injEq]
  exact ⟨h0, hr, h1, h2⟩

theorem OpVectorTimesMatrix.shown (op : OpVectorTimesMatrix) :
    Display.fmt op = Spec.unreadLine (Spec.unreadCode (.OpVectorTimesMatrix op)) (Spec.unreadWords (.OpVectorTimesMatrix op)) :=
  assoc3.trans ((line_typed _ "OpVectorTimesMatrix" op.result_type op.result_id rfl rfl ((shown_mid op.vector _ _).trans (congrArg (_ ++ ·) (shown_end op.matrix)))).trans
    (congrArg (Spec.unreadLine _) append4.symm))

theorem OpMatrixTimesVector.layout (op : OpMatrixTimesVector) :
    ∃ s, Spaced s ∧ Display.fmt op = fmtResult op.result_id ++ ("OpMatrixTimesVector".toList ++ s) :=
  ⟨_, (Spaced.append (spaced op.result_type) (Spaced.append (spaced op.matrix) (spaced op.vector))), assoc3⟩

theorem OpMatrixTimesVector.fmt_inj {a b : OpMatrixTimesVector} (h : Display.fmt a = Display.fmt b) : a = b := by
  have h := assoc3.symm.trans (h.trans assoc3)
  obtain ⟨hr, h⟩ := fmtResult_inj h
  have h := List.append_cancel_left h
  obtain ⟨h0, h⟩ := arg_inj (arg_follows _ _) (arg_follows _ _) h
  obtain ⟨h1, h⟩ := arg_inj (Arg.follows _) (Arg.follows _) h
  have h2 := Arg.inj h
  cases a
  cases b
  rw [OpMatrixTimesVector.mk.injEq]
  exact ⟨h0, hr, h1, h2⟩

theorem OpMatrixTimesVector.shown (op : OpMatrixTimesVector) :
    Display.fmt op = Spec.unreadLine (Spec.unreadCode (.OpMatrixTimesVector op)) (Spec.unreadWords (.OpMatrixTimesVector op)) :=
  assoc3.trans ((line_typed _ "OpMatrixTimesVector" op.result_type op.result_id rfl rfl ((shown_mid op.matrix _ _).trans (congrArg (_ ++ ·) (shown_end op.vector)))).trans
    (congrArg (Spec.unreadLine _) append4.symm))

theorem OpMatrixTimesMatrix.layout (op : OpMatrixTimesMatrix) :
    ∃ s, Spaced s ∧ Display.fmt op = fmtResult op.result_id ++ ("OpMatrixTimesMatrix".toList ++ s) :=
  ⟨_, (Spaced.append (spaced op.result_type) (Spaced.append (spaced op.left_matrix) (spaced op.right_matrix))), assoc3⟩

theorem OpMatrixTimesMatrix.fmt_inj {a b : OpMatrixTimesMatrix} (h : Display.fmt a = Display.fmt b) : a = b := by
  have h := assoc3.symm.trans (h.trans assoc3)
  obtain ⟨hr, h⟩ := fmtResult_inj h
  have h := List.append_cancel_left h
  obtain ⟨h0, h⟩ := arg_inj (arg_follows _ _) (arg_follows _ _) h
  obtain ⟨h1, h⟩ := arg_inj (Arg.follows _) (Arg.follows _) h
  have h2 := Arg.inj h
  cases a
  cases b
  rw [OpMatrixTimesMatrix.mk.injEq]
  exact ⟨h0, hr, h1, h2⟩

theorem OpMatrixTimesMatrix.shown (op : OpMatrixTimesMatrix) :
    Display.fmt op = Spec.unreadLine (Spec.unreadCode (.OpMatrixTimesMatrix op)) (Spec.unreadWords (.OpMatrixTimesMatrix op)) :=
  assoc3.trans ((line_typed _ "OpMatrixTimesMatrix" op.result_type op.result_id rfl rfl ((shown_mid op.left_matrix _ _).trans (congrArg (_ ++ ·) (shown_end op.right_matrix)))).trans
    (congrArg (Spec.unreadLine _) append4.symm))

theorem OpOuterProduct.layout (op : OpOuterProduct) :
    ∃ s, Spaced s ∧ Display.fmt op = fmtResult op.result_id ++ ("OpOuterProduct".toList ++ s) :=
  ⟨_, (Spaced.append (spaced op.result_type) (Spaced.append (spaced op.vector1) (spaced op.vector2))), assoc3⟩

theorem OpOuterProduct.fmt_inj {a b : OpOuterProduct} (h : Display.fmt a = Display.fmt b) : a = b := by
  have h := assoc3.symm.trans (h.trans assoc3)
  obtain ⟨hr, h⟩ := fmtResult_inj h
  have h := List.append_cancel_left h
  obtain ⟨h0, h⟩ := arg_inj (arg_follows _ _) (arg_follows _ _) h
  obtain ⟨h1, h⟩ := arg_inj (Arg.follows _) (Arg.follows _) h
  have h2 := Arg.inj h
  cases a
  cases b
  rw [OpOuterProduct.mk.injEq]
  exact ⟨h0, hr, h1, h2⟩

theorem OpOuterProduct.shown (op : OpOuterProduct) :
    Display.fmt op = Spec.unreadLine (Spec.unreadCode (.OpOuterProduct op)) (Spec.unreadWords (.OpOuterProduct op)) :=
  assoc3.trans ((line_typed _ "OpOuterProduct" op.result_type op.result_id rfl rfl ((shown_mid op.vector1 _ _).trans (congrArg (_ ++ ·) (shown_end op.vector2)))).trans
    (congrArg (Spec.unreadLine _) append4.symm))

theorem OpDot.layout (op : OpDot) :
    ∃ s, Spaced s ∧ Display.fmt op = fmtResult op.result_id ++ ("OpDot".toList ++ s) :=
  ⟨_, (Spaced.append (spaced op.result_type) (Spaced.append (spaced op.vector1) (spaced op.vector2))), assoc3⟩

theorem OpDot.fmt_inj {a b : OpDot} (h : Display.fmt a = Display.fmt b) : a = b := by
  have h := assoc3.symm.trans (h.trans assoc3)
  obtain ⟨hr, h⟩ := fmtResult_inj h
  have h := List.append_cancel_left h
  obtain ⟨h0, h⟩ := arg_inj (arg_follows _ _) (arg_follows _ _) h
  obtain ⟨h1, h⟩ := arg_inj (Arg.follows _) (Arg.follows _) h
  have h2 := Arg.inj h
  cases a
  cases b
  rw [OpDot.mk.injEq]
  exact ⟨h0, hr, h1, h2⟩

theorem OpDot.shown (op : OpDot) :
    Display.fmt op = Spec.unreadLine (Spec.unreadCode (.OpDot op)) (Spec.unreadWords (.OpDot op)) :=
  assoc3.trans ((line_typed _ "OpDot" op.result_type op.result_id rfl rfl ((shown_mid op.vector1 _ _).trans (congrArg (_ ++ ·) (shown_end op.vector2)))).trans
    (congrArg (Spec.unreadLine _) append4.symm))

theorem OpShiftRightLogical.layout (op : OpShiftRightLogical) :
    ∃ s, Spaced s ∧ Display.fmt op = fmtResult op.result_id ++ ("OpShiftRightLogical".toList ++ s) :=
  ⟨_, (Spaced.append (spaced op.result_type) (Spaced.append (spaced op.base) (spaced op.shift))), assoc3⟩

theorem OpShiftRightLogical.fmt_inj {a b : OpShiftRightLogical} (h : Display.fmt a = Display.fmt b) : a = b := by
  have h := assoc3.symm.trans (h.trans assoc3)
  obtain ⟨hr, h⟩ := fmtResult_inj h
  have h := List.append_cancel_left h
  obtain ⟨h0, h⟩ := arg_inj (arg_follows _ _) (arg_follows _ _) h
  obtain ⟨h1, h⟩ := arg_inj (Arg.follows _) (Arg.follows _) h
  have h2 := Arg.inj h
  cases a
  cases b
  rw [OpShiftRightLogical.mk.injEq]
  exact ⟨h0, hr, h1, h2⟩

theorem OpShiftRightLogical.shown (op : OpShiftRightLogical) :
    Display.fmt op = Spec.unreadLine (Spec.unreadCode (.OpShiftRightLogical op)) (Spec.unreadWords (.OpShiftRightLogical op)) :=
  assoc3.trans ((line_typed _ "OpShiftRightLogical" op.result_type op.result_id rfl rfl ((shown_mid op.base _ _).trans (congrArg (_ ++ ·) (shown_end op.shift)))).trans
    (congrArg (Spec.unreadLine _) append4.symm))

theorem OpShiftRightArithmetic.layout (op : OpShiftRightArithmetic) :
    ∃ s, Spaced s ∧ Display.fmt op = fmtResult op.result_id ++ ("OpShiftRightArithmetic".toList ++ s) :=
  ⟨_, (Spaced.append (spaced op.result_type) (Spaced.append (spaced op.base) (spaced op.shift))), assoc3⟩

theorem OpShiftRightArithmetic.fmt_inj {a b : OpShiftRightArithmetic} (h : Display.fmt a = Display.fmt b) : a = b := by
  have h := assoc3.symm.trans (h.trans assoc3)
  obtain ⟨hr, h⟩ := fmtResult_inj h
  have h := List.append_cancel_left h
  obtain ⟨h0, h⟩ := arg_inj (arg_follows _ _) (arg_follows _ _) h
  obtain ⟨h1, h⟩ := arg_inj (Arg.follows _) (Arg.follows _) h
  have h2 := Arg.inj h
  cases a
  cases b
  rw [OpShiftRightArithmetic.mk.injEq]
  exact ⟨h0, hr, h1, h2⟩

theorem OpShiftRightArithmetic.shown (op : OpShiftRightArithmetic) :
    Display.fmt op = Spec.unreadLine (Spec.unreadCode (.OpShiftRightArithmetic op)) (Spec.unreadWords (.OpShiftRightArithmetic op)) :=
  assoc3.trans ((line_typed _ "OpShiftRightArithmetic" op.result_type op.result_id rfl rfl ((shown_mid op.base _ _).trans (congrArg (_ ++ ·) (shown_end op.shift)))).trans
    (congrArg (Spec.unreadLine _) append4.symm))

theorem OpShiftLeftLogical.layout (op : OpShiftLeftLogical) :
    ∃ s, Spaced s ∧ Display.fmt op = fmtResult op.result_id ++ ("OpShiftLeftLogical".toList ++ s) :=
  ⟨_, (Spaced.append (spaced op.result_type) (Spaced.append (spaced op.base) (spaced op.shift))), assoc3⟩

theorem OpShiftLeftLogical.fmt_inj {a b : OpShiftLeftLogical} (h : Display.fmt a = Display.fmt b) : a = b := by
  have h := assoc3.symm.trans (h.trans assoc3)
  obtain ⟨hr, h⟩ := fmtResult_inj h
  have h := List.append_cancel_left h
  obtain ⟨h0, h⟩ := arg_inj (arg_follows _ _) (arg_follows _ _) h
  obtain ⟨h1, h⟩ := arg_inj (Arg.follows _) (Arg.follows _) h
  have h2 := Arg.inj h
  cases a
  cases b
  rw [OpShiftLeftLogical.mk.injEq]
  exact ⟨h0, hr, h1, h2⟩

theorem OpShiftLeftLogical.shown (op : OpShiftLeftLogical) :
    Display.fmt op = Spec.unreadLine (Spec.unreadCode (.OpShiftLeftLogical op)) (Spec.unreadWords (.OpShiftLeftLogical op)) :=
  assoc3.trans ((line_typed _ "OpShiftLeftLogical" op.result_type op.result_id rfl rfl ((shown_mid op.base _ _).trans (congrArg (_ ++ ·) (shown_end op.shift)))).trans
    (congrArg (Spec.unreadLine _) append4.symm))

theorem OpNot.layout (op : OpNot) :
    ∃ s, Spaced s ∧ Display.fmt op = fmtResult op.result_id ++ ("OpNot".toList ++ s) :=
  ⟨_, (Spaced.append (spaced op.result_type) (spaced op.operand)), assoc2⟩

theorem OpNot.fmt_inj {a b : OpNot} (h : Display.fmt a = Display.fmt b) : a = b := by
  have h := assoc2.symm.trans (h.trans assoc2)
  obtain ⟨hr, h⟩ := fmtResult_inj h
  have h := List.append_cancel_left h
  obtain ⟨h0, h⟩ := arg_inj (Arg.follows _) (Arg.follows _) h
  have h1 := Arg.inj h
  cases a
  cases b
  rw [OpNot.mk.injEq]
  exact ⟨h0, hr, h1⟩

theorem OpNot.shown (op : OpNot) :
    Display.fmt op = Spec.unreadLine (Spec.unreadCode (.OpNot op)) (Spec.unreadWords (.OpNot op)) :=
  assoc2.trans ((line_typed _ "OpNot" op.result_type op.result_id rfl rfl (shown_end op.operand)).trans
    (congrArg (Spec.unreadLine _) append3.symm))

theorem Unread.layout (u : Unread) :
    ∃ name s, (Spec.unreadCode u, name) ∈ Spec.unreadNames ∧ Spaced s ∧ ∃ r,
      Display.fmt u = Spec.leftColumn r ++ (name.toList ++ s) := by
  cases u with
  | OpLine op =>
    obtain ⟨s, hs, h⟩ := OpLine.layout op
    exact ⟨"OpLine", s, unread_mem rfl, hs, none,
      h.trans (congrArg (· ++ _) leftColumn_none)⟩
  | OpNoLine op =>
    obtain ⟨s, hs, h⟩ := OpNoLine.layout op
    exact ⟨"OpNoLine", s, unread_mem rfl, hs, none,
      h.trans (congrArg (· ++ _) leftColumn_none)⟩
  | OpDecorationGroup op =>
    obtain ⟨s, hs, h⟩ := OpDecorationGroup.layout op
    exact ⟨"OpDecorationGroup", s, unread_mem rfl, hs, some op.result_id.val,
      h.trans (congrArg (· ++ _) (leftColumn_some op.result_id))⟩
  | OpGroupDecorate op =>
    obtain ⟨s, hs, h⟩ := OpGroupDecorate.layout op
    exact ⟨"OpGroupDecorate", s, unread_mem rfl, hs, none,
      h.trans (congrArg (· ++ _) leftColumn_none)⟩
  | OpTypeReserveId op =>
    obtain ⟨s, hs, h⟩ := OpTypeReserveId.layout op
    exact ⟨"OpTypeReserveId", s, unread_mem rfl, hs, some op.result_id.val,
      h.trans (congrArg (· ++ _) (leftColumn_some op.result_id))⟩
  | OpConstantTrue op =>
    obtain ⟨s, hs, h⟩ := OpConstantTrue.layout op
    exact ⟨"OpConstantTrue", s, unread_mem rfl, hs, some op.result_id.val,
      h.trans (congrArg (· ++ _) (leftColumn_some op.result_id))⟩
  | OpConstantFalse op =>
    obtain ⟨s, hs, h⟩ := OpConstantFalse.layout op
    exact ⟨"OpConstantFalse", s, unread_mem rfl, hs, some op.result_id.val,
      h.trans (congrArg (· ++ _) (leftColumn_some op.result_id))⟩
  | OpConstantSampler op =>
    obtain ⟨s, hs, h⟩ := OpConstantSampler.layout op
    exact ⟨"OpConstantSampler", s, unread_mem rfl, hs, some op.result_id.val,
      h.trans (congrArg (· ++ _) (leftColumn_some op.result_id))⟩
  | OpConstantNull op =>
    obtain ⟨s, hs, h⟩ := OpConstantNull.layout op
    exact ⟨"OpConstantNull", s, unread_mem rfl, hs, some op.result_id.val,
      h.trans (congrArg (· ++ _) (leftColumn_some op.result_id))⟩
  | OpSpecConstantTrue op =>
    obtain ⟨s, hs, h⟩ := OpSpecConstantTrue.layout op
    exact ⟨"OpSpecConstantTrue", s, unread_mem rfl, hs, some op.result_id.val,
      h.trans (congrArg (· ++ _) (leftColumn_some op.result_id))⟩
  | OpSpecConstantFalse op =>
    obtain ⟨s, hs, h⟩ := OpSpecConstantFalse.layout op
    exact ⟨"OpSpecConstantFalse", s, unread_mem rfl, hs, some op.result_id.val,
      h.trans (congrArg (· ++ _) (leftColumn_some op.result_id))⟩
  | OpSpecConstant op =>
    obtain ⟨s, hs, h⟩ := OpSpecConstant.layout op
    exact ⟨"OpSpecConstant", s, unread_mem rfl, hs, some op.result_id.val,
      h.trans (congrArg (· ++ _) (leftColumn_some op.result_id))⟩
  | OpSpecConstantComposite op =>
    obtain ⟨s, hs, h⟩ := OpSpecConstantComposite.layout op
    exact ⟨"OpSpecConstantComposite", s, unread_mem rfl, hs, some op.result_id.val,
      h.trans (congrArg (· ++ _) (leftColumn_some op.result_id))⟩
  | OpImageTexelPointer op =>
    obtain ⟨s, hs, h⟩ := OpImageTexelPointer.layout op
    exact ⟨"OpImageTexelPointer", s, unread_mem rfl, hs, some op.result_id.val,
      h.trans (congrArg (· ++ _) (leftColumn_some op.result_id))⟩
  | OpCopyMemory op =>
    obtain ⟨s, hs, h⟩ := OpCopyMemory.layout op
    exact ⟨"OpCopyMemory", s, unread_mem rfl, hs, none,
      h.trans (congrArg (· ++ _) leftColumn_none)⟩
  | OpCopyMemorySized op =>
    obtain ⟨s, hs, h⟩ := OpCopyMemorySized.layout op
    exact ⟨"OpCopyMemorySized", s, unread_mem rfl, hs, none,
      h.trans (congrArg (· ++ _) leftColumn_none)⟩
  | OpInBoundsAccessChain op =>
    obtain ⟨s, hs, h⟩ := OpInBoundsAccessChain.layout op
    exact ⟨"OpInBoundsAccessChain", s, unread_mem rfl, hs, some op.result_id.val,
      h.trans (congrArg (· ++ _) (leftColumn_some op.result_id))⟩
  | OpPtrAccessChain op =>
    obtain ⟨s, hs, h⟩ := OpPtrAccessChain.layout op
    exact ⟨"OpPtrAccessChain", s, unread_mem rfl, hs, some op.result_id.val,
      h.trans (congrArg (· ++ _) (leftColumn_some op.result_id))⟩
  | OpArrayLength op =>
    obtain ⟨s, hs, h⟩ := OpArrayLength.layout op
    exact ⟨"OpArrayLength", s, unread_mem rfl, hs, some op.result_id.val,
      h.trans (congrArg (· ++ _) (leftColumn_some op.result_id))⟩
  | OpGenericPtrMemSemantics op =>
    obtain ⟨s, hs, h⟩ := OpGenericPtrMemSemantics.layout op
    exact ⟨"OpGenericPtrMemSemantics", s, unread_mem rfl, hs, some op.result_id.val,
      h.trans (congrArg (· ++ _) (leftColumn_some op.result_id))⟩
  | OpInBoundsPtrAccessChain op =>
    obtain ⟨s, hs, h⟩ := OpInBoundsPtrAccessChain.layout op
    exact ⟨"OpInBoundsPtrAccessChain", s, unread_mem rfl, hs, some op.result_id.val,
      h.trans (congrArg (· ++ _) (leftColumn_some op.result_id))⟩
  | OpFunctionCall op =>
    obtain ⟨s, hs, h⟩ := OpFunctionCall.layout op
    exact ⟨"OpFunctionCall", s, unread_mem rfl, hs, some op.result_id.val,
      h.trans (congrArg (· ++ _) (leftColumn_some op.result_id))⟩
  | OpSampledImage op =>
    obtain ⟨s, hs, h⟩ := OpSampledImage.layout op
    exact ⟨"OpSampledImage", s, unread_mem rfl, hs, some op.result_id.val,
      h.trans (congrArg (· ++ _) (leftColumn_some op.result_id))⟩
  | OpConvertFToU op =>
    obtain ⟨s, hs, h⟩ := OpConvertFToU.layout op
    exact ⟨"OpConvertFToU", s, unread_mem rfl, hs, some op.result_id.val,
      h.trans (congrArg (· ++ _) (leftColumn_some op.result_id))⟩
  | OpConvertFToS op =>
    obtain ⟨s, hs, h⟩ := OpConvertFToS.layout op
    exact ⟨"OpConvertFToS", s, unread_mem rfl, hs, some op.result_id.val,
      h.trans (congrArg (· ++ _) (leftColumn_some op.result_id))⟩
  | OpConvertSToF op =>
    obtain ⟨s, hs, h⟩ := OpConvertSToF.layout op
    exact ⟨"OpConvertSToF", s, unread_mem rfl, hs, some op.result_id.val,
      h.trans (congrArg (· ++ _) (leftColumn_some op.result_id))⟩
  | OpUConvert op =>
    obtain ⟨s, hs, h⟩ := OpUConvert.layout op
    exact ⟨"OpUConvert", s, unread_mem rfl, hs, some op.result_id.val,
      h.trans (congrArg (· ++ _) (leftColumn_some op.result_id))⟩
  | OpSConvert op =>
    obtain ⟨s, hs, h⟩ := OpSConvert.layout op
    exact ⟨"OpSConvert", s, unread_mem rfl, hs, some op.result_id.val,
      h.trans (congrArg (· ++ _) (leftColumn_some op.result_id))⟩
  | OpFConvert op =>
    obtain ⟨s, hs, h⟩ := OpFConvert.layout op
    exact ⟨"OpFConvert", s, unread_mem rfl, hs, some op.result_id.val,
      h.trans (congrArg (· ++ _) (leftColumn_some op.result_id))⟩
  | OpQuantizeToF16 op =>
    obtain ⟨s, hs, h⟩ := OpQuantizeToF16.layout op
    exact ⟨"OpQuantizeToF16", s, unread_mem rfl, hs, some op.result_id.val,
      h.trans (congrArg (· ++ _) (leftColumn_some op.result_id))⟩
  | OpConvertPtrToU op =>
    obtain ⟨s, hs, h⟩ := OpConvertPtrToU.layout op
    exact ⟨"OpConvertPtrToU", s, unread_mem rfl, hs, some op.result_id.val,
      h.trans (congrArg (· ++ _) (leftColumn_some op.result_id))⟩
  | OpSatConvertSToU op =>
    obtain ⟨s, hs, h⟩ := OpSatConvertSToU.layout op
    exact ⟨"OpSatConvertSToU", s, unread_mem rfl, hs, some op.result_id.val,
      h.trans (congrArg (· ++ _) (leftColumn_some op.result_id))⟩
  | OpSatConvertUToS op =>
    obtain ⟨s, hs, h⟩ := OpSatConvertUToS.layout op
    exact ⟨"OpSatConvertUToS", s, unread_mem rfl, hs, some op.result_id.val,
      h.trans (congrArg (· ++ _) (leftColumn_some op.result_id))⟩
  | OpConvertUToPtr op =>
    obtain ⟨s, hs, h⟩ := OpConvertUToPtr.layout op
    exact ⟨"OpConvertUToPtr", s, unread_mem rfl, hs, some op.result_id.val,
      h.trans (congrArg (· ++ _) (leftColumn_some op.result_id))⟩
  | OpPtrCastToGeneric op =>
    obtain ⟨s, hs, h⟩ := OpPtrCastToGeneric.layout op
    exact ⟨"OpPtrCastToGeneric", s, unread_mem rfl, hs, some op.result_id.val,
      h.trans (congrArg (· ++ _) (leftColumn_some op.result_id))⟩
  | OpGenericCastToPtr op =>
    obtain ⟨s, hs, h⟩ := OpGenericCastToPtr.layout op
    exact ⟨"OpGenericCastToPtr", s, unread_mem rfl, hs, some op.result_id.val,
      h.trans (congrArg (· ++ _) (leftColumn_some op.result_id))⟩
  | OpGenericCastToPtrExplicit op =>
    obtain ⟨s, hs, h⟩ := OpGenericCastToPtrExplicit.layout op
    exact ⟨"OpGenericCastToPtrExplicit", s, unread_mem rfl, hs, some op.result_id.val,
      h.trans (congrArg (· ++ _) (leftColumn_some op.result_id))⟩
  | OpVectorExtractDynamic op =>
    obtain ⟨s, hs, h⟩ := OpVectorExtractDynamic.layout op
    exact ⟨"OpVectorExtractDynamic", s, unread_mem rfl, hs, some op.result_id.val,
      h.trans (congrArg (· ++ _) (leftColumn_some op.result_id))⟩
  | OpVectorInsertDynamic op =>
    obtain ⟨s, hs, h⟩ := OpVectorInsertDynamic.layout op
    exact ⟨"OpVectorInsertDynamic", s, unread_mem rfl, hs, some op.result_id.val,
      h.trans (congrArg (· ++ _) (leftColumn_some op.result_id))⟩
  | OpVectorShuffle op =>
    obtain ⟨s, hs, h⟩ := OpVectorShuffle.layout op
    exact ⟨"OpVectorShuffle", s, unread_mem rfl, hs, some op.result_id.val,
      h.trans (congrArg (· ++ _) (leftColumn_some op.result_id))⟩
  | OpCompositeConstruct op =>
    obtain ⟨s, hs, h⟩ := OpCompositeConstruct.layout op
    exact ⟨"OpCompositeConstruct", s, unread_mem rfl, hs, some op.result_id.val,
      h.trans (congrArg (· ++ _) (leftColumn_some op.result_id))⟩
  | OpCompositeExtract op =>
    obtain ⟨s, hs, h⟩ := OpCompositeExtract.layout op
    exact ⟨"OpCompositeExtract", s, unread_mem rfl, hs, some op.result_id.val,
      h.trans (congrArg (· ++ _) (leftColumn_some op.result_id))⟩
  | OpCompositeInsert op =>
    obtain ⟨s, hs, h⟩ := OpCompositeInsert.layout op
    exact ⟨"OpCompositeInsert", s, unread_mem rfl, hs, some op.result_id.val,
      h.trans (congrArg (· ++ _) (leftColumn_some op.result_id))⟩
  | OpCopyObject op =>
    obtain ⟨s, hs, h⟩ := OpCopyObject.layout op
    exact ⟨"OpCopyObject", s, unread_mem rfl, hs, some op.result_id.val,
      h.trans (congrArg (· ++ _) (leftColumn_some op.result_id))⟩
  | OpTranspose op =>
    obtain ⟨s, hs, h⟩ := OpTranspose.layout op
    exact ⟨"OpTranspose", s, unread_mem rfl, hs, some op.result_id.val,
      h.trans (congrArg (· ++ _) (leftColumn_some op.result_id))⟩
  | OpSNegate op =>
    obtain ⟨s, hs, h⟩ := OpSNegate.layout op
    exact ⟨"OpSNegate", s, unread_mem rfl, hs, some op.result_id.val,
      h.trans (congrArg (· ++ _) (leftColumn_some op.result_id))⟩
  | OpFNegate op =>
    obtain ⟨s, hs, h⟩ := OpFNegate.layout op
    exact ⟨"OpFNegate", s, unread_mem rfl, hs, some op.result_id.val,
      h.trans (congrArg (· ++ _) (leftColumn_some op.result_id))⟩
  | OpVectorTimesScalar op =>
    obtain ⟨s, hs, h⟩ := OpVectorTimesScalar.layout op
    exact ⟨"OpVectorTimesScalar", s, unread_mem rfl, hs, some op.result_id.val,
      h.trans (congrArg (· ++ _) (leftColumn_some op.result_id))⟩
  | OpMatrixTimesScalar op =>
    obtain ⟨s, hs, h⟩ := OpMatrixTimesScalar.layout op
    exact ⟨"OpMatrixTimesScalar", s, unread_mem rfl, hs, some op.result_id.val,
      h.trans (congrArg (· ++ _) (leftColumn_some op.result_id))⟩
  | OpVectorTimesMatrix op =>
    obtain ⟨s, hs, h⟩ := OpVectorTimesMatrix.layout op
    exact ⟨"OpVectorTimesMatrix", s, unread_mem rfl, hs, some op.result_id.val,
      h.trans (congrArg (· ++ _) (leftColumn_some op.result_id))⟩
  | OpMatrixTimesVector op =>
    obtain ⟨s, hs, h⟩ := OpMatrixTimesVector.layout op
    exact ⟨"OpMatrixTimesVector", s, unread_mem rfl, hs, some op.result_id.val,
      h.trans (congrArg (· ++ _) (leftColumn_some op.result_id))⟩
  | OpMatrixTimesMatrix op =>
    obtain ⟨s, hs, h⟩ := OpMatrixTimesMatrix.layout op
    exact ⟨"OpMatrixTimesMatrix", s, unread_mem rfl, hs, some op.result_id.val,
      h.trans (congrArg (· ++ _) (leftColumn_some op.result_id))⟩
  | OpOuterProduct op =>
    obtain ⟨s, hs, h⟩ := OpOuterProduct.layout op
    exact ⟨"OpOuterProduct", s, unread_mem rfl, hs, some op.result_id.val,
      h.trans (congrArg (· ++ _) (leftColumn_some op.result_id))⟩
  | OpDot op =>
    obtain ⟨s, hs, h⟩ := OpDot.layout op
    exact ⟨"OpDot", s, unread_mem rfl, hs, some op.result_id.val,
      h.trans (congrArg (· ++ _) (leftColumn_some op.result_id))⟩
  | OpShiftRightLogical op =>
    obtain ⟨s, hs, h⟩ := OpShiftRightLogical.layout op
    exact ⟨"OpShiftRightLogical", s, unread_mem rfl, hs, some op.result_id.val,
      h.trans (congrArg (· ++ _) (leftColumn_some op.result_id))⟩
  | OpShiftRightArithmetic op =>
    obtain ⟨s, hs, h⟩ := OpShiftRightArithmetic.layout op
    exact ⟨"OpShiftRightArithmetic", s, unread_mem rfl, hs, some op.result_id.val,
      h.trans (congrArg (· ++ _) (leftColumn_some op.result_id))⟩
  | OpShiftLeftLogical op =>
    obtain ⟨s, hs, h⟩ := OpShiftLeftLogical.layout op
    exact ⟨"OpShiftLeftLogical", s, unread_mem rfl, hs, some op.result_id.val,
      h.trans (congrArg (· ++ _) (leftColumn_some op.result_id))⟩
  | OpNot op =>
    obtain ⟨s, hs, h⟩ := OpNot.layout op
    exact ⟨"OpNot", s, unread_mem rfl, hs, some op.result_id.val,
      h.trans (congrArg (· ++ _) (leftColumn_some op.result_id))⟩

theorem Unread.shown (u : Unread) (h : ∀ op, u = .OpCompositeConstruct op → op.constituents = []) :
    Display.fmt u = Spec.unreadLine (Spec.unreadCode u) (Spec.unreadWords u) := by
  cases u with
  | OpLine op => exact OpLine.shown op
  | OpNoLine op => exact OpNoLine.shown op
  | OpDecorationGroup op => exact OpDecorationGroup.shown op
  | OpGroupDecorate op => exact OpGroupDecorate.shown op
  | OpTypeReserveId op => exact OpTypeReserveId.shown op
  | OpConstantTrue op => exact OpConstantTrue.shown op
  | OpConstantFalse op => exact OpConstantFalse.shown op
  | OpConstantSampler op => exact OpConstantSampler.shown op
  | OpConstantNull op => exact OpConstantNull.shown op
  | OpSpecConstantTrue op => exact OpSpecConstantTrue.shown op
  | OpSpecConstantFalse op => exact OpSpecConstantFalse.shown op
  | OpSpecConstant op => exact OpSpecConstant.shown op
  | OpSpecConstantComposite op => exact OpSpecConstantComposite.shown op
  | OpImageTexelPointer op => exact OpImageTexelPointer.shown op
  | OpCopyMemory op => exact OpCopyMemory.shown op
  | OpCopyMemorySized op => exact OpCopyMemorySized.shown op
  | OpInBoundsAccessChain op => exact OpInBoundsAccessChain.shown op
  | OpPtrAccessChain op => exact OpPtrAccessChain.shown op
  | OpArrayLength op => exact OpArrayLength.shown op
  | OpGenericPtrMemSemantics op => exact OpGenericPtrMemSemantics.shown op
  | OpInBoundsPtrAccessChain op => exact OpInBoundsPtrAccessChain.shown op
  | OpFunctionCall op => exact OpFunctionCall.shown op
  | OpSampledImage op => exact OpSampledImage.shown op
  | OpConvertFToU op => exact OpConvertFToU.shown op
  | OpConvertFToS op => exact OpConvertFToS.shown op
  | OpConvertSToF op => exact OpConvertSToF.shown op
  | OpUConvert op => exact OpUConvert.shown op
  | OpSConvert op => exact OpSConvert.shown op
  | OpFConvert op => exact OpFConvert.shown op
  | OpQuantizeToF16 op => exact OpQuantizeToF16.shown op
  | OpConvertPtrToU op => exact OpConvertPtrToU.shown op
  | OpSatConvertSToU op => exact OpSatConvertSToU.shown op
  | OpSatConvertUToS op => exact OpSatConvertUToS.shown op
  | OpConvertUToPtr op => exact OpConvertUToPtr.shown op
  | OpPtrCastToGeneric op => exact OpPtrCastToGeneric.shown op
  | OpGenericCastToPtr op => exact OpGenericCastToPtr.shown op
  | OpGenericCastToPtrExplicit op => exact OpGenericCastToPtrExplicit.shown op
  | OpVectorExtractDynamic op => exact OpVectorExtractDynamic.shown op
  | OpVectorInsertDynamic op => exact OpVectorInsertDynamic.shown op
  | OpVectorShuffle op => exact OpVectorShuffle.shown op
  | OpCompositeConstruct op =>
    obtain ⟨t, r, cs⟩ := op
    cases h _ rfl
    exact composite_shown t r
  | OpCompositeExtract op => exact OpCompositeExtract.shown op
  | OpCompositeInsert op => exact OpCompositeInsert.shown op
  | OpCopyObject op => exact OpCopyObject.shown op
  | OpTranspose op => exact OpTranspose.shown op
  | OpSNegate op => exact OpSNegate.shown op
  | OpFNegate op => exact OpFNegate.shown op
  | OpVectorTimesScalar op => exact OpVectorTimesScalar.shown op
  | OpMatrixTimesScalar op => exact OpMatrixTimesScalar.shown op
  | OpVectorTimesMatrix op => exact OpVectorTimesMatrix.shown op
  | OpMatrixTimesVector op => exact OpMatrixTimesVector.shown op
  | OpMatrixTimesMatrix op => exact OpMatrixTimesMatrix.shown op
  | OpOuterProduct op => exact OpOuterProduct.shown op
  | OpDot op => exact OpDot.shown op
  | OpShiftRightLogical op => exact OpShiftRightLogical.shown op
  | OpShiftRightArithmetic op => exact OpShiftRightArithmetic.shown op
  | OpShiftLeftLogical op => exact OpShiftLeftLogical.shown op
  | OpNot op => exact OpNot.shown op

theorem unread_inj_OpLine (op : OpLine) (b : Unread) (hi : b.ctorIdx = 0) :
    Display.fmt (Unread.OpLine op) = Display.fmt b → Unread.OpLine op = b :=
  Unread.OpLine.elim (motive := fun b => Display.fmt (Unread.OpLine op) = Display.fmt b → Unread.OpLine op = b) b hi
    (fun op' h => congrArg Unread.OpLine (OpLine.fmt_inj (h : Display.fmt op = Display.fmt op')))

theorem unread_inj_OpNoLine (op : OpNoLine) (b : Unread) (hi : b.ctorIdx = 1) :
    Display.fmt (Unread.OpNoLine op) = Display.fmt b → Unread.OpNoLine op = b :=
  Unread.OpNoLine.elim (motive := fun b => Display.fmt (Unread.OpNoLine op) = Display.fmt b → Unread.OpNoLine op = b) b hi
    (fun op' h => congrArg Unread.OpNoLine (OpNoLine.fmt_inj (h : Display.fmt op = Display.fmt op')))

theorem unread_inj_OpDecorationGroup (op : OpDecorationGroup) (b : Unread) (hi : b.ctorIdx = 2) :
    Display.fmt (Unread.OpDecorationGroup op) = Display.fmt b → Unread.OpDecorationGroup op = b :=
  Unread.OpDecorationGroup.elim (motive := fun b => Display.fmt (Unread.OpDecorationGroup op) = Display.fmt b → Unread.OpDecorationGroup op = b) b hi
    (fun op' h => congrArg Unread.OpDecorationGroup (OpDecorationGroup.fmt_inj (h : Display.fmt op = Display.fmt op')))

theorem unread_inj_OpGroupDecorate (op : OpGroupDecorate) (b : Unread) (hi : b.ctorIdx = 3) :
    Display.fmt (Unread.OpGroupDecorate op) = Display.fmt b → Unread.OpGroupDecorate op = b :=
  Unread.OpGroupDecorate.elim (motive := fun b => Display.fmt (Unread.OpGroupDecorate op) = Display.fmt b → Unread.OpGroupDecorate op = b) b hi
    (fun op' h => congrArg Unread.OpGroupDecorate (OpGroupDecorate.fmt_inj (h : Display.fmt op = Display.fmt op')))

theorem unread_inj_OpTypeReserveId (op : OpTypeReserveId) (b : Unread) (hi : b.ctorIdx = 4) :
    Display.fmt (Unread.OpTypeReserveId op) = Display.fmt b → Unread.OpTypeReserveId op = b :=
  Unread.OpTypeReserveId.elim (motive := fun b => Display.fmt (Unread.OpTypeReserveId op) = Display.fmt b → Unread.OpTypeReserveId op = b) b hi
    (fun op' h => congrArg Unread.OpTypeReserveId (OpTypeReserveId.fmt_inj (h : Display.fmt op = Display.fmt op')))

theorem unread_inj_OpConstantTrue (op : OpConstantTrue) (b : Unread) (hi : b.ctorIdx = 5) :
    Display.fmt (Unread.OpConstantTrue op) = Display.fmt b → Unread.OpConstantTrue op = b :=
  Unread.OpConstantTrue.elim (motive := fun b => Display.fmt (Unread.OpConstantTrue op) = Display.fmt b → Unread.OpConstantTrue op = b) b hi
    (fun op' h => congrArg Unread.OpConstantTrue (OpConstantTrue.fmt_inj (h : Display.fmt op = Display.fmt op')))

theorem unread_inj_OpConstantFalse (op : OpConstantFalse) (b : Unread) (hi : b.ctorIdx = 6) :
    Display.fmt (Unread.OpConstantFalse op) = Display.fmt b → Unread.OpConstantFalse op = b :=
  Unread.OpConstantFalse.elim (motive := fun b => Display.fmt (Unread.OpConstantFalse op) = Display.fmt b → Unread.OpConstantFalse op = b) b hi
    (fun op' h => congrArg Unread.OpConstantFalse (OpConstantFalse.fmt_inj (h : Display.fmt op = Display.fmt op')))

theorem unread_inj_OpConstantSampler (op : OpConstantSampler) (b : Unread) (hi : b.ctorIdx = 7) :
    Display.fmt (Unread.OpConstantSampler op) = Display.fmt b → Unread.OpConstantSampler op = b :=
  Unread.OpConstantSampler.elim (motive := fun b => Display.fmt (Unread.OpConstantSampler op) = Display.fmt b → Unread.OpConstantSampler op = b) b hi
    (fun op' h => congrArg Unread.OpConstantSampler (OpConstantSampler.fmt_inj (h : Display.fmt op = Display.fmt op')))

theorem unread_inj_OpConstantNull (op : OpConstantNull) (b : Unread) (hi : b.ctorIdx = 8) :
    Display.fmt (Unread.OpConstantNull op) = Display.fmt b → Unread.OpConstantNull op = b :=
  Unread.OpConstantNull.elim (motive := fun b => Display.fmt (Unread.OpConstantNull op) = Display.fmt b → Unread.OpConstantNull op = b) b hi
    (fun op' h => congrArg Unread.OpConstantNull (OpConstantNull.fmt_inj (h : Display.fmt op = Display.fmt op')))

theorem unread_inj_OpSpecConstantTrue (op : OpSpecConstantTrue) (b : Unread) (hi : b.ctorIdx = 9) :
    Display.fmt (Unread.OpSpecConstantTrue op) = Display.fmt b → Unread.OpSpecConstantTrue op = b :=
  Unread.OpSpecConstantTrue.elim (motive := fun b => Display.fmt (Unread.OpSpecConstantTrue op) = Display.fmt b → Unread.OpSpecConstantTrue op = b) b hi
    (fun op' h => congrArg Unread.OpSpecConstantTrue (OpSpecConstantTrue.fmt_inj (h : Display.fmt op = Display.fmt op')))

theorem unread_inj_OpSpecConstantFalse (op : OpSpecConstantFalse) (b : Unread) (hi : b.ctorIdx = 10) :
    Display.fmt (Unread.OpSpecConstantFalse op) = Display.fmt b → Unread.OpSpecConstantFalse op = b :=
  Unread.OpSpecConstantFalse.elim (motive := fun b => Display.fmt (Unread.OpSpecConstantFalse op) = Display.fmt b → Unread.OpSpecConstantFalse op = b) b hi
    (fun op' h => congrArg Unread.OpSpecConstantFalse (OpSpecConstantFalse.fmt_inj (h : Display.fmt op = Display.fmt op')))

theorem unread_inj_OpSpecConstant (op : OpSpecConstant) (b : Unread) (hi : b.ctorIdx = 11) :
    Display.fmt (Unread.OpSpecConstant op) = Display.fmt b → Unread.OpSpecConstant op = b :=
  Unread.OpSpecConstant.elim (motive := fun b => Display.fmt (Unread.OpSpecConstant op) = Display.fmt b → Unread.OpSpecConstant op = b) b hi
    (fun op' h => congrArg Unread.OpSpecConstant (OpSpecConstant.fmt_inj (h : Display.fmt op = Display.fmt op')))

theorem unread_inj_OpSpecConstantComposite (op : OpSpecConstantComposite) (b : Unread) (hi : b.ctorIdx = 12) :
    Display.fmt (Unread.OpSpecConstantComposite op) = Display.fmt b → Unread.OpSpecConstantComposite op = b :=
  Unread.OpSpecConstantComposite.elim (motive := fun b => Display.fmt (Unread.OpSpecConstantComposite op) = Display.fmt b → Unread.OpSpecConstantComposite op = b) b hi
    (fun op' h => congrArg Unread.OpSpecConstantComposite (OpSpecConstantComposite.fmt_inj (h : Display.fmt op = Display.fmt op')))

theorem unread_inj_OpImageTexelPointer (op : OpImageTexelPointer) (b : Unread) (hi : b.ctorIdx = 13) :
    Display.fmt (Unread.OpImageTexelPointer op) = Display.fmt b → Unread.OpImageTexelPointer op = b :=
  Unread.OpImageTexelPointer.elim (motive := fun b => Display.fmt (Unread.OpImageTexelPointer op) = Display.fmt b → Unread.OpImageTexelPointer op = b) b hi
    (fun op' h => congrArg Unread.OpImageTexelPointer (OpImageTexelPointer.fmt_inj (h : Display.fmt op = Display.fmt op')))

theorem unread_inj_OpCopyMemory (op : OpCopyMemory) (b : Unread) (hi : b.ctorIdx = 14) :
    Display.fmt (Unread.OpCopyMemory op) = Display.fmt b → Unread.OpCopyMemory op = b :=
  Unread.OpCopyMemory.elim (motive := fun b => Display.fmt (Unread.OpCopyMemory op) = Display.fmt b → Unread.OpCopyMemory op = b) b hi
    (fun op' h => congrArg Unread.OpCopyMemory (OpCopyMemory.fmt_inj (h : Display.fmt op = Display.fmt op')))

theorem unread_inj_OpCopyMemorySized (op : OpCopyMemorySized) (b : Unread) (hi : b.ctorIdx = 15) :
    Display.fmt (Unread.OpCopyMemorySized op) = Display.fmt b → Unread.OpCopyMemorySized op = b :=
  Unread.OpCopyMemorySized.elim (motive := fun b => Display.fmt (Unread.OpCopyMemorySized op) = Display.fmt b → Unread.OpCopyMemorySized op = b) b hi
    (fun op' h => congrArg Unread.OpCopyMemorySized (OpCopyMemorySized.fmt_inj (h : Display.fmt op = Display.fmt op')))

theorem unread_inj_OpInBoundsAccessChain (op : OpInBoundsAccessChain) (b : Unread) (hi : b.ctorIdx = 16) :
    Display.fmt (Unread.OpInBoundsAccessChain op) = Display.fmt b → Unread.OpInBoundsAccessChain op = b :=
  Unread.OpInBoundsAccessChain.elim (motive := fun b => Display.fmt (Unread.OpInBoundsAccessChain op) = Display.fmt b → Unread.OpInBoundsAccessChain op = b) b hi
    (fun op' h => congrArg Unread.OpInBoundsAccessChain (OpInBoundsAccessChain.fmt_inj (h : Display.fmt op = Display.fmt op')))

theorem unread_inj_OpPtrAccessChain (op : OpPtrAccessChain) (b : Unread) (hi : b.ctorIdx = 17) :
    Display.fmt (Unread.OpPtrAccessChain op) = Display.fmt b → Unread.OpPtrAccessChain op = b :=
  Unread.OpPtrAccessChain.elim (motive := fun b => Display.fmt (Unread.OpPtrAccessChain op) = Display.fmt b → Unread.OpPtrAccessChain op = b) b hi
    (fun op' h => congrArg Unread.OpPtrAccessChain (OpPtrAccessChain.fmt_inj (h : Display.fmt op = Display.fmt op')))

theorem unread_inj_OpArrayLength (op : OpArrayLength) (b : Unread) (hi : b.ctorIdx = 18) :
    Display.fmt (Unread.OpArrayLength op) = Display.fmt b → Unread.OpArrayLength op = b :=
  Unread.OpArrayLength.elim (motive := fun b => Display.fmt (Unread.OpArrayLength op) = Display.fmt b → Unread.OpArrayLength op = b) b hi
    (fun op' h => congrArg Unread.OpArrayLength (OpArrayLength.fmt_inj (h : Display.fmt op = Display.fmt op')))

theorem unread_inj_OpGenericPtrMemSemantics (op : OpGenericPtrMemSemantics) (b : Unread) (hi : b.ctorIdx = 19) :
    Display.fmt (Unread.OpGenericPtrMemSemantics op) = Display.fmt b → Unread.OpGenericPtrMemSemantics op = b :=
  Unread.OpGenericPtrMemSemantics.elim (motive := fun b => Display.fmt (Unread.OpGenericPtrMemSemantics op) = Display.fmt b → Unread.OpGenericPtrMemSemantics op = b) b hi
    (fun op' h => congrArg Unread.OpGenericPtrMemSemantics (OpGenericPtrMemSemantics.fmt_inj (h : Display.fmt op = Display.fmt op')))

theorem unread_inj_OpInBoundsPtrAccessChain (op : OpInBoundsPtrAccessChain) (b : Unread) (hi : b.ctorIdx = 20) :
    Display.fmt (Unread.OpInBoundsPtrAccessChain op) = Display.fmt b → Unread.OpInBoundsPtrAccessChain op = b :=
  Unread.OpInBoundsPtrAccessChain.elim (motive := fun b => Display.fmt (Unread.OpInBoundsPtrAccessChain op) = Display.fmt b → Unread.OpInBoundsPtrAccessChain op = b) b hi
    (fun op' h => congrArg Unread.OpInBoundsPtrAccessChain (OpInBoundsPtrAccessChain.fmt_inj (h : Display.fmt op = Display.fmt op')))

theorem unread_inj_OpFunctionCall (op : OpFunctionCall) (b : Unread) (hi : b.ctorIdx = 21) :
    Display.fmt (Unread.OpFunctionCall op) = Display.fmt b → Unread.OpFunctionCall op = b :=
  Unread.OpFunctionCall.elim (motive := fun b => Display.fmt (Unread.OpFunctionCall op) = Display.fmt b → Unread.OpFunctionCall op = b) b hi
    (fun op' h => congrArg Unread.OpFunctionCall (OpFunctionCall.fmt_inj (h : Display.fmt op = Display.fmt op')))

theorem unread_inj_OpSampledImage (op : OpSampledImage) (b : Unread) (hi : b.ctorIdx = 22) :
    Display.fmt (Unread.OpSampledImage op) = Display.fmt b → Unread.OpSampledImage op = b :=
  Unread.OpSampledImage.elim (motive := fun b => Display.fmt (Unread.OpSampledImage op) = Display.fmt b → Unread.OpSampledImage op = b) b hi
    (fun op' h => congrArg Unread.OpSampledImage (OpSampledImage.fmt_inj (h : Display.fmt op = Display.fmt op')))

theorem unread_inj_OpConvertFToU (op : OpConvertFToU) (b : Unread) (hi : b.ctorIdx = 23) :
    Display.fmt (Unread.OpConvertFToU op) = Display.fmt b → Unread.OpConvertFToU op = b :=
  Unread.OpConvertFToU.elim (motive := fun b => Display.fmt (Unread.OpConvertFToU op) = Display.fmt b → Unread.OpConvertFToU op = b) b hi
    (fun op' h => congrArg Unread.OpConvertFToU (OpConvertFToU.fmt_inj (h : Display.fmt op = Display.fmt op')))

theorem unread_inj_OpConvertFToS (op : OpConvertFToS) (b : Unread) (hi : b.ctorIdx = 24) :
    Display.fmt (Unread.OpConvertFToS op) = Display.fmt b → Unread.OpConvertFToS op = b :=
  Unread.OpConvertFToS.elim (motive := fun b => Display.fmt (Unread.OpConvertFToS op) = Display.fmt b → Unread.OpConvertFToS op = b) b hi
    (fun op' h => congrArg Unread.OpConvertFToS (OpConvertFToS.fmt_inj (h : Display.fmt op = Display.fmt op')))

theorem unread_inj_OpConvertSToF (op : OpConvertSToF) (b : Unread) (hi : b.ctorIdx = 25) :
    Display.fmt (Unread.OpConvertSToF op) = Display.fmt b → Unread.OpConvertSToF op = b :=
  Unread.OpConvertSToF.elim (motive := fun b => Display.fmt (Unread.OpConvertSToF op) = Display.fmt b → Unread.OpConvertSToF op = b) b hi
    (fun op' h => congrArg Unread.OpConvertSToF (OpConvertSToF.fmt_inj (h : Display.fmt op = Display.fmt op')))

theorem unread_inj_OpUConvert (op : OpUConvert) (b : Unread) (hi : b.ctorIdx = 26) :
    Display.fmt (Unread.OpUConvert op) = Display.fmt b → Unread.OpUConvert op = b :=
  Unread.OpUConvert.elim (motive := fun b => Display.fmt (Unread.OpUConvert op) = Display.fmt b → Unread.OpUConvert op = b) b hi
    (fun op' h => congrArg Unread.OpUConvert (OpUConvert.fmt_inj (h : Display.fmt op = Display.fmt op')))

theorem unread_inj_OpSConvert (op : OpSConvert) (b : Unread) (hi : b.ctorIdx = 27) :
    Display.fmt (Unread.OpSConvert op) = Display.fmt b → Unread.OpSConvert op = b :=
  Unread.OpSConvert.elim (motive := fun b => Display.fmt (Unread.OpSConvert op) = Display.fmt b → Unread.OpSConvert op = b) b hi
    (fun op' h => congrArg Unread.OpSConvert (OpSConvert.fmt_inj (h : Display.fmt op = Display.fmt op')))

theorem unread_inj_OpFConvert (op : OpFConvert) (b : Unread) (hi : b.ctorIdx = 28) :
    Display.fmt (Unread.OpFConvert op) = Display.fmt b → Unread.OpFConvert op = b :=
  Unread.OpFConvert.elim (motive := fun b => Display.fmt (Unread.OpFConvert op) = Display.fmt b → Unread.OpFConvert op = b) b hi
    (fun op' h => congrArg Unread.OpFConvert (OpFConvert.fmt_inj (h : Display.fmt op = Display.fmt op')))

theorem unread_inj_OpQuantizeToF16 (op : OpQuantizeToF16) (b : Unread) (hi : b.ctorIdx = 29) :
    Display.fmt (Unread.OpQuantizeToF16 op) = Display.fmt b → Unread.OpQuantizeToF16 op = b :=
  Unread.OpQuantizeToF16.elim (motive := fun b => Display.fmt (Unread.OpQuantizeToF16 op) = Display.fmt b → Unread.OpQuantizeToF16 op = b) b hi
    (fun op' h => congrArg Unread.OpQuantizeToF16 (OpQuantizeToF16.fmt_inj (h : Display.fmt op = Display.fmt op')))

theorem unread_inj_OpConvertPtrToU (op : OpConvertPtrToU) (b : Unread) (hi : b.ctorIdx = 30) :
    Display.fmt (Unread.OpConvertPtrToU op) = Display.fmt b → Unread.OpConvertPtrToU op = b :=
  Unread.OpConvertPtrToU.elim (motive := fun b => Display.fmt (Unread.OpConvertPtrToU op) = Display.fmt b → Unread.OpConvertPtrToU op = b) b hi
    (fun op' h => congrArg Unread.OpConvertPtrToU (OpConvertPtrToU.fmt_inj (h : Display.fmt op = Display.fmt op')))

theorem unread_inj_OpSatConvertSToU (op : OpSatConvertSToU) (b : Unread) (hi : b.ctorIdx = 31) :
    Display.fmt (Unread.OpSatConvertSToU op) = Display.fmt b → Unread.OpSatConvertSToU op = b :=
  Unread.OpSatConvertSToU.elim (motive := fun b => Display.fmt (Unread.OpSatConvertSToU op) = Display.fmt b → Unread.OpSatConvertSToU op = b) b hi
    (fun op' h => congrArg Unread.OpSatConvertSToU (OpSatConvertSToU.fmt_inj (h : Display.fmt op = Display.fmt op')))

theorem unread_inj_OpSatConvertUToS (op : OpSatConvertUToS) (b : Unread) (hi : b.ctorIdx = 32) :
    Display.fmt (Unread.OpSatConvertUToS op) = Display.fmt b → Unread.OpSatConvertUToS op = b :=
  Unread.OpSatConvertUToS.elim (motive := fun b => Display.fmt (Unread.OpSatConvertUToS op) = Display.fmt b → Unread.OpSatConvertUToS op = b) b hi
    (fun op' h => congrArg Unread.OpSatConvertUToS (OpSatConvertUToS.fmt_inj (h : Display.fmt op = Display.fmt op')))

theorem unread_inj_OpConvertUToPtr (op : OpConvertUToPtr) (b : Unread) (hi : b.ctorIdx = 33) :
    Display.fmt (Unread.OpConvertUToPtr op) = Display.fmt b → Unread.OpConvertUToPtr op = b :=
  Unread.OpConvertUToPtr.elim (motive := fun b => Display.fmt (Unread.OpConvertUToPtr op) = Display.fmt b → Unread.OpConvertUToPtr op = b) b hi
    (fun op' h => congrArg Unread.OpConvertUToPtr (OpConvertUToPtr.fmt_inj (h : Display.fmt op = Display.fmt op')))

theorem unread_inj_OpPtrCastToGeneric (op : OpPtrCastToGeneric) (b : Unread) (hi : b.ctorIdx = 34) :
    Display.fmt (Unread.OpPtrCastToGeneric op) = Display.fmt b → Unread.OpPtrCastToGeneric op = b :=
  Unread.OpPtrCastToGeneric.elim (motive := fun b => Display.fmt (Unread.OpPtrCastToGeneric op) = Display.fmt b → Unread.OpPtrCastToGeneric op = b) b hi
    (fun op' h => congrArg Unread.OpPtrCastToGeneric (OpPtrCastToGeneric.fmt_inj (h : Display.fmt op = Display.fmt op')))

theorem unread_inj_OpGenericCastToPtr (op : OpGenericCastToPtr) (b : Unread) (hi : b.ctorIdx = 35) :
    Display.fmt (Unread.OpGenericCastToPtr op) = Display.fmt b → Unread.OpGenericCastToPtr op = b :=
  Unread.OpGenericCastToPtr.elim (motive := fun b => Display.fmt (Unread.OpGenericCastToPtr op) = Display.fmt b → Unread.OpGenericCastToPtr op = b) b hi
    (fun op' h => congrArg Unread.OpGenericCastToPtr (OpGenericCastToPtr.fmt_inj (h : Display.fmt op = Display.fmt op')))

theorem unread_inj_OpGenericCastToPtrExplicit (op : OpGenericCastToPtrExplicit) (b : Unread) (hi : b.ctorIdx = 36) :
    Display.fmt (Unread.OpGenericCastToPtrExplicit op) = Display.fmt b → Unread.OpGenericCastToPtrExplicit op = b :=
  Unread.OpGenericCastToPtrExplicit.elim (motive := fun b => Display.fmt (Unread.OpGenericCastToPtrExplicit op) = Display.fmt b → Unread.OpGenericCastToPtrExplicit op = b) b hi
    (fun op' h => congrArg Unread.OpGenericCastToPtrExplicit (OpGenericCastToPtrExplicit.fmt_inj (h : Display.fmt op = Display.fmt op')))

theorem unread_inj_OpVectorExtractDynamic (op : OpVectorExtractDynamic) (b : Unread) (hi : b.ctorIdx = 37) :
    Display.fmt (Unread.OpVectorExtractDynamic op) = Display.fmt b → Unread.OpVectorExtractDynamic op = b :=
  Unread.OpVectorExtractDynamic.elim (motive := fun b => Display.fmt (Unread.OpVectorExtractDynamic op) = Display.fmt b → Unread.OpVectorExtractDynamic op = b) b hi
    (fun op' h => congrArg Unread.OpVectorExtractDynamic (OpVectorExtractDynamic.fmt_inj (h : Display.fmt op = Display.fmt op')))

theorem unread_inj_OpVectorInsertDynamic (op : OpVectorInsertDynamic) (b : Unread) (hi : b.ctorIdx = 38) :
    Display.fmt (Unread.OpVectorInsertDynamic op) = Display.fmt b → Unread.OpVectorInsertDynamic op = b :=
  Unread.OpVectorInsertDynamic.elim (motive := fun b => Display.fmt (Unread.OpVectorInsertDynamic op) = Display.fmt b → Unread.OpVectorInsertDynamic op = b) b hi
    (fun op' h => congrArg Unread.OpVectorInsertDynamic (OpVectorInsertDynamic.fmt_inj (h : Display.fmt op = Display.fmt op')))

theorem unread_inj_OpVectorShuffle (op : OpVectorShuffle) (b : Unread) (hi : b.ctorIdx = 39) :
    Display.fmt (Unread.OpVectorShuffle op) = Display.fmt b → Unread.OpVectorShuffle op = b :=
  Unread.OpVectorShuffle.elim (motive := fun b => Display.fmt (Unread.OpVectorShuffle op) = Display.fmt b → Unread.OpVectorShuffle op = b) b hi
    (fun op' h => congrArg Unread.OpVectorShuffle (OpVectorShuffle.fmt_inj (h : Display.fmt op = Display.fmt op')))

theorem unread_inj_OpCompositeConstruct (op : OpCompositeConstruct) (b : Unread) (hi : b.ctorIdx = 40) :
    Display.fmt (Unread.OpCompositeConstruct op) = Display.fmt b → Unread.OpCompositeConstruct op = b :=
  Unread.OpCompositeConstruct.elim (motive := fun b => Display.fmt (Unread.OpCompositeConstruct op) = Display.fmt b → Unread.OpCompositeConstruct op = b) b hi
    (fun op' h => congrArg Unread.OpCompositeConstruct (OpCompositeConstruct.fmt_inj (h : Display.fmt op = Display.fmt op')))

theorem unread_inj_OpCompositeExtract (op : OpCompositeExtract) (b : Unread) (hi : b.ctorIdx = 41) :
    Display.fmt (Unread.OpCompositeExtract op) = Display.fmt b → Unread.OpCompositeExtract op = b :=
  Unread.OpCompositeExtract.elim (motive := fun b => Display.fmt (Unread.OpCompositeExtract op) = Display.fmt b → Unread.OpCompositeExtract op = b) b hi
    (fun op' h => congrArg Unread.OpCompositeExtract (OpCompositeExtract.fmt_inj (h : Display.fmt op = Display.fmt op')))

theorem unread_inj_OpCompositeInsert (op : OpCompositeInsert) (b : Unread) (hi : b.ctorIdx = 42) :
    Display.fmt (Unread.OpCompositeInsert op) = Display.fmt b → Unread.OpCompositeInsert op = b :=
  Unread.OpCompositeInsert.elim (motive := fun b => Display.fmt (Unread.OpCompositeInsert op) = Display.fmt b → Unread.OpCompositeInsert op = b) b hi
    (fun op' h => congrArg Unread.OpCompositeInsert (OpCompositeInsert.fmt_inj (h : Display.fmt op = Display.fmt op')))

theorem unread_inj_OpCopyObject (op : OpCopyObject) (b : Unread) (hi : b.ctorIdx = 43) :
    Display.fmt (Unread.OpCopyObject op) = Display.fmt b → Unread.OpCopyObject op = b :=
  Unread.OpCopyObject.elim (motive := fun b => Display.fmt (Unread.OpCopyObject op) = Display.fmt b → Unread.OpCopyObject op = b) b hi
    (fun op' h => congrArg Unread.OpCopyObject (OpCopyObject.fmt_inj (h : Display.fmt op = Display.fmt op')))

theorem unread_inj_OpTranspose (op : OpTranspose) (b : Unread) (hi : b.ctorIdx = 44) :
    Display.fmt (Unread.OpTranspose op) = Display.fmt b → Unread.OpTranspose op = b :=
  Unread.OpTranspose.elim (motive := fun b => Display.fmt (Unread.OpTranspose op) = Display.fmt b → Unread.OpTranspose op = b) b hi
    (fun op' h => congrArg Unread.OpTranspose (OpTranspose.fmt_inj (h : Display.fmt op = Display.fmt op')))

theorem unread_inj_OpSNegate (op : OpSNegate) (b : Unread) (hi : b.ctorIdx = 45) :
    Display.fmt (Unread.OpSNegate op) = Display.fmt b → Unread.OpSNegate op = b :=
  Unread.OpSNegate.elim (motive := fun b => Display.fmt (Unread.OpSNegate op) = Display.fmt b → Unread.OpSNegate op = b) b hi
    (fun op' h => congrArg Unread.OpSNegate (OpSNegate.fmt_inj (h : Display.fmt op = Display.fmt op')))

theorem unread_inj_OpFNegate (op : OpFNegate) (b : Unread) (hi : b.ctorIdx = 46) :
    Display.fmt (Unread.OpFNegate op) = Display.fmt b → Unread.OpFNegate op = b :=
  Unread.OpFNegate.elim (motive := fun b => Display.fmt (Unread.OpFNegate op) = Display.fmt b → Unread.OpFNegate op = b) b hi
    (fun op' h => congrArg Unread.OpFNegate (OpFNegate.fmt_inj (h : Display.fmt op = Display.fmt op')))

theorem unread_inj_OpVectorTimesScalar (op : OpVectorTimesScalar) (b : Unread) (hi : b.ctorIdx = 47) :
    Display.fmt (Unread.OpVectorTimesScalar op) = Display.fmt b → Unread.OpVectorTimesScalar op = b :=
  Unread.OpVectorTimesScalar.elim (motive := fun b => Display.fmt (Unread.OpVectorTimesScalar op) = Display.fmt b → Unread.OpVectorTimesScalar op = b) b hi
    (fun op' h => congrArg Unread.OpVectorTimesScalar (OpVectorTimesScalar.fmt_inj (h : Display.fmt op = Display.fmt op')))

theorem unread_inj_OpMatrixTimesScalar (op : OpMatrixTimesScalar) (b : Unread) (hi : b.ctorIdx = 48) :
    Display.fmt (Unread.OpMatrixTimesScalar op) = Display.fmt b → Unread.OpMatrixTimesScalar op = b :=
  Unread.OpMatrixTimesScalar.elim (motive := fun b => Display.fmt (Unread.OpMatrixTimesScalar op) = Display.fmt b → Unread.OpMatrixTimesScalar op = b) b hi
    (fun op' h => congrArg Unread.OpMatrixTimesScalar (OpMatrixTimesScalar.fmt_inj (h : Display.fmt op = Display.fmt op')))

theorem unread_inj_OpVectorTimesMatrix (op : OpVectorTimesMatrix) (b : Unread) (hi : b.ctorIdx = 49) :
    Display.fmt (Unread.OpVectorTimesMatrix op) = Display.fmt b → Unread.OpVectorTimesMatrix op = b :=
  Unread.OpVectorTimesMatrix.elim (motive := fun b => Display.fmt (Unread.OpVectorTimesMatrix op) = Display.fmt b → Unread.OpVectorTimesMatrix op = b) b hi
    (fun op' h => congrArg Unread.OpVectorTimesMatrix (OpVectorTimesMatrix.fmt_inj (h : Display.fmt op = Display.fmt op')))

theorem unread_inj_OpMatrixTimesVector (op : OpMatrixTimesVector) (b : Unread) (hi : b.ctorIdx = 50) :
    Display.fmt (Unread.OpMatrixTimesVector op) = Display.fmt b → Unread.OpMatrixTimesVector op = b :=
  Unread.OpMatrixTimesVector.elim (motive := fun b => Display.fmt (Unread.OpMatrixTimesVector op) = Display.fmt b → Unread.OpMatrixTimesVector op = b) b hi
    (fun op' h => congrArg Unread.OpMatrixTimesVector (OpMatrixTimesVector.fmt_inj (h : Display.fmt op = Display.fmt op')))

theorem unread_inj_OpMatrixTimesMatrix (op : OpMatrixTimesMatrix) (b : Unread) (hi : b.ctorIdx = 51) :
    Display.fmt (Unread.OpMatrixTimesMatrix op) = Display.fmt b → Unread.OpMatrixTimesMatrix op = b :=
  Unread.OpMatrixTimesMatrix.elim (motive := fun b => Display.fmt (Unread.OpMatrixTimesMatrix op) = Display.fmt b → Unread.OpMatrixTimesMatrix op = b) b hi
    (fun op' h => congrArg Unread.OpMatrixTimesMatrix (OpMatrixTimesMatrix.fmt_inj (h : Display.fmt op = Display.fmt op')))

theorem unread_inj_OpOuterProduct (op : OpOuterProduct) (b : Unread) (hi : b.ctorIdx = 52) :
    Display.fmt (Unread.OpOuterProduct op) = Display.fmt b → Unread.OpOuterProduct op = b :=
  Unread.OpOuterProduct.elim (motive := fun b => Display.fmt (Unread.OpOuterProduct op) = Display.fmt b → Unread.OpOuterProduct op = b) b hi
    (fun op' h => congrArg Unread.OpOuterProduct (OpOuterProduct.fmt_inj (h : Display.fmt op = Display.fmt op')))

theorem unread_inj_OpDot (op : OpDot) (b : Unread) (hi : b.ctorIdx = 53) :
    Display.fmt (Unread.OpDot op) = Display.fmt b → Unread.OpDot op = b :=
  Unread.OpDot.elim (motive := fun b => Display.fmt (Unread.OpDot op) = Display.fmt b → Unread.OpDot op = b) b hi
    (fun op' h => congrArg Unread.OpDot (OpDot.fmt_inj (h : Display.fmt op = Display.fmt op')))

theorem unread_inj_OpShiftRightLogical (op : OpShiftRightLogical) (b : Unread) (hi : b.ctorIdx = 54) :
    Display.fmt (Unread.OpShiftRightLogical op) = Display.fmt b → Unread.OpShiftRightLogical op = b :=
  Unread.OpShiftRightLogical.elim (motive := fun b => Display.fmt (Unread.OpShiftRightLogical op) = Display.fmt b → Unread.OpShiftRightLogical op = b) b hi
    (fun op' h => congrArg Unread.OpShiftRightLogical (OpShiftRightLogical.fmt_inj (h : Display.fmt op = Display.fmt op')))

theorem unread_inj_OpShiftRightArithmetic (op : OpShiftRightArithmetic) (b : Unread) (hi : b.ctorIdx = 55) :
    Display.fmt (Unread.OpShiftRightArithmetic op) = Display.fmt b → Unread.OpShiftRightArithmetic op = b :=
  Unread.OpShiftRightArithmetic.elim (motive := fun b => Display.fmt (Unread.OpShiftRightArithmetic op) = Display.fmt b → Unread.OpShiftRightArithmetic op = b) b hi
    (fun op' h => congrArg Unread.OpShiftRightArithmetic (OpShiftRightArithmetic.fmt_inj (h : Display.fmt op = Display.fmt op')))

theorem unread_inj_OpShiftLeftLogical (op : OpShiftLeftLogical) (b : Unread) (hi : b.ctorIdx = 56) :
    Display.fmt (Unread.OpShiftLeftLogical op) = Display.fmt b → Unread.OpShiftLeftLogical op = b :=
  Unread.OpShiftLeftLogical.elim (motive := fun b => Display.fmt (Unread.OpShiftLeftLogical op) = Display.fmt b → Unread.OpShiftLeftLogical op = b) b hi
    (fun op' h => congrArg Unread.OpShiftLeftLogical (OpShiftLeftLogical.fmt_inj (h : Display.fmt op = Display.fmt op')))

theorem unread_inj_OpNot (op : OpNot) (b : Unread) (hi : b.ctorIdx = 57) :
    Display.fmt (Unread.OpNot op) = Display.fmt b → Unread.OpNot op = b :=
  Unread.OpNot.elim (motive := fun b => Display.fmt (Unread.OpNot op) = Display.fmt b → Unread.OpNot op = b) b hi
    (fun op' h => congrArg Unread.OpNot (OpNot.fmt_inj (h : Display.fmt op = Display.fmt op')))

theorem Unread.fmt_inj' {a b : Unread} (hi : a.ctorIdx = b.ctorIdx) (h : Display.fmt a = Display.fmt b) :
    a = b := by
  cases a with
  | OpLine op => exact unread_inj_OpLine op b hi.symm h
  | OpNoLine op => exact unread_inj_OpNoLine op b hi.symm h
  | OpDecorationGroup op => exact unread_inj_OpDecorationGroup op b hi.symm h
  | OpGroupDecorate op => exact unread_inj_OpGroupDecorate op b hi.symm h
  | OpTypeReserveId op => exact unread_inj_OpTypeReserveId op b hi.symm h
  | OpConstantTrue op => exact unread_inj_OpConstantTrue op b hi.symm h
  | OpConstantFalse op => exact unread_inj_OpConstantFalse op b hi.symm h
  | OpConstantSampler op => exact unread_inj_OpConstantSampler op b hi.symm h
  | OpConstantNull op => exact unread_inj_OpConstantNull op b hi.symm h
  | OpSpecConstantTrue op => exact unread_inj_OpSpecConstantTrue op b hi.symm h
  | OpSpecConstantFalse op => exact unread_inj_OpSpecConstantFalse op b hi.symm h
  | OpSpecConstant op => exact unread_inj_OpSpecConstant op b hi.symm h
  | OpSpecConstantComposite op => exact unread_inj_OpSpecConstantComposite op b hi.symm h
  | OpImageTexelPointer op => exact unread_inj_OpImageTexelPointer op b hi.symm h
  | OpCopyMemory op => exact unread_inj_OpCopyMemory op b hi.symm h
  | OpCopyMemorySized op => exact unread_inj_OpCopyMemorySized op b hi.symm h
  | OpInBoundsAccessChain op => exact unread_inj_OpInBoundsAccessChain op b hi.symm h
  | OpPtrAccessChain op => exact unread_inj_OpPtrAccessChain op b hi.symm h
  | OpArrayLength op => exact unread_inj_OpArrayLength op b hi.symm h
  | OpGenericPtrMemSemantics op => exact unread_inj_OpGenericPtrMemSemantics op b hi.symm h
  | OpInBoundsPtrAccessChain op => exact unread_inj_OpInBoundsPtrAccessChain op b hi.symm h
  | OpFunctionCall op => exact unread_inj_OpFunctionCall op b hi.symm h
  | OpSampledImage op => exact unread_inj_OpSampledImage op b hi.symm h
  | OpConvertFToU op => exact unread_inj_OpConvertFToU op b hi.symm h
  | OpConvertFToS op => exact unread_inj_OpConvertFToS op b hi.symm h
  | OpConvertSToF op => exact unread_inj_OpConvertSToF op b hi.symm h
  | OpUConvert op => exact unread_inj_OpUConvert op b hi.symm h
  | OpSConvert op => exact unread_inj_OpSConvert op b hi.symm h
  | OpFConvert op => exact unread_inj_OpFConvert op b hi.symm h
  | OpQuantizeToF16 op => exact unread_inj_OpQuantizeToF16 op b hi.symm h
  | OpConvertPtrToU op => exact unread_inj_OpConvertPtrToU op b hi.symm h
  | OpSatConvertSToU op => exact unread_inj_OpSatConvertSToU op b hi.symm h
  | OpSatConvertUToS op => exact unread_inj_OpSatConvertUToS op b hi.symm h
  | OpConvertUToPtr op => exact unread_inj_OpConvertUToPtr op b hi.symm h
  | OpPtrCastToGeneric op => exact unread_inj_OpPtrCastToGeneric op b hi.symm h
  | OpGenericCastToPtr op => exact unread_inj_OpGenericCastToPtr op b hi.symm h
  | OpGenericCastToPtrExplicit op => exact unread_inj_OpGenericCastToPtrExplicit op b hi.symm h
  | OpVectorExtractDynamic op => exact unread_inj_OpVectorExtractDynamic op b hi.symm h
  | OpVectorInsertDynamic op => exact unread_inj_OpVectorInsertDynamic op b hi.symm h
  | OpVectorShuffle op => exact unread_inj_OpVectorShuffle op b hi.symm h
  | OpCompositeConstruct op => exact unread_inj_OpCompositeConstruct op b hi.symm h
  | OpCompositeExtract op => exact unread_inj_OpCompositeExtract op b hi.symm h
  | OpCompositeInsert op => exact unread_inj_OpCompositeInsert op b hi.symm h
  | OpCopyObject op => exact unread_inj_OpCopyObject op b hi.symm h
  | OpTranspose op => exact unread_inj_OpTranspose op b hi.symm h
  | OpSNegate op => exact unread_inj_OpSNegate op b hi.symm h
  | OpFNegate op => exact unread_inj_OpFNegate op b hi.symm h
  | OpVectorTimesScalar op => exact unread_inj_OpVectorTimesScalar op b hi.symm h
  | OpMatrixTimesScalar op => exact unread_inj_OpMatrixTimesScalar op b hi.symm h
  | OpVectorTimesMatrix op => exact unread_inj_OpVectorTimesMatrix op b hi.symm h
  | OpMatrixTimesVector op => exact unread_inj_OpMatrixTimesVector op b hi.symm h
  | OpMatrixTimesMatrix op => exact unread_inj_OpMatrixTimesMatrix op b hi.symm h
  | OpOuterProduct op => exact unread_inj_OpOuterProduct op b hi.symm h
  | OpDot op => exact unread_inj_OpDot op b hi.symm h
  | OpShiftRightLogical op => exact unread_inj_OpShiftRightLogical op b hi.symm h
  | OpShiftRightArithmetic op => exact unread_inj_OpShiftRightArithmetic op b hi.symm h
  | OpShiftLeftLogical op => exact unread_inj_OpShiftLeftLogical op b hi.symm h
  | OpNot op => exact unread_inj_OpNot op b hi.symm h

end Magma
