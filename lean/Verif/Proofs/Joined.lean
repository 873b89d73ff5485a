import Verif.Proofs.Forge
import Verif.Proofs.Quotes
import Verif.Spec.Joined
/-! Text that may be that of several instructions or of one. -/

namespace Magma.Joined
open Spec Forge Quotes
variable {X : Type} [Display X]

/-- What can come after the string of an instruction -/
inductive Kind where
  | quoted
  | entry
  | linkage

/-- The texts after the string -/
def Kind.Tail : Kind → Text → Prop
  | quoted, t => t = ['"']
  | entry, t => ∃ ids : List OpId, t = '"' :: FormatArg.formatArg ids
  | linkage, t => ∃ l : LinkageType, t = ' ' :: Display.fmt l

/-- Instructions of the kind -/
def Kind.Has : Kind → Core X → Prop
  | quoted, c => EndsQuoted c ∧ ¬ IsEntryPoint c
  | entry, c => IsEntryPoint c
  | linkage, c => IsLinkage c

/-- The text is the left column and the name of the instruction, a space and more. -/
def Named (h : Text) (c : Core X) : Prop :=
  ∃ r n z, (opcode c, n) ∈ mnemonics ∧ h = leftColumn r ++ (n.toList ++ ' ' :: z)

omit [Display X] in
theorem Named.more {a x : Text} {c : Core X} {r : Option UInt32} {n : String} {z : Text} (hn : (opcode c, n) ∈ mnemonics)
    (hz : Spaced z) (e : a = leftColumn r ++ (n.toList ++ z)) : Named (a ++ ' ' :: x) c := by
  rcases hz with rfl | ⟨t, rfl⟩
  · exact ⟨r, n, x, hn, by rw [e]; simp only [List.append_assoc, List.append_nil]⟩
  · exact ⟨r, n, t ++ ' ' :: x, hn, by rw [e]; simp only [List.append_assoc, List.cons_append]⟩

/-- What the text before the string shows -/
def Kind.Mark : Kind → Text → Prop
  | quoted, h => '"' ∈ h
  | entry, h => '"' ∈ h
  | linkage, h =>
    (∃ target : OpId, h = fmtNoResult ++ "OpDecorate".toList ++ FormatArg.formatArg target ++ " LinkageAttributes ".toList) ∨
    ∃ (structure_type : OpId) (member : MemberIndex), h = fmtNoResult ++ "OpMemberDecorate".toList ++
      FormatArg.formatArg structure_type ++ FormatArg.formatArg member ++ " LinkageAttributes ".toList

/-- The instruction is `h` before its string, and can have any other string and any other end of its kind. -/
def Opens (k : Kind) (h : Text) (c : Core X) : Prop :=
  '\n' ∉ h ∧ Named h c ∧ k.Mark h ∧ (∃ s : String, ∃ t, k.Tail t ∧ Display.fmt c = h ++ (s.toList ++ t)) ∧
  ∀ (s : String) (t : Text), k.Tail t → ∃ c' : Core X, Display.fmt c' = h ++ (s.toList ++ t)

/-- A string as the last operand -/
theorem opens_last {f : String → Core X} {a : Text} (hf : ∀ s, Display.fmt (f s) = a ++ (FormatArg.formatArg s : Text))
    (ha : '\n' ∉ a) (s : String) {r : Option UInt32} {n : String} {z : Text} (hn : (opcode (f s), n) ∈ mnemonics)
    (hz : Spaced z) (he : a = leftColumn r ++ (n.toList ++ z)) : Opens .quoted (a ++ " \"".toList) (f s) := by
  have key (s : String) : Display.fmt (f s) = (a ++ " \"".toList) ++ (s.toList ++ ['"']) := by
    rw [hf]
    show a ++ (" ".toList ++ ("\"".toList ++ s.toList ++ "\"".toList)) = _
    simp only [List.append_assoc]
    rfl
  refine ⟨line_append ha (by decide), Named.more hn hz he, List.mem_append_right _ (by decide), ⟨s, _, rfl, key s⟩, ?_⟩
  rintro s t rfl
  exact ⟨_, key s⟩

theorem opens_linkage {f : Decoration → Core X} {a : Text}
    (hf : ∀ d, Display.fmt (f d) = a ++ (FormatArg.formatArg d : Text)) (ha : '\n' ∉ a) (s : String) (l : LinkageType)
    {r : Option UInt32} {n : String} {z : Text} (hn : (opcode (f (.LinkageAttributes s l)), n) ∈ mnemonics)
    (hz : Spaced z) (he : a = leftColumn r ++ (n.toList ++ z)) (hm : Kind.linkage.Mark (a ++ " LinkageAttributes ".toList)) :
    Opens .linkage (a ++ " LinkageAttributes ".toList) (f (.LinkageAttributes s l)) := by
  have key (s : String) (l : LinkageType) : Display.fmt (f (.LinkageAttributes s l)) =
      (a ++ " LinkageAttributes ".toList) ++ (s.toList ++ ' ' :: Display.fmt l) := by
    rw [hf]
    show a ++ (" ".toList ++ ("LinkageAttributes ".toList ++ s.toList ++ " ".toList ++ Display.fmt l)) = _
    simp only [List.append_assoc]
    rfl
  refine ⟨line_append ha (by decide), Named.more hn hz he, hm, ⟨s, _, ⟨l, rfl⟩, key s l⟩, ?_⟩
  rintro s t ⟨l, rfl⟩
  exact ⟨_, key s l⟩

/-- Instructions with strings are up to their strings as `Opens` says. -/
theorem opens (c : Core X) : (∃ k : Kind, k.Has c ∧ ∃ h, Opens k h c) ∨
    (strings c = [] ∧ ¬ EndsQuoted c ∧ ¬ IsEntryPoint c ∧ ¬ IsLinkage c) := by
  cases c with
  | OpSourceContinued op =>
    exact .inl ⟨.quoted, ⟨trivial, nofun⟩, _, opens_last (r := none) (f := fun s => .OpSourceContinued ⟨s⟩) (fun _ => rfl)
      (line_append (line_of_plain fmtNoResult_plain) (by decide)) op.continued_source
      (by decide +kernel : ((2 : Nat), "OpSourceContinued") ∈ mnemonics) spaced_nil rfl⟩
  | OpSource op =>
    obtain ⟨language, version, file, source⟩ := op
    cases source with
    | none => exact .inr ⟨rfl, fun h => h rfl, nofun, nofun⟩
    | some s =>
      exact .inl ⟨.quoted, ⟨nofun, nofun⟩, _, opens_last (r := none) (f := fun s => .OpSource ⟨language, version, file, some s⟩)
        (fun _ => rfl) (line_append (line_append (line_append (line_append (line_of_plain fmtNoResult_plain)
          (by decide : '\n' ∉ "OpSource".toList)) (line_of_plain (PlainArg.plain language)))
          (line_of_plain (PlainArg.plain version))) (line_of_plain (PlainArg.plain file))) s
        (by decide +kernel : ((3 : Nat), "OpSource") ∈ mnemonics) (Spaced.append (spaced language) (Spaced.append (spaced version)
          (spaced file))) (by simp only [List.append_assoc]; rfl)⟩
  | OpSourceExtension op =>
    exact .inl ⟨.quoted, ⟨trivial, nofun⟩, _, opens_last (r := none) (f := fun s => .OpSourceExtension ⟨s⟩) (fun _ => rfl)
      (line_append (line_of_plain fmtNoResult_plain) (by decide)) op.extension
      (by decide +kernel : ((4 : Nat), "OpSourceExtension") ∈ mnemonics) spaced_nil rfl⟩
  | OpName op =>
    exact .inl ⟨.quoted, ⟨trivial, nofun⟩, _, opens_last (r := none) (f := fun s => .OpName ⟨op.target, s⟩) (fun _ => rfl)
      (line_append (line_append (line_of_plain fmtNoResult_plain) (by decide)) (line_of_plain (PlainArg.plain op.target)))
      op.name (by decide +kernel : ((5 : Nat), "OpName") ∈ mnemonics) (spaced op.target) (List.append_assoc _ _ _)⟩
  | OpMemberName op =>
    exact .inl ⟨.quoted, ⟨trivial, nofun⟩, _, opens_last (r := none) (f := fun s => .OpMemberName ⟨op.struct_type, op.member, s⟩)
      (fun _ => rfl) (line_append (line_append (line_append (line_of_plain fmtNoResult_plain) (by decide))
        (line_of_plain (PlainArg.plain op.struct_type))) (line_of_plain (PlainArg.plain op.member))) op.name
      (by decide +kernel : ((6 : Nat), "OpMemberName") ∈ mnemonics) (Spaced.append (spaced op.struct_type) (spaced op.member))
      (by simp only [List.append_assoc]; rfl)⟩
  | OpString op =>
    exact .inl ⟨.quoted, ⟨trivial, nofun⟩, _, opens_last (f := fun s => .OpString ⟨op.result_id, s⟩) (fun _ => rfl)
      (line_append (line_of_plain (fmtResult_plain _)) (by decide)) op.string
      (by decide +kernel : ((7 : Nat), "OpString") ∈ mnemonics) spaced_nil
      (by rw [leftColumn_some, List.append_nil])⟩
  | OpExtension op =>
    exact .inl ⟨.quoted, ⟨trivial, nofun⟩, _, opens_last (r := none) (f := fun s => .OpExtension ⟨s⟩) (fun _ => rfl)
      (line_append (line_of_plain fmtNoResult_plain) (by decide)) op.name
      (by decide +kernel : ((10 : Nat), "OpExtension") ∈ mnemonics) spaced_nil rfl⟩
  | OpExtInstImport op =>
    exact .inl ⟨.quoted, ⟨trivial, nofun⟩, _, opens_last (f := fun s => .OpExtInstImport ⟨op.result_id, s⟩) (fun _ => rfl)
      (line_append (line_of_plain (fmtResult_plain _)) (by decide)) op.name
      (by decide +kernel : ((11 : Nat), "OpExtInstImport") ∈ mnemonics) spaced_nil
      (by rw [leftColumn_some, List.append_nil])⟩
  | OpEntryPoint op =>
    obtain ⟨model, entry, name, interface⟩ := op
    have key (s : String) (ids : List OpId) : Display.fmt (Core.OpEntryPoint ⟨model, entry, s, ids⟩ : Core X) =
        (fmtNoResult ++ "OpEntryPoint".toList ++ FormatArg.formatArg model ++ FormatArg.formatArg entry ++ " \"".toList) ++
          (s.toList ++ '"' :: FormatArg.formatArg ids) := by
      show fmtNoResult ++ "OpEntryPoint".toList ++ FormatArg.formatArg model ++ FormatArg.formatArg entry ++
        (" ".toList ++ ("\"".toList ++ s.toList ++ "\"".toList)) ++ FormatArg.formatArg ids = _
      simp only [List.append_assoc]
      rfl
    refine .inl ⟨.entry, trivial, _, ?_, Named.more (r := none)
      (by decide +kernel : ((15 : Nat), "OpEntryPoint") ∈ mnemonics) (Spaced.append (spaced model) (spaced entry))
      (by simp only [List.append_assoc]; rfl), List.mem_append_right _ (by decide), ⟨name, _, ⟨interface, rfl⟩, key name interface⟩, ?_⟩
    · exact line_append (line_append (line_append (line_append (line_of_plain fmtNoResult_plain) (by decide))
        (line_of_plain (PlainArg.plain model))) (line_of_plain (PlainArg.plain entry))) (by decide)
    · rintro s t ⟨ids, rfl⟩
      exact ⟨_, key s ids⟩
  | OpTypeOpaque op =>
    exact .inl ⟨.quoted, ⟨trivial, nofun⟩, _, opens_last (f := fun s => .OpTypeOpaque ⟨op.result_id, s⟩) (fun _ => rfl)
      (line_append (line_of_plain (fmtResult_plain _)) (by decide)) op.name
      (by decide +kernel : ((31 : Nat), "OpTypeOpaque") ∈ mnemonics) spaced_nil
      (by rw [leftColumn_some, List.append_nil])⟩
  | OpDecorate op =>
    obtain ⟨target, d⟩ := op
    by_cases h : ∃ s l, d = .LinkageAttributes s l
    · obtain ⟨s, l, rfl⟩ := h
      exact .inl ⟨.linkage, ⟨s, l, rfl⟩, _, opens_linkage (r := none) (f := fun d => .OpDecorate ⟨target, d⟩) (fun _ => rfl)
        (line_append (line_append (line_of_plain fmtNoResult_plain) (by decide)) (line_of_plain (PlainArg.plain target)))
        s l (by decide +kernel : ((71 : Nat), "OpDecorate") ∈ mnemonics) (spaced target) (List.append_assoc _ _ _)
        (.inl ⟨target, rfl⟩)⟩
    · refine .inr ⟨?_, nofun, nofun, h⟩
      show decorationStrings d = []
      cases d <;> first | rfl | exact absurd ⟨_, _, rfl⟩ h
  | OpMemberDecorate op =>
    obtain ⟨structure_type, member, d⟩ := op
    by_cases h : ∃ s l, d = .LinkageAttributes s l
    · obtain ⟨s, l, rfl⟩ := h
      exact .inl ⟨.linkage, ⟨s, l, rfl⟩, _, opens_linkage (r := none) (f := fun d => .OpMemberDecorate ⟨structure_type, member, d⟩)
        (fun _ => rfl) (line_append (line_append (line_append (line_of_plain fmtNoResult_plain) (by decide))
          (line_of_plain (PlainArg.plain structure_type))) (line_of_plain (PlainArg.plain member))) s l
        (by decide +kernel : ((72 : Nat), "OpMemberDecorate") ∈ mnemonics) (Spaced.append (spaced structure_type) (spaced member))
        (by simp only [List.append_assoc]; rfl) (.inr ⟨structure_type, member, rfl⟩)⟩
    · refine .inr ⟨?_, nofun, nofun, h⟩
      show decorationStrings d = []
      cases d <;> first | rfl | exact absurd ⟨_, _, rfl⟩ h
  | _ => exact .inr ⟨rfl, nofun, nofun, nofun⟩

theorem tail_of {k : Kind} {h : Text} {c : Core X} (ho : Opens k h c) : ∃ u t, k.Tail t ∧ Display.fmt c = u ++ t := by
  obtain ⟨-, -, -, ⟨s, t, ht, e⟩, -⟩ := ho
  exact ⟨h ++ s.toList, t, ht, by rw [e, List.append_assoc]⟩

theorem quoted_tail {c : Core X} (hc : EndsQuoted c) : ∃ u, Display.fmt c = u ++ ['"'] := by
  rcases opens c with ⟨k, hk, h, ho⟩ | ⟨-, hn, -⟩
  · cases k with
    | quoted =>
      obtain ⟨u, t, rfl, e⟩ := tail_of ho
      exact ⟨u, e⟩
    | entry =>
      cases c with
      | OpEntryPoint op =>
        obtain ⟨model, entry, name, interface⟩ := op
        cases hc
        refine ⟨fmtNoResult ++ "OpEntryPoint".toList ++ FormatArg.formatArg model ++ FormatArg.formatArg entry ++
          (" \"".toList ++ name.toList), ?_⟩
        show fmtNoResult ++ "OpEntryPoint".toList ++ FormatArg.formatArg model ++ FormatArg.formatArg entry ++
          (" ".toList ++ ("\"".toList ++ name.toList ++ "\"".toList)) ++ [] = _
        simp only [List.append_assoc, List.append_nil]
        rfl
      | _ => exact absurd hk nofun
    | linkage =>
      cases c with
      | OpDecorate op => exact absurd hc nofun
      | OpMemberDecorate op => exact absurd hc nofun
      | _ => exact absurd hk nofun
  · exact absurd hc hn

theorem entry_tail {c : Core X} (hc : IsEntryPoint c) : ∃ u t, Kind.entry.Tail t ∧ Display.fmt c = u ++ t := by
  rcases opens c with ⟨k, hk, h, ho⟩ | ⟨-, -, hn, -⟩
  · cases k with
    | quoted => exact absurd hc hk.2
    | entry => exact tail_of ho
    | linkage =>
      cases c with
      | OpEntryPoint op => exact absurd hk nofun
      | _ => exact absurd hc nofun
  · exact absurd hc hn

theorem linkage_opens {c : Core X} (hc : IsLinkage c) : ∃ h, Opens .linkage h c := by
  rcases opens c with ⟨k, hk, h, ho⟩ | ⟨-, -, -, hn⟩
  · cases k with
    | quoted =>
      cases c with
      | OpDecorate op => exact absurd hk.1 nofun
      | OpMemberDecorate op => exact absurd hk.1 nofun
      | _ => exact absurd hc nofun
    | entry =>
      cases c with
      | OpEntryPoint op => exact absurd hc nofun
      | _ => exact absurd hk nofun
    | linkage => exact ⟨h, ho⟩
  · exact absurd hc hn

theorem entry_opens {c : Core X} (hc : IsEntryPoint c) : ∃ h, Opens .entry h c := by
  rcases opens c with ⟨k, hk, h, ho⟩ | ⟨-, -, hn, -⟩
  · cases k with
    | quoted => exact absurd hc hk.2
    | entry => exact ⟨h, ho⟩
    | linkage =>
      cases c with
      | OpEntryPoint op => exact absurd hk nofun
      | _ => exact absurd hc nofun
  · exact absurd hc hn

/-- If two instructions join, the other one ends in what can come after the string of the one. -/
theorem joins_tail {a b : Core X} (hj : Joins a b) :
    ∃ k h u t, Opens k h a ∧ Kind.Tail k t ∧ Display.fmt b = u ++ t := by
  rcases hj with ⟨ha, hb⟩ | ⟨ha, hb⟩ | ⟨ha, hb⟩
  · obtain ⟨u, hu⟩ := quoted_tail hb
    rcases opens a with ⟨k, hk, h, ho⟩ | ⟨-, hn, -⟩
    · cases k with
      | quoted => exact ⟨_, h, u, _, ho, rfl, hu⟩
      | entry => exact ⟨_, h, u, _, ho, ⟨[], rfl⟩, hu⟩
      | linkage =>
        cases a with
        | OpDecorate op => exact absurd ha nofun
        | OpMemberDecorate op => exact absurd ha nofun
        | _ => exact absurd hk nofun
    · exact absurd ha hn
  · obtain ⟨h, ho⟩ := entry_opens ha
    rcases hb with hb | hb
    · obtain ⟨u, hu⟩ := quoted_tail hb
      exact ⟨_, h, u, _, ho, ⟨[], rfl⟩, hu⟩
    · obtain ⟨u, t, ht, hu⟩ := entry_tail hb
      exact ⟨_, h, u, t, ho, ht, hu⟩
  · obtain ⟨h, ho⟩ := linkage_opens ha
    obtain ⟨h', ho'⟩ := linkage_opens hb
    obtain ⟨u, t, ht, hu⟩ := tail_of ho'
    exact ⟨_, h, u, t, ho, ht, hu⟩

/-- The text from the one instruction to the other is that of a single instruction. -/
theorem join {a b : Core X} (hj : Joins a b) (mid : List (Core X)) :
    ∃ c : Core X, unlines [Display.fmt c] = unlines ((a :: (mid ++ [b])).map Display.fmt) := by
  obtain ⟨k, h, u, t, ⟨-, -, -, ⟨s, t', -, e⟩, ho⟩, ht, hb⟩ := joins_tail hj
  obtain ⟨c, hc⟩ := ho (String.ofList (s.toList ++ t' ++ '\n' :: (unlines (mid.map Display.fmt) ++ u))) t ht
  refine ⟨c, ?_⟩
  rw [hc, List.map_cons, List.map_append, unlines_cons, unlines_cons, unlines_append, e, String.toList_ofList,
    List.map_cons, List.map_nil, unlines_cons, hb]
  simp only [List.append_assoc, List.cons_append]

/-! ### The way back -/

/-- Instructions without strings have tame texts. -/
theorem tame_core (hx : ∀ x : X, Tame (' ' :: Display.fmt x)) (c : Core X) (h1 : ¬ EndsQuoted c) (h2 : ¬ IsEntryPoint c)
    (h3 : ¬ IsLinkage c) : Tame (Display.fmt c) := by
  cases c with
  | OpNop op => exact tame_OpNop op
  | OpUndef op => exact tame_OpUndef op
  | OpMemoryModel op => exact tame_OpMemoryModel op
  | OpExecutionMode op => exact tame_OpExecutionMode op
  | OpCapability op => exact tame_OpCapability op
  | OpTypeVoid op => exact tame_OpTypeVoid op
  | OpTypeBool op => exact tame_OpTypeBool op
  | OpTypeInt op => exact tame_OpTypeInt op
  | OpTypeFloat op => exact tame_OpTypeFloat op
  | OpTypeVector op => exact tame_OpTypeVector op
  | OpTypeMatrix op => exact tame_OpTypeMatrix op
  | OpTypeImage op => exact tame_OpTypeImage op
  | OpTypeSampler op => exact tame_OpTypeSampler op
  | OpTypeSampledImage op => exact tame_OpTypeSampledImage op
  | OpTypeArray op => exact tame_OpTypeArray op
  | OpTypeRuntimeArray op => exact tame_OpTypeRuntimeArray op
  | OpTypeStruct op => exact tame_OpTypeStruct op
  | OpTypePointer op => exact tame_OpTypePointer op
  | OpTypeFunction op => exact tame_OpTypeFunction op
  | OpTypeEvent op => exact tame_OpTypeEvent op
  | OpTypeDeviceEvent op => exact tame_OpTypeDeviceEvent op
  | OpTypeQueue op => exact tame_OpTypeQueue op
  | OpTypePipe op => exact tame_OpTypePipe op
  | OpTypeForwardPointer op => exact tame_OpTypeForwardPointer op
  | OpConstant op => exact tame_OpConstant op
  | OpConstantComposite op => exact tame_OpConstantComposite op
  | OpFunction op => exact tame_OpFunction op
  | OpFunctionParameter op => exact tame_OpFunctionParameter op
  | OpFunctionEnd op => exact tame_OpFunctionEnd op
  | OpVariable op => exact tame_OpVariable op
  | OpLoad op => exact tame_OpLoad op
  | OpStore op => exact tame_OpStore op
  | OpAccessChain op => exact tame_OpAccessChain op
  | OpConvertUToF op => exact tame_OpConvertUToF op
  | OpBitcast op => exact tame_OpBitcast op
  | OpIAdd op => exact tame_OpIAdd op
  | OpFAdd op => exact tame_OpFAdd op
  | OpISub op => exact tame_OpISub op
  | OpFSub op => exact tame_OpFSub op
  | OpIMul op => exact tame_OpIMul op
  | OpFMul op => exact tame_OpFMul op
  | OpUDiv op => exact tame_OpUDiv op
  | OpSDiv op => exact tame_OpSDiv op
  | OpFDiv op => exact tame_OpFDiv op
  | OpUMod op => exact tame_OpUMod op
  | OpSRem op => exact tame_OpSRem op
  | OpSMod op => exact tame_OpSMod op
  | OpFRem op => exact tame_OpFRem op
  | OpFMod op => exact tame_OpFMod op
  | OpIAddCarry op => exact tame_OpIAddCarry op
  | OpISubBorrow op => exact tame_OpISubBorrow op
  | OpUMulExtended op => exact tame_OpUMulExtended op
  | OpSMulExtended op => exact tame_OpSMulExtended op
  | OpBitwiseOr op => exact tame_OpBitwiseOr op
  | OpBitwiseXor op => exact tame_OpBitwiseXor op
  | OpBitwiseAnd op => exact tame_OpBitwiseAnd op
  | OpIEqual op => exact tame_OpIEqual op
  | OpINotEqual op => exact tame_OpINotEqual op
  | OpUGreaterThan op => exact tame_OpUGreaterThan op
  | OpSGreaterThan op => exact tame_OpSGreaterThan op
  | OpUGreaterThanEqual op => exact tame_OpUGreaterThanEqual op
  | OpSGreaterThanEqual op => exact tame_OpSGreaterThanEqual op
  | OpULessThan op => exact tame_OpULessThan op
  | OpSLessThan op => exact tame_OpSLessThan op
  | OpULessThanEqual op => exact tame_OpULessThanEqual op
  | OpSLessThanEqual op => exact tame_OpSLessThanEqual op
  | OpFOrdEqual op => exact tame_OpFOrdEqual op
  | OpFUnordEqual op => exact tame_OpFUnordEqual op
  | OpFOrdNotEqual op => exact tame_OpFOrdNotEqual op
  | OpFUnordNotEqual op => exact tame_OpFUnordNotEqual op
  | OpFOrdLessThan op => exact tame_OpFOrdLessThan op
  | OpFUnordLessThan op => exact tame_OpFUnordLessThan op
  | OpFOrdGreaterThan op => exact tame_OpFOrdGreaterThan op
  | OpFUnordGreaterThan op => exact tame_OpFUnordGreaterThan op
  | OpFOrdLessThanEqual op => exact tame_OpFOrdLessThanEqual op
  | OpFUnordLessThanEqual op => exact tame_OpFUnordLessThanEqual op
  | OpFOrdGreaterThanEqual op => exact tame_OpFOrdGreaterThanEqual op
  | OpFUnordGreaterThanEqual op => exact tame_OpFUnordGreaterThanEqual op
  | OpPhi op => exact tame_OpPhi op
  | OpLoopMerge op => exact tame_OpLoopMerge op
  | OpSelectionMerge op => exact tame_OpSelectionMerge op
  | OpLabel op => exact tame_OpLabel op
  | OpBranch op => exact tame_OpBranch op
  | OpBranchConditional op => exact tame_OpBranchConditional op
  | OpReturn op => exact tame_OpReturn op
  | OpSource op => exact tame_source op (Classical.not_not.mp h1)
  | OpExtInst op => exact tame_extInst op (hx _)
  | OpDecorate op => exact tame_decorate op (fun s l e => h3 ⟨s, l, e⟩)
  | OpMemberDecorate op => exact tame_memberDecorate op (fun s l e => h3 ⟨s, l, e⟩)
  | OpEntryPoint op => exact absurd trivial h2
  | _ => exact absurd trivial h1

theorem opcode_of_named {a c : Core X} {h z : Text} (hn : Named h c) (e : Display.fmt a = h ++ z) :
    opcode a = opcode c := by
  obtain ⟨na, sa, ma, ha, ea⟩ := Core.layout a
  obtain ⟨r, n, y, hm, rfl⟩ := hn
  rw [ea, List.append_assoc] at e
  have e := (List.append_inj e (by rw [leftColumn_length, leftColumn_length])).2
  have ns : ∀ p ∈ mnemonics, ' ' ∉ p.2.toList := by decide +kernel
  have e := congrArg (List.takeWhile (· != ' ')) e
  rw [takeWhile_spaced (ns _ ma) ha, List.append_assoc, takeWhile_spaced (s := ' ' :: y ++ z) (ns _ hm) (.inr ⟨_, rfl⟩)] at e
  have hd : (mnemonics.map Prod.snd).Nodup := by decide +kernel
  exact congrArg Prod.fst (nodup_map_inj hd ma hm (String.ext_iff.mpr e))

omit [Display X] in
theorem quoted_of_opcode (a : Core X) (h : opcode a ∈ [2, 4, 5, 6, 7, 10, 11, 31]) : Kind.quoted.Has a := by
  cases a <;> first | exact ⟨trivial, nofun⟩ | exact absurd h (by simp [opcode])

omit [Display X] in
theorem entry_of_opcode (a : Core X) (h : opcode a = 15) : Kind.entry.Has a := by
  cases a <;> first | exact trivial | exact absurd h (by simp [opcode])

omit [Display X] in
theorem source_of_opcode (a : Core X) (h : opcode a = 3) : ∃ op, a = .OpSource op := by
  cases a <;> first | exact ⟨_, rfl⟩ | exact absurd h (by simp [opcode])

omit [Display X] in
theorem decorate_of_opcode (a : Core X) (h : opcode a = 71) : ∃ op, a = .OpDecorate op := by
  cases a <;> first | exact ⟨_, rfl⟩ | exact absurd h (by simp [opcode])

omit [Display X] in
theorem memberDecorate_of_opcode (a : Core X) (h : opcode a = 72) : ∃ op, a = .OpMemberDecorate op := by
  cases a <;> first | exact ⟨_, rfl⟩ | exact absurd h (by simp [opcode])

/-- A decoration whose text begins as that of a linkage -/
theorem linkage_of_text {d : Decoration} {z : Text} (e : (FormatArg.formatArg d : Text) = " LinkageAttributes ".toList ++ z) :
    ∃ s l, d = .LinkageAttributes s l := by
  have e : ' ' :: Display.fmt d = " LinkageAttributes ".toList ++ z := e
  have e : ((Display.fmt d).take 2 == ['L', 'i']) = true :=
    congrArg (fun t => (t.drop 1).take 2 == ['L', 'i']) e
  cases d with
  | LinkageAttributes s l => exact ⟨s, l, rfl⟩
  | _ => exact Bool.noConfusion (show false = true from e)

/-- Instructions that are the same up to the string of one of them are of the same kind. -/
theorem same_kind {a c : Core X} {k : Kind} {h z : Text} (hk : k.Has c) (ho : Opens k h c)
    (e : Display.fmt a = h ++ z) : k.Has a := by
  obtain ⟨-, hn, hm, -⟩ := ho
  have hop := opcode_of_named hn e
  have quote (hq : '"' ∈ h) : '"' ∈ Display.fmt a := by rw [e]; exact List.mem_append_left _ hq
  have source (op : OpSource) (hop : opcode a = 3) (hq : '"' ∈ h) : Kind.quoted.Has a := by
    obtain ⟨op', rfl⟩ := source_of_opcode a hop
    exact ⟨fun hs => absurd (quote hq) (tame_source op' hs).1, nofun⟩
  cases k with
  | quoted =>
    cases c with
    | OpSource op => exact source op hop hm
    | OpSourceContinued op => exact quoted_of_opcode a (by rw [hop]; simp [opcode])
    | OpSourceExtension op => exact quoted_of_opcode a (by rw [hop]; simp [opcode])
    | OpName op => exact quoted_of_opcode a (by rw [hop]; simp [opcode])
    | OpMemberName op => exact quoted_of_opcode a (by rw [hop]; simp [opcode])
    | OpString op => exact quoted_of_opcode a (by rw [hop]; simp [opcode])
    | OpExtension op => exact quoted_of_opcode a (by rw [hop]; simp [opcode])
    | OpExtInstImport op => exact quoted_of_opcode a (by rw [hop]; simp [opcode])
    | OpTypeOpaque op => exact quoted_of_opcode a (by rw [hop]; simp [opcode])
    | OpEntryPoint op => exact absurd trivial hk.2
    | _ => exact absurd hk.1 nofun
  | entry =>
    cases c with
    | OpEntryPoint op => exact entry_of_opcode a hop
    | _ => exact absurd hk nofun
  | linkage =>
    cases c with
    | OpDecorate op =>
      obtain ⟨⟨target, d⟩, rfl⟩ := decorate_of_opcode a hop
      rcases hm with ⟨t, rfl⟩ | ⟨st, mem, rfl⟩
      · have e : fmtNoResult ++ "OpDecorate".toList ++ FormatArg.formatArg target ++ FormatArg.formatArg d =
          fmtNoResult ++ "OpDecorate".toList ++ FormatArg.formatArg t ++ " LinkageAttributes ".toList ++ z := e
        simp only [List.append_assoc] at e
        have e := List.append_cancel_left (List.append_cancel_left e)
        exact linkage_of_text (arg_inj (Arg.follows d) (.inr ⟨'L', "inkageAttributes ".toList ++ z, rfl, by decide⟩) e).2
      · exact absurd (congrArg (List.take 4 ∘ List.drop 15) e) (by
          show ¬ ("OpDe".toList = "OpMe".toList)
          decide)
    | OpMemberDecorate op =>
      obtain ⟨⟨st', mem', d⟩, rfl⟩ := memberDecorate_of_opcode a hop
      rcases hm with ⟨t, rfl⟩ | ⟨st, mem, rfl⟩
      · exact absurd (congrArg (List.take 4 ∘ List.drop 15) e) (by
          show ¬ ("OpMe".toList = "OpDe".toList)
          decide)
      · have e : fmtNoResult ++ "OpMemberDecorate".toList ++ FormatArg.formatArg st' ++ FormatArg.formatArg mem' ++
            FormatArg.formatArg d =
          fmtNoResult ++ "OpMemberDecorate".toList ++ FormatArg.formatArg st ++ FormatArg.formatArg mem ++
            " LinkageAttributes ".toList ++ z := e
        simp only [List.append_assoc] at e
        have e := List.append_cancel_left (List.append_cancel_left e)
        have e := (arg_inj (arg_follows _ _) (arg_follows _ _) e).2
        exact linkage_of_text (arg_inj (Arg.follows d) (.inr ⟨'L', "inkageAttributes ".toList ++ z, rfl, by decide⟩) e).2
    | _ => exact absurd hk nofun

theorem last_ids (ids : List OpId) (h : ids ≠ []) : ∃ u c, (FormatArg.formatArg ids : Text) = u ++ [c] ∧ c.isDigit = true := by
  rcases List.eq_nil_or_concat ids with e | ⟨is, i, rfl⟩
  · exact absurd e h
  · obtain ⟨u, c, hc, hd⟩ := digits_last i.val.toNat
    refine ⟨(FormatArg.formatArg is : Text) ++ " %".toList ++ u, c, ?_, hd⟩
    show List.flatMap _ (is.concat i) = _
    rw [List.concat_eq_append, List.flatMap_append, List.append_assoc, List.append_assoc, ← hc]
    show _ = List.flatMap _ is ++ _
    congr 1
    exact List.append_nil _

/-- The last character of the text of an entry point -/
theorem last_entry (ids : List OpId) : ∃ u c, '"' :: (FormatArg.formatArg ids : Text) = u ++ [c] ∧
    ((ids = [] ∧ c = '"') ∨ (ids ≠ [] ∧ c.isDigit = true)) := by
  by_cases h : ids = []
  · cases h
    exact ⟨[], '"', rfl, .inl ⟨rfl, rfl⟩⟩
  · obtain ⟨u, c, e, hc⟩ := last_ids ids h
    exact ⟨'"' :: u, c, by rw [e]; rfl, .inr ⟨h, hc⟩⟩

theorem last_eq {u v : Text} {c d : Char} (h : u ++ [c] = v ++ [d]) : c = d := by
  have := congrArg List.getLast? h
  simpa using this

/-- What ends as an instruction with a string does has one. -/
theorem ends (hx : ∀ x : X, Tame (' ' :: Display.fmt x)) {b : Core X} {k : Kind} {u t : Text} (ht : k.Tail t)
    (e : Display.fmt b = u ++ t) :
    (k = .quoted ∧ EndsQuoted b) ∨ (k = .entry ∧ (EndsQuoted b ∨ IsEntryPoint b)) ∨ (k = .linkage ∧ IsLinkage b) := by
  by_cases hl : IsLinkage b
  · obtain ⟨h, ho⟩ := linkage_opens hl
    obtain ⟨v, t', ⟨l, rfl⟩, e'⟩ := tail_of ho
    obtain ⟨w, hw⟩ := linkage_last l
    have e' : Display.fmt b = (v ++ ' ' :: w) ++ ['t'] := by rw [e', hw, List.append_assoc]; rfl
    rw [e'] at e
    cases k with
    | linkage => exact .inr (.inr ⟨rfl, hl⟩)
    | quoted =>
      cases ht
      exact absurd (last_eq e) (by decide)
    | entry =>
      obtain ⟨ids, rfl⟩ := ht
      obtain ⟨z, c, hc, hd⟩ := last_entry ids
      rw [hc, ← List.append_assoc] at e
      cases last_eq e
      exact absurd hd (by simp)
  · by_cases he : IsEntryPoint b
    · cases b with
      | OpEntryPoint op =>
        obtain ⟨model, entry, name, interface⟩ := op
        have e' : Display.fmt (Core.OpEntryPoint ⟨model, entry, name, interface⟩ : Core X) =
            (fmtNoResult ++ "OpEntryPoint".toList ++ FormatArg.formatArg model ++ FormatArg.formatArg entry ++
              (" \"".toList ++ name.toList)) ++ ('"' :: FormatArg.formatArg interface) := by
          show fmtNoResult ++ "OpEntryPoint".toList ++ FormatArg.formatArg model ++ FormatArg.formatArg entry ++
            (" ".toList ++ ("\"".toList ++ name.toList ++ "\"".toList)) ++ FormatArg.formatArg interface = _
          simp only [List.append_assoc]
          rfl
        obtain ⟨z, c, hc, hd⟩ := last_entry interface
        rw [e', hc, ← List.append_assoc] at e
        cases k with
        | quoted =>
          cases ht
          cases last_eq e
          rcases hd with ⟨hi, -⟩ | ⟨-, hd⟩
          · exact .inl ⟨rfl, hi⟩
          · exact absurd hd (by decide)
        | entry => exact .inr (.inl ⟨rfl, .inr trivial⟩)
        | linkage =>
          obtain ⟨l, rfl⟩ := ht
          obtain ⟨w, hw⟩ := linkage_last l
          rw [hw, show u ++ ' ' :: (w ++ ['t']) = (u ++ ' ' :: w) ++ ['t'] by simp] at e
          cases last_eq e
          rcases hd with ⟨-, hd⟩ | ⟨-, hd⟩ <;> exact absurd hd (by decide)
      | _ => exact absurd he nofun
    · by_cases hq : EndsQuoted b
      · obtain ⟨v, e'⟩ := quoted_tail hq
        cases k with
        | quoted => exact .inl ⟨rfl, hq⟩
        | entry => exact .inr (.inl ⟨rfl, .inl hq⟩)
        | linkage =>
          obtain ⟨l, rfl⟩ := ht
          obtain ⟨w, hw⟩ := linkage_last l
          rw [e', hw, show u ++ ' ' :: (w ++ ['t']) = (u ++ ' ' :: w) ++ ['t'] by simp] at e
          exact absurd (last_eq e) (by decide)
      · have htame := tame_core hx b hq he hl
        rw [e] at htame
        cases k with
        | quoted =>
          cases ht
          exact absurd (List.mem_append_right _ List.mem_cons_self) htame.1
        | entry =>
          obtain ⟨ids, rfl⟩ := ht
          exact absurd (List.mem_append_right _ List.mem_cons_self) htame.1
        | linkage =>
          obtain ⟨l, rfl⟩ := ht
          exact absurd rfl (htame.2 l u)

theorem Kind.Tail.line {k : Kind} {t : Text} (ht : k.Tail t) : '\n' ∉ t := by
  cases k with
  | quoted => cases ht; decide
  | entry =>
    obtain ⟨ids, rfl⟩ := ht
    exact line_append (s := ['"']) (by decide) (line_of_plain (PlainArg.plain ids))
  | linkage =>
    obtain ⟨l, rfl⟩ := ht
    cases l <;> decide

theorem unlines_snoc (as : List Text) (b : Text) : unlines (as ++ [b]) = unlines as ++ b ++ ['\n'] := by
  rw [unlines_append, unlines_cons, List.append_assoc]
  rfl

/-- A boundary of the one text that comes after a boundary of the other -/
theorem cut {bs : List Text} (hb : ∀ x ∈ bs, Begins x) : ∀ (as : List Text) (w : Text), (∀ x ∈ as, Clean x) →
    unlines as = w ++ '\n' :: unlines bs → ∃ mid b post, as = mid ++ b :: post ∧ w = unlines mid ++ b
  | [], w, _, h => by exact absurd (congrArg List.length h) (by simp [unlines])
  | a :: as, w, ha, h => by
    rw [unlines_cons] at h
    rcases List.append_eq_append_iff.mp h with ⟨y, e, e'⟩ | ⟨y, e, e'⟩
    · cases y with
      | nil => exact ⟨[], a, as, rfl, by rw [e, List.append_nil]; rfl⟩
      | cons c y =>
        obtain ⟨rfl, e''⟩ := List.cons.inj e'
        obtain ⟨mid, b, post, rfl, rfl⟩ := cut hb as y (fun x hx => ha x (List.mem_cons_of_mem _ hx)) e''
        exact ⟨a :: mid, b, post, rfl, by rw [e, unlines_cons]; simp⟩
    · have := no_longer hb (ha a List.mem_cons_self) e e'
      cases this
      exact ⟨[], a, as, rfl, by rw [e, List.append_nil]; rfl⟩

/-- An instruction whose text begins with that of another one and a newline and ends with that of a third -/
theorem joins_of_text (hl : ∀ x : X, '\n' ∉ Display.fmt x) (hx : ∀ x : X, Tame (' ' :: Display.fmt x)) {a b c : Core X}
    {mid : List Text} (e : Display.fmt c = Display.fmt a ++ '\n' :: (unlines mid ++ Display.fmt b)) : Joins a b := by
  rcases opens c with ⟨k, hk, h, ho⟩ | ⟨hn, -⟩
  · have hh := ho.1
    obtain ⟨s, t, ht, e'⟩ := ho.2.2.2.1
    rw [e'] at e
    have hka : k.Has a := by
      rcases List.append_eq_append_iff.mp e with ⟨y, e1, e2⟩ | ⟨y, e1, e2⟩
      · exact same_kind hk ho e1
      · cases y with
        | nil => exact same_kind hk ho (z := []) (by rw [e1]; simp)
        | cons d y =>
          obtain ⟨rfl, -⟩ := List.cons.inj e2
          exact absurd (e1 ▸ List.mem_append_right _ List.mem_cons_self) hh
    obtain ⟨x, hx'⟩ : ∃ x, Display.fmt a ++ '\n' :: unlines mid = x ++ ['\n'] := by
      rcases List.eq_nil_or_concat mid with rfl | ⟨m, z, rfl⟩
      · exact ⟨_, rfl⟩
      · exact ⟨Display.fmt a ++ '\n' :: (unlines m ++ z), by rw [List.concat_eq_append, unlines_snoc]; simp⟩
    have e : (h ++ s.toList) ++ t = (x ++ ['\n']) ++ Display.fmt b := by
      rw [← hx', List.append_assoc, e, List.append_assoc]
      rfl
    have hb : ∃ u, Display.fmt b = u ++ t := by
      rcases List.append_eq_append_iff.mp e with ⟨y, e1, e2⟩ | ⟨y, e1, e2⟩
      · rcases List.eq_nil_or_concat y with rfl | ⟨y', d, rfl⟩
        · exact ⟨[], by rw [e2]; rfl⟩
        · rw [List.concat_eq_append, ← List.append_assoc] at e1
          cases last_eq e1
          exact absurd (e2 ▸ List.mem_append_left _ (by simp)) ht.line
      · exact ⟨y, e2⟩
    obtain ⟨u, hu⟩ := hb
    rcases ends hx ht hu with ⟨rfl, hb⟩ | ⟨rfl, hb⟩ | ⟨rfl, hb⟩
    · exact .inl ⟨hka.1, hb⟩
    · exact .inr (.inl ⟨hka, hb⟩)
    · exact .inr (.inr ⟨hka, hb⟩)
  · have := Core.fmt_line hl c (by rw [hn]; nofun)
    rw [e] at this
    exact absurd (List.mem_append_right _ List.mem_cons_self) this

theorem begins (c : Core X) : Begins (Display.fmt c) := by
  obtain ⟨name, args, hn, -, e⟩ := Core.layout c
  refine ⟨resultId c, name.toList.drop 2 ++ args, ?_⟩
  rw [e, ← List.take_append_drop 2 name.toList, mnemonics_op _ hn]
  simp

/-- Instructions whose text is also that of others -/
theorem joins_of_unlines (hl : ∀ x : X, '\n' ∉ Display.fmt x) (hx : ∀ x : X, Tame (' ' :: Display.fmt x)) :
    ∀ (as bs : List (Core X)), (∀ a ∈ as, Clean (Display.fmt a)) →
    unlines (as.map Display.fmt) = unlines (bs.map Display.fmt) → as.map Display.fmt ≠ bs.map Display.fmt →
    ∃ pre a mid b post, as = pre ++ a :: (mid ++ b :: post) ∧ Joins a b
  | [], [], _, _, h => absurd rfl h
  | [], b :: bs, _, h, _ => by
    rw [List.map_cons, unlines_cons] at h; exact absurd (congrArg List.length h) (by simp [unlines])
  | a :: as, [], _, h, _ => by
    rw [List.map_cons, unlines_cons] at h; exact absurd (congrArg List.length h) (by simp [unlines])
  | a :: as, c :: bs, ha, h, hne => by
    rw [List.map_cons, List.map_cons, unlines_cons, unlines_cons] at h
    have hb : ∀ x ∈ bs.map (Display.fmt (α := Core X)), Begins x := by
      intro x hx'
      obtain ⟨b, -, rfl⟩ := List.mem_map.mp hx'
      exact begins b
    have same (e : Display.fmt c = Display.fmt a) : ∃ pre a' mid b post, a :: as = pre ++ a' :: (mid ++ b :: post) ∧
        Joins a' b := by
      rw [e] at h
      have h := (List.cons.inj (List.append_cancel_left h)).2
      have hne : as.map Display.fmt ≠ bs.map Display.fmt := fun h' => hne (by rw [List.map_cons, List.map_cons, h', e])
      obtain ⟨pre, a', mid, b, post, rfl, hj⟩ :=
        joins_of_unlines hl hx as bs (fun x hx => ha x (List.mem_cons_of_mem _ hx)) h hne
      exact ⟨a :: pre, a', mid, b, post, rfl, hj⟩
    rcases List.append_eq_append_iff.mp h with ⟨w, e, e'⟩ | ⟨w, e, e'⟩
    · cases w with
      | nil => exact same (by rw [e, List.append_nil])
      | cons d w =>
        obtain ⟨rfl, e''⟩ := List.cons.inj e'
        have hca : ∀ x ∈ as.map (Display.fmt (α := Core X)), Clean x := by
          intro x hx'
          obtain ⟨b, hb', rfl⟩ := List.mem_map.mp hx'
          exact ha b (List.mem_cons_of_mem _ hb')
        obtain ⟨mid, b, post, hs, rfl⟩ := cut hb _ w hca e''
        obtain ⟨mid', rest, rfl, rfl, hr⟩ := List.map_eq_append_iff.mp hs
        obtain ⟨b', post', rfl, rfl, rfl⟩ := List.map_eq_cons_iff.mp hr
        exact ⟨[], a, mid', b', post', rfl, joins_of_text hl hx e⟩
    · have := no_longer hb (ha a List.mem_cons_self) e e'
      cases this
      exact same (by rw [e, List.append_nil])

end Magma.Joined
