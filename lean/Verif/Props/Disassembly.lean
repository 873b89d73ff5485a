import Verif.Proofs.Disassembly
import Verif.Proofs.Forge
import Verif.Props.Samples
/-! Properties of the disassembly: C38-C41. -/

namespace Magma.Props
open Spec

/-- C38: an instruction is printed as its left column, its name in the standard and, separated by a
space, its operands. -/
theorem C38_layout {X : Type} [Display X] (c : Core X) :
    ∃ name args, (opcode c, name) ∈ mnemonics ∧ (args = [] ∨ ∃ t, args = ' ' :: t) ∧
      Display.fmt c = leftColumn (resultId c) ++ (name.toList ++ args) := Core.layout c

/-- C38: the left column is 15 wide for every id; the name always starts there. -/
theorem C38_column {X : Type} [Display X] (c : Core X) :
    (∀ r, (leftColumn r).length = 15) ∧
    ∃ name, (opcode c, name) ∈ mnemonics ∧ name.toList <+: (Display.fmt c).drop 15 := by
  refine ⟨leftColumn_length, ?_⟩
  obtain ⟨name, s, h1, -, h2⟩ := Core.layout c
  refine ⟨name, h1, s, ?_⟩
  rw [h2, List.drop_left' (leftColumn_length _)]

/-- C38: the id can be read off the left column, and so can its absence. -/
theorem C38_result {X : Type} [Display X] (a b : Core X) (h : Display.fmt a = Display.fmt b) :
    resultId a = resultId b := by
  obtain ⟨_, _, -, -, ha⟩ := Core.layout a
  obtain ⟨_, _, -, -, hb⟩ := Core.layout b
  rw [ha, hb] at h
  have h := (List.append_inj h (by rw [leftColumn_length, leftColumn_length])).1
  cases ra : resultId a with
  | none =>
    cases rb : resultId b with
    | none => rfl
    | some j =>
      rw [ra, rb, ← leftColumn_some ⟨j⟩] at h
      exact absurd (congrArg (fun t => t[13]?) h) (by
        have hl := display_id_length ⟨j⟩
        have e : (fmtResult ⟨j⟩)[13]? = some '=' := by
          rw [fmtResult, List.getElem?_append_right (by simp [padLeft]; omega)]
          have : 13 - (padLeft 12 (Display.fmt (OpId.mk j))).length = 1 := by simp [padLeft]; omega
          rw [this]
          rfl
        rw [e]
        decide)
  | some i =>
    cases rb : resultId b with
    | none =>
      rw [ra, rb, ← leftColumn_some ⟨i⟩] at h
      exact absurd (congrArg (fun t => t[13]?) h) (by
        have hl := display_id_length ⟨i⟩
        have e : (fmtResult ⟨i⟩)[13]? = some '=' := by
          rw [fmtResult, List.getElem?_append_right (by simp [padLeft]; omega)]
          have : 13 - (padLeft 12 (Display.fmt (OpId.mk i))).length = 1 := by simp [padLeft]; omega
          rw [this]
          rfl
        rw [e]
        decide)
    | some j =>
      rw [ra, rb, ← leftColumn_some ⟨i⟩, ← leftColumn_some ⟨j⟩] at h
      have := (fmtResult_inj (a := ⟨i⟩) (b := ⟨j⟩) (s := []) (t := []) (by rw [h])).1
      cases this
      rfl

example : leftColumn (some 0xFFFFFFFF) = " %4294967295 = ".toList := by decide
example : leftColumn (some 7) = "          %7 = ".toList := by decide
example : Display.fmt (Core.OpLoad ⟨⟨6⟩, ⟨1234567890⟩, ⟨8⟩, some ⟨true, false, true⟩⟩ : Core Empty) =
    " %1234567890 = OpLoad %6 %8 Volatile | Nontemporal".toList := by decide +kernel
example : Display.fmt (Core.OpStore ⟨⟨6⟩, ⟨8⟩, none⟩ : Core Empty) =
    "               OpStore %6 %8".toList := by decide +kernel

/-- C39: the disassembly is the header followed by the text of each instruction and a newline, in
module order. -/
theorem C39_text {X : Type} [Display X] (m : RawModule X) :
    m.fmt = (headerLines m ++ m.instructions.map Display.fmt).flatMap (· ++ ['\n']) := fmt_eq_unlines m

/-- C39: if no string contains a newline, the disassembly has five header lines and one line per
instruction: line `5 + i` is the text of instruction `i`. -/
theorem C39_lines {X : Type} [Display X] (hx : ∀ x : X, '\n' ∉ Display.fmt x) (m : RawModule X)
    (hs : ∀ c ∈ m.instructions, ∀ s ∈ strings c, '\n' ∉ s.toList) :
    lines m.fmt = headerLines m ++ m.instructions.map Display.fmt := lines_fmt hx m hs

/-- C39: more instructions only append to the disassembly. -/
theorem C39_append {X : Type} [Display X] (m : RawModule X) (more : List (Core X)) :
    RawModule.fmt { m with instructions := m.instructions ++ more } =
      m.fmt ++ more.flatMap (fun c => Display.fmt c ++ ['\n']) := by
  rw [fmt_eq_unlines, fmt_eq_unlines]
  show unlines (headerLines m ++ _) = _
  rw [List.map_append, ← List.append_assoc, unlines_append, unlines, unlines, List.flatMap_map]

/-- The instructions of the GLSL set are printed on one line. -/
theorem glsl_line (x : Glsl.Inst) : '\n' ∉ Display.fmt x := by
  cases x with
  | Sin s => exact line_append (s := "Sin ".toList) (by decide) (line_of_plain (display_plain s.x))
  | Cos s => exact line_append (s := "Cos ".toList) (by decide) (line_of_plain (display_plain s.x))

/-- The printed form of an instruction of the GLSL set determines it. -/
theorem glsl_inj (x y : Glsl.Inst) (h : Display.fmt x = Display.fmt y) : x = y := by
  cases x with
  | Sin s =>
    cases y with
    | Sin t =>
      have h : "Sin ".toList ++ Display.fmt s.x = "Sin ".toList ++ Display.fmt t.x := h
      have h := display_inj (List.append_cancel_left h)
      cases s; cases t; cases h; rfl
    | Cos t => exact absurd (List.cons.inj h).1 (show ¬ 'S' = 'C' by decide)
  | Cos s =>
    cases y with
    | Sin t => exact absurd (List.cons.inj h).1 (show ¬ 'C' = 'S' by decide)
    | Cos t =>
      have h : "Cos ".toList ++ Display.fmt s.x = "Cos ".toList ++ Display.fmt t.x := h
      have h := display_inj (List.append_cancel_left h)
      cases s; cases t; cases h; rfl

/-- C39 for a concrete module -/
example : lines Samples.raw.fmt =
    ["; SPIR-V".toList, "; Version: 1.0".toList,
     "; Generator: Khronos Glslang Reference Front End; 1".toList, "; Bound: 20".toList,
     "; Schema: 0".toList,
     "          %1 = OpExtInstImport \"GLSL.std.450\"".toList,
     "               OpMemoryModel Logical GLSL450".toList,
     "          %2 = OpTypeVoid".toList,
     "          %9 = OpExtInst %2 %1 Sin %7".toList] :=
  (C39_lines glsl_line Samples.raw (by decide +kernel)).trans (by decide +kernel)

/-- Without the restriction on strings the number of lines differs: this is one instruction. -/
example : (lines (RawModule.fmt (X := Empty) ⟨⟨1, 0⟩, ⟨.Intel, 0⟩, 1, [.OpString ⟨⟨1⟩, "a\nb"⟩]⟩)).length =
    7 := by decide +kernel

/-- C40: the text of an instruction determines the instruction, whatever its strings contain. -/
theorem C40_instruction {X : Type} [Display X]
    (hx : ∀ x y : X, Display.fmt x = Display.fmt y → x = y) (a b : Core X)
    (h : Display.fmt a = Display.fmt b) : a = b := Core.fmt_inj hx h

example (a b : Core Glsl.Inst) (h : Display.fmt a = Display.fmt b) : a = b :=
  C40_instruction glsl_inj a b h

/-- C40 for modules, as far as it holds: two modules none of whose strings has a newline followed by what an instruction
begins with have the same disassembly exactly if they agree in everything but the numbers of unregistered generators. -/
theorem C40_module_partial {X : Type} [Display X] (hl : ∀ x : X, '\n' ∉ Display.fmt x)
    (hx : ∀ x y : X, Display.fmt x = Display.fmt y → x = y) (m m' : RawModule X)
    (hs : ∀ c ∈ m.instructions, ∀ s ∈ strings c, ¬ Forges s)
    (hs' : ∀ c ∈ m'.instructions, ∀ s ∈ strings c, ¬ Forges s) :
    m.fmt = m'.fmt ↔ m.version = m'.version ∧ m.generator.version = m'.generator.version ∧ m.bound = m'.bound ∧
      m.instructions = m'.instructions ∧
      (m.generator.tool = m'.generator.tool ∨
        ∃ n n', m.generator.tool = .Other n ∧ m'.generator.tool = .Other n') := by
  have key (c : Core X) (h : ∀ s ∈ strings c, ¬ Forges s) :
      Forge.Begins (Display.fmt c) ∧ Forge.Clean (Display.fmt c) := by
    refine ⟨?_, Forge.clean_core hl c h⟩
    obtain ⟨name, args, hn, -, e⟩ := C38_layout c
    have e2 := Forge.mnemonics_op _ hn
    refine ⟨resultId c, name.toList.drop 2 ++ args, ?_⟩
    rw [e, ← List.take_append_drop 2 name.toList, e2]
    simp
  constructor
  · intro h
    rw [fmt_eq_unlines, fmt_eq_unlines, unlines_append, unlines_append] at h
    obtain ⟨h1, h2⟩ := Forge.header_inj (as := headerLines m) (bs := headerLines m') rfl (headerLines_line m)
      (headerLines_line m') h
    obtain ⟨hv, hg, hb, ht⟩ := headerLines_inj h1
    refine ⟨hv, hg, hb, ?_, generatorName_inj ht⟩
    refine List.map_inj_right (fun a b h => Core.fmt_inj hx h) |>.mp (Forge.unlines_inj ?_ ?_ h2)
    · intro x hx'
      obtain ⟨c, hc, rfl⟩ := List.mem_map.mp hx'
      exact key c (hs c hc)
    · intro x hx'
      obtain ⟨c, hc, rfl⟩ := List.mem_map.mp hx'
      exact key c (hs' c hc)
  · rintro ⟨hv, hg, hb, hi, ht⟩
    have e : generatorName m.generator.tool = generatorName m'.generator.tool := by
      rcases ht with ht | ⟨n, n', h1, h2⟩
      · rw [ht]
      · rw [h1, h2]; rfl
    rw [fmt_eq_unlines, fmt_eq_unlines, headerLines, headerLines, hv, hg, hb, hi, e]

/-- C40: with a registered generator the whole module is determined. -/
theorem C40_registered_partial {X : Type} [Display X] (hl : ∀ x : X, '\n' ∉ Display.fmt x)
    (hx : ∀ x y : X, Display.fmt x = Display.fmt y → x = y) (m m' : RawModule X)
    (hs : ∀ c ∈ m.instructions, ∀ s ∈ strings c, ¬ Forges s)
    (hs' : ∀ c ∈ m'.instructions, ∀ s ∈ strings c, ¬ Forges s)
    (hr : ∀ n, m.generator.tool ≠ .Other n) (h : m.fmt = m'.fmt) : m = m' := by
  obtain ⟨hv, hg, hb, hi, ht⟩ := (C40_module_partial hl hx m m' hs hs').mp h
  rcases ht with ht | ⟨n, _, ht, -⟩
  · obtain ⟨v, ⟨t, g⟩, b, i⟩ := m
    obtain ⟨v', ⟨t', g'⟩, b', i'⟩ := m'
    cases hv; cases hg; cases hb; cases hi; cases ht
    rfl
  · exact absurd ht (hr n)

example : Samples.raw.fmt ≠ { Samples.raw with bound := 21 }.fmt := fun h =>
  have hn : ∀ c ∈ Samples.raw.instructions, ∀ s ∈ strings c, '\n' ∉ s.toList := by decide +kernel
  absurd (C40_registered_partial glsl_line glsl_inj Samples.raw { Samples.raw with bound := 21 }
    (fun c hc s hs => Forge.not_forges_line (hn c hc s hs))
    (fun c hc s hs => Forge.not_forges_line (hn c hc s hs)) (fun n => by rintro ⟨⟩) h) (by decide +kernel)
/-- A source of several lines forges nothing. -/
example (n : UInt16) : RawModule.fmt (X := Empty) ⟨⟨1, 0⟩, ⟨.Other n, 0⟩, 3, [.OpSource ⟨.Glsl, ⟨450⟩, none,
      some "void main()\n{\n    a = \"b\";\n}\n"⟩]⟩ ≠
    RawModule.fmt (X := Empty) ⟨⟨1, 0⟩, ⟨.Other n, 0⟩, 3, [.OpSource ⟨.Glsl, ⟨450⟩, none,
      some "void main()\n{\n    a = \"c\";\n}\n"⟩]⟩ := by
  rw [Ne, C40_module_partial nofun nofun _ _ ?_ ?_]
  · intro h
    have h := h.2.2.2.1
    dsimp only at h
    revert h
    decide +kernel
  · intro c hc s hs
    obtain rfl := List.mem_singleton.mp hc
    obtain rfl := List.mem_singleton.mp (show s ∈ [_] from hs)
    exact Forge.not_forges_of (by decide +kernel)
  · intro c hc s hs
    obtain rfl := List.mem_singleton.mp hc
    obtain rfl := List.mem_singleton.mp (show s ∈ [_] from hs)
    exact Forge.not_forges_of (by decide +kernel)

/-- One instruction whose name contains a newline and the text of another instruction -/
def forged : RawModule Empty :=
  ⟨⟨1, 0⟩, ⟨.Intel, 0⟩, 3, [.OpName ⟨⟨1⟩, "a\"\n               OpName %2 \"b"⟩]⟩

/-- The two instructions that it looks like -/
def genuine : RawModule Empty :=
  ⟨⟨1, 0⟩, ⟨.Intel, 0⟩, 3, [.OpName ⟨⟨1⟩, "a"⟩, .OpName ⟨⟨2⟩, "b"⟩]⟩

/-- C40 is violated by newlines in strings: two byte strings that `read_module` accepts give different
modules with the same disassembly. -/
theorem C40_violated : ∃ bytes bytes' m m', readModule (X := Empty) bytes [] = .ok m ∧
    readModule (X := Empty) bytes' [] = .ok m' ∧ m ≠ m' ∧ m.fmt = m'.fmt :=
  ⟨encodeModule (fun e => nomatch e) true forged, encodeModule (fun e => nomatch e) true genuine,
    forged, genuine, by rfl, by rfl, by decide +kernel, by decide +kernel⟩

/-- C40 is also violated by generators that are not registered. -/
theorem C40_violated_generator : ∃ bytes bytes' m m', readModule (X := Empty) bytes [] = .ok m ∧
    readModule (X := Empty) bytes' [] = .ok m' ∧ m ≠ m' ∧ m.fmt = m'.fmt :=
  ⟨_, _, ⟨⟨1, 0⟩, ⟨.Other 12, 1⟩, 7, []⟩, ⟨⟨1, 0⟩, ⟨.Other 13, 1⟩, 7, []⟩,
    (by rfl : readModule (X := Empty)
      [3, 2, 0x23, 7, 0, 0, 1, 0, 1, 0, 12, 0, 7, 0, 0, 0, 0, 0, 0, 0] [] = _),
    (by rfl : readModule (X := Empty)
      [3, 2, 0x23, 7, 0, 0, 1, 0, 1, 0, 13, 0, 7, 0, 0, 0, 0, 0, 0, 0] [] = _),
    by decide, by decide +kernel⟩

/-- C41: different enumerants print differently. -/
theorem C41_enumerants :
    (∀ a b : BuiltIn, Display.fmt a = Display.fmt b → a = b) ∧
    (∀ a b : FunctionParameterAttribute, Display.fmt a = Display.fmt b → a = b) ∧
    (∀ a b : FpRoundingMode, Display.fmt a = Display.fmt b → a = b) ∧
    (∀ a b : LinkageType, Display.fmt a = Display.fmt b → a = b) ∧
    (∀ a b : AddressingModel, Display.fmt a = Display.fmt b → a = b) ∧
    (∀ a b : MemoryModel, Display.fmt a = Display.fmt b → a = b) ∧
    (∀ a b : ExecutionModel, Display.fmt a = Display.fmt b → a = b) ∧
    (∀ a b : Capability, Display.fmt a = Display.fmt b → a = b) ∧
    (∀ a b : Signedness, Display.fmt a = Display.fmt b → a = b) ∧
    (∀ a b : StorageClass, Display.fmt a = Display.fmt b → a = b) ∧
    (∀ a b : Dim, Display.fmt a = Display.fmt b → a = b) ∧
    (∀ a b : DepthStatus, Display.fmt a = Display.fmt b → a = b) ∧
    (∀ a b : Arrayed, Display.fmt a = Display.fmt b → a = b) ∧
    (∀ a b : MS, Display.fmt a = Display.fmt b → a = b) ∧
    (∀ a b : SampledStatus, Display.fmt a = Display.fmt b → a = b) ∧
    (∀ a b : ImageFormat, Display.fmt a = Display.fmt b → a = b) ∧
    (∀ a b : AccessQualifier, Display.fmt a = Display.fmt b → a = b) :=
  ⟨fun _ _ => display_inj, fun _ _ => display_inj, fun _ _ => display_inj, fun _ _ => display_inj,
   fun _ _ => display_inj, fun _ _ => display_inj, fun _ _ => display_inj, fun _ _ => display_inj,
   fun _ _ => display_inj, fun _ _ => display_inj, fun _ _ => display_inj, fun _ _ => display_inj,
   fun _ _ => display_inj, fun _ _ => display_inj, fun _ _ => display_inj, fun _ _ => display_inj,
   fun _ _ => display_inj⟩

example : Display.fmt StorageClass.Uniform ≠ Display.fmt StorageClass.UniformConstant := by decide

/-- C41: operands with a payload, and numbers -/
theorem C41_payloads :
    (∀ a b : SourceLanguage, Display.fmt a = Display.fmt b → a = b) ∧
    (∀ a b : ExecutionMode, Display.fmt a = Display.fmt b → a = b) ∧
    (∀ a b : Decoration, Display.fmt a = Display.fmt b → a = b) ∧
    (∀ a b : OpId, Display.fmt a = Display.fmt b → a = b) ∧
    (∀ a b : UInt32, Display.fmt a = Display.fmt b → a = b) ∧
    (∀ a b : SourceVersion, Display.fmt a = Display.fmt b → a = b) ∧
    (∀ a b : MemberIndex, Display.fmt a = Display.fmt b → a = b) ∧
    (∀ a b : PhiArg, Display.fmt a = Display.fmt b → a = b) ∧
    (∀ a b : BranchWeights, Display.fmt a = Display.fmt b → a = b) :=
  ⟨SourceLanguage.fmt_inj, ExecutionMode.fmt_inj, Decoration.fmt_inj, fun _ _ => display_inj,
   fun _ _ => display_inj, fun _ _ => display_inj, fun _ _ => display_inj, fun _ _ => display_inj,
   fun _ _ => display_inj⟩

example : Display.fmt (Decoration.LinkageAttributes "f Import" .Export) = "LinkageAttributes f Import Export".toList :=
  by decide +kernel
example : Display.fmt (ExecutionMode.LocalSize 1 2 3) = "LocalSize 1 2 3".toList := by decide +kernel

/-- C41: different flag sets print differently. -/
theorem C41_flags :
    (∀ a b : FpFastMathMode, Display.fmt a = Display.fmt b → a = b) ∧
    (∀ a b : MemoryAccess, Display.fmt a = Display.fmt b → a = b) ∧
    (∀ a b : FunctionControl, Display.fmt a = Display.fmt b → a = b) ∧
    (∀ a b : LoopControl, Display.fmt a = Display.fmt b → a = b) ∧
    (∀ a b : SelectionControl, Display.fmt a = Display.fmt b → a = b) :=
  ⟨fun _ _ => display_inj, fun _ _ => display_inj, fun _ _ => display_inj, LoopControl.fmt_inj,
   fun _ _ => display_inj⟩

/-- C41: a flag set prints as `None` iff no flag is set. -/
theorem C41_none :
    (∀ a : FpFastMathMode, Display.fmt a = "None".toList ↔
      a.not_nan = false ∧ a.not_inf = false ∧ a.nsz = false ∧ a.allow_recip = false ∧ a.fast = false) ∧
    (∀ a : MemoryAccess, Display.fmt a = "None".toList ↔
      a.volatile = false ∧ a.aligned = false ∧ a.non_temporal = false) ∧
    (∀ a : FunctionControl, Display.fmt a = "None".toList ↔
      a.inline = false ∧ a.dont_inline = false ∧ a.pure_function = false ∧ a.const_function = false) ∧
    (∀ a : LoopControl, Display.fmt a = "None".toList ↔
      a.unroll = false ∧ a.dont_unroll = false ∧ a.dependency_infinite = false ∧ a.dependency_length = none) ∧
    (∀ a : SelectionControl, Display.fmt a = "None".toList ↔ a.flatten = false ∧ a.dont_flatten = false) := by
  refine ⟨fun a => ⟨fun h => ?_, fun h => ?_⟩, fun a => ⟨fun h => ?_, fun h => ?_⟩,
    fun a => ⟨fun h => ?_, fun h => ?_⟩, fun a => ⟨fun h => ?_, fun h => ?_⟩, fun a => ⟨fun h => ?_, fun h => ?_⟩⟩
  · have : a = ⟨false, false, false, false, false⟩ := display_inj h
    rw [this]; decide
  · obtain ⟨a, b, c, d, e⟩ := a
    obtain ⟨rfl, rfl, rfl, rfl, rfl⟩ := h
    rfl
  · have : a = ⟨false, false, false⟩ := display_inj h
    rw [this]; decide
  · obtain ⟨a, b, c⟩ := a
    obtain ⟨rfl, rfl, rfl⟩ := h
    rfl
  · have : a = ⟨false, false, false, false⟩ := display_inj h
    rw [this]; decide
  · obtain ⟨a, b, c, d⟩ := a
    obtain ⟨rfl, rfl, rfl, rfl⟩ := h
    rfl
  · have : a = ⟨false, false, false, none⟩ := LoopControl.fmt_inj _ _ h
    rw [this]; decide
  · obtain ⟨a, b, c, d⟩ := a
    obtain ⟨rfl, rfl, rfl, rfl⟩ := h
    rfl
  · have : a = ⟨false, false⟩ := display_inj h
    rw [this]; decide
  · obtain ⟨a, b⟩ := a
    obtain ⟨rfl, rfl⟩ := h
    rfl

example : Display.fmt (LoopControl.mk true false false (some 4)) = "Unroll | DependencyLength(4)".toList := by
  decide +kernel

end Magma.Props
