import Verif.Proofs.WritingStop
import Verif.Props.TextSize
import Verif.Props.FlowText
/-! C74: writers that fail, and the options of the formatter. -/

namespace Magma.Props
open Spec
variable {X σ : Type}

/-! ### C74 -/

/-- C74: whatever the options of the formatter and whatever the writer does, a module is handed to it as pieces of
its disassembly, one after the other, until the writer refuses one. Then there is an error, and no further call. -/
theorem C74_module [Display X] [DisplayTo σ X] [LawfulTo σ X] (m : RawModule X) (o : Options) :
    ∃ pieces : List Text, pieces.flatten = m.fmt ∧
      ∀ (w : Writer σ) (s : σ), fmtTo m w o s = ended (.ok ()) (handOver w pieces s) :=
  RawModule.writes o m

/-- C74: so it is for control flow, -/
theorem C74_chain (chain : ControlFlowChain) (o : Options) :
    ∃ pieces : List Text, pieces.flatten = rowsText (chainRows chain) ∧
      ∀ (w : Writer σ) (s : σ), fmtTo chain w o s = ended (.ok ()) (handOver w pieces s) := by
  rw [← C67_chain]
  exact StubbornTo.writes o chain

/-- C74: and for a function along a control flow, if every block that is named is there once. -/
theorem C74_function [Display X] [DisplayTo σ X] [LawfulTo σ X] (f : FunctionDefinition X) (chain : ControlFlowChain)
    (h : ∀ id ∈ chainIds chain, (blocksAt f.blocks id).length = 1) (o : Options) :
    ∃ pieces : List Text, pieces.flatten = rowsText (functionRows (blockAt f) chain) ∧
      ∀ (w : Writer σ) (s : σ), putFunction f chain w o s = ended (.ok ()) (handOver w pieces s) := by
  have he := putFunctionIndent_ends (σ := σ) o f chain 0
  have ht : fmtFunctionIndent f chain 0 = _ := C67_function f chain h
  rw [ht] at he
  exact he.writes

/-- C74: otherwise it panics at the first block that is not there once, after the rows that come before it, unless the
writer refuses a piece of these. -/
theorem C74_function_panics [Display X] [DisplayTo σ X] [LawfulTo σ X] (f : FunctionDefinition X)
    (chain : ControlFlowChain) (o : Options) :
    ∃ pieces : List Text, pieces.flatten = rowsText (rowsUntil f chain).1 ∧
      ∀ (w : Writer σ) (s : σ), putFunction f chain w o s =
        ended (match (chainIds chain).find? fun id => (blocksAt f.blocks id).length ≠ 1 with
          | none => .ok ()
          | some id => .error (.panic (complaint f id))) (handOver w pieces s) := by
  obtain ⟨pieces, h, hw⟩ := function_follows (σ := σ) o f chain 0
  refine ⟨pieces, by rw [h, unlines_rows], fun w s => ?_⟩
  rw [putFunction, hw, rowsUntil_stop]
  show ended (stopOf f ((chainIds chain).find? fun id => (blocksAt f.blocks id).length ≠ 1)) _ = _
  cases (chainIds chain).find? fun id => (blocksAt f.blocks id).length ≠ 1 <;> rfl

/-- C74: these are the first rows of the function. -/
theorem C74_rows [Display X] (f : FunctionDefinition X) (chain : ControlFlowChain) :
    (rowsUntil f chain).1 <+: functionRows (blockAt f) chain :=
  (rowsUntil_part f chain).1

/-- C74: and for an error of the reader. -/
theorem C74_error (e : ReadError) :
    ∃ pieces : List Text, pieces.flatten = Display.fmt e ∧
      ∀ (o : Options) (w : Writer σ) (s : σ), fmtTo e w o s = ended (.ok ()) (handOver w pieces s) := by
  obtain ⟨pieces, h, hw⟩ := Writes.padded (σ := σ) {} e.description.toList
  exact ⟨pieces, h, fun o w s => hw w s⟩

/-- C74: and for a single instruction, if the options are those of `{}`. -/
theorem C74_instruction [Display X] [DisplayTo σ X] [LawfulTo σ X] (inst : Core X) :
    ∃ pieces : List Text, pieces.flatten = Display.fmt inst ∧
      ∀ (w : Writer σ) (s : σ), fmtTo inst w {} s = ended (.ok ()) (handOver w pieces s) :=
  LawfulTo.writes inst

/-- A string as a writer: it takes everything. -/
def string : Writer Text := fun t s => (true, s ++ t)

theorem handOver_string (pieces : List Text) (s : Text) : handOver string pieces s = (true, s ++ pieces.flatten) := by
  induction pieces generalizing s with
  | nil => rw [handOver, List.flatten_nil, List.append_nil]
  | cons t ts ih =>
    rw [handOver]
    show handOver string ts (s ++ t) = _
    rw [ih, List.flatten_cons, List.append_assoc]

/-- C74: `to_string` and `format!` do not fail, and append the disassembly to the string whatever the options. -/
theorem C74_string [Display X] [DisplayTo Text X] [LawfulTo Text X] (m : RawModule X) (o : Options) (s : Text) :
    fmtTo m string o s = (.ok (), s ++ m.fmt) := by
  obtain ⟨pieces, h, hw⟩ := RawModule.writes (σ := Text) o m
  rw [hw, handOver_string, h]
  rfl

/-- C74: a buffer of limited size ends up with the bytes of the disassembly as far as they fit, and there is an error
exactly if not all do. -/
theorem C74_buffer [Display X] [DisplayTo (List UInt8 × Nat) X] [LawfulTo (List UInt8 × Nat) X] (m : RawModule X)
    (o : Options) (free : Nat) :
    fmtTo m buffer o ([], free) =
      (if textSize m.fmt ≤ free then .ok () else .error .err,
        ((utf8 m.fmt).take free, free - textSize m.fmt)) := by
  obtain ⟨pieces, h, hw⟩ := RawModule.writes (σ := List UInt8 × Nat) o m
  rw [hw, handOver_buffer, h, utf8_length, List.nil_append]
  by_cases hf : textSize m.fmt ≤ free
  · rw [if_pos hf, decide_eq_true hf]; rfl
  · rw [if_neg hf, decide_eq_false hf]; rfl

/-- C74: with the set of the crate, a buffer of 31/4 times the size of the module never fails. -/
theorem C74_fits {bytes : List UInt8} {m : RawModule Glsl.Inst} (h : readModule bytes [Glsl.instSet] = .ok m)
    (o : Options) {free : Nat} (hf : 31 * (bytes.length - 4) ≤ 4 * free) :
    fmtTo m buffer o ([], free) =
      (.ok (), (utf8 (disassembly glslText bytes), free - textSize (disassembly glslText bytes))) := by
  have hr : reference [Glsl.instSet] bytes = .ok () := by
    rw [← readModule_reference, h]
    rfl
  have ht : m.fmt = disassembly glslText bytes := by
    have := C66_glsl bytes
    rw [h, hr] at this
    exact Except.ok.inj this
  have hs : textSize m.fmt ≤ free := by
    have := C73_glsl h
    show (String.ofList m.fmt).utf8ByteSize ≤ free
    omega
  rw [C74_buffer, if_pos hs, List.take_of_length_le (by rw [utf8_length]; exact hs), ht]

/-- C74: the options do reach the operands of an instruction that is printed by itself: an id is filled up to a width.
In the line of a module it is not. -/
theorem C74_options :
    fmtTo (Core.OpBranch ⟨⟨7⟩⟩ : Core Glsl.Inst) string { width := some 5 } [] =
      (.ok (), "               OpBranch %7   ".toList) ∧
    ∀ (header : RawModule Glsl.Inst), header.instructions = [.OpBranch ⟨⟨7⟩⟩] →
      fmtTo header string { width := some 5 } [] =
        (.ok (), header.fmtHeader ++ "               OpBranch %7\n".toList) := by
  refine ⟨rfl, fun m h => ?_⟩
  rw [C74_string, List.nil_append, RawModule.fmt, h]
  rfl

/-- The module of the samples, handed to buffers that are too small in the header and by one byte, and to one that is
large enough -/
example : fmtTo Samples.raw buffer {} ([], 12) = (.error .err, (utf8 "; SPIR-V\n; V".toList, 0)) ∧
    (fmtTo Samples.raw buffer { width := some 3 } ([], 254)).1 = .error .err ∧
    (fmtTo Samples.raw buffer { width := some 3 } ([], 255)).1 = .ok () := by
  have h : textSize Samples.raw.fmt = 255 := by decide +kernel
  refine ⟨by rfl, ?_, ?_⟩
  · rw [C74_buffer, h]; rfl
  · rw [C74_buffer, h]; rfl

/-- A writer that refuses its third piece, and counts the calls: there are three, whatever would come after. -/
example : fmtTo (ControlFlowChain.Block [.Atom ⟨3⟩, .Break, .Continue]) (fun _ n => (decide (n < 2), n + 1)) {} 0 =
    (.error .err, 3) := by
  rfl

instance : DisplayTo σ Empty := ⟨fun e => nomatch e⟩

instance : LawfulTo σ Empty := ⟨fun e => nomatch e⟩

/-- A chain with a block that is not there: the panic comes after the text of the first block, unless a refusal comes
before it. -/
example : putFunction Samples.loopFn (.Block [.Atom ⟨22⟩, .Atom ⟨99⟩, .Break]) string {} [] =
      (.error (.panic "Basic block with given id does not exist"),
        "> Begin 22\n>>>                OpBranch %20\n> End 22\n".toList) ∧
    (rowsUntil Samples.loopFn (.Block [.Atom ⟨22⟩, .Atom ⟨99⟩, .Break])).2 = some 99 ∧
    putFunction Samples.loopFn (.Block [.Atom ⟨22⟩, .Atom ⟨99⟩, .Break]) (fun _ n => (decide (n < 2), n + 1)) {} 0 =
      (.error .err, 3) := by
  exact ⟨by rfl, by rfl, by rfl⟩

/-- The loop of the samples along the control flow recovered from it: every block is there once. -/
example : ∀ id ∈ chainIds (.Loop ⟨20⟩ (.Atom ⟨21⟩) LoopControl.default none),
    (blocksAt Samples.loopFn.blocks id).length = 1 := by
  decide

end Magma.Props
