import Verif.Proofs.DebugChain
import Verif.Props.Disassembly
/-! C108: debug output determines what it is the output of. -/

namespace Magma.Props
open Dbg

/-! ### C108 -/

/-- C108: the debug output of a module determines the module, whichever characters are shown as they are. -/
theorem C108_module (shown : Char → Bool) : Function.Injective (Debug.debug (α := RawModule Glsl.Inst) shown) :=
  debug_injective shown

/-- C108: the debug output of an instruction determines the instruction. -/
theorem C108_instruction (shown : Char → Bool) : Function.Injective (Debug.debug (α := Core Glsl.Inst) shown) :=
  debug_injective shown

/-- C108: the debug output of a logical module determines the module. -/
theorem C108_logical (shown : Char → Bool) : Function.Injective (Debug.debug (α := LogicalModule Glsl.Inst) shown) :=
  debug_injective shown

/-- C108: the debug output of a function determines the function. -/
theorem C108_function (shown : Char → Bool) :
    Function.Injective (Debug.debug (α := FunctionDefinition Glsl.Inst) shown) :=
  debug_injective shown

/-- C108: the debug output of control flow determines the control flow, hints, weights and empty blocks included. -/
theorem C108_chain (shown : Char → Bool) : Function.Injective (Debug.debug (α := ControlFlowChain) shown) :=
  debug_injective shown

/-- C108: the debug output of errors determines the errors. -/
theorem C108_errors (shown : Char → Bool) : Function.Injective (Debug.debug (α := ReadError) shown) ∧
    Function.Injective (Debug.debug (α := ValidationError) shown) ∧
    Function.Injective (Debug.debug (α := ControlFlowError) shown) :=
  ⟨debug_injective shown, debug_injective shown, debug_injective shown⟩

/-- C108: debug output is on one line, whatever the strings in a module contain. -/
theorem C108_line (shown : Char → Bool) : (∀ m : RawModule Glsl.Inst, '\n' ∉ Debug.debug shown m) ∧
    (∀ m : LogicalModule Glsl.Inst, '\n' ∉ Debug.debug shown m) ∧
    (∀ chain : ControlFlowChain, '\n' ∉ Debug.debug shown chain) ∧ (∀ e : ReadError, '\n' ∉ Debug.debug shown e) :=
  ⟨Law.line shown, Law.line shown, Law.line shown, Law.line shown⟩

/-- C108: so a log with the debug output of one instruction per line determines the instructions. -/
theorem C108_log (shown : Char → Bool) (insts insts' : List (Core Glsl.Inst))
    (h : insts.flatMap (fun c => Debug.debug shown c ++ ['\n']) = insts'.flatMap (fun c => Debug.debug shown c ++ ['\n'])) :
    insts = insts' := log_injective shown h

/-- C108: where the disassembly of two modules is the same (C40), the debug output still tells them apart. -/
theorem C108_beyond : ∃ bytes bytes' m m', readModule (X := Empty) bytes [] = .ok m ∧
    readModule (X := Empty) bytes' [] = .ok m' ∧ m.fmt = m'.fmt ∧ ∀ shown, Debug.debug shown m ≠ Debug.debug shown m' := by
  obtain ⟨bytes, bytes', m, m', h, h', hne, hf⟩ := C40_violated
  exact ⟨bytes, bytes', m, m', h, h', hf, fun shown e => hne (debug_injective shown e)⟩

/-- The output for a module -/
example : Debug.debug (fun _ => true) Samples.raw =
    ("RawModule { version: Version(1, 0), generator: Generator { tool: KhronosGlslang, version: 1 }, bound: 20, " ++
     "instructions: [OpExtInstImport(OpExtInstImport { result_id: ResultId(1), name: \"GLSL.std.450\" }), " ++
     "OpMemoryModel(OpMemoryModel { addressing_model: Logical, memory_model: Glsl450 }), " ++
     "OpTypeVoid(OpTypeVoid { result_id: ResultId(2) }), " ++
     "OpExtInst(OpExtInst { result_type: OpId(2), result_id: ResultId(9), set: OpId(1), " ++
     "instruction: ExtInstBox(Sin(Sin { x: OpId(7) })) })] }").toList := by decide +kernel

/-- Strings are escaped. -/
example : Debug.debug (α := Core Glsl.Inst) (· ≠ 'é') (.OpName ⟨⟨3⟩, "a\n\"é\\"⟩) =
    "OpName(OpName { target: OpId(3), name: \"a\\n\\\"\\u{e9}\\\\\" })".toList := by decide +kernel

/-- The output for control flow and for errors -/
example : Debug.debug (fun _ => true)
      (ControlFlowChain.Block [.Loop ⟨1⟩ (.Selection ⟨2⟩ (.Block []) .Break ⟨false, true⟩ (some ⟨1, 2⟩))
        ⟨true, false, false, some 4⟩ none, .Atom ⟨3⟩]) =
    ("Block([Loop(BlockId(1), Selection(BlockId(2), Block([]), Break, SelectionControl { flatten: false, dont_flatten: true }, " ++
     "Some(BranchWeights { true_weight: 1, false_weight: 2 })), LoopControl { unroll: true, dont_unroll: false, " ++
     "dependency_infinite: false, dependency_length: Some(4) }, None), Atom(BlockId(3))])").toList ∧
    Debug.debug (fun _ => true) (ReadError.UnknownVersionBytes 0 1 2 0) = "UnknownVersionBytes(0, 1, 2, 0)".toList ∧
    Debug.debug (fun _ => true) (ControlFlowError.InvalidConvergePrediction .Loop ⟨4⟩) =
      "InvalidConvergePrediction(Loop, BlockId(4))".toList := by decide +kernel

end Magma.Props
