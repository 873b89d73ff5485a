import Verif.Model.DebugOps
import Verif.Proofs.DebugTypes
/-! Generated by `tools/gen_debug.py`: derived debug output can be read back. -/

namespace Magma
open Dbg

instance {X : Type} [Debug X] [Law X] : Law (ExtInstBox X) where
  law _ x y _ _ _ _ h := by
    obtain ⟨a⟩ := x
    obtain ⟨b⟩ := y
    obtain ⟨rfl, h1⟩ := tuple_first (tuple_same h)
    exact ⟨rfl, tuple_last h1⟩
  start _ _ := tuple_start (n := "ExtInstBox") (by decide) _
  line _ _ := tuple_line (n := "ExtInstBox") (by decide) (cons_line none_line)

instance : Law OpNop where
  law _ _ _ _ _ _ _ h := ⟨rfl, List.append_cancel_left h⟩
  start _ _ := tuple_start (n := "OpNop") (by decide) _
  line _ _ := tuple_line (n := "OpNop") (by decide) none_line

instance : Law OpUndef where
  law _ x y _ _ _ _ h := by
    obtain ⟨a0, a1⟩ := x
    obtain ⟨b0, b1⟩ := y
    obtain ⟨rfl, h1⟩ := struct_first h
    obtain ⟨rfl, h2⟩ := struct_next h1
    exact ⟨rfl, struct_last h2⟩
  start _ _ := struct_start (n := "OpUndef") (by decide) _
  line _ _ := struct_line (n := "OpUndef") (by decide) (cons_named (by decide) (cons_named (by decide) none_named))

instance : Law OpSourceContinued where
  law _ x y _ _ _ _ h := by
    obtain ⟨a0⟩ := x
    obtain ⟨b0⟩ := y
    obtain ⟨rfl, h1⟩ := struct_first h
    exact ⟨rfl, struct_last h1⟩
  start _ _ := struct_start (n := "OpSourceContinued") (by decide) _
  line _ _ := struct_line (n := "OpSourceContinued") (by decide) (cons_named (by decide) none_named)

instance : Law OpSource where
  law _ x y _ _ _ _ h := by
    obtain ⟨a0, a1, a2, a3⟩ := x
    obtain ⟨b0, b1, b2, b3⟩ := y
    obtain ⟨rfl, h1⟩ := struct_first h
    obtain ⟨rfl, h2⟩ := struct_next h1
    obtain ⟨rfl, h3⟩ := struct_next h2
    obtain ⟨rfl, h4⟩ := struct_next h3
    exact ⟨rfl, struct_last h4⟩
  start _ _ := struct_start (n := "OpSource") (by decide) _
  line _ _ := struct_line (n := "OpSource") (by decide) (cons_named (by decide) (cons_named (by decide) (cons_named (by decide) (cons_named (by decide) none_named))))

instance : Law OpSourceExtension where
  law _ x y _ _ _ _ h := by
    obtain ⟨a0⟩ := x
    obtain ⟨b0⟩ := y
    obtain ⟨rfl, h1⟩ := struct_first h
    exact ⟨rfl, struct_last h1⟩
  start _ _ := struct_start (n := "OpSourceExtension") (by decide) _
  line _ _ := struct_line (n := "OpSourceExtension") (by decide) (cons_named (by decide) none_named)

instance : Law OpName where
  law _ x y _ _ _ _ h := by
    obtain ⟨a0, a1⟩ := x
    obtain ⟨b0, b1⟩ := y
    obtain ⟨rfl, h1⟩ := struct_first h
    obtain ⟨rfl, h2⟩ := struct_next h1
    exact ⟨rfl, struct_last h2⟩
  start _ _ := struct_start (n := "OpName") (by decide) _
  line _ _ := struct_line (n := "OpName") (by decide) (cons_named (by decide) (cons_named (by decide) none_named))

instance : Law OpMemberName where
  law _ x y _ _ _ _ h := by
    obtain ⟨a0, a1, a2⟩ := x
    obtain ⟨b0, b1, b2⟩ := y
    obtain ⟨rfl, h1⟩ := struct_first h
    obtain ⟨rfl, h2⟩ := struct_next h1
    obtain ⟨rfl, h3⟩ := struct_next h2
    exact ⟨rfl, struct_last h3⟩
  start _ _ := struct_start (n := "OpMemberName") (by decide) _
  line _ _ := struct_line (n := "OpMemberName") (by decide) (cons_named (by decide) (cons_named (by decide) (cons_named (by decide) none_named)))

instance : Law OpString where
  law _ x y _ _ _ _ h := by
    obtain ⟨a0, a1⟩ := x
    obtain ⟨b0, b1⟩ := y
    obtain ⟨rfl, h1⟩ := struct_first h
    obtain ⟨rfl, h2⟩ := struct_next h1
    exact ⟨rfl, struct_last h2⟩
  start _ _ := struct_start (n := "OpString") (by decide) _
  line _ _ := struct_line (n := "OpString") (by decide) (cons_named (by decide) (cons_named (by decide) none_named))

instance : Law OpExtension where
  law _ x y _ _ _ _ h := by
    obtain ⟨a0⟩ := x
    obtain ⟨b0⟩ := y
    obtain ⟨rfl, h1⟩ := struct_first h
    exact ⟨rfl, struct_last h1⟩
  start _ _ := struct_start (n := "OpExtension") (by decide) _
  line _ _ := struct_line (n := "OpExtension") (by decide) (cons_named (by decide) none_named)

instance : Law OpExtInstImport where
  law _ x y _ _ _ _ h := by
    obtain ⟨a0, a1⟩ := x
    obtain ⟨b0, b1⟩ := y
    obtain ⟨rfl, h1⟩ := struct_first h
    obtain ⟨rfl, h2⟩ := struct_next h1
    exact ⟨rfl, struct_last h2⟩
  start _ _ := struct_start (n := "OpExtInstImport") (by decide) _
  line _ _ := struct_line (n := "OpExtInstImport") (by decide) (cons_named (by decide) (cons_named (by decide) none_named))

instance {X : Type} [Debug X] [Law X] : Law (OpExtInst X) where
  law _ x y _ _ _ _ h := by
    obtain ⟨a0, a1, a2, a3⟩ := x
    obtain ⟨b0, b1, b2, b3⟩ := y
    obtain ⟨rfl, h1⟩ := struct_first h
    obtain ⟨rfl, h2⟩ := struct_next h1
    obtain ⟨rfl, h3⟩ := struct_next h2
    obtain ⟨⟨⟩, h4⟩ := struct_next h3
    exact ⟨rfl, struct_last h4⟩
  start _ _ := struct_start (n := "OpExtInst") (by decide) _
  line _ _ := struct_line (n := "OpExtInst") (by decide) (cons_named (by decide) (cons_named (by decide) (cons_named (by decide) (cons_named (by decide) none_named))))

instance : Law OpMemoryModel where
  law _ x y _ _ _ _ h := by
    obtain ⟨a0, a1⟩ := x
    obtain ⟨b0, b1⟩ := y
    obtain ⟨rfl, h1⟩ := struct_first h
    obtain ⟨rfl, h2⟩ := struct_next h1
    exact ⟨rfl, struct_last h2⟩
  start _ _ := struct_start (n := "OpMemoryModel") (by decide) _
  line _ _ := struct_line (n := "OpMemoryModel") (by decide) (cons_named (by decide) (cons_named (by decide) none_named))

instance : Law OpEntryPoint where
  law _ x y _ _ _ _ h := by
    obtain ⟨a0, a1, a2, a3⟩ := x
    obtain ⟨b0, b1, b2, b3⟩ := y
    obtain ⟨rfl, h1⟩ := struct_first h
    obtain ⟨rfl, h2⟩ := struct_next h1
    obtain ⟨rfl, h3⟩ := struct_next h2
    obtain ⟨rfl, h4⟩ := struct_next h3
    exact ⟨rfl, struct_last h4⟩
  start _ _ := struct_start (n := "OpEntryPoint") (by decide) _
  line _ _ := struct_line (n := "OpEntryPoint") (by decide) (cons_named (by decide) (cons_named (by decide) (cons_named (by decide) (cons_named (by decide) none_named))))

instance : Law OpExecutionMode where
  law _ x y _ _ _ _ h := by
    obtain ⟨a0, a1⟩ := x
    obtain ⟨b0, b1⟩ := y
    obtain ⟨rfl, h1⟩ := struct_first h
    obtain ⟨rfl, h2⟩ := struct_next h1
    exact ⟨rfl, struct_last h2⟩
  start _ _ := struct_start (n := "OpExecutionMode") (by decide) _
  line _ _ := struct_line (n := "OpExecutionMode") (by decide) (cons_named (by decide) (cons_named (by decide) none_named))

instance : Law OpCapability where
  law _ x y _ _ _ _ h := by
    obtain ⟨a0⟩ := x
    obtain ⟨b0⟩ := y
    obtain ⟨rfl, h1⟩ := struct_first h
    exact ⟨rfl, struct_last h1⟩
  start _ _ := struct_start (n := "OpCapability") (by decide) _
  line _ _ := struct_line (n := "OpCapability") (by decide) (cons_named (by decide) none_named)

instance : Law OpTypeVoid where
  law _ x y _ _ _ _ h := by
    obtain ⟨a0⟩ := x
    obtain ⟨b0⟩ := y
    obtain ⟨rfl, h1⟩ := struct_first h
    exact ⟨rfl, struct_last h1⟩
  start _ _ := struct_start (n := "OpTypeVoid") (by decide) _
  line _ _ := struct_line (n := "OpTypeVoid") (by decide) (cons_named (by decide) none_named)

instance : Law OpTypeBool where
  law _ x y _ _ _ _ h := by
    obtain ⟨a0⟩ := x
    obtain ⟨b0⟩ := y
    obtain ⟨rfl, h1⟩ := struct_first h
    exact ⟨rfl, struct_last h1⟩
  start _ _ := struct_start (n := "OpTypeBool") (by decide) _
  line _ _ := struct_line (n := "OpTypeBool") (by decide) (cons_named (by decide) none_named)

instance : Law OpTypeInt where
  law _ x y _ _ _ _ h := by
    obtain ⟨a0, a1, a2⟩ := x
    obtain ⟨b0, b1, b2⟩ := y
    obtain ⟨rfl, h1⟩ := struct_first h
    obtain ⟨rfl, h2⟩ := struct_next h1
    obtain ⟨rfl, h3⟩ := struct_next h2
    exact ⟨rfl, struct_last h3⟩
  start _ _ := struct_start (n := "OpTypeInt") (by decide) _
  line _ _ := struct_line (n := "OpTypeInt") (by decide) (cons_named (by decide) (cons_named (by decide) (cons_named (by decide) none_named)))

instance : Law OpTypeFloat where
  law _ x y _ _ _ _ h := by
    obtain ⟨a0, a1⟩ := x
    obtain ⟨b0, b1⟩ := y
    obtain ⟨rfl, h1⟩ := struct_first h
    obtain ⟨rfl, h2⟩ := struct_next h1
    exact ⟨rfl, struct_last h2⟩
  start _ _ := struct_start (n := "OpTypeFloat") (by decide) _
  line _ _ := struct_line (n := "OpTypeFloat") (by decide) (cons_named (by decide) (cons_named (by decide) none_named))

instance : Law OpTypeVector where
  law _ x y _ _ _ _ h := by
    obtain ⟨a0, a1, a2⟩ := x
    obtain ⟨b0, b1, b2⟩ := y
    obtain ⟨rfl, h1⟩ := struct_first h
    obtain ⟨rfl, h2⟩ := struct_next h1
    obtain ⟨rfl, h3⟩ := struct_next h2
    exact ⟨rfl, struct_last h3⟩
  start _ _ := struct_start (n := "OpTypeVector") (by decide) _
  line _ _ := struct_line (n := "OpTypeVector") (by decide) (cons_named (by decide) (cons_named (by decide) (cons_named (by decide) none_named)))

instance : Law OpTypeMatrix where
  law _ x y _ _ _ _ h := by
    obtain ⟨a0, a1, a2⟩ := x
    obtain ⟨b0, b1, b2⟩ := y
    obtain ⟨rfl, h1⟩ := struct_first h
    obtain ⟨rfl, h2⟩ := struct_next h1
    obtain ⟨rfl, h3⟩ := struct_next h2
    exact ⟨rfl, struct_last h3⟩
  start _ _ := struct_start (n := "OpTypeMatrix") (by decide) _
  line _ _ := struct_line (n := "OpTypeMatrix") (by decide) (cons_named (by decide) (cons_named (by decide) (cons_named (by decide) none_named)))

instance : Law OpTypeImage where
  law _ x y _ _ _ _ h := by
    obtain ⟨a0, a1, a2, a3, a4, a5, a6, a7, a8⟩ := x
    obtain ⟨b0, b1, b2, b3, b4, b5, b6, b7, b8⟩ := y
    obtain ⟨rfl, h1⟩ := struct_first h
    obtain ⟨rfl, h2⟩ := struct_next h1
    obtain ⟨rfl, h3⟩ := struct_next h2
    obtain ⟨rfl, h4⟩ := struct_next h3
    obtain ⟨rfl, h5⟩ := struct_next h4
    obtain ⟨rfl, h6⟩ := struct_next h5
    obtain ⟨rfl, h7⟩ := struct_next h6
    obtain ⟨rfl, h8⟩ := struct_next h7
    obtain ⟨rfl, h9⟩ := struct_next h8
    exact ⟨rfl, struct_last h9⟩
  start _ _ := struct_start (n := "OpTypeImage") (by decide) _
  line _ _ := struct_line (n := "OpTypeImage") (by decide) (cons_named (by decide) (cons_named (by decide) (cons_named (by decide) (cons_named (by decide) (cons_named (by decide) (cons_named (by decide) (cons_named (by decide) (cons_named (by decide) (cons_named (by decide) none_named)))))))))

instance : Law OpTypeSampler where
  law _ x y _ _ _ _ h := by
    obtain ⟨a0⟩ := x
    obtain ⟨b0⟩ := y
    obtain ⟨rfl, h1⟩ := struct_first h
    exact ⟨rfl, struct_last h1⟩
  start _ _ := struct_start (n := "OpTypeSampler") (by decide) _
  line _ _ := struct_line (n := "OpTypeSampler") (by decide) (cons_named (by decide) none_named)

instance : Law OpTypeSampledImage where
  law _ x y _ _ _ _ h := by
    obtain ⟨a0, a1⟩ := x
    obtain ⟨b0, b1⟩ := y
    obtain ⟨rfl, h1⟩ := struct_first h
    obtain ⟨rfl, h2⟩ := struct_next h1
    exact ⟨rfl, struct_last h2⟩
  start _ _ := struct_start (n := "OpTypeSampledImage") (by decide) _
  line _ _ := struct_line (n := "OpTypeSampledImage") (by decide) (cons_named (by decide) (cons_named (by decide) none_named))

instance : Law OpTypeArray where
  law _ x y _ _ _ _ h := by
    obtain ⟨a0, a1, a2⟩ := x
    obtain ⟨b0, b1, b2⟩ := y
    obtain ⟨rfl, h1⟩ := struct_first h
    obtain ⟨rfl, h2⟩ := struct_next h1
    obtain ⟨rfl, h3⟩ := struct_next h2
    exact ⟨rfl, struct_last h3⟩
  start _ _ := struct_start (n := "OpTypeArray") (by decide) _
  line _ _ := struct_line (n := "OpTypeArray") (by decide) (cons_named (by decide) (cons_named (by decide) (cons_named (by decide) none_named)))

instance : Law OpTypeRuntimeArray where
  law _ x y _ _ _ _ h := by
    obtain ⟨a0, a1⟩ := x
    obtain ⟨b0, b1⟩ := y
    obtain ⟨rfl, h1⟩ := struct_first h
    obtain ⟨rfl, h2⟩ := struct_next h1
    exact ⟨rfl, struct_last h2⟩
  start _ _ := struct_start (n := "OpTypeRuntimeArray") (by decide) _
  line _ _ := struct_line (n := "OpTypeRuntimeArray") (by decide) (cons_named (by decide) (cons_named (by decide) none_named))

instance : Law OpTypeStruct where
  law _ x y _ _ _ _ h := by
    obtain ⟨a0, a1⟩ := x
    obtain ⟨b0, b1⟩ := y
    obtain ⟨rfl, h1⟩ := struct_first h
    obtain ⟨rfl, h2⟩ := struct_next h1
    exact ⟨rfl, struct_last h2⟩
  start _ _ := struct_start (n := "OpTypeStruct") (by decide) _
  line _ _ := struct_line (n := "OpTypeStruct") (by decide) (cons_named (by decide) (cons_named (by decide) none_named))

instance : Law OpTypeOpaque where
  law _ x y _ _ _ _ h := by
    obtain ⟨a0, a1⟩ := x
    obtain ⟨b0, b1⟩ := y
    obtain ⟨rfl, h1⟩ := struct_first h
    obtain ⟨rfl, h2⟩ := struct_next h1
    exact ⟨rfl, struct_last h2⟩
  start _ _ := struct_start (n := "OpTypeOpaque") (by decide) _
  line _ _ := struct_line (n := "OpTypeOpaque") (by decide) (cons_named (by decide) (cons_named (by decide) none_named))

instance : Law OpTypePointer where
  law _ x y _ _ _ _ h := by
    obtain ⟨a0, a1, a2⟩ := x
    obtain ⟨b0, b1, b2⟩ := y
    obtain ⟨rfl, h1⟩ := struct_first h
    obtain ⟨rfl, h2⟩ := struct_next h1
    obtain ⟨rfl, h3⟩ := struct_next h2
    exact ⟨rfl, struct_last h3⟩
  start _ _ := struct_start (n := "OpTypePointer") (by decide) _
  line _ _ := struct_line (n := "OpTypePointer") (by decide) (cons_named (by decide) (cons_named (by decide) (cons_named (by decide) none_named)))

instance : Law OpTypeFunction where
  law _ x y _ _ _ _ h := by
    obtain ⟨a0, a1, a2⟩ := x
    obtain ⟨b0, b1, b2⟩ := y
    obtain ⟨rfl, h1⟩ := struct_first h
    obtain ⟨rfl, h2⟩ := struct_next h1
    obtain ⟨rfl, h3⟩ := struct_next h2
    exact ⟨rfl, struct_last h3⟩
  start _ _ := struct_start (n := "OpTypeFunction") (by decide) _
  line _ _ := struct_line (n := "OpTypeFunction") (by decide) (cons_named (by decide) (cons_named (by decide) (cons_named (by decide) none_named)))

instance : Law OpTypeEvent where
  law _ x y _ _ _ _ h := by
    obtain ⟨a0⟩ := x
    obtain ⟨b0⟩ := y
    obtain ⟨rfl, h1⟩ := struct_first h
    exact ⟨rfl, struct_last h1⟩
  start _ _ := struct_start (n := "OpTypeEvent") (by decide) _
  line _ _ := struct_line (n := "OpTypeEvent") (by decide) (cons_named (by decide) none_named)

instance : Law OpTypeDeviceEvent where
  law _ x y _ _ _ _ h := by
    obtain ⟨a0⟩ := x
    obtain ⟨b0⟩ := y
    obtain ⟨rfl, h1⟩ := struct_first h
    exact ⟨rfl, struct_last h1⟩
  start _ _ := struct_start (n := "OpTypeDeviceEvent") (by decide) _
  line _ _ := struct_line (n := "OpTypeDeviceEvent") (by decide) (cons_named (by decide) none_named)

instance : Law OpTypeQueue where
  law _ x y _ _ _ _ h := by
    obtain ⟨a0⟩ := x
    obtain ⟨b0⟩ := y
    obtain ⟨rfl, h1⟩ := struct_first h
    exact ⟨rfl, struct_last h1⟩
  start _ _ := struct_start (n := "OpTypeQueue") (by decide) _
  line _ _ := struct_line (n := "OpTypeQueue") (by decide) (cons_named (by decide) none_named)

instance : Law OpTypePipe where
  law _ x y _ _ _ _ h := by
    obtain ⟨a0, a1⟩ := x
    obtain ⟨b0, b1⟩ := y
    obtain ⟨rfl, h1⟩ := struct_first h
    obtain ⟨rfl, h2⟩ := struct_next h1
    exact ⟨rfl, struct_last h2⟩
  start _ _ := struct_start (n := "OpTypePipe") (by decide) _
  line _ _ := struct_line (n := "OpTypePipe") (by decide) (cons_named (by decide) (cons_named (by decide) none_named))

instance : Law OpTypeForwardPointer where
  law _ x y _ _ _ _ h := by
    obtain ⟨a0, a1⟩ := x
    obtain ⟨b0, b1⟩ := y
    obtain ⟨rfl, h1⟩ := struct_first h
    obtain ⟨rfl, h2⟩ := struct_next h1
    exact ⟨rfl, struct_last h2⟩
  start _ _ := struct_start (n := "OpTypeForwardPointer") (by decide) _
  line _ _ := struct_line (n := "OpTypeForwardPointer") (by decide) (cons_named (by decide) (cons_named (by decide) none_named))

instance : Law OpConstant where
  law _ x y _ _ _ _ h := by
    obtain ⟨a0, a1, a2⟩ := x
    obtain ⟨b0, b1, b2⟩ := y
    obtain ⟨rfl, h1⟩ := struct_first h
    obtain ⟨rfl, h2⟩ := struct_next h1
    obtain ⟨rfl, h3⟩ := struct_next h2
    exact ⟨rfl, struct_last h3⟩
  start _ _ := struct_start (n := "OpConstant") (by decide) _
  line _ _ := struct_line (n := "OpConstant") (by decide) (cons_named (by decide) (cons_named (by decide) (cons_named (by decide) none_named)))

instance : Law OpConstantComposite where
  law _ x y _ _ _ _ h := by
    obtain ⟨a0, a1, a2⟩ := x
    obtain ⟨b0, b1, b2⟩ := y
    obtain ⟨rfl, h1⟩ := struct_first h
    obtain ⟨rfl, h2⟩ := struct_next h1
    obtain ⟨rfl, h3⟩ := struct_next h2
    exact ⟨rfl, struct_last h3⟩
  start _ _ := struct_start (n := "OpConstantComposite") (by decide) _
  line _ _ := struct_line (n := "OpConstantComposite") (by decide) (cons_named (by decide) (cons_named (by decide) (cons_named (by decide) none_named)))

instance : Law OpFunction where
  law _ x y _ _ _ _ h := by
    obtain ⟨a0, a1, a2, a3⟩ := x
    obtain ⟨b0, b1, b2, b3⟩ := y
    obtain ⟨rfl, h1⟩ := struct_first h
    obtain ⟨rfl, h2⟩ := struct_next h1
    obtain ⟨rfl, h3⟩ := struct_next h2
    obtain ⟨rfl, h4⟩ := struct_next h3
    exact ⟨rfl, struct_last h4⟩
  start _ _ := struct_start (n := "OpFunction") (by decide) _
  line _ _ := struct_line (n := "OpFunction") (by decide) (cons_named (by decide) (cons_named (by decide) (cons_named (by decide) (cons_named (by decide) none_named))))

instance : Law OpFunctionParameter where
  law _ x y _ _ _ _ h := by
    obtain ⟨a0, a1⟩ := x
    obtain ⟨b0, b1⟩ := y
    obtain ⟨rfl, h1⟩ := struct_first h
    obtain ⟨rfl, h2⟩ := struct_next h1
    exact ⟨rfl, struct_last h2⟩
  start _ _ := struct_start (n := "OpFunctionParameter") (by decide) _
  line _ _ := struct_line (n := "OpFunctionParameter") (by decide) (cons_named (by decide) (cons_named (by decide) none_named))

instance : Law OpFunctionEnd where
  law _ _ _ _ _ _ _ h := ⟨rfl, List.append_cancel_left h⟩
  start _ _ := tuple_start (n := "OpFunctionEnd") (by decide) _
  line _ _ := tuple_line (n := "OpFunctionEnd") (by decide) none_line

instance : Law OpVariable where
  law _ x y _ _ _ _ h := by
    obtain ⟨a0, a1, a2, a3⟩ := x
    obtain ⟨b0, b1, b2, b3⟩ := y
    obtain ⟨rfl, h1⟩ := struct_first h
    obtain ⟨rfl, h2⟩ := struct_next h1
    obtain ⟨rfl, h3⟩ := struct_next h2
    obtain ⟨rfl, h4⟩ := struct_next h3
    exact ⟨rfl, struct_last h4⟩
  start _ _ := struct_start (n := "OpVariable") (by decide) _
  line _ _ := struct_line (n := "OpVariable") (by decide) (cons_named (by decide) (cons_named (by decide) (cons_named (by decide) (cons_named (by decide) none_named))))

instance : Law OpLoad where
  law _ x y _ _ _ _ h := by
    obtain ⟨a0, a1, a2, a3⟩ := x
    obtain ⟨b0, b1, b2, b3⟩ := y
    obtain ⟨rfl, h1⟩ := struct_first h
    obtain ⟨rfl, h2⟩ := struct_next h1
    obtain ⟨rfl, h3⟩ := struct_next h2
    obtain ⟨rfl, h4⟩ := struct_next h3
    exact ⟨rfl, struct_last h4⟩
  start _ _ := struct_start (n := "OpLoad") (by decide) _
  line _ _ := struct_line (n := "OpLoad") (by decide) (cons_named (by decide) (cons_named (by decide) (cons_named (by decide) (cons_named (by decide) none_named))))

instance : Law OpStore where
  law _ x y _ _ _ _ h := by
    obtain ⟨a0, a1, a2⟩ := x
    obtain ⟨b0, b1, b2⟩ := y
    obtain ⟨rfl, h1⟩ := struct_first h
    obtain ⟨rfl, h2⟩ := struct_next h1
    obtain ⟨rfl, h3⟩ := struct_next h2
    exact ⟨rfl, struct_last h3⟩
  start _ _ := struct_start (n := "OpStore") (by decide) _
  line _ _ := struct_line (n := "OpStore") (by decide) (cons_named (by decide) (cons_named (by decide) (cons_named (by decide) none_named)))

instance : Law OpAccessChain where
  law _ x y _ _ _ _ h := by
    obtain ⟨a0, a1, a2, a3⟩ := x
    obtain ⟨b0, b1, b2, b3⟩ := y
    obtain ⟨rfl, h1⟩ := struct_first h
    obtain ⟨rfl, h2⟩ := struct_next h1
    obtain ⟨rfl, h3⟩ := struct_next h2
    obtain ⟨rfl, h4⟩ := struct_next h3
    exact ⟨rfl, struct_last h4⟩
  start _ _ := struct_start (n := "OpAccessChain") (by decide) _
  line _ _ := struct_line (n := "OpAccessChain") (by decide) (cons_named (by decide) (cons_named (by decide) (cons_named (by decide) (cons_named (by decide) none_named))))

instance : Law OpDecorate where
  law _ x y _ _ _ _ h := by
    obtain ⟨a0, a1⟩ := x
    obtain ⟨b0, b1⟩ := y
    obtain ⟨rfl, h1⟩ := struct_first h
    obtain ⟨rfl, h2⟩ := struct_next h1
    exact ⟨rfl, struct_last h2⟩
  start _ _ := struct_start (n := "OpDecorate") (by decide) _
  line _ _ := struct_line (n := "OpDecorate") (by decide) (cons_named (by decide) (cons_named (by decide) none_named))

instance : Law OpMemberDecorate where
  law _ x y _ _ _ _ h := by
    obtain ⟨a0, a1, a2⟩ := x
    obtain ⟨b0, b1, b2⟩ := y
    obtain ⟨rfl, h1⟩ := struct_first h
    obtain ⟨rfl, h2⟩ := struct_next h1
    obtain ⟨rfl, h3⟩ := struct_next h2
    exact ⟨rfl, struct_last h3⟩
  start _ _ := struct_start (n := "OpMemberDecorate") (by decide) _
  line _ _ := struct_line (n := "OpMemberDecorate") (by decide) (cons_named (by decide) (cons_named (by decide) (cons_named (by decide) none_named)))

instance : Law OpConvertUToF where
  law _ x y _ _ _ _ h := by
    obtain ⟨a0, a1, a2⟩ := x
    obtain ⟨b0, b1, b2⟩ := y
    obtain ⟨rfl, h1⟩ := struct_first h
    obtain ⟨rfl, h2⟩ := struct_next h1
    obtain ⟨rfl, h3⟩ := struct_next h2
    exact ⟨rfl, struct_last h3⟩
  start _ _ := struct_start (n := "OpConvertUToF") (by decide) _
  line _ _ := struct_line (n := "OpConvertUToF") (by decide) (cons_named (by decide) (cons_named (by decide) (cons_named (by decide) none_named)))

instance : Law OpBitcast where
  law _ x y _ _ _ _ h := by
    obtain ⟨a0, a1, a2⟩ := x
    obtain ⟨b0, b1, b2⟩ := y
    obtain ⟨rfl, h1⟩ := struct_first h
    obtain ⟨rfl, h2⟩ := struct_next h1
    obtain ⟨rfl, h3⟩ := struct_next h2
    exact ⟨rfl, struct_last h3⟩
  start _ _ := struct_start (n := "OpBitcast") (by decide) _
  line _ _ := struct_line (n := "OpBitcast") (by decide) (cons_named (by decide) (cons_named (by decide) (cons_named (by decide) none_named)))

instance : Law OpIAdd where
  law _ x y _ _ _ _ h := by
    obtain ⟨a0, a1, a2, a3⟩ := x
    obtain ⟨b0, b1, b2, b3⟩ := y
    obtain ⟨rfl, h1⟩ := struct_first h
    obtain ⟨rfl, h2⟩ := struct_next h1
    obtain ⟨rfl, h3⟩ := struct_next h2
    obtain ⟨rfl, h4⟩ := struct_next h3
    exact ⟨rfl, struct_last h4⟩
  start _ _ := struct_start (n := "OpIAdd") (by decide) _
  line _ _ := struct_line (n := "OpIAdd") (by decide) (cons_named (by decide) (cons_named (by decide) (cons_named (by decide) (cons_named (by decide) none_named))))

instance : Law OpFAdd where
  law _ x y _ _ _ _ h := by
    obtain ⟨a0, a1, a2, a3⟩ := x
    obtain ⟨b0, b1, b2, b3⟩ := y
    obtain ⟨rfl, h1⟩ := struct_first h
    obtain ⟨rfl, h2⟩ := struct_next h1
    obtain ⟨rfl, h3⟩ := struct_next h2
    obtain ⟨rfl, h4⟩ := struct_next h3
    exact ⟨rfl, struct_last h4⟩
  start _ _ := struct_start (n := "OpFAdd") (by decide) _
  line _ _ := struct_line (n := "OpFAdd") (by decide) (cons_named (by decide) (cons_named (by decide) (cons_named (by decide) (cons_named (by decide) none_named))))

instance : Law OpISub where
  law _ x y _ _ _ _ h := by
    obtain ⟨a0, a1, a2, a3⟩ := x
    obtain ⟨b0, b1, b2, b3⟩ := y
    obtain ⟨rfl, h1⟩ := struct_first h
    obtain ⟨rfl, h2⟩ := struct_next h1
    obtain ⟨rfl, h3⟩ := struct_next h2
    obtain ⟨rfl, h4⟩ := struct_next h3
    exact ⟨rfl, struct_last h4⟩
  start _ _ := struct_start (n := "OpISub") (by decide) _
  line _ _ := struct_line (n := "OpISub") (by decide) (cons_named (by decide) (cons_named (by decide) (cons_named (by decide) (cons_named (by decide) none_named))))

instance : Law OpFSub where
  law _ x y _ _ _ _ h := by
    obtain ⟨a0, a1, a2, a3⟩ := x
    obtain ⟨b0, b1, b2, b3⟩ := y
    obtain ⟨rfl, h1⟩ := struct_first h
    obtain ⟨rfl, h2⟩ := struct_next h1
    obtain ⟨rfl, h3⟩ := struct_next h2
    obtain ⟨rfl, h4⟩ := struct_next h3
    exact ⟨rfl, struct_last h4⟩
  start _ _ := struct_start (n := "OpFSub") (by decide) _
  line _ _ := struct_line (n := "OpFSub") (by decide) (cons_named (by decide) (cons_named (by decide) (cons_named (by decide) (cons_named (by decide) none_named))))

instance : Law OpIMul where
  law _ x y _ _ _ _ h := by
    obtain ⟨a0, a1, a2, a3⟩ := x
    obtain ⟨b0, b1, b2, b3⟩ := y
    obtain ⟨rfl, h1⟩ := struct_first h
    obtain ⟨rfl, h2⟩ := struct_next h1
    obtain ⟨rfl, h3⟩ := struct_next h2
    obtain ⟨rfl, h4⟩ := struct_next h3
    exact ⟨rfl, struct_last h4⟩
  start _ _ := struct_start (n := "OpIMul") (by decide) _
  line _ _ := struct_line (n := "OpIMul") (by decide) (cons_named (by decide) (cons_named (by decide) (cons_named (by decide) (cons_named (by decide) none_named))))

instance : Law OpFMul where
  law _ x y _ _ _ _ h := by
    obtain ⟨a0, a1, a2, a3⟩ := x
    obtain ⟨b0, b1, b2, b3⟩ := y
    obtain ⟨rfl, h1⟩ := struct_first h
    obtain ⟨rfl, h2⟩ := struct_next h1
    obtain ⟨rfl, h3⟩ := struct_next h2
    obtain ⟨rfl, h4⟩ := struct_next h3
    exact ⟨rfl, struct_last h4⟩
  start _ _ := struct_start (n := "OpFMul") (by decide) _
  line _ _ := struct_line (n := "OpFMul") (by decide) (cons_named (by decide) (cons_named (by decide) (cons_named (by decide) (cons_named (by decide) none_named))))

instance : Law OpUDiv where
  law _ x y _ _ _ _ h := by
    obtain ⟨a0, a1, a2, a3⟩ := x
    obtain ⟨b0, b1, b2, b3⟩ := y
    obtain ⟨rfl, h1⟩ := struct_first h
    obtain ⟨rfl, h2⟩ := struct_next h1
    obtain ⟨rfl, h3⟩ := struct_next h2
    obtain ⟨rfl, h4⟩ := struct_next h3
    exact ⟨rfl, struct_last h4⟩
  start _ _ := struct_start (n := "OpUDiv") (by decide) _
  line _ _ := struct_line (n := "OpUDiv") (by decide) (cons_named (by decide) (cons_named (by decide) (cons_named (by decide) (cons_named (by decide) none_named))))

instance : Law OpSDiv where
  law _ x y _ _ _ _ h := by
    obtain ⟨a0, a1, a2, a3⟩ := x
    obtain ⟨b0, b1, b2, b3⟩ := y
    obtain ⟨rfl, h1⟩ := struct_first h
    obtain ⟨rfl, h2⟩ := struct_next h1
    obtain ⟨rfl, h3⟩ := struct_next h2
    obtain ⟨rfl, h4⟩ := struct_next h3
    exact ⟨rfl, struct_last h4⟩
  start _ _ := struct_start (n := "OpSDiv") (by decide) _
  line _ _ := struct_line (n := "OpSDiv") (by decide) (cons_named (by decide) (cons_named (by decide) (cons_named (by decide) (cons_named (by decide) none_named))))

instance : Law OpFDiv where
  law _ x y _ _ _ _ h := by
    obtain ⟨a0, a1, a2, a3⟩ := x
    obtain ⟨b0, b1, b2, b3⟩ := y
    obtain ⟨rfl, h1⟩ := struct_first h
    obtain ⟨rfl, h2⟩ := struct_next h1
    obtain ⟨rfl, h3⟩ := struct_next h2
    obtain ⟨rfl, h4⟩ := struct_next h3
    exact ⟨rfl, struct_last h4⟩
  start _ _ := struct_start (n := "OpFDiv") (by decide) _
  line _ _ := struct_line (n := "OpFDiv") (by decide) (cons_named (by decide) (cons_named (by decide) (cons_named (by decide) (cons_named (by decide) none_named))))

instance : Law OpUMod where
  law _ x y _ _ _ _ h := by
    obtain ⟨a0, a1, a2, a3⟩ := x
    obtain ⟨b0, b1, b2, b3⟩ := y
    obtain ⟨rfl, h1⟩ := struct_first h
    obtain ⟨rfl, h2⟩ := struct_next h1
    obtain ⟨rfl, h3⟩ := struct_next h2
    obtain ⟨rfl, h4⟩ := struct_next h3
    exact ⟨rfl, struct_last h4⟩
  start _ _ := struct_start (n := "OpUMod") (by decide) _
  line _ _ := struct_line (n := "OpUMod") (by decide) (cons_named (by decide) (cons_named (by decide) (cons_named (by decide) (cons_named (by decide) none_named))))

instance : Law OpSRem where
  law _ x y _ _ _ _ h := by
    obtain ⟨a0, a1, a2, a3⟩ := x
    obtain ⟨b0, b1, b2, b3⟩ := y
    obtain ⟨rfl, h1⟩ := struct_first h
    obtain ⟨rfl, h2⟩ := struct_next h1
    obtain ⟨rfl, h3⟩ := struct_next h2
    obtain ⟨rfl, h4⟩ := struct_next h3
    exact ⟨rfl, struct_last h4⟩
  start _ _ := struct_start (n := "OpSRem") (by decide) _
  line _ _ := struct_line (n := "OpSRem") (by decide) (cons_named (by decide) (cons_named (by decide) (cons_named (by decide) (cons_named (by decide) none_named))))

instance : Law OpSMod where
  law _ x y _ _ _ _ h := by
    obtain ⟨a0, a1, a2, a3⟩ := x
    obtain ⟨b0, b1, b2, b3⟩ := y
    obtain ⟨rfl, h1⟩ := struct_first h
    obtain ⟨rfl, h2⟩ := struct_next h1
    obtain ⟨rfl, h3⟩ := struct_next h2
    obtain ⟨rfl, h4⟩ := struct_next h3
    exact ⟨rfl, struct_last h4⟩
  start _ _ := struct_start (n := "OpSMod") (by decide) _
  line _ _ := struct_line (n := "OpSMod") (by decide) (cons_named (by decide) (cons_named (by decide) (cons_named (by decide) (cons_named (by decide) none_named))))

instance : Law OpFRem where
  law _ x y _ _ _ _ h := by
    obtain ⟨a0, a1, a2, a3⟩ := x
    obtain ⟨b0, b1, b2, b3⟩ := y
    obtain ⟨rfl, h1⟩ := struct_first h
    obtain ⟨rfl, h2⟩ := struct_next h1
    obtain ⟨rfl, h3⟩ := struct_next h2
    obtain ⟨rfl, h4⟩ := struct_next h3
    exact ⟨rfl, struct_last h4⟩
  start _ _ := struct_start (n := "OpFRem") (by decide) _
  line _ _ := struct_line (n := "OpFRem") (by decide) (cons_named (by decide) (cons_named (by decide) (cons_named (by decide) (cons_named (by decide) none_named))))

instance : Law OpFMod where
  law _ x y _ _ _ _ h := by
    obtain ⟨a0, a1, a2, a3⟩ := x
    obtain ⟨b0, b1, b2, b3⟩ := y
    obtain ⟨rfl, h1⟩ := struct_first h
    obtain ⟨rfl, h2⟩ := struct_next h1
    obtain ⟨rfl, h3⟩ := struct_next h2
    obtain ⟨rfl, h4⟩ := struct_next h3
    exact ⟨rfl, struct_last h4⟩
  start _ _ := struct_start (n := "OpFMod") (by decide) _
  line _ _ := struct_line (n := "OpFMod") (by decide) (cons_named (by decide) (cons_named (by decide) (cons_named (by decide) (cons_named (by decide) none_named))))

instance : Law OpIAddCarry where
  law _ x y _ _ _ _ h := by
    obtain ⟨a0, a1, a2, a3⟩ := x
    obtain ⟨b0, b1, b2, b3⟩ := y
    obtain ⟨rfl, h1⟩ := struct_first h
    obtain ⟨rfl, h2⟩ := struct_next h1
    obtain ⟨rfl, h3⟩ := struct_next h2
    obtain ⟨rfl, h4⟩ := struct_next h3
    exact ⟨rfl, struct_last h4⟩
  start _ _ := struct_start (n := "OpIAddCarry") (by decide) _
  line _ _ := struct_line (n := "OpIAddCarry") (by decide) (cons_named (by decide) (cons_named (by decide) (cons_named (by decide) (cons_named (by decide) none_named))))

instance : Law OpISubBorrow where
  law _ x y _ _ _ _ h := by
    obtain ⟨a0, a1, a2, a3⟩ := x
    obtain ⟨b0, b1, b2, b3⟩ := y
    obtain ⟨rfl, h1⟩ := struct_first h
    obtain ⟨rfl, h2⟩ := struct_next h1
    obtain ⟨rfl, h3⟩ := struct_next h2
    obtain ⟨rfl, h4⟩ := struct_next h3
    exact ⟨rfl, struct_last h4⟩
  start _ _ := struct_start (n := "OpISubBorrow") (by decide) _
  line _ _ := struct_line (n := "OpISubBorrow") (by decide) (cons_named (by decide) (cons_named (by decide) (cons_named (by decide) (cons_named (by decide) none_named))))

instance : Law OpUMulExtended where
  law _ x y _ _ _ _ h := by
    obtain ⟨a0, a1, a2, a3⟩ := x
    obtain ⟨b0, b1, b2, b3⟩ := y
    obtain ⟨rfl, h1⟩ := struct_first h
    obtain ⟨rfl, h2⟩ := struct_next h1
    obtain ⟨rfl, h3⟩ := struct_next h2
    obtain ⟨rfl, h4⟩ := struct_next h3
    exact ⟨rfl, struct_last h4⟩
  start _ _ := struct_start (n := "OpUMulExtended") (by decide) _
  line _ _ := struct_line (n := "OpUMulExtended") (by decide) (cons_named (by decide) (cons_named (by decide) (cons_named (by decide) (cons_named (by decide) none_named))))

instance : Law OpSMulExtended where
  law _ x y _ _ _ _ h := by
    obtain ⟨a0, a1, a2, a3⟩ := x
    obtain ⟨b0, b1, b2, b3⟩ := y
    obtain ⟨rfl, h1⟩ := struct_first h
    obtain ⟨rfl, h2⟩ := struct_next h1
    obtain ⟨rfl, h3⟩ := struct_next h2
    obtain ⟨rfl, h4⟩ := struct_next h3
    exact ⟨rfl, struct_last h4⟩
  start _ _ := struct_start (n := "OpSMulExtended") (by decide) _
  line _ _ := struct_line (n := "OpSMulExtended") (by decide) (cons_named (by decide) (cons_named (by decide) (cons_named (by decide) (cons_named (by decide) none_named))))

instance : Law OpBitwiseOr where
  law _ x y _ _ _ _ h := by
    obtain ⟨a0, a1, a2, a3⟩ := x
    obtain ⟨b0, b1, b2, b3⟩ := y
    obtain ⟨rfl, h1⟩ := struct_first h
    obtain ⟨rfl, h2⟩ := struct_next h1
    obtain ⟨rfl, h3⟩ := struct_next h2
    obtain ⟨rfl, h4⟩ := struct_next h3
    exact ⟨rfl, struct_last h4⟩
  start _ _ := struct_start (n := "OpBitwiseOr") (by decide) _
  line _ _ := struct_line (n := "OpBitwiseOr") (by decide) (cons_named (by decide) (cons_named (by decide) (cons_named (by decide) (cons_named (by decide) none_named))))

instance : Law OpBitwiseXor where
  law _ x y _ _ _ _ h := by
    obtain ⟨a0, a1, a2, a3⟩ := x
    obtain ⟨b0, b1, b2, b3⟩ := y
    obtain ⟨rfl, h1⟩ := struct_first h
    obtain ⟨rfl, h2⟩ := struct_next h1
    obtain ⟨rfl, h3⟩ := struct_next h2
    obtain ⟨rfl, h4⟩ := struct_next h3
    exact ⟨rfl, struct_last h4⟩
  start _ _ := struct_start (n := "OpBitwiseXor") (by decide) _
  line _ _ := struct_line (n := "OpBitwiseXor") (by decide) (cons_named (by decide) (cons_named (by decide) (cons_named (by decide) (cons_named (by decide) none_named))))

instance : Law OpBitwiseAnd where
  law _ x y _ _ _ _ h := by
    obtain ⟨a0, a1, a2, a3⟩ := x
    obtain ⟨b0, b1, b2, b3⟩ := y
    obtain ⟨rfl, h1⟩ := struct_first h
    obtain ⟨rfl, h2⟩ := struct_next h1
    obtain ⟨rfl, h3⟩ := struct_next h2
    obtain ⟨rfl, h4⟩ := struct_next h3
    exact ⟨rfl, struct_last h4⟩
  start _ _ := struct_start (n := "OpBitwiseAnd") (by decide) _
  line _ _ := struct_line (n := "OpBitwiseAnd") (by decide) (cons_named (by decide) (cons_named (by decide) (cons_named (by decide) (cons_named (by decide) none_named))))

instance : Law OpIEqual where
  law _ x y _ _ _ _ h := by
    obtain ⟨a0, a1, a2, a3⟩ := x
    obtain ⟨b0, b1, b2, b3⟩ := y
    obtain ⟨rfl, h1⟩ := struct_first h
    obtain ⟨rfl, h2⟩ := struct_next h1
    obtain ⟨rfl, h3⟩ := struct_next h2
    obtain ⟨rfl, h4⟩ := struct_next h3
    exact ⟨rfl, struct_last h4⟩
  start _ _ := struct_start (n := "OpIEqual") (by decide) _
  line _ _ := struct_line (n := "OpIEqual") (by decide) (cons_named (by decide) (cons_named (by decide) (cons_named (by decide) (cons_named (by decide) none_named))))

instance : Law OpINotEqual where
  law _ x y _ _ _ _ h := by
    obtain ⟨a0, a1, a2, a3⟩ := x
    obtain ⟨b0, b1, b2, b3⟩ := y
    obtain ⟨rfl, h1⟩ := struct_first h
    obtain ⟨rfl, h2⟩ := struct_next h1
    obtain ⟨rfl, h3⟩ := struct_next h2
    obtain ⟨rfl, h4⟩ := struct_next h3
    exact ⟨rfl, struct_last h4⟩
  start _ _ := struct_start (n := "OpINotEqual") (by decide) _
  line _ _ := struct_line (n := "OpINotEqual") (by decide) (cons_named (by decide) (cons_named (by decide) (cons_named (by decide) (cons_named (by decide) none_named))))

instance : Law OpUGreaterThan where
  law _ x y _ _ _ _ h := by
    obtain ⟨a0, a1, a2, a3⟩ := x
    obtain ⟨b0, b1, b2, b3⟩ := y
    obtain ⟨rfl, h1⟩ := struct_first h
    obtain ⟨rfl, h2⟩ := struct_next h1
    obtain ⟨rfl, h3⟩ := struct_next h2
    obtain ⟨rfl, h4⟩ := struct_next h3
    exact ⟨rfl, struct_last h4⟩
  start _ _ := struct_start (n := "OpUGreaterThan") (by decide) _
  line _ _ := struct_line (n := "OpUGreaterThan") (by decide) (cons_named (by decide) (cons_named (by decide) (cons_named (by decide) (cons_named (by decide) none_named))))

instance : Law OpSGreaterThan where
  law _ x y _ _ _ _ h := by
    obtain ⟨a0, a1, a2, a3⟩ := x
    obtain ⟨b0, b1, b2, b3⟩ := y
    obtain ⟨rfl, h1⟩ := struct_first h
    obtain ⟨rfl, h2⟩ := struct_next h1
    obtain ⟨rfl, h3⟩ := struct_next h2
    obtain ⟨rfl, h4⟩ := struct_next h3
    exact ⟨rfl, struct_last h4⟩
  start _ _ := struct_start (n := "OpSGreaterThan") (by decide) _
  line _ _ := struct_line (n := "OpSGreaterThan") (by decide) (cons_named (by decide) (cons_named (by decide) (cons_named (by decide) (cons_named (by decide) none_named))))

instance : Law OpUGreaterThanEqual where
  law _ x y _ _ _ _ h := by
    obtain ⟨a0, a1, a2, a3⟩ := x
    obtain ⟨b0, b1, b2, b3⟩ := y
    obtain ⟨rfl, h1⟩ := struct_first h
    obtain ⟨rfl, h2⟩ := struct_next h1
    obtain ⟨rfl, h3⟩ := struct_next h2
    obtain ⟨rfl, h4⟩ := struct_next h3
    exact ⟨rfl, struct_last h4⟩
  start _ _ := struct_start (n := "OpUGreaterThanEqual") (by decide) _
  line _ _ := struct_line (n := "OpUGreaterThanEqual") (by decide) (cons_named (by decide) (cons_named (by decide) (cons_named (by decide) (cons_named (by decide) none_named))))

instance : Law OpSGreaterThanEqual where
  law _ x y _ _ _ _ h := by
    obtain ⟨a0, a1, a2, a3⟩ := x
    obtain ⟨b0, b1, b2, b3⟩ := y
    obtain ⟨rfl, h1⟩ := struct_first h
    obtain ⟨rfl, h2⟩ := struct_next h1
    obtain ⟨rfl, h3⟩ := struct_next h2
    obtain ⟨rfl, h4⟩ := struct_next h3
    exact ⟨rfl, struct_last h4⟩
  start _ _ := struct_start (n := "OpSGreaterThanEqual") (by decide) _
  line _ _ := struct_line (n := "OpSGreaterThanEqual") (by decide) (cons_named (by decide) (cons_named (by decide) (cons_named (by decide) (cons_named (by decide) none_named))))

instance : Law OpULessThan where
  law _ x y _ _ _ _ h := by
    obtain ⟨a0, a1, a2, a3⟩ := x
    obtain ⟨b0, b1, b2, b3⟩ := y
    obtain ⟨rfl, h1⟩ := struct_first h
    obtain ⟨rfl, h2⟩ := struct_next h1
    obtain ⟨rfl, h3⟩ := struct_next h2
    obtain ⟨rfl, h4⟩ := struct_next h3
    exact ⟨rfl, struct_last h4⟩
  start _ _ := struct_start (n := "OpULessThan") (by decide) _
  line _ _ := struct_line (n := "OpULessThan") (by decide) (cons_named (by decide) (cons_named (by decide) (cons_named (by decide) (cons_named (by decide) none_named))))

instance : Law OpSLessThan where
  law _ x y _ _ _ _ h := by
    obtain ⟨a0, a1, a2, a3⟩ := x
    obtain ⟨b0, b1, b2, b3⟩ := y
    obtain ⟨rfl, h1⟩ := struct_first h
    obtain ⟨rfl, h2⟩ := struct_next h1
    obtain ⟨rfl, h3⟩ := struct_next h2
    obtain ⟨rfl, h4⟩ := struct_next h3
    exact ⟨rfl, struct_last h4⟩
  start _ _ := struct_start (n := "OpSLessThan") (by decide) _
  line _ _ := struct_line (n := "OpSLessThan") (by decide) (cons_named (by decide) (cons_named (by decide) (cons_named (by decide) (cons_named (by decide) none_named))))

instance : Law OpULessThanEqual where
  law _ x y _ _ _ _ h := by
    obtain ⟨a0, a1, a2, a3⟩ := x
    obtain ⟨b0, b1, b2, b3⟩ := y
    obtain ⟨rfl, h1⟩ := struct_first h
    obtain ⟨rfl, h2⟩ := struct_next h1
    obtain ⟨rfl, h3⟩ := struct_next h2
    obtain ⟨rfl, h4⟩ := struct_next h3
    exact ⟨rfl, struct_last h4⟩
  start _ _ := struct_start (n := "OpULessThanEqual") (by decide) _
  line _ _ := struct_line (n := "OpULessThanEqual") (by decide) (cons_named (by decide) (cons_named (by decide) (cons_named (by decide) (cons_named (by decide) none_named))))

instance : Law OpSLessThanEqual where
  law _ x y _ _ _ _ h := by
    obtain ⟨a0, a1, a2, a3⟩ := x
    obtain ⟨b0, b1, b2, b3⟩ := y
    obtain ⟨rfl, h1⟩ := struct_first h
    obtain ⟨rfl, h2⟩ := struct_next h1
    obtain ⟨rfl, h3⟩ := struct_next h2
    obtain ⟨rfl, h4⟩ := struct_next h3
    exact ⟨rfl, struct_last h4⟩
  start _ _ := struct_start (n := "OpSLessThanEqual") (by decide) _
  line _ _ := struct_line (n := "OpSLessThanEqual") (by decide) (cons_named (by decide) (cons_named (by decide) (cons_named (by decide) (cons_named (by decide) none_named))))

instance : Law OpFOrdEqual where
  law _ x y _ _ _ _ h := by
    obtain ⟨a0, a1, a2, a3⟩ := x
    obtain ⟨b0, b1, b2, b3⟩ := y
    obtain ⟨rfl, h1⟩ := struct_first h
    obtain ⟨rfl, h2⟩ := struct_next h1
    obtain ⟨rfl, h3⟩ := struct_next h2
    obtain ⟨rfl, h4⟩ := struct_next h3
    exact ⟨rfl, struct_last h4⟩
  start _ _ := struct_start (n := "OpFOrdEqual") (by decide) _
  line _ _ := struct_line (n := "OpFOrdEqual") (by decide) (cons_named (by decide) (cons_named (by decide) (cons_named (by decide) (cons_named (by decide) none_named))))

instance : Law OpFUnordEqual where
  law _ x y _ _ _ _ h := by
    obtain ⟨a0, a1, a2, a3⟩ := x
    obtain ⟨b0, b1, b2, b3⟩ := y
    obtain ⟨rfl, h1⟩ := struct_first h
    obtain ⟨rfl, h2⟩ := struct_next h1
    obtain ⟨rfl, h3⟩ := struct_next h2
    obtain ⟨rfl, h4⟩ := struct_next h3
    exact ⟨rfl, struct_last h4⟩
  start _ _ := struct_start (n := "OpFUnordEqual") (by decide) _
  line _ _ := struct_line (n := "OpFUnordEqual") (by decide) (cons_named (by decide) (cons_named (by decide) (cons_named (by decide) (cons_named (by decide) none_named))))

instance : Law OpFOrdNotEqual where
  law _ x y _ _ _ _ h := by
    obtain ⟨a0, a1, a2, a3⟩ := x
    obtain ⟨b0, b1, b2, b3⟩ := y
    obtain ⟨rfl, h1⟩ := struct_first h
    obtain ⟨rfl, h2⟩ := struct_next h1
    obtain ⟨rfl, h3⟩ := struct_next h2
    obtain ⟨rfl, h4⟩ := struct_next h3
    exact ⟨rfl, struct_last h4⟩
  start _ _ := struct_start (n := "OpFOrdNotEqual") (by decide) _
  line _ _ := struct_line (n := "OpFOrdNotEqual") (by decide) (cons_named (by decide) (cons_named (by decide) (cons_named (by decide) (cons_named (by decide) none_named))))

instance : Law OpFUnordNotEqual where
  law _ x y _ _ _ _ h := by
    obtain ⟨a0, a1, a2, a3⟩ := x
    obtain ⟨b0, b1, b2, b3⟩ := y
    obtain ⟨rfl, h1⟩ := struct_first h
    obtain ⟨rfl, h2⟩ := struct_next h1
    obtain ⟨rfl, h3⟩ := struct_next h2
    obtain ⟨rfl, h4⟩ := struct_next h3
    exact ⟨rfl, struct_last h4⟩
  start _ _ := struct_start (n := "OpFUnordNotEqual") (by decide) _
  line _ _ := struct_line (n := "OpFUnordNotEqual") (by decide) (cons_named (by decide) (cons_named (by decide) (cons_named (by decide) (cons_named (by decide) none_named))))

instance : Law OpFOrdLessThan where
  law _ x y _ _ _ _ h := by
    obtain ⟨a0, a1, a2, a3⟩ := x
    obtain ⟨b0, b1, b2, b3⟩ := y
    obtain ⟨rfl, h1⟩ := struct_first h
    obtain ⟨rfl, h2⟩ := struct_next h1
    obtain ⟨rfl, h3⟩ := struct_next h2
    obtain ⟨rfl, h4⟩ := struct_next h3
    exact ⟨rfl, struct_last h4⟩
  start _ _ := struct_start (n := "OpFOrdLessThan") (by decide) _
  line _ _ := struct_line (n := "OpFOrdLessThan") (by decide) (cons_named (by decide) (cons_named (by decide) (cons_named (by decide) (cons_named (by decide) none_named))))

instance : Law OpFUnordLessThan where
  law _ x y _ _ _ _ h := by
    obtain ⟨a0, a1, a2, a3⟩ := x
    obtain ⟨b0, b1, b2, b3⟩ := y
    obtain ⟨rfl, h1⟩ := struct_first h
    obtain ⟨rfl, h2⟩ := struct_next h1
    obtain ⟨rfl, h3⟩ := struct_next h2
    obtain ⟨rfl, h4⟩ := struct_next h3
    exact ⟨rfl, struct_last h4⟩
  start _ _ := struct_start (n := "OpFUnordLessThan") (by decide) _
  line _ _ := struct_line (n := "OpFUnordLessThan") (by decide) (cons_named (by decide) (cons_named (by decide) (cons_named (by decide) (cons_named (by decide) none_named))))

instance : Law OpFOrdGreaterThan where
  law _ x y _ _ _ _ h := by
    obtain ⟨a0, a1, a2, a3⟩ := x
    obtain ⟨b0, b1, b2, b3⟩ := y
    obtain ⟨rfl, h1⟩ := struct_first h
    obtain ⟨rfl, h2⟩ := struct_next h1
    obtain ⟨rfl, h3⟩ := struct_next h2
    obtain ⟨rfl, h4⟩ := struct_next h3
    exact ⟨rfl, struct_last h4⟩
  start _ _ := struct_start (n := "OpFOrdGreaterThan") (by decide) _
  line _ _ := struct_line (n := "OpFOrdGreaterThan") (by decide) (cons_named (by decide) (cons_named (by decide) (cons_named (by decide) (cons_named (by decide) none_named))))

instance : Law OpFUnordGreaterThan where
  law _ x y _ _ _ _ h := by
    obtain ⟨a0, a1, a2, a3⟩ := x
    obtain ⟨b0, b1, b2, b3⟩ := y
    obtain ⟨rfl, h1⟩ := struct_first h
    obtain ⟨rfl, h2⟩ := struct_next h1
    obtain ⟨rfl, h3⟩ := struct_next h2
    obtain ⟨rfl, h4⟩ := struct_next h3
    exact ⟨rfl, struct_last h4⟩
  start _ _ := struct_start (n := "OpFUnordGreaterThan") (by decide) _
  line _ _ := struct_line (n := "OpFUnordGreaterThan") (by decide) (cons_named (by decide) (cons_named (by decide) (cons_named (by decide) (cons_named (by decide) none_named))))

instance : Law OpFOrdLessThanEqual where
  law _ x y _ _ _ _ h := by
    obtain ⟨a0, a1, a2, a3⟩ := x
    obtain ⟨b0, b1, b2, b3⟩ := y
    obtain ⟨rfl, h1⟩ := struct_first h
    obtain ⟨rfl, h2⟩ := struct_next h1
    obtain ⟨rfl, h3⟩ := struct_next h2
    obtain ⟨rfl, h4⟩ := struct_next h3
    exact ⟨rfl, struct_last h4⟩
  start _ _ := struct_start (n := "OpFOrdLessThanEqual") (by decide) _
  line _ _ := struct_line (n := "OpFOrdLessThanEqual") (by decide) (cons_named (by decide) (cons_named (by decide) (cons_named (by decide) (cons_named (by decide) none_named))))

instance : Law OpFUnordLessThanEqual where
  law _ x y _ _ _ _ h := by
    obtain ⟨a0, a1, a2, a3⟩ := x
    obtain ⟨b0, b1, b2, b3⟩ := y
    obtain ⟨rfl, h1⟩ := struct_first h
    obtain ⟨rfl, h2⟩ := struct_next h1
    obtain ⟨rfl, h3⟩ := struct_next h2
    obtain ⟨rfl, h4⟩ := struct_next h3
    exact ⟨rfl, struct_last h4⟩
  start _ _ := struct_start (n := "OpFUnordLessThanEqual") (by decide) _
  line _ _ := struct_line (n := "OpFUnordLessThanEqual") (by decide) (cons_named (by decide) (cons_named (by decide) (cons_named (by decide) (cons_named (by decide) none_named))))

instance : Law OpFOrdGreaterThanEqual where
  law _ x y _ _ _ _ h := by
    obtain ⟨a0, a1, a2, a3⟩ := x
    obtain ⟨b0, b1, b2, b3⟩ := y
    obtain ⟨rfl, h1⟩ := struct_first h
    obtain ⟨rfl, h2⟩ := struct_next h1
    obtain ⟨rfl, h3⟩ := struct_next h2
    obtain ⟨rfl, h4⟩ := struct_next h3
    exact ⟨rfl, struct_last h4⟩
  start _ _ := struct_start (n := "OpFOrdGreaterThanEqual") (by decide) _
  line _ _ := struct_line (n := "OpFOrdGreaterThanEqual") (by decide) (cons_named (by decide) (cons_named (by decide) (cons_named (by decide) (cons_named (by decide) none_named))))

instance : Law OpFUnordGreaterThanEqual where
  law _ x y _ _ _ _ h := by
    obtain ⟨a0, a1, a2, a3⟩ := x
    obtain ⟨b0, b1, b2, b3⟩ := y
    obtain ⟨rfl, h1⟩ := struct_first h
    obtain ⟨rfl, h2⟩ := struct_next h1
    obtain ⟨rfl, h3⟩ := struct_next h2
    obtain ⟨rfl, h4⟩ := struct_next h3
    exact ⟨rfl, struct_last h4⟩
  start _ _ := struct_start (n := "OpFUnordGreaterThanEqual") (by decide) _
  line _ _ := struct_line (n := "OpFUnordGreaterThanEqual") (by decide) (cons_named (by decide) (cons_named (by decide) (cons_named (by decide) (cons_named (by decide) none_named))))

instance : Law OpPhi where
  law _ x y _ _ _ _ h := by
    obtain ⟨a0, a1, a2⟩ := x
    obtain ⟨b0, b1, b2⟩ := y
    obtain ⟨rfl, h1⟩ := struct_first h
    obtain ⟨rfl, h2⟩ := struct_next h1
    obtain ⟨rfl, h3⟩ := struct_next h2
    exact ⟨rfl, struct_last h3⟩
  start _ _ := struct_start (n := "OpPhi") (by decide) _
  line _ _ := struct_line (n := "OpPhi") (by decide) (cons_named (by decide) (cons_named (by decide) (cons_named (by decide) none_named)))

instance : Law OpLoopMerge where
  law _ x y _ _ _ _ h := by
    obtain ⟨a0, a1, a2⟩ := x
    obtain ⟨b0, b1, b2⟩ := y
    obtain ⟨rfl, h1⟩ := struct_first h
    obtain ⟨rfl, h2⟩ := struct_next h1
    obtain ⟨rfl, h3⟩ := struct_next h2
    exact ⟨rfl, struct_last h3⟩
  start _ _ := struct_start (n := "OpLoopMerge") (by decide) _
  line _ _ := struct_line (n := "OpLoopMerge") (by decide) (cons_named (by decide) (cons_named (by decide) (cons_named (by decide) none_named)))

instance : Law OpSelectionMerge where
  law _ x y _ _ _ _ h := by
    obtain ⟨a0, a1⟩ := x
    obtain ⟨b0, b1⟩ := y
    obtain ⟨rfl, h1⟩ := struct_first h
    obtain ⟨rfl, h2⟩ := struct_next h1
    exact ⟨rfl, struct_last h2⟩
  start _ _ := struct_start (n := "OpSelectionMerge") (by decide) _
  line _ _ := struct_line (n := "OpSelectionMerge") (by decide) (cons_named (by decide) (cons_named (by decide) none_named))

instance : Law OpLabel where
  law _ x y _ _ _ _ h := by
    obtain ⟨a0⟩ := x
    obtain ⟨b0⟩ := y
    obtain ⟨rfl, h1⟩ := struct_first h
    exact ⟨rfl, struct_last h1⟩
  start _ _ := struct_start (n := "OpLabel") (by decide) _
  line _ _ := struct_line (n := "OpLabel") (by decide) (cons_named (by decide) none_named)

instance : Law OpBranch where
  law _ x y _ _ _ _ h := by
    obtain ⟨a0⟩ := x
    obtain ⟨b0⟩ := y
    obtain ⟨rfl, h1⟩ := struct_first h
    exact ⟨rfl, struct_last h1⟩
  start _ _ := struct_start (n := "OpBranch") (by decide) _
  line _ _ := struct_line (n := "OpBranch") (by decide) (cons_named (by decide) none_named)

instance : Law OpBranchConditional where
  law _ x y _ _ _ _ h := by
    obtain ⟨a0, a1, a2, a3⟩ := x
    obtain ⟨b0, b1, b2, b3⟩ := y
    obtain ⟨rfl, h1⟩ := struct_first h
    obtain ⟨rfl, h2⟩ := struct_next h1
    obtain ⟨rfl, h3⟩ := struct_next h2
    obtain ⟨rfl, h4⟩ := struct_next h3
    exact ⟨rfl, struct_last h4⟩
  start _ _ := struct_start (n := "OpBranchConditional") (by decide) _
  line _ _ := struct_line (n := "OpBranchConditional") (by decide) (cons_named (by decide) (cons_named (by decide) (cons_named (by decide) (cons_named (by decide) none_named))))

instance : Law OpReturn where
  law _ _ _ _ _ _ _ h := ⟨rfl, List.append_cancel_left h⟩
  start _ _ := tuple_start (n := "OpReturn") (by decide) _
  line _ _ := tuple_line (n := "OpReturn") (by decide) none_line

/-- The names of the variants of `Core` -/
def Core.debugNames : List String :=
  ["OpNop",
    "OpUndef",
    "OpSourceContinued",
    "OpSource",
    "OpSourceExtension",
    "OpName",
    "OpMemberName",
    "OpString",
    "OpExtension",
    "OpExtInstImport",
    "OpExtInst",
    "OpMemoryModel",
    "OpEntryPoint",
    "OpExecutionMode",
    "OpCapability",
    "OpTypeVoid",
    "OpTypeBool",
    "OpTypeInt",
    "OpTypeFloat",
    "OpTypeVector",
    "OpTypeMatrix",
    "OpTypeImage",
    "OpTypeSampler",
    "OpTypeSampledImage",
    "OpTypeArray",
    "OpTypeRuntimeArray",
    "OpTypeStruct",
    "OpTypeOpaque",
    "OpTypePointer",
    "OpTypeFunction",
    "OpTypeEvent",
    "OpTypeDeviceEvent",
    "OpTypeQueue",
    "OpTypePipe",
    "OpTypeForwardPointer",
    "OpConstant",
    "OpConstantComposite",
    "OpFunction",
    "OpFunctionParameter",
    "OpFunctionEnd",
    "OpVariable",
    "OpLoad",
    "OpStore",
    "OpAccessChain",
    "OpDecorate",
    "OpMemberDecorate",
    "OpConvertUToF",
    "OpBitcast",
    "OpIAdd",
    "OpFAdd",
    "OpISub",
    "OpFSub",
    "OpIMul",
    "OpFMul",
    "OpUDiv",
    "OpSDiv",
    "OpFDiv",
    "OpUMod",
    "OpSRem",
    "OpSMod",
    "OpFRem",
    "OpFMod",
    "OpIAddCarry",
    "OpISubBorrow",
    "OpUMulExtended",
    "OpSMulExtended",
    "OpBitwiseOr",
    "OpBitwiseXor",
    "OpBitwiseAnd",
    "OpIEqual",
    "OpINotEqual",
    "OpUGreaterThan",
    "OpSGreaterThan",
    "OpUGreaterThanEqual",
    "OpSGreaterThanEqual",
    "OpULessThan",
    "OpSLessThan",
    "OpULessThanEqual",
    "OpSLessThanEqual",
    "OpFOrdEqual",
    "OpFUnordEqual",
    "OpFOrdNotEqual",
    "OpFUnordNotEqual",
    "OpFOrdLessThan",
    "OpFUnordLessThan",
    "OpFOrdGreaterThan",
    "OpFUnordGreaterThan",
    "OpFOrdLessThanEqual",
    "OpFUnordLessThanEqual",
    "OpFOrdGreaterThanEqual",
    "OpFUnordGreaterThanEqual",
    "OpPhi",
    "OpLoopMerge",
    "OpSelectionMerge",
    "OpLabel",
    "OpBranch",
    "OpBranchConditional",
    "OpReturn"]

theorem Core.debugNames_get {X : Type} (x : Core X) : Core.debugNames[x.ctorIdx]? = some x.debugName := by
  cases x <;> rfl

theorem Core.debugNames_nodup : Core.debugNames.Nodup := by decide +kernel

theorem Core.debugNames_ident : ∀ n ∈ Core.debugNames, ident n = true := by decide +kernel

theorem Core.debugName_ident {X : Type} (x : Core X) : ident x.debugName = true :=
  Core.debugNames_ident _ (List.mem_of_getElem? (debugNames_get x))

instance {X : Type} [Debug X] [Law X] : Law (Core X) where
  law _ x y _ _ hs ht h := by
    obtain ⟨hn, hf⟩ := tuple_name x.debugName_ident y.debugName_ident hs ht h
    have hi : y.ctorIdx = x.ctorIdx :=
      same_variant Core.debugNames_nodup (Core.debugNames_get y) (hn ▸ Core.debugNames_get x)
    clear h hn
    revert hf
    cases x with
    | OpNop a0 =>
      refine Core.OpNop.elim y hi fun b0 hf => ?_
      obtain ⟨rfl, h1⟩ := tuple_first hf
      exact ⟨rfl, tuple_last h1⟩
    | OpUndef a0 =>
      refine Core.OpUndef.elim y hi fun b0 hf => ?_
      obtain ⟨rfl, h1⟩ := tuple_first hf
      exact ⟨rfl, tuple_last h1⟩
    | OpSourceContinued a0 =>
      refine Core.OpSourceContinued.elim y hi fun b0 hf => ?_
      obtain ⟨rfl, h1⟩ := tuple_first hf
      exact ⟨rfl, tuple_last h1⟩
    | OpSource a0 =>
      refine Core.OpSource.elim y hi fun b0 hf => ?_
      obtain ⟨rfl, h1⟩ := tuple_first hf
      exact ⟨rfl, tuple_last h1⟩
    | OpSourceExtension a0 =>
      refine Core.OpSourceExtension.elim y hi fun b0 hf => ?_
      obtain ⟨rfl, h1⟩ := tuple_first hf
      exact ⟨rfl, tuple_last h1⟩
    | OpName a0 =>
      refine Core.OpName.elim y hi fun b0 hf => ?_
      obtain ⟨rfl, h1⟩ := tuple_first hf
      exact ⟨rfl, tuple_last h1⟩
    | OpMemberName a0 =>
      refine Core.OpMemberName.elim y hi fun b0 hf => ?_
      obtain ⟨rfl, h1⟩ := tuple_first hf
      exact ⟨rfl, tuple_last h1⟩
    | OpString a0 =>
      refine Core.OpString.elim y hi fun b0 hf => ?_
      obtain ⟨rfl, h1⟩ := tuple_first hf
      exact ⟨rfl, tuple_last h1⟩
    | OpExtension a0 =>
      refine Core.OpExtension.elim y hi fun b0 hf => ?_
      obtain ⟨rfl, h1⟩ := tuple_first hf
      exact ⟨rfl, tuple_last h1⟩
    | OpExtInstImport a0 =>
      refine Core.OpExtInstImport.elim y hi fun b0 hf => ?_
      obtain ⟨rfl, h1⟩ := tuple_first hf
      exact ⟨rfl, tuple_last h1⟩
    | OpExtInst a0 =>
      refine Core.OpExtInst.elim y hi fun b0 hf => ?_
      obtain ⟨rfl, h1⟩ := tuple_first hf
      exact ⟨rfl, tuple_last h1⟩
    | OpMemoryModel a0 =>
      refine Core.OpMemoryModel.elim y hi fun b0 hf => ?_
      obtain ⟨rfl, h1⟩ := tuple_first hf
      exact ⟨rfl, tuple_last h1⟩
    | OpEntryPoint a0 =>
      refine Core.OpEntryPoint.elim y hi fun b0 hf => ?_
      obtain ⟨rfl, h1⟩ := tuple_first hf
      exact ⟨rfl, tuple_last h1⟩
    | OpExecutionMode a0 =>
      refine Core.OpExecutionMode.elim y hi fun b0 hf => ?_
      obtain ⟨rfl, h1⟩ := tuple_first hf
      exact ⟨rfl, tuple_last h1⟩
    | OpCapability a0 =>
      refine Core.OpCapability.elim y hi fun b0 hf => ?_
      obtain ⟨rfl, h1⟩ := tuple_first hf
      exact ⟨rfl, tuple_last h1⟩
    | OpTypeVoid a0 =>
      refine Core.OpTypeVoid.elim y hi fun b0 hf => ?_
      obtain ⟨rfl, h1⟩ := tuple_first hf
      exact ⟨rfl, tuple_last h1⟩
    | OpTypeBool a0 =>
      refine Core.OpTypeBool.elim y hi fun b0 hf => ?_
      obtain ⟨rfl, h1⟩ := tuple_first hf
      exact ⟨rfl, tuple_last h1⟩
    | OpTypeInt a0 =>
      refine Core.OpTypeInt.elim y hi fun b0 hf => ?_
      obtain ⟨rfl, h1⟩ := tuple_first hf
      exact ⟨rfl, tuple_last h1⟩
    | OpTypeFloat a0 =>
      refine Core.OpTypeFloat.elim y hi fun b0 hf => ?_
      obtain ⟨rfl, h1⟩ := tuple_first hf
      exact ⟨rfl, tuple_last h1⟩
    | OpTypeVector a0 =>
      refine Core.OpTypeVector.elim y hi fun b0 hf => ?_
      obtain ⟨rfl, h1⟩ := tuple_first hf
      exact ⟨rfl, tuple_last h1⟩
    | OpTypeMatrix a0 =>
      refine Core.OpTypeMatrix.elim y hi fun b0 hf => ?_
      obtain ⟨rfl, h1⟩ := tuple_first hf
      exact ⟨rfl, tuple_last h1⟩
    | OpTypeImage a0 =>
      refine Core.OpTypeImage.elim y hi fun b0 hf => ?_
      obtain ⟨rfl, h1⟩ := tuple_first hf
      exact ⟨rfl, tuple_last h1⟩
    | OpTypeSampler a0 =>
      refine Core.OpTypeSampler.elim y hi fun b0 hf => ?_
      obtain ⟨rfl, h1⟩ := tuple_first hf
      exact ⟨rfl, tuple_last h1⟩
    | OpTypeSampledImage a0 =>
      refine Core.OpTypeSampledImage.elim y hi fun b0 hf => ?_
      obtain ⟨rfl, h1⟩ := tuple_first hf
      exact ⟨rfl, tuple_last h1⟩
    | OpTypeArray a0 =>
      refine Core.OpTypeArray.elim y hi fun b0 hf => ?_
      obtain ⟨rfl, h1⟩ := tuple_first hf
      exact ⟨rfl, tuple_last h1⟩
    | OpTypeRuntimeArray a0 =>
      refine Core.OpTypeRuntimeArray.elim y hi fun b0 hf => ?_
      obtain ⟨rfl, h1⟩ := tuple_first hf
      exact ⟨rfl, tuple_last h1⟩
    | OpTypeStruct a0 =>
      refine Core.OpTypeStruct.elim y hi fun b0 hf => ?_
      obtain ⟨rfl, h1⟩ := tuple_first hf
      exact ⟨rfl, tuple_last h1⟩
    | OpTypeOpaque a0 =>
      refine Core.OpTypeOpaque.elim y hi fun b0 hf => ?_
      obtain ⟨rfl, h1⟩ := tuple_first hf
      exact ⟨rfl, tuple_last h1⟩
    | OpTypePointer a0 =>
      refine Core.OpTypePointer.elim y hi fun b0 hf => ?_
      obtain ⟨rfl, h1⟩ := tuple_first hf
      exact ⟨rfl, tuple_last h1⟩
    | OpTypeFunction a0 =>
      refine Core.OpTypeFunction.elim y hi fun b0 hf => ?_
      obtain ⟨rfl, h1⟩ := tuple_first hf
      exact ⟨rfl, tuple_last h1⟩
    | OpTypeEvent a0 =>
      refine Core.OpTypeEvent.elim y hi fun b0 hf => ?_
      obtain ⟨rfl, h1⟩ := tuple_first hf
      exact ⟨rfl, tuple_last h1⟩
    | OpTypeDeviceEvent a0 =>
      refine Core.OpTypeDeviceEvent.elim y hi fun b0 hf => ?_
      obtain ⟨rfl, h1⟩ := tuple_first hf
      exact ⟨rfl, tuple_last h1⟩
    | OpTypeQueue a0 =>
      refine Core.OpTypeQueue.elim y hi fun b0 hf => ?_
      obtain ⟨rfl, h1⟩ := tuple_first hf
      exact ⟨rfl, tuple_last h1⟩
    | OpTypePipe a0 =>
      refine Core.OpTypePipe.elim y hi fun b0 hf => ?_
      obtain ⟨rfl, h1⟩ := tuple_first hf
      exact ⟨rfl, tuple_last h1⟩
    | OpTypeForwardPointer a0 =>
      refine Core.OpTypeForwardPointer.elim y hi fun b0 hf => ?_
      obtain ⟨rfl, h1⟩ := tuple_first hf
      exact ⟨rfl, tuple_last h1⟩
    | OpConstant a0 =>
      refine Core.OpConstant.elim y hi fun b0 hf => ?_
      obtain ⟨rfl, h1⟩ := tuple_first hf
      exact ⟨rfl, tuple_last h1⟩
    | OpConstantComposite a0 =>
      refine Core.OpConstantComposite.elim y hi fun b0 hf => ?_
      obtain ⟨rfl, h1⟩ := tuple_first hf
      exact ⟨rfl, tuple_last h1⟩
    | OpFunction a0 =>
      refine Core.OpFunction.elim y hi fun b0 hf => ?_
      obtain ⟨rfl, h1⟩ := tuple_first hf
      exact ⟨rfl, tuple_last h1⟩
    | OpFunctionParameter a0 =>
      refine Core.OpFunctionParameter.elim y hi fun b0 hf => ?_
      obtain ⟨rfl, h1⟩ := tuple_first hf
      exact ⟨rfl, tuple_last h1⟩
    | OpFunctionEnd a0 =>
      refine Core.OpFunctionEnd.elim y hi fun b0 hf => ?_
      obtain ⟨rfl, h1⟩ := tuple_first hf
      exact ⟨rfl, tuple_last h1⟩
    | OpVariable a0 =>
      refine Core.OpVariable.elim y hi fun b0 hf => ?_
      obtain ⟨rfl, h1⟩ := tuple_first hf
      exact ⟨rfl, tuple_last h1⟩
    | OpLoad a0 =>
      refine Core.OpLoad.elim y hi fun b0 hf => ?_
      obtain ⟨rfl, h1⟩ := tuple_first hf
      exact ⟨rfl, tuple_last h1⟩
    | OpStore a0 =>
      refine Core.OpStore.elim y hi fun b0 hf => ?_
      obtain ⟨rfl, h1⟩ := tuple_first hf
      exact ⟨rfl, tuple_last h1⟩
    | OpAccessChain a0 =>
      refine Core.OpAccessChain.elim y hi fun b0 hf => ?_
      obtain ⟨rfl, h1⟩ := tuple_first hf
      exact ⟨rfl, tuple_last h1⟩
    | OpDecorate a0 =>
      refine Core.OpDecorate.elim y hi fun b0 hf => ?_
      obtain ⟨rfl, h1⟩ := tuple_first hf
      exact ⟨rfl, tuple_last h1⟩
    | OpMemberDecorate a0 =>
      refine Core.OpMemberDecorate.elim y hi fun b0 hf => ?_
      obtain ⟨rfl, h1⟩ := tuple_first hf
      exact ⟨rfl, tuple_last h1⟩
    | OpConvertUToF a0 =>
      refine Core.OpConvertUToF.elim y hi fun b0 hf => ?_
      obtain ⟨rfl, h1⟩ := tuple_first hf
      exact ⟨rfl, tuple_last h1⟩
    | OpBitcast a0 =>
      refine Core.OpBitcast.elim y hi fun b0 hf => ?_
      obtain ⟨rfl, h1⟩ := tuple_first hf
      exact ⟨rfl, tuple_last h1⟩
    | OpIAdd a0 =>
      refine Core.OpIAdd.elim y hi fun b0 hf => ?_
      obtain ⟨rfl, h1⟩ := tuple_first hf
      exact ⟨rfl, tuple_last h1⟩
    | OpFAdd a0 =>
      refine Core.OpFAdd.elim y hi fun b0 hf => ?_
      obtain ⟨rfl, h1⟩ := tuple_first hf
      exact ⟨rfl, tuple_last h1⟩
    | OpISub a0 =>
      refine Core.OpISub.elim y hi fun b0 hf => ?_
      obtain ⟨rfl, h1⟩ := tuple_first hf
      exact ⟨rfl, tuple_last h1⟩
    | OpFSub a0 =>
      refine Core.OpFSub.elim y hi fun b0 hf => ?_
      obtain ⟨rfl, h1⟩ := tuple_first hf
      exact ⟨rfl, tuple_last h1⟩
    | OpIMul a0 =>
      refine Core.OpIMul.elim y hi fun b0 hf => ?_
      obtain ⟨rfl, h1⟩ := tuple_first hf
      exact ⟨rfl, tuple_last h1⟩
    | OpFMul a0 =>
      refine Core.OpFMul.elim y hi fun b0 hf => ?_
      obtain ⟨rfl, h1⟩ := tuple_first hf
      exact ⟨rfl, tuple_last h1⟩
    | OpUDiv a0 =>
      refine Core.OpUDiv.elim y hi fun b0 hf => ?_
      obtain ⟨rfl, h1⟩ := tuple_first hf
      exact ⟨rfl, tuple_last h1⟩
    | OpSDiv a0 =>
      refine Core.OpSDiv.elim y hi fun b0 hf => ?_
      obtain ⟨rfl, h1⟩ := tuple_first hf
      exact ⟨rfl, tuple_last h1⟩
    | OpFDiv a0 =>
      refine Core.OpFDiv.elim y hi fun b0 hf => ?_
      obtain ⟨rfl, h1⟩ := tuple_first hf
      exact ⟨rfl, tuple_last h1⟩
    | OpUMod a0 =>
      refine Core.OpUMod.elim y hi fun b0 hf => ?_
      obtain ⟨rfl, h1⟩ := tuple_first hf
      exact ⟨rfl, tuple_last h1⟩
    | OpSRem a0 =>
      refine Core.OpSRem.elim y hi fun b0 hf => ?_
      obtain ⟨rfl, h1⟩ := tuple_first hf
      exact ⟨rfl, tuple_last h1⟩
    | OpSMod a0 =>
      refine Core.OpSMod.elim y hi fun b0 hf => ?_
      obtain ⟨rfl, h1⟩ := tuple_first hf
      exact ⟨rfl, tuple_last h1⟩
    | OpFRem a0 =>
      refine Core.OpFRem.elim y hi fun b0 hf => ?_
      obtain ⟨rfl, h1⟩ := tuple_first hf
      exact ⟨rfl, tuple_last h1⟩
    | OpFMod a0 =>
      refine Core.OpFMod.elim y hi fun b0 hf => ?_
      obtain ⟨rfl, h1⟩ := tuple_first hf
      exact ⟨rfl, tuple_last h1⟩
    | OpIAddCarry a0 =>
      refine Core.OpIAddCarry.elim y hi fun b0 hf => ?_
      obtain ⟨rfl, h1⟩ := tuple_first hf
      exact ⟨rfl, tuple_last h1⟩
    | OpISubBorrow a0 =>
      refine Core.OpISubBorrow.elim y hi fun b0 hf => ?_
      obtain ⟨rfl, h1⟩ := tuple_first hf
      exact ⟨rfl, tuple_last h1⟩
    | OpUMulExtended a0 =>
      refine Core.OpUMulExtended.elim y hi fun b0 hf => ?_
      obtain ⟨rfl, h1⟩ := tuple_first hf
      exact ⟨rfl, tuple_last h1⟩
    | OpSMulExtended a0 =>
      refine Core.OpSMulExtended.elim y hi fun b0 hf => ?_
      obtain ⟨rfl, h1⟩ := tuple_first hf
      exact ⟨rfl, tuple_last h1⟩
    | OpBitwiseOr a0 =>
      refine Core.OpBitwiseOr.elim y hi fun b0 hf => ?_
      obtain ⟨rfl, h1⟩ := tuple_first hf
      exact ⟨rfl, tuple_last h1⟩
    | OpBitwiseXor a0 =>
      refine Core.OpBitwiseXor.elim y hi fun b0 hf => ?_
      obtain ⟨rfl, h1⟩ := tuple_first hf
      exact ⟨rfl, tuple_last h1⟩
    | OpBitwiseAnd a0 =>
      refine Core.OpBitwiseAnd.elim y hi fun b0 hf => ?_
      obtain ⟨rfl, h1⟩ := tuple_first hf
      exact ⟨rfl, tuple_last h1⟩
    | OpIEqual a0 =>
      refine Core.OpIEqual.elim y hi fun b0 hf => ?_
      obtain ⟨rfl, h1⟩ := tuple_first hf
      exact ⟨rfl, tuple_last h1⟩
    | OpINotEqual a0 =>
      refine Core.OpINotEqual.elim y hi fun b0 hf => ?_
      obtain ⟨rfl, h1⟩ := tuple_first hf
      exact ⟨rfl, tuple_last h1⟩
    | OpUGreaterThan a0 =>
      refine Core.OpUGreaterThan.elim y hi fun b0 hf => ?_
      obtain ⟨rfl, h1⟩ := tuple_first hf
      exact ⟨rfl, tuple_last h1⟩
    | OpSGreaterThan a0 =>
      refine Core.OpSGreaterThan.elim y hi fun b0 hf => ?_
      obtain ⟨rfl, h1⟩ := tuple_first hf
      exact ⟨rfl, tuple_last h1⟩
    | OpUGreaterThanEqual a0 =>
      refine Core.OpUGreaterThanEqual.elim y hi fun b0 hf => ?_
      obtain ⟨rfl, h1⟩ := tuple_first hf
      exact ⟨rfl, tuple_last h1⟩
    | OpSGreaterThanEqual a0 =>
      refine Core.OpSGreaterThanEqual.elim y hi fun b0 hf => ?_
      obtain ⟨rfl, h1⟩ := tuple_first hf
      exact ⟨rfl, tuple_last h1⟩
    | OpULessThan a0 =>
      refine Core.OpULessThan.elim y hi fun b0 hf => ?_
      obtain ⟨rfl, h1⟩ := tuple_first hf
      exact ⟨rfl, tuple_last h1⟩
    | OpSLessThan a0 =>
      refine Core.OpSLessThan.elim y hi fun b0 hf => ?_
      obtain ⟨rfl, h1⟩ := tuple_first hf
      exact ⟨rfl, tuple_last h1⟩
    | OpULessThanEqual a0 =>
      refine Core.OpULessThanEqual.elim y hi fun b0 hf => ?_
      obtain ⟨rfl, h1⟩ := tuple_first hf
      exact ⟨rfl, tuple_last h1⟩
    | OpSLessThanEqual a0 =>
      refine Core.OpSLessThanEqual.elim y hi fun b0 hf => ?_
      obtain ⟨rfl, h1⟩ := tuple_first hf
      exact ⟨rfl, tuple_last h1⟩
    | OpFOrdEqual a0 =>
      refine Core.OpFOrdEqual.elim y hi fun b0 hf => ?_
      obtain ⟨rfl, h1⟩ := tuple_first hf
      exact ⟨rfl, tuple_last h1⟩
    | OpFUnordEqual a0 =>
      refine Core.OpFUnordEqual.elim y hi fun b0 hf => ?_
      obtain ⟨rfl, h1⟩ := tuple_first hf
      exact ⟨rfl, tuple_last h1⟩
    | OpFOrdNotEqual a0 =>
      refine Core.OpFOrdNotEqual.elim y hi fun b0 hf => ?_
      obtain ⟨rfl, h1⟩ := tuple_first hf
      exact ⟨rfl, tuple_last h1⟩
    | OpFUnordNotEqual a0 =>
      refine Core.OpFUnordNotEqual.elim y hi fun b0 hf => ?_
      obtain ⟨rfl, h1⟩ := tuple_first hf
      exact ⟨rfl, tuple_last h1⟩
    | OpFOrdLessThan a0 =>
      refine Core.OpFOrdLessThan.elim y hi fun b0 hf => ?_
      obtain ⟨rfl, h1⟩ := tuple_first hf
      exact ⟨rfl, tuple_last h1⟩
    | OpFUnordLessThan a0 =>
      refine Core.OpFUnordLessThan.elim y hi fun b0 hf => ?_
      obtain ⟨rfl, h1⟩ := tuple_first hf
      exact ⟨rfl, tuple_last h1⟩
    | OpFOrdGreaterThan a0 =>
      refine Core.OpFOrdGreaterThan.elim y hi fun b0 hf => ?_
      obtain ⟨rfl, h1⟩ := tuple_first hf
      exact ⟨rfl, tuple_last h1⟩
    | OpFUnordGreaterThan a0 =>
      refine Core.OpFUnordGreaterThan.elim y hi fun b0 hf => ?_
      obtain ⟨rfl, h1⟩ := tuple_first hf
      exact ⟨rfl, tuple_last h1⟩
    | OpFOrdLessThanEqual a0 =>
      refine Core.OpFOrdLessThanEqual.elim y hi fun b0 hf => ?_
      obtain ⟨rfl, h1⟩ := tuple_first hf
      exact ⟨rfl, tuple_last h1⟩
    | OpFUnordLessThanEqual a0 =>
      refine Core.OpFUnordLessThanEqual.elim y hi fun b0 hf => ?_
      obtain ⟨rfl, h1⟩ := tuple_first hf
      exact ⟨rfl, tuple_last h1⟩
    | OpFOrdGreaterThanEqual a0 =>
      refine Core.OpFOrdGreaterThanEqual.elim y hi fun b0 hf => ?_
      obtain ⟨rfl, h1⟩ := tuple_first hf
      exact ⟨rfl, tuple_last h1⟩
    | OpFUnordGreaterThanEqual a0 =>
      refine Core.OpFUnordGreaterThanEqual.elim y hi fun b0 hf => ?_
      obtain ⟨rfl, h1⟩ := tuple_first hf
      exact ⟨rfl, tuple_last h1⟩
    | OpPhi a0 =>
      refine Core.OpPhi.elim y hi fun b0 hf => ?_
      obtain ⟨rfl, h1⟩ := tuple_first hf
      exact ⟨rfl, tuple_last h1⟩
    | OpLoopMerge a0 =>
      refine Core.OpLoopMerge.elim y hi fun b0 hf => ?_
      obtain ⟨rfl, h1⟩ := tuple_first hf
      exact ⟨rfl, tuple_last h1⟩
    | OpSelectionMerge a0 =>
      refine Core.OpSelectionMerge.elim y hi fun b0 hf => ?_
      obtain ⟨rfl, h1⟩ := tuple_first hf
      exact ⟨rfl, tuple_last h1⟩
    | OpLabel a0 =>
      refine Core.OpLabel.elim y hi fun b0 hf => ?_
      obtain ⟨rfl, h1⟩ := tuple_first hf
      exact ⟨rfl, tuple_last h1⟩
    | OpBranch a0 =>
      refine Core.OpBranch.elim y hi fun b0 hf => ?_
      obtain ⟨rfl, h1⟩ := tuple_first hf
      exact ⟨rfl, tuple_last h1⟩
    | OpBranchConditional a0 =>
      refine Core.OpBranchConditional.elim y hi fun b0 hf => ?_
      obtain ⟨rfl, h1⟩ := tuple_first hf
      exact ⟨rfl, tuple_last h1⟩
    | OpReturn a0 =>
      refine Core.OpReturn.elim y hi fun b0 hf => ?_
      obtain ⟨rfl, h1⟩ := tuple_first hf
      exact ⟨rfl, tuple_last h1⟩
  start _ x := tuple_start x.debugName_ident _
  line _ x := by
    refine tuple_line x.debugName_ident ?_
    cases x with
    | OpNop _ => exact (cons_line none_line)
    | OpUndef _ => exact (cons_line none_line)
    | OpSourceContinued _ => exact (cons_line none_line)
    | OpSource _ => exact (cons_line none_line)
    | OpSourceExtension _ => exact (cons_line none_line)
    | OpName _ => exact (cons_line none_line)
    | OpMemberName _ => exact (cons_line none_line)
    | OpString _ => exact (cons_line none_line)
    | OpExtension _ => exact (cons_line none_line)
    | OpExtInstImport _ => exact (cons_line none_line)
    | OpExtInst _ => exact (cons_line none_line)
    | OpMemoryModel _ => exact (cons_line none_line)
    | OpEntryPoint _ => exact (cons_line none_line)
    | OpExecutionMode _ => exact (cons_line none_line)
    | OpCapability _ => exact (cons_line none_line)
    | OpTypeVoid _ => exact (cons_line none_line)
    | OpTypeBool _ => exact (cons_line none_line)
    | OpTypeInt _ => exact (cons_line none_line)
    | OpTypeFloat _ => exact (cons_line none_line)
    | OpTypeVector _ => exact (cons_line none_line)
    | OpTypeMatrix _ => exact (cons_line none_line)
    | OpTypeImage _ => exact (cons_line none_line)
    | OpTypeSampler _ => exact (cons_line none_line)
    | OpTypeSampledImage _ => exact (cons_line none_line)
    | OpTypeArray _ => exact (cons_line none_line)
    | OpTypeRuntimeArray _ => exact (cons_line none_line)
    | OpTypeStruct _ => exact (cons_line none_line)
    | OpTypeOpaque _ => exact (cons_line none_line)
    | OpTypePointer _ => exact (cons_line none_line)
    | OpTypeFunction _ => exact (cons_line none_line)
    | OpTypeEvent _ => exact (cons_line none_line)
    | OpTypeDeviceEvent _ => exact (cons_line none_line)
    | OpTypeQueue _ => exact (cons_line none_line)
    | OpTypePipe _ => exact (cons_line none_line)
    | OpTypeForwardPointer _ => exact (cons_line none_line)
    | OpConstant _ => exact (cons_line none_line)
    | OpConstantComposite _ => exact (cons_line none_line)
    | OpFunction _ => exact (cons_line none_line)
    | OpFunctionParameter _ => exact (cons_line none_line)
    | OpFunctionEnd _ => exact (cons_line none_line)
    | OpVariable _ => exact (cons_line none_line)
    | OpLoad _ => exact (cons_line none_line)
    | OpStore _ => exact (cons_line none_line)
    | OpAccessChain _ => exact (cons_line none_line)
    | OpDecorate _ => exact (cons_line none_line)
    | OpMemberDecorate _ => exact (cons_line none_line)
    | OpConvertUToF _ => exact (cons_line none_line)
    | OpBitcast _ => exact (cons_line none_line)
    | OpIAdd _ => exact (cons_line none_line)
    | OpFAdd _ => exact (cons_line none_line)
    | OpISub _ => exact (cons_line none_line)
    | OpFSub _ => exact (cons_line none_line)
    | OpIMul _ => exact (cons_line none_line)
    | OpFMul _ => exact (cons_line none_line)
    | OpUDiv _ => exact (cons_line none_line)
    | OpSDiv _ => exact (cons_line none_line)
    | OpFDiv _ => exact (cons_line none_line)
    | OpUMod _ => exact (cons_line none_line)
    | OpSRem _ => exact (cons_line none_line)
    | OpSMod _ => exact (cons_line none_line)
    | OpFRem _ => exact (cons_line none_line)
    | OpFMod _ => exact (cons_line none_line)
    | OpIAddCarry _ => exact (cons_line none_line)
    | OpISubBorrow _ => exact (cons_line none_line)
    | OpUMulExtended _ => exact (cons_line none_line)
    | OpSMulExtended _ => exact (cons_line none_line)
    | OpBitwiseOr _ => exact (cons_line none_line)
    | OpBitwiseXor _ => exact (cons_line none_line)
    | OpBitwiseAnd _ => exact (cons_line none_line)
    | OpIEqual _ => exact (cons_line none_line)
    | OpINotEqual _ => exact (cons_line none_line)
    | OpUGreaterThan _ => exact (cons_line none_line)
    | OpSGreaterThan _ => exact (cons_line none_line)
    | OpUGreaterThanEqual _ => exact (cons_line none_line)
    | OpSGreaterThanEqual _ => exact (cons_line none_line)
    | OpULessThan _ => exact (cons_line none_line)
    | OpSLessThan _ => exact (cons_line none_line)
    | OpULessThanEqual _ => exact (cons_line none_line)
    | OpSLessThanEqual _ => exact (cons_line none_line)
    | OpFOrdEqual _ => exact (cons_line none_line)
    | OpFUnordEqual _ => exact (cons_line none_line)
    | OpFOrdNotEqual _ => exact (cons_line none_line)
    | OpFUnordNotEqual _ => exact (cons_line none_line)
    | OpFOrdLessThan _ => exact (cons_line none_line)
    | OpFUnordLessThan _ => exact (cons_line none_line)
    | OpFOrdGreaterThan _ => exact (cons_line none_line)
    | OpFUnordGreaterThan _ => exact (cons_line none_line)
    | OpFOrdLessThanEqual _ => exact (cons_line none_line)
    | OpFUnordLessThanEqual _ => exact (cons_line none_line)
    | OpFOrdGreaterThanEqual _ => exact (cons_line none_line)
    | OpFUnordGreaterThanEqual _ => exact (cons_line none_line)
    | OpPhi _ => exact (cons_line none_line)
    | OpLoopMerge _ => exact (cons_line none_line)
    | OpSelectionMerge _ => exact (cons_line none_line)
    | OpLabel _ => exact (cons_line none_line)
    | OpBranch _ => exact (cons_line none_line)
    | OpBranchConditional _ => exact (cons_line none_line)
    | OpReturn _ => exact (cons_line none_line)

instance {X : Type} [Debug X] [Law X] : Law (RawModule X) where
  law _ x y _ _ _ _ h := by
    obtain ⟨a0, a1, a2, a3⟩ := x
    obtain ⟨b0, b1, b2, b3⟩ := y
    obtain ⟨rfl, h1⟩ := struct_first h
    obtain ⟨rfl, h2⟩ := struct_next h1
    obtain ⟨rfl, h3⟩ := struct_next h2
    obtain ⟨rfl, h4⟩ := struct_next h3
    exact ⟨rfl, struct_last h4⟩
  start _ _ := struct_start (n := "RawModule") (by decide) _
  line _ _ := struct_line (n := "RawModule") (by decide) (cons_named (by decide) (cons_named (by decide) (cons_named (by decide) (cons_named (by decide) none_named))))

end Magma
