import Verif.Proofs.FlowText
import Verif.Props.Printing
import Verif.Props.Listing
import Verif.Props.Validate
import Verif.Props.EndToEnd
/-! C67: the text of recovered control flow. -/

namespace Magma.Props
open Spec
variable {X : Type} [Display X]

/-! ### C67 -/

/-- C67: a chain is printed as its rows. -/
theorem C67_chain (chain : ControlFlowChain) : Display.fmt chain = rowsText (chainRows chain) := by
  show chain.fmtIndent 0 = _
  rw [fmtIndent_eq, chainRows_lines, unlines_rows]

/-- C67: a function is printed as its rows, if every block that the chain names is there once. -/
theorem C67_function (f : FunctionDefinition X) (chain : ControlFlowChain)
    (h : ∀ id ∈ chainIds chain, (blocksAt f.blocks id).length = 1) :
    fmtFunction f chain = .ok (rowsText (functionRows (blockAt f) chain)) := by
  obtain ⟨text, ht⟩ := (C36_panics f chain).mpr h
  rw [ht, fmtFunction_lines f chain 0 text ht, functionRows_lines, unlines_rows]

/-- C67: so it is along the control flow recovered from it. -/
theorem C67_recovered {fuel : Nat} {f : FunctionDefinition X} {chain : ControlFlowChain}
    (h : findControlFlow fuel f = .ok chain) :
    fmtFunction f chain = .ok (rowsText (functionRows (blockAt f) chain)) :=
  C67_function f chain ((C36_panics f chain).mp (C36_no_panic h))

/-- C67: and the lines of instructions in it are lines of the disassembly, in their order, if the function is that
of a module that was read and validated. -/
theorem C67_code {ext : ExtText} {known : List (ExtInstSet X)} (hx : ShowsSets ext known) {bytes : List UInt8}
    {raw : RawModule X} {m : LogicalModule X} (hr : readModule bytes known = .ok raw) (hv : validate raw = .ok m)
    {f : FunctionDefinition X} (hf : f ∈ m.function_definitions) :
    (f.blocks.flatMap shownInsts).Sublist (moduleLines ext (wordsOf (bytes.head? = some 0x03) (bytes.drop 4)).1) := by
  rw [← readModule_moduleLines hx hr, ← C20_lossless hv]
  exact (shown_sublist hf).trans (List.sublist_append_right _ _)

/-- Rows of a chain: the notes of a selection and a loop, an else branch, and none -/
example : rowsText (chainRows (.Block [.Loop ⟨12⟩ (.Selection ⟨13⟩ (.Block []) .Break ⟨true, true⟩ (some ⟨3, 4⟩))
      ⟨true, false, false, some 5⟩ none, .Selection ⟨14⟩ (.Atom ⟨15⟩) (.Block []) ⟨false, false⟩ none])) =
    ("loop %12 [Unroll | DependencyLength(5)] {\n    selection %13 [Flatten | DontFlatten] [3 4] {\n    } else {\n" ++
      "        break;\n    }\n}\nselection %14 {\n    %15\n}\n").toList := by
  decide +kernel

/-- Rows of a function: the notes are before the indentation. -/
example : rowsText (functionRows (blockAt (functionOf sampleBlocks))
      (.Loop ⟨12⟩ (.Selection ⟨13⟩ (.Block []) .Continue ⟨true, false⟩ none) ⟨false, false, false, none⟩ none)) =
    ("> Begin 12\n>>>                OpBranch %13\n> End 12\n{\n" ++
      "    > Begin 13\n    >>>                OpBranchConditional %6 %14 %16\n    > End 13\n [Flatten]    {\n    } else {\n" ++
      "        continue;\n    }\n}\n").toList := by
  decide +kernel

example : findControlFlow 9 (functionOf sampleBlocks) = .ok sampleChain := sample_found

-- a chain of another function does not meet the hypothesis of `C67_function`
example : ¬ ∀ id ∈ chainIds (.Atom ⟨99⟩), (blocksAt (functionOf sampleBlocks).blocks id).length = 1 := by
  intro h
  exact absurd (h 99 (.head _)) (by decide)

-- the shader of C43: it is read, validated and printed
example : ShowsSets (X := Empty) glslText [] ∧ readModule (shaderBytes true) [] = .ok shaderRaw ∧
    validate shaderRaw = .ok shaderLogical ∧ shaderFn ∈ shaderLogical.function_definitions ∧
    shaderFn.blocks.flatMap shownInsts = ["               OpBranchConditional %5 %11 %12".toList,
      "               OpBranch %12".toList, "               OpReturn".toList] ∧
    rowsText (functionRows (blockAt shaderFn) shaderChain) =
      ("> Begin 10\n>>>                OpBranchConditional %5 %11 %12\n> End 10\n [Flatten]{\n" ++
       "    > Begin 11\n    >>>                OpBranch %12\n    > End 11\n}\n" ++
       "> Begin 12\n>>>                OpReturn\n> End 12\n").toList :=
  ⟨(fun _ h => by cases h), shader_read true, shader_validate, List.mem_singleton.mpr rfl, by decide +kernel,
    by decide +kernel⟩

example : fmtFunction (functionOf sampleBlocks) sampleChain =
    .ok (rowsText (functionRows (blockAt (functionOf sampleBlocks)) sampleChain)) := C67_recovered sample_found

end Magma.Props
