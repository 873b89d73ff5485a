import Verif.Model.Printer
/-! The printers of `src/spv/logical/control_flow.rs` once more, on a stack that has room for a limited
number of frames of `fmt_indent` and with a count of its calls. The outcome is `.error .diverge` when
the room is used up (the stack overflow that ends the process). -/

namespace Magma

mutual
/-- src/spv/logical/control_flow.rs:73-133, as `ControlFlowChain.fmtIndent` -/
def ControlFlowChain.fmtIndentC : ControlFlowChain → Nat → Nat → P (Text × Nat)
  | .Atom id, depth, indent =>
    if depth = 0 then .error .diverge
    else .ok (writeIndent indent ++ Display.fmt id ++ "\n".toList, 1)
  | .Block block, depth, indent =>
    if depth = 0 then .error .diverge
    else do
      let (text, n) ← ControlFlowChain.fmtIndentAllC block (depth - 1) indent
      .ok (text, n + 1)
  | .Selection id left right hint weights, depth, indent =>
    if depth = 0 then .error .diverge
    else do
      let (l, n) ← left.fmtIndentC (depth - 1) (indent + 1)
      let (r, m) ← if right.isEmptyBlock then pure ([], 0)
        else do
          let (r, m) ← right.fmtIndentC (depth - 1) (indent + 1)
          pure (writeIndent indent ++ "} else {\n".toList ++ r, m)
      .ok (writeIndent indent ++ "selection ".toList ++ Display.fmt id ++
        fmtSelectionHint hint ++ fmtWeights weights ++ " {\n".toList ++ l ++ r ++
        writeIndent indent ++ "}\n".toList, n + m + 1)
  | .Loop id inner hint weights, depth, indent =>
    if depth = 0 then .error .diverge
    else do
      let (i, n) ← inner.fmtIndentC (depth - 1) (indent + 1)
      .ok (writeIndent indent ++ "loop ".toList ++ Display.fmt id ++
        fmtLoopHint hint ++ fmtWeights weights ++ " {\n".toList ++ i ++
        writeIndent indent ++ "}\n".toList, n + 1)
  | .Break, depth, indent =>
    if depth = 0 then .error .diverge
    else .ok (writeIndent indent ++ "break;\n".toList, 1)
  | .Continue, depth, indent =>
    if depth = 0 then .error .diverge
    else .ok (writeIndent indent ++ "continue;\n".toList, 1)
/-- The loop of src/spv/logical/control_flow.rs:86-88 -/
def ControlFlowChain.fmtIndentAllC : List ControlFlowChain → Nat → Nat → P (Text × Nat)
  | [], _, _ => .ok ([], 0)
  | cfc :: block, depth, indent => do
    let (a, n) ← cfc.fmtIndentC depth indent
    let (b, m) ← ControlFlowChain.fmtIndentAllC block depth indent
    .ok (a ++ b, n + m)
end

/-- src/spv/logical/control_flow.rs:33-37, as `Display.fmt` -/
def ControlFlowChain.fmtC (depth : Nat) (chain : ControlFlowChain) : P (Text × Nat) :=
  chain.fmtIndentC depth 0

mutual
/-- src/spv/logical/control_flow.rs:453-513, as `fmtFunctionIndent`; `fmt_block_indent` has no
recursion -/
def fmtFunctionIndentC {X : Type} [Display X] (f : FunctionDefinition X) :
    ControlFlowChain → Nat → Nat → P (Text × Nat)
  | .Atom id, depth, indent =>
    if depth = 0 then .error .diverge
    else do
      let b ← fmtBlockIndent f indent id
      .ok (b, 1)
  | .Block block, depth, indent =>
    if depth = 0 then .error .diverge
    else do
      let (text, n) ← fmtFunctionIndentAllC f block (depth - 1) indent
      .ok (text, n + 1)
  | .Selection id left right hint weights, depth, indent =>
    if depth = 0 then .error .diverge
    else do
      let b ← fmtBlockIndent f indent id
      let (l, n) ← fmtFunctionIndentC f left (depth - 1) (indent + 1)
      let (r, m) ← if right.isEmptyBlock then pure ([], 0)
        else do
          let (r, m) ← fmtFunctionIndentC f right (depth - 1) (indent + 1)
          pure (writeIndent indent ++ "} else {\n".toList ++ r, m)
      .ok (b ++ fmtSelectionHint hint ++ fmtWeights weights ++ writeIndent indent ++
        "{\n".toList ++ l ++ r ++ writeIndent indent ++ "}\n".toList, n + m + 1)
  | .Loop id inner hint weights, depth, indent =>
    if depth = 0 then .error .diverge
    else do
      let b ← fmtBlockIndent f indent id
      let (i, n) ← fmtFunctionIndentC f inner (depth - 1) (indent + 1)
      .ok (b ++ fmtLoopHint hint ++ fmtWeights weights ++ writeIndent indent ++
        "{\n".toList ++ i ++ writeIndent indent ++ "}\n".toList, n + 1)
  | .Break, depth, indent =>
    if depth = 0 then .error .diverge
    else .ok (writeIndent indent ++ "break;\n".toList, 1)
  | .Continue, depth, indent =>
    if depth = 0 then .error .diverge
    else .ok (writeIndent indent ++ "continue;\n".toList, 1)
/-- The loop of src/spv/logical/control_flow.rs:465-468 -/
def fmtFunctionIndentAllC {X : Type} [Display X] (f : FunctionDefinition X) :
    List ControlFlowChain → Nat → Nat → P (Text × Nat)
  | [], _, _ => .ok ([], 0)
  | cfc :: block, depth, indent => do
    let (a, n) ← fmtFunctionIndentC f cfc depth indent
    let (b, m) ← fmtFunctionIndentAllC f block depth indent
    .ok (a ++ b, n + m)
end

/-- src/spv/logical/control_flow.rs:418-422, as `fmtFunction` -/
def fmtFunctionC {X : Type} [Display X] (f : FunctionDefinition X) (depth : Nat)
    (c : ControlFlowChain) : P (Text × Nat) :=
  fmtFunctionIndentC f c depth 0

end Magma
