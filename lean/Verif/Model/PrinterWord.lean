import Verif.Model.PrinterCost
/-! The printers of `src/spv/logical/control_flow.rs` a third time: `indent` is a `u32`, and `indent + 1` overflows as
the build has it. -/

namespace Magma

/-- How the crate is built: whether an addition that overflows panics, or wraps around -/
inductive Build where
  | debug
  | release
  deriving DecidableEq, Repr

/-- `indent + 1` (src/spv/logical/control_flow.rs:101, 105, 120, 480, 484, 499) -/
def Build.plusOne : Build → UInt32 → P UInt32
  | .debug, indent =>
    if indent.toNat + 1 < 4294967296 then .ok (indent + 1) else .error (.panic "attempt to add with overflow")
  | .release, indent => .ok (indent + 1)

mutual
/-- src/spv/logical/control_flow.rs:73-133, as `ControlFlowChain.fmtIndent` -/
def ControlFlowChain.fmtIndentU (build : Build) : ControlFlowChain → Nat → UInt32 → P (Text × Nat)
  | .Atom id, depth, indent =>
    if depth = 0 then .error .diverge
    else .ok (writeIndent indent.toNat ++ Display.fmt id ++ "\n".toList, 1)
  | .Block block, depth, indent =>
    if depth = 0 then .error .diverge
    else do
      let (text, n) ← ControlFlowChain.fmtIndentAllU build block (depth - 1) indent
      .ok (text, n + 1)
  | .Selection id left right hint weights, depth, indent =>
    if depth = 0 then .error .diverge
    else do
      let more ← build.plusOne indent
      let (l, n) ← left.fmtIndentU build (depth - 1) more
      let (r, m) ← if right.isEmptyBlock then pure ([], 0)
        else do
          let more ← build.plusOne indent
          let (r, m) ← right.fmtIndentU build (depth - 1) more
          pure (writeIndent indent.toNat ++ "} else {\n".toList ++ r, m)
      .ok (writeIndent indent.toNat ++ "selection ".toList ++ Display.fmt id ++
        fmtSelectionHint hint ++ fmtWeights weights ++ " {\n".toList ++ l ++ r ++
        writeIndent indent.toNat ++ "}\n".toList, n + m + 1)
  | .Loop id inner hint weights, depth, indent =>
    if depth = 0 then .error .diverge
    else do
      let more ← build.plusOne indent
      let (i, n) ← inner.fmtIndentU build (depth - 1) more
      .ok (writeIndent indent.toNat ++ "loop ".toList ++ Display.fmt id ++
        fmtLoopHint hint ++ fmtWeights weights ++ " {\n".toList ++ i ++
        writeIndent indent.toNat ++ "}\n".toList, n + 1)
  | .Break, depth, indent =>
    if depth = 0 then .error .diverge
    else .ok (writeIndent indent.toNat ++ "break;\n".toList, 1)
  | .Continue, depth, indent =>
    if depth = 0 then .error .diverge
    else .ok (writeIndent indent.toNat ++ "continue;\n".toList, 1)
/-- The loop of src/spv/logical/control_flow.rs:86-88 -/
def ControlFlowChain.fmtIndentAllU (build : Build) : List ControlFlowChain → Nat → UInt32 → P (Text × Nat)
  | [], _, _ => .ok ([], 0)
  | cfc :: block, depth, indent => do
    let (a, n) ← cfc.fmtIndentU build depth indent
    let (b, m) ← ControlFlowChain.fmtIndentAllU build block depth indent
    .ok (a ++ b, n + m)
end

/-- src/spv/logical/control_flow.rs:33-37, as `Display.fmt` -/
def ControlFlowChain.fmtU (build : Build) (depth : Nat) (chain : ControlFlowChain) : P (Text × Nat) :=
  chain.fmtIndentU build depth 0

mutual
/-- src/spv/logical/control_flow.rs:453-513, as `fmtFunctionIndent`; `fmt_block_indent` has no
recursion -/
def fmtFunctionIndentU {X : Type} [Display X] (build : Build) (f : FunctionDefinition X) :
    ControlFlowChain → Nat → UInt32 → P (Text × Nat)
  | .Atom id, depth, indent =>
    if depth = 0 then .error .diverge
    else do
      let b ← fmtBlockIndent f indent.toNat id
      .ok (b, 1)
  | .Block block, depth, indent =>
    if depth = 0 then .error .diverge
    else do
      let (text, n) ← fmtFunctionIndentAllU build f block (depth - 1) indent
      .ok (text, n + 1)
  | .Selection id left right hint weights, depth, indent =>
    if depth = 0 then .error .diverge
    else do
      let b ← fmtBlockIndent f indent.toNat id
      let more ← build.plusOne indent
      let (l, n) ← fmtFunctionIndentU build f left (depth - 1) more
      let (r, m) ← if right.isEmptyBlock then pure ([], 0)
        else do
          let more ← build.plusOne indent
          let (r, m) ← fmtFunctionIndentU build f right (depth - 1) more
          pure (writeIndent indent.toNat ++ "} else {\n".toList ++ r, m)
      .ok (b ++ fmtSelectionHint hint ++ fmtWeights weights ++ writeIndent indent.toNat ++
        "{\n".toList ++ l ++ r ++ writeIndent indent.toNat ++ "}\n".toList, n + m + 1)
  | .Loop id inner hint weights, depth, indent =>
    if depth = 0 then .error .diverge
    else do
      let b ← fmtBlockIndent f indent.toNat id
      let more ← build.plusOne indent
      let (i, n) ← fmtFunctionIndentU build f inner (depth - 1) more
      .ok (b ++ fmtLoopHint hint ++ fmtWeights weights ++ writeIndent indent.toNat ++
        "{\n".toList ++ i ++ writeIndent indent.toNat ++ "}\n".toList, n + 1)
  | .Break, depth, indent =>
    if depth = 0 then .error .diverge
    else .ok (writeIndent indent.toNat ++ "break;\n".toList, 1)
  | .Continue, depth, indent =>
    if depth = 0 then .error .diverge
    else .ok (writeIndent indent.toNat ++ "continue;\n".toList, 1)
/-- The loop of src/spv/logical/control_flow.rs:465-468 -/
def fmtFunctionIndentAllU {X : Type} [Display X] (build : Build) (f : FunctionDefinition X) :
    List ControlFlowChain → Nat → UInt32 → P (Text × Nat)
  | [], _, _ => .ok ([], 0)
  | cfc :: block, depth, indent => do
    let (a, n) ← fmtFunctionIndentU build f cfc depth indent
    let (b, m) ← fmtFunctionIndentAllU build f block depth indent
    .ok (a ++ b, n + m)
end

/-- src/spv/logical/control_flow.rs:418-422, as `fmtFunction` -/
def fmtFunctionU {X : Type} [Display X] (build : Build) (f : FunctionDefinition X) (depth : Nat)
    (c : ControlFlowChain) : P (Text × Nat) :=
  fmtFunctionIndentU build f c depth 0

end Magma
