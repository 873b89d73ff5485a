import Verif.Model.ControlFlow
/-! The search of `src/spv/logical/control_flow.rs` once more, with a count of the calls of
`search_block`. -/

namespace Magma

/-- An outcome, and the number of calls of `search_block` that were made -/
def Counted (α : Type) := CF α × Nat

namespace Counted

instance : Monad Counted where
  pure a := (.ok a, 0)
  bind x g :=
    match x with
    | (.ok a, n) => ((g a).1, n + (g a).2)
    | (.error e, n) => (.error e, n)

/-- Failure -/
def fail {α : Type} (e : Fault ControlFlowError) : Counted α := (.error e, 0)

/-- One call -/
def call {α : Type} (x : Counted α) : Counted α := (x.1, x.2 + 1)

end Counted

/-- src/spv/logical/control_flow.rs:272-414, as `searchBlock`. `depth` is the number of frames there is
room for. -/
def searchBlockC {X : Type} (block_map : BlockMap X) :
    Nat → BlockId → FlowList → Counted (ControlFlowChain × Continue)
  | 0, _, _ => .fail .diverge
  | depth + 1, id, flow_list => .call (
    if flow_list.merges id then
      return (.block [], .Next id)
    else
      match block_map.get id with
      | none => .fail (.err (.UnknownBlockId id))
      | some block =>
        match block.branch with
        | .OpBranch op =>
          let next_id : BlockId := ⟨op.target_label.val⟩
          match block.merge with
          | some (.OpLoopMerge loop_merge) => do
            let head := id
            let after : BlockId := ⟨loop_merge.merge_block.val⟩
            let hints := loop_merge.loop_control
            let inner_fl := Converge.Loop head after hints :: flow_list
            let (inner_chain, inner_next) ← searchBlockC block_map depth next_id inner_fl
            if inner_next = .Next head then do
              let ctc := ControlFlowChain.Loop id inner_chain hints none
              let (after_chain, after_next) ← searchBlockC block_map depth after flow_list
              return (.block [ctc, after_chain], after_next)
            else
              .fail (.err (.InvalidConvergePrediction .Loop id))
          | none => do
            let (next_chain, next_next) ← searchBlockC block_map depth next_id flow_list
            return (.block [.Atom id, next_chain], next_next)
          | some (.OpSelectionMerge _) => .fail (.panic "not yet implemented")
        | .OpBranchConditional op =>
          let true_block : BlockId := ⟨op.true_label.val⟩
          let false_block : BlockId := ⟨op.false_label.val⟩
          match block.merge with
          | some (.OpSelectionMerge selection) => do
            let merge : BlockId := ⟨selection.merge_block.val⟩
            let hints := selection.selection_control
            let inner_fl := Converge.If merge hints :: flow_list
            let (true_chain, true_next) ← searchBlockC block_map depth true_block inner_fl
            let (false_chain, false_next) ← searchBlockC block_map depth false_block inner_fl
            if true_next = false_next ∧ true_next = .Next merge then do
              let ctc := ControlFlowChain.Selection id true_chain false_chain hints op.weights
              let (next_chain, next_next) ← searchBlockC block_map depth merge flow_list
              return (.block [ctc, next_chain], next_next)
            else
              .fail (.err (.InvalidConvergePrediction .Selection id))
          | some (.OpLoopMerge _) => .fail (.panic "not yet implemented")
          | none =>
            match flow_list.innermostLoop with
            | none => .fail (.err (.CouldNotPredictConverge id))
            | some (head, merge) =>
              let is_break := false_block = merge
              let is_continue := false_block = head
              if is_break ∨ is_continue then do
                let (inner_chain, inner_next) ← searchBlockC block_map depth true_block flow_list
                if inner_next = .Next head then
                  let break_box := if is_break then ControlFlowChain.Break
                    else ControlFlowChain.Continue
                  return (.Selection id inner_chain break_box SelectionControl.default op.weights,
                    inner_next)
                else
                  .fail (.err (.InvalidConvergePrediction .Loop id))
              else
                .fail (.err (.CouldNotPredictConverge id))
        | .OpReturn _ => return (.Atom id, .Return))

/-- src/spv/logical/control_flow.rs:156-185, as `findControlFlow` -/
def findControlFlowC {X : Type} (depth : Nat) (decl : FunctionDefinition X) :
    Counted ControlFlowChain :=
  match buildBlockMap decl.blocks [] with
  | .error e => .fail e
  | .ok block_map =>
    match decl.blocks with
    | [] => .fail (.err .NoBlocks)
    | first :: _ => do
      let start : BlockId := ⟨first.label.result_id.val⟩
      let (chain, next) ← searchBlockC block_map depth start []
      match next with
      | .Return => return chain
      | _ => .fail (.err .Failed)

end Magma
