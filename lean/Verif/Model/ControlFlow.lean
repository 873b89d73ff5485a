import Verif.Model.Logical
import Verif.Model.Block
/-! Structured control flow recovery (`src/spv/logical/control_flow.rs`). -/

namespace Magma

/-- src/spv/logical/control_flow.rs:9-10 -/
structure BlockId where
  val : UInt32
  deriving DecidableEq, Repr

/-- src/spv/logical/control_flow.rs:18-31 -/
inductive ControlFlowChain where
  | Atom (id : BlockId)
  | Block (chains : List ControlFlowChain)
  | Selection (id : BlockId) (left right : ControlFlowChain) (hint : SelectionControl)
      (weights : Option BranchWeights)
  | Loop (id : BlockId) (inner : ControlFlowChain) (hint : LoopControl)
      (weights : Option BranchWeights)
  | Break
  | Continue

/-- The `for` loop of src/spv/logical/control_flow.rs:54-66 -/
def ControlFlowChain.mergeAll : List ControlFlowChain → List ControlFlowChain
  | [] => []
  | .Block more :: chains => more ++ mergeAll chains
  | chain :: chains => chain :: mergeAll chains

/-- src/spv/logical/control_flow.rs:41-71 -/
def ControlFlowChain.block (chains : List ControlFlowChain) : ControlFlowChain :=
  match chains with
  | [] => .Block []
  | [chain] => chain
  | chains => .Block (mergeAll chains)

/-- src/spv/logical/control_flow.rs:136-140 -/
inductive ControlType where
  | Selection
  | Loop
  deriving DecidableEq, Repr

/-- src/spv/logical/control_flow.rs:142-150 -/
inductive ControlFlowError where
  | DuplicateBlockId (id : BlockId)
  | NoBlocks
  | UnknownBlockId (id : BlockId)
  | CouldNotPredictConverge (id : BlockId)
  | InvalidConvergePrediction (ty : ControlType) (id : BlockId)
  | Failed
  deriving DecidableEq, Repr

/-- src/spv/logical/control_flow.rs:152 extended with panics and divergence -/
abbrev CF (α : Type) := Except (Fault ControlFlowError) α

/-- src/spv/logical/control_flow.rs:188-192 -/
inductive Continue where
  | Next (id : BlockId)
  | Return
  deriving DecidableEq, Repr

/-- src/spv/logical/control_flow.rs:194-199 -/
inductive Converge where
  | If (merge : BlockId) (hint : SelectionControl)
  | Loop (head merge : BlockId) (hint : LoopControl)
  deriving DecidableEq, Repr

/-- src/spv/logical/control_flow.rs:201-205 and 233-253: the linked list of enclosing constructs,
innermost first. -/
abbrev FlowList := List Converge

/-- src/spv/logical/control_flow.rs:208-221 and 255-261 -/
def FlowList.merges : FlowList → BlockId → Bool
  | [], _ => false
  | .If join _ :: rest, id => if join = id then true else merges rest id
  | .Loop join _ _ :: rest, id => if join = id then true else merges rest id

/-- src/spv/logical/control_flow.rs:223-231 and 263-269 -/
def FlowList.innermostLoop : FlowList → Option (BlockId × BlockId)
  | [] => none
  | .Loop head merge _ :: _ => some (head, merge)
  | .If _ _ :: rest => innermostLoop rest

/-- src/spv/logical/control_flow.rs:154: the hash map from ids to blocks, as the entries inserted -/
abbrev BlockMap (X : Type) := List (BlockId × BasicBlock X)

/-- `HashMap::get` -/
def BlockMap.get {X : Type} (m : BlockMap X) (id : BlockId) : Option (BasicBlock X) :=
  List.lookup id m

/-- `impl Default` derived for flags (src/spv/types.rs:1203-1207) -/
def SelectionControl.default : SelectionControl := { flatten := false, dont_flatten := false }

/-- `impl Default` derived for flags (src/spv/types.rs:1168-1176) -/
def LoopControl.default : LoopControl :=
  { unroll := false, dont_unroll := false, dependency_infinite := false, dependency_length := none }

/-- src/spv/logical/control_flow.rs:272-414. One unit of fuel per recursive call depth;
`unimplemented!()` is a panic. -/
def searchBlock {X : Type} (block_map : BlockMap X) :
    Nat → BlockId → FlowList → CF (ControlFlowChain × Continue)
  | 0, _, _ => .error .diverge
  | fuel + 1, id, flow_list =>
    if flow_list.merges id then
      .ok (.block [], .Next id)
    else
      match block_map.get id with
      | none => .error (.err (.UnknownBlockId id))
      | some block =>
        match block.branch with
        | .OpBranch op =>
          let next_id : BlockId := ⟨op.target_label.val⟩
          match block.merge with
          | some (.OpLoopMerge loop_merge) => do
            let head := id
            let after : BlockId := ⟨loop_merge.merge_block.val⟩
            let hints := loop_merge.loop_control
            let inner_fl := Converge.Loop head after hints :: flow_list
            let (inner_chain, inner_next) ← searchBlock block_map fuel next_id inner_fl
            if inner_next = .Next head then do
              let ctc := ControlFlowChain.Loop id inner_chain hints none
              let (after_chain, after_next) ← searchBlock block_map fuel after flow_list
              return (.block [ctc, after_chain], after_next)
            else
              .error (.err (.InvalidConvergePrediction .Loop id))
          | none => do
            let (next_chain, next_next) ← searchBlock block_map fuel next_id flow_list
            return (.block [.Atom id, next_chain], next_next)
          | some (.OpSelectionMerge _) => .error (.panic "not yet implemented")
        | .OpBranchConditional op =>
          let true_block : BlockId := ⟨op.true_label.val⟩
          let false_block : BlockId := ⟨op.false_label.val⟩
          match block.merge with
          | some (.OpSelectionMerge selection) => do
            let merge : BlockId := ⟨selection.merge_block.val⟩
            let hints := selection.selection_control
            let inner_fl := Converge.If merge hints :: flow_list
            let (true_chain, true_next) ← searchBlock block_map fuel true_block inner_fl
            let (false_chain, false_next) ← searchBlock block_map fuel false_block inner_fl
            if true_next = false_next ∧ true_next = .Next merge then do
              let ctc := ControlFlowChain.Selection id true_chain false_chain hints op.weights
              let (next_chain, next_next) ← searchBlock block_map fuel merge flow_list
              return (.block [ctc, next_chain], next_next)
            else
              .error (.err (.InvalidConvergePrediction .Selection id))
          | some (.OpLoopMerge _) => .error (.panic "not yet implemented")
          | none =>
            match flow_list.innermostLoop with
            | none => .error (.err (.CouldNotPredictConverge id))
            | some (head, merge) =>
              let is_break := false_block = merge
              let is_continue := false_block = head
              if is_break ∨ is_continue then do
                let (inner_chain, inner_next) ← searchBlock block_map fuel true_block flow_list
                if inner_next = .Next head then
                  let break_box := if is_break then ControlFlowChain.Break
                    else ControlFlowChain.Continue
                  return (.Selection id inner_chain break_box SelectionControl.default op.weights,
                    inner_next)
                else
                  .error (.err (.InvalidConvergePrediction .Loop id))
              else
                .error (.err (.CouldNotPredictConverge id))
        | .OpReturn _ => .ok (.Atom id, .Return)

/-- src/spv/logical/control_flow.rs:160-172: the loop that fills the map. `HashMap::insert` of a
key that is present makes the function return. -/
def buildBlockMap {X : Type} : List (BasicBlock X) → BlockMap X → CF (BlockMap X)
  | [], map => .ok map
  | block :: blocks, map =>
    let id : BlockId := ⟨block.label.result_id.val⟩
    if (map.get id).isSome then .error (.err (.DuplicateBlockId id))
    else buildBlockMap blocks ((id, block) :: map)

/-- src/spv/logical/control_flow.rs:156-185, with `fuel` bounding the depth of recursion of
`search_block`. The outcome of the Rust function is the outcome for every large enough fuel
(`Proofs/ControlFlow.lean` shows that more fuel never changes an outcome); if the outcome is
`diverge` for every fuel, the Rust function recurses without end. -/
def findControlFlow {X : Type} (fuel : Nat) (decl : FunctionDefinition X) :
    CF ControlFlowChain := do
  let block_map ← buildBlockMap decl.blocks []
  match decl.blocks with
  | [] => .error (.err .NoBlocks)
  | first :: _ => do
    let start : BlockId := ⟨first.label.result_id.val⟩
    let (chain, next) ← searchBlock block_map fuel start []
    match next with
    | .Return => return chain
    | _ => .error (.err .Failed)

end Magma
