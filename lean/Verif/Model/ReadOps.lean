import Verif.Model.ReadTypes
import Verif.Model.Op
/-! Generated by `tools/gen.py` from the Rust source; citations are to `/repo`. -/

namespace Magma

/-- src/spv/raw/reader.rs:484 (macro 440-467) -/
def OpNop.read (block : Block) : R (Block × OpNop) := do
  return (block, {})

/-- src/spv/raw/reader.rs:485 (macro 440-467) -/
def OpUndef.read (block : Block) : R (Block × OpUndef) := do
  let (block, result_type) ← MemoryBlockRead.read block
  let (block, result_id) ← MemoryBlockRead.read block
  return (block, { result_type := result_type, result_id := result_id })

/-- src/spv/raw/reader.rs:488 (macro 440-467) -/
def OpSourceContinued.read (block : Block) : R (Block × OpSourceContinued) := do
  let (block, continued_source) ← MemoryBlockRead.read block
  return (block, { continued_source := continued_source })

/-- src/spv/raw/reader.rs:489 (macro 440-467) -/
def OpSource.read (block : Block) : R (Block × OpSource) := do
  let (block, language) ← MemoryBlockRead.read block
  let (block, version) ← MemoryBlockRead.read block
  let (block, file) ← MemoryBlockRead.read block
  let (block, source) ← MemoryBlockRead.read block
  return (block, { language := language, version := version, file := file, source := source })

/-- src/spv/raw/reader.rs:490 (macro 440-467) -/
def OpSourceExtension.read (block : Block) : R (Block × OpSourceExtension) := do
  let (block, extension) ← MemoryBlockRead.read block
  return (block, { extension := extension })

/-- src/spv/raw/reader.rs:491 (macro 440-467) -/
def OpName.read (block : Block) : R (Block × OpName) := do
  let (block, target) ← MemoryBlockRead.read block
  let (block, name) ← MemoryBlockRead.read block
  return (block, { target := target, name := name })

/-- src/spv/raw/reader.rs:492 (macro 440-467) -/
def OpMemberName.read (block : Block) : R (Block × OpMemberName) := do
  let (block, struct_type) ← MemoryBlockRead.read block
  let (block, member) ← MemoryBlockRead.read block
  let (block, name) ← MemoryBlockRead.read block
  return (block, { struct_type := struct_type, member := member, name := name })

/-- src/spv/raw/reader.rs:493 (macro 440-467) -/
def OpString.read (block : Block) : R (Block × OpString) := do
  let (block, result_id) ← MemoryBlockRead.read block
  let (block, string) ← MemoryBlockRead.read block
  return (block, { result_id := result_id, string := string })

/-- src/spv/raw/reader.rs:496 (macro 440-467) -/
def OpDecorate.read (block : Block) : R (Block × OpDecorate) := do
  let (block, target) ← MemoryBlockRead.read block
  let (block, decoration) ← MemoryBlockRead.read block
  return (block, { target := target, decoration := decoration })

/-- src/spv/raw/reader.rs:497 (macro 440-467) -/
def OpMemberDecorate.read (block : Block) : R (Block × OpMemberDecorate) := do
  let (block, structure_type) ← MemoryBlockRead.read block
  let (block, member) ← MemoryBlockRead.read block
  let (block, decoration) ← MemoryBlockRead.read block
  return (block, { structure_type := structure_type, member := member, decoration := decoration })

/-- src/spv/raw/reader.rs:500 (macro 440-467) -/
def OpExtension.read (block : Block) : R (Block × OpExtension) := do
  let (block, name) ← MemoryBlockRead.read block
  return (block, { name := name })

/-- src/spv/raw/reader.rs:551 (macro 440-467) -/
def OpMemoryModel.read (block : Block) : R (Block × OpMemoryModel) := do
  let (block, addressing_model) ← MemoryBlockRead.read block
  let (block, memory_model) ← MemoryBlockRead.read block
  return (block, { addressing_model := addressing_model, memory_model := memory_model })

/-- src/spv/raw/reader.rs:552 (macro 440-467) -/
def OpEntryPoint.read (block : Block) : R (Block × OpEntryPoint) := do
  let (block, execution_model) ← MemoryBlockRead.read block
  let (block, entry_point) ← MemoryBlockRead.read block
  let (block, name) ← MemoryBlockRead.read block
  let (block, interface) ← MemoryBlockRead.read block
  return (block, { execution_model := execution_model, entry_point := entry_point, name := name, interface := interface })

/-- src/spv/raw/reader.rs:553 (macro 440-467) -/
def OpExecutionMode.read (block : Block) : R (Block × OpExecutionMode) := do
  let (block, entry_point) ← MemoryBlockRead.read block
  let (block, mode) ← MemoryBlockRead.read block
  return (block, { entry_point := entry_point, mode := mode })

/-- src/spv/raw/reader.rs:554 (macro 440-467) -/
def OpCapability.read (block : Block) : R (Block × OpCapability) := do
  let (block, capability) ← MemoryBlockRead.read block
  return (block, { capability := capability })

/-- src/spv/raw/reader.rs:557 (macro 440-467) -/
def OpTypeVoid.read (block : Block) : R (Block × OpTypeVoid) := do
  let (block, result_id) ← MemoryBlockRead.read block
  return (block, { result_id := result_id })

/-- src/spv/raw/reader.rs:558 (macro 440-467) -/
def OpTypeBool.read (block : Block) : R (Block × OpTypeBool) := do
  let (block, result_id) ← MemoryBlockRead.read block
  return (block, { result_id := result_id })

/-- src/spv/raw/reader.rs:559 (macro 440-467) -/
def OpTypeInt.read (block : Block) : R (Block × OpTypeInt) := do
  let (block, result_id) ← MemoryBlockRead.read block
  let (block, width) ← MemoryBlockRead.read block
  let (block, signedness) ← MemoryBlockRead.read block
  return (block, { result_id := result_id, width := width, signedness := signedness })

/-- src/spv/raw/reader.rs:560 (macro 440-467) -/
def OpTypeFloat.read (block : Block) : R (Block × OpTypeFloat) := do
  let (block, result_id) ← MemoryBlockRead.read block
  let (block, width) ← MemoryBlockRead.read block
  return (block, { result_id := result_id, width := width })

/-- src/spv/raw/reader.rs:561 (macro 440-467) -/
def OpTypeVector.read (block : Block) : R (Block × OpTypeVector) := do
  let (block, result_id) ← MemoryBlockRead.read block
  let (block, component_type) ← MemoryBlockRead.read block
  let (block, component_count) ← MemoryBlockRead.read block
  return (block, { result_id := result_id, component_type := component_type, component_count := component_count })

/-- src/spv/raw/reader.rs:562 (macro 440-467) -/
def OpTypeMatrix.read (block : Block) : R (Block × OpTypeMatrix) := do
  let (block, result_id) ← MemoryBlockRead.read block
  let (block, column_type) ← MemoryBlockRead.read block
  let (block, column_count) ← MemoryBlockRead.read block
  return (block, { result_id := result_id, column_type := column_type, column_count := column_count })

/-- src/spv/raw/reader.rs:563-573 (macro 440-467) -/
def OpTypeImage.read (block : Block) : R (Block × OpTypeImage) := do
  let (block, result_id) ← MemoryBlockRead.read block
  let (block, sampled_type) ← MemoryBlockRead.read block
  let (block, dim) ← MemoryBlockRead.read block
  let (block, depth) ← MemoryBlockRead.read block
  let (block, arrayed) ← MemoryBlockRead.read block
  let (block, ms) ← MemoryBlockRead.read block
  let (block, sampled) ← MemoryBlockRead.read block
  let (block, format) ← MemoryBlockRead.read block
  let (block, access_qualifier) ← MemoryBlockRead.read block
  return (block, { result_id := result_id, sampled_type := sampled_type, dim := dim, depth := depth, arrayed := arrayed, ms := ms, sampled := sampled, format := format, access_qualifier := access_qualifier })

/-- src/spv/raw/reader.rs:574 (macro 440-467) -/
def OpTypeSampler.read (block : Block) : R (Block × OpTypeSampler) := do
  let (block, result_id) ← MemoryBlockRead.read block
  return (block, { result_id := result_id })

/-- src/spv/raw/reader.rs:575 (macro 440-467) -/
def OpTypeSampledImage.read (block : Block) : R (Block × OpTypeSampledImage) := do
  let (block, result_id) ← MemoryBlockRead.read block
  let (block, image_type) ← MemoryBlockRead.read block
  return (block, { result_id := result_id, image_type := image_type })

/-- src/spv/raw/reader.rs:576 (macro 440-467) -/
def OpTypeArray.read (block : Block) : R (Block × OpTypeArray) := do
  let (block, result_id) ← MemoryBlockRead.read block
  let (block, element_type) ← MemoryBlockRead.read block
  let (block, length) ← MemoryBlockRead.read block
  return (block, { result_id := result_id, element_type := element_type, length := length })

/-- src/spv/raw/reader.rs:577 (macro 440-467) -/
def OpTypeRuntimeArray.read (block : Block) : R (Block × OpTypeRuntimeArray) := do
  let (block, result_id) ← MemoryBlockRead.read block
  let (block, element_type) ← MemoryBlockRead.read block
  return (block, { result_id := result_id, element_type := element_type })

/-- src/spv/raw/reader.rs:578 (macro 440-467) -/
def OpTypeStruct.read (block : Block) : R (Block × OpTypeStruct) := do
  let (block, result_id) ← MemoryBlockRead.read block
  let (block, member_types) ← MemoryBlockRead.read block
  return (block, { result_id := result_id, member_types := member_types })

/-- src/spv/raw/reader.rs:579 (macro 440-467) -/
def OpTypeOpaque.read (block : Block) : R (Block × OpTypeOpaque) := do
  let (block, result_id) ← MemoryBlockRead.read block
  let (block, name) ← MemoryBlockRead.read block
  return (block, { result_id := result_id, name := name })

/-- src/spv/raw/reader.rs:580 (macro 440-467) -/
def OpTypePointer.read (block : Block) : R (Block × OpTypePointer) := do
  let (block, result_id) ← MemoryBlockRead.read block
  let (block, storage_class) ← MemoryBlockRead.read block
  let (block, pointed_type) ← MemoryBlockRead.read block
  return (block, { result_id := result_id, storage_class := storage_class, pointed_type := pointed_type })

/-- src/spv/raw/reader.rs:581 (macro 440-467) -/
def OpTypeFunction.read (block : Block) : R (Block × OpTypeFunction) := do
  let (block, result_id) ← MemoryBlockRead.read block
  let (block, return_type) ← MemoryBlockRead.read block
  let (block, parameter_types) ← MemoryBlockRead.read block
  return (block, { result_id := result_id, return_type := return_type, parameter_types := parameter_types })

/-- src/spv/raw/reader.rs:584 (macro 440-467) -/
def OpConstant.read (block : Block) : R (Block × OpConstant) := do
  let (block, result_type) ← MemoryBlockRead.read block
  let (block, result_id) ← MemoryBlockRead.read block
  let (block, value) ← MemoryBlockRead.read block
  return (block, { result_type := result_type, result_id := result_id, value := value })

/-- src/spv/raw/reader.rs:585 (macro 440-467) -/
def OpConstantComposite.read (block : Block) : R (Block × OpConstantComposite) := do
  let (block, result_type) ← MemoryBlockRead.read block
  let (block, result_id) ← MemoryBlockRead.read block
  let (block, constituents) ← MemoryBlockRead.read block
  return (block, { result_type := result_type, result_id := result_id, constituents := constituents })

/-- src/spv/raw/reader.rs:588 (macro 440-467) -/
def OpFunction.read (block : Block) : R (Block × OpFunction) := do
  let (block, result_type) ← MemoryBlockRead.read block
  let (block, result_id) ← MemoryBlockRead.read block
  let (block, function_control) ← MemoryBlockRead.read block
  let (block, function_type) ← MemoryBlockRead.read block
  return (block, { result_type := result_type, result_id := result_id, function_control := function_control, function_type := function_type })

/-- src/spv/raw/reader.rs:589 (macro 440-467) -/
def OpFunctionParameter.read (block : Block) : R (Block × OpFunctionParameter) := do
  let (block, result_type) ← MemoryBlockRead.read block
  let (block, result_id) ← MemoryBlockRead.read block
  return (block, { result_type := result_type, result_id := result_id })

/-- src/spv/raw/reader.rs:590 (macro 440-467) -/
def OpFunctionEnd.read (block : Block) : R (Block × OpFunctionEnd) := do
  return (block, {})

/-- src/spv/raw/reader.rs:593 (macro 440-467) -/
def OpVariable.read (block : Block) : R (Block × OpVariable) := do
  let (block, result_type) ← MemoryBlockRead.read block
  let (block, result_id) ← MemoryBlockRead.read block
  let (block, storage_class) ← MemoryBlockRead.read block
  let (block, initializer) ← MemoryBlockRead.read block
  return (block, { result_type := result_type, result_id := result_id, storage_class := storage_class, initializer := initializer })

/-- src/spv/raw/reader.rs:595 (macro 440-467) -/
def OpLoad.read (block : Block) : R (Block × OpLoad) := do
  let (block, result_type) ← MemoryBlockRead.read block
  let (block, result_id) ← MemoryBlockRead.read block
  let (block, pointer) ← MemoryBlockRead.read block
  let (block, memory_access) ← MemoryBlockRead.read block
  return (block, { result_type := result_type, result_id := result_id, pointer := pointer, memory_access := memory_access })

/-- src/spv/raw/reader.rs:596 (macro 440-467) -/
def OpStore.read (block : Block) : R (Block × OpStore) := do
  let (block, pointer) ← MemoryBlockRead.read block
  let (block, object) ← MemoryBlockRead.read block
  let (block, memory_access) ← MemoryBlockRead.read block
  return (block, { pointer := pointer, object := object, memory_access := memory_access })

/-- src/spv/raw/reader.rs:598 (macro 440-467) -/
def OpAccessChain.read (block : Block) : R (Block × OpAccessChain) := do
  let (block, result_type) ← MemoryBlockRead.read block
  let (block, result_id) ← MemoryBlockRead.read block
  let (block, base) ← MemoryBlockRead.read block
  let (block, indexes) ← MemoryBlockRead.read block
  return (block, { result_type := result_type, result_id := result_id, base := base, indexes := indexes })

/-- src/spv/raw/reader.rs:601 (macro 440-467) -/
def OpConvertUToF.read (block : Block) : R (Block × OpConvertUToF) := do
  let (block, result_type) ← MemoryBlockRead.read block
  let (block, result_id) ← MemoryBlockRead.read block
  let (block, unsigned_value) ← MemoryBlockRead.read block
  return (block, { result_type := result_type, result_id := result_id, unsigned_value := unsigned_value })

/-- src/spv/raw/reader.rs:656 (macro 440-467) -/
def OpPhi.read (block : Block) : R (Block × OpPhi) := do
  let (block, result_type) ← MemoryBlockRead.read block
  let (block, result_id) ← MemoryBlockRead.read block
  let (block, variables) ← MemoryBlockRead.read block
  return (block, { result_type := result_type, result_id := result_id, variables := variables })

/-- src/spv/raw/reader.rs:657 (macro 440-467) -/
def OpLoopMerge.read (block : Block) : R (Block × OpLoopMerge) := do
  let (block, merge_block) ← MemoryBlockRead.read block
  let (block, continue_target) ← MemoryBlockRead.read block
  let (block, loop_control) ← MemoryBlockRead.read block
  return (block, { merge_block := merge_block, continue_target := continue_target, loop_control := loop_control })

/-- src/spv/raw/reader.rs:658 (macro 440-467) -/
def OpSelectionMerge.read (block : Block) : R (Block × OpSelectionMerge) := do
  let (block, merge_block) ← MemoryBlockRead.read block
  let (block, selection_control) ← MemoryBlockRead.read block
  return (block, { merge_block := merge_block, selection_control := selection_control })

/-- src/spv/raw/reader.rs:659 (macro 440-467) -/
def OpLabel.read (block : Block) : R (Block × OpLabel) := do
  let (block, result_id) ← MemoryBlockRead.read block
  return (block, { result_id := result_id })

/-- src/spv/raw/reader.rs:660 (macro 440-467) -/
def OpBranch.read (block : Block) : R (Block × OpBranch) := do
  let (block, target_label) ← MemoryBlockRead.read block
  return (block, { target_label := target_label })

/-- src/spv/raw/reader.rs:661 (macro 440-467) -/
def OpBranchConditional.read (block : Block) : R (Block × OpBranchConditional) := do
  let (block, condition) ← MemoryBlockRead.read block
  let (block, true_label) ← MemoryBlockRead.read block
  let (block, false_label) ← MemoryBlockRead.read block
  let (block, weights) ← MemoryBlockRead.read block
  return (block, { condition := condition, true_label := true_label, false_label := false_label, weights := weights })

/-- src/spv/raw/reader.rs:663 (macro 440-467) -/
def OpReturn.read (block : Block) : R (Block × OpReturn) := do
  return (block, {})

/-- src/spv/raw/reader.rs:603 (macros 440-473) -/
def OpBitcast.read (block : Block) : R (Block × OpBitcast) := do
  let (block, result_type) ← MemoryBlockRead.read block
  let (block, result_id) ← MemoryBlockRead.read block
  let (block, operand) ← MemoryBlockRead.read block
  return (block, { result_type := result_type, result_id := result_id, operand := operand })

/-- src/spv/raw/reader.rs:606 (macros 440-479) -/
def OpIAdd.read (block : Block) : R (Block × OpIAdd) := do
  let (block, result_type) ← MemoryBlockRead.read block
  let (block, result_id) ← MemoryBlockRead.read block
  let (block, operand1) ← MemoryBlockRead.read block
  let (block, operand2) ← MemoryBlockRead.read block
  return (block, { result_type := result_type, result_id := result_id, operand1 := operand1, operand2 := operand2 })

/-- src/spv/raw/reader.rs:607 (macros 440-479) -/
def OpFAdd.read (block : Block) : R (Block × OpFAdd) := do
  let (block, result_type) ← MemoryBlockRead.read block
  let (block, result_id) ← MemoryBlockRead.read block
  let (block, operand1) ← MemoryBlockRead.read block
  let (block, operand2) ← MemoryBlockRead.read block
  return (block, { result_type := result_type, result_id := result_id, operand1 := operand1, operand2 := operand2 })

/-- src/spv/raw/reader.rs:608 (macros 440-479) -/
def OpISub.read (block : Block) : R (Block × OpISub) := do
  let (block, result_type) ← MemoryBlockRead.read block
  let (block, result_id) ← MemoryBlockRead.read block
  let (block, operand1) ← MemoryBlockRead.read block
  let (block, operand2) ← MemoryBlockRead.read block
  return (block, { result_type := result_type, result_id := result_id, operand1 := operand1, operand2 := operand2 })

/-- src/spv/raw/reader.rs:609 (macros 440-479) -/
def OpFSub.read (block : Block) : R (Block × OpFSub) := do
  let (block, result_type) ← MemoryBlockRead.read block
  let (block, result_id) ← MemoryBlockRead.read block
  let (block, operand1) ← MemoryBlockRead.read block
  let (block, operand2) ← MemoryBlockRead.read block
  return (block, { result_type := result_type, result_id := result_id, operand1 := operand1, operand2 := operand2 })

/-- src/spv/raw/reader.rs:610 (macros 440-479) -/
def OpIMul.read (block : Block) : R (Block × OpIMul) := do
  let (block, result_type) ← MemoryBlockRead.read block
  let (block, result_id) ← MemoryBlockRead.read block
  let (block, operand1) ← MemoryBlockRead.read block
  let (block, operand2) ← MemoryBlockRead.read block
  return (block, { result_type := result_type, result_id := result_id, operand1 := operand1, operand2 := operand2 })

/-- src/spv/raw/reader.rs:611 (macros 440-479) -/
def OpFMul.read (block : Block) : R (Block × OpFMul) := do
  let (block, result_type) ← MemoryBlockRead.read block
  let (block, result_id) ← MemoryBlockRead.read block
  let (block, operand1) ← MemoryBlockRead.read block
  let (block, operand2) ← MemoryBlockRead.read block
  return (block, { result_type := result_type, result_id := result_id, operand1 := operand1, operand2 := operand2 })

/-- src/spv/raw/reader.rs:612 (macros 440-479) -/
def OpUDiv.read (block : Block) : R (Block × OpUDiv) := do
  let (block, result_type) ← MemoryBlockRead.read block
  let (block, result_id) ← MemoryBlockRead.read block
  let (block, operand1) ← MemoryBlockRead.read block
  let (block, operand2) ← MemoryBlockRead.read block
  return (block, { result_type := result_type, result_id := result_id, operand1 := operand1, operand2 := operand2 })

/-- src/spv/raw/reader.rs:613 (macros 440-479) -/
def OpSDiv.read (block : Block) : R (Block × OpSDiv) := do
  let (block, result_type) ← MemoryBlockRead.read block
  let (block, result_id) ← MemoryBlockRead.read block
  let (block, operand1) ← MemoryBlockRead.read block
  let (block, operand2) ← MemoryBlockRead.read block
  return (block, { result_type := result_type, result_id := result_id, operand1 := operand1, operand2 := operand2 })

/-- src/spv/raw/reader.rs:614 (macros 440-479) -/
def OpFDiv.read (block : Block) : R (Block × OpFDiv) := do
  let (block, result_type) ← MemoryBlockRead.read block
  let (block, result_id) ← MemoryBlockRead.read block
  let (block, operand1) ← MemoryBlockRead.read block
  let (block, operand2) ← MemoryBlockRead.read block
  return (block, { result_type := result_type, result_id := result_id, operand1 := operand1, operand2 := operand2 })

/-- src/spv/raw/reader.rs:615 (macros 440-479) -/
def OpUMod.read (block : Block) : R (Block × OpUMod) := do
  let (block, result_type) ← MemoryBlockRead.read block
  let (block, result_id) ← MemoryBlockRead.read block
  let (block, operand1) ← MemoryBlockRead.read block
  let (block, operand2) ← MemoryBlockRead.read block
  return (block, { result_type := result_type, result_id := result_id, operand1 := operand1, operand2 := operand2 })

/-- src/spv/raw/reader.rs:616 (macros 440-479) -/
def OpSRem.read (block : Block) : R (Block × OpSRem) := do
  let (block, result_type) ← MemoryBlockRead.read block
  let (block, result_id) ← MemoryBlockRead.read block
  let (block, operand1) ← MemoryBlockRead.read block
  let (block, operand2) ← MemoryBlockRead.read block
  return (block, { result_type := result_type, result_id := result_id, operand1 := operand1, operand2 := operand2 })

/-- src/spv/raw/reader.rs:617 (macros 440-479) -/
def OpSMod.read (block : Block) : R (Block × OpSMod) := do
  let (block, result_type) ← MemoryBlockRead.read block
  let (block, result_id) ← MemoryBlockRead.read block
  let (block, operand1) ← MemoryBlockRead.read block
  let (block, operand2) ← MemoryBlockRead.read block
  return (block, { result_type := result_type, result_id := result_id, operand1 := operand1, operand2 := operand2 })

/-- src/spv/raw/reader.rs:618 (macros 440-479) -/
def OpFRem.read (block : Block) : R (Block × OpFRem) := do
  let (block, result_type) ← MemoryBlockRead.read block
  let (block, result_id) ← MemoryBlockRead.read block
  let (block, operand1) ← MemoryBlockRead.read block
  let (block, operand2) ← MemoryBlockRead.read block
  return (block, { result_type := result_type, result_id := result_id, operand1 := operand1, operand2 := operand2 })

/-- src/spv/raw/reader.rs:619 (macros 440-479) -/
def OpFMod.read (block : Block) : R (Block × OpFMod) := do
  let (block, result_type) ← MemoryBlockRead.read block
  let (block, result_id) ← MemoryBlockRead.read block
  let (block, operand1) ← MemoryBlockRead.read block
  let (block, operand2) ← MemoryBlockRead.read block
  return (block, { result_type := result_type, result_id := result_id, operand1 := operand1, operand2 := operand2 })

/-- src/spv/raw/reader.rs:621 (macros 440-479) -/
def OpIAddCarry.read (block : Block) : R (Block × OpIAddCarry) := do
  let (block, result_type) ← MemoryBlockRead.read block
  let (block, result_id) ← MemoryBlockRead.read block
  let (block, operand1) ← MemoryBlockRead.read block
  let (block, operand2) ← MemoryBlockRead.read block
  return (block, { result_type := result_type, result_id := result_id, operand1 := operand1, operand2 := operand2 })

/-- src/spv/raw/reader.rs:622 (macros 440-479) -/
def OpISubBorrow.read (block : Block) : R (Block × OpISubBorrow) := do
  let (block, result_type) ← MemoryBlockRead.read block
  let (block, result_id) ← MemoryBlockRead.read block
  let (block, operand1) ← MemoryBlockRead.read block
  let (block, operand2) ← MemoryBlockRead.read block
  return (block, { result_type := result_type, result_id := result_id, operand1 := operand1, operand2 := operand2 })

/-- src/spv/raw/reader.rs:623 (macros 440-479) -/
def OpUMulExtended.read (block : Block) : R (Block × OpUMulExtended) := do
  let (block, result_type) ← MemoryBlockRead.read block
  let (block, result_id) ← MemoryBlockRead.read block
  let (block, operand1) ← MemoryBlockRead.read block
  let (block, operand2) ← MemoryBlockRead.read block
  return (block, { result_type := result_type, result_id := result_id, operand1 := operand1, operand2 := operand2 })

/-- src/spv/raw/reader.rs:624 (macros 440-479) -/
def OpSMulExtended.read (block : Block) : R (Block × OpSMulExtended) := do
  let (block, result_type) ← MemoryBlockRead.read block
  let (block, result_id) ← MemoryBlockRead.read block
  let (block, operand1) ← MemoryBlockRead.read block
  let (block, operand2) ← MemoryBlockRead.read block
  return (block, { result_type := result_type, result_id := result_id, operand1 := operand1, operand2 := operand2 })

/-- src/spv/raw/reader.rs:627 (macros 440-479) -/
def OpBitwiseOr.read (block : Block) : R (Block × OpBitwiseOr) := do
  let (block, result_type) ← MemoryBlockRead.read block
  let (block, result_id) ← MemoryBlockRead.read block
  let (block, operand1) ← MemoryBlockRead.read block
  let (block, operand2) ← MemoryBlockRead.read block
  return (block, { result_type := result_type, result_id := result_id, operand1 := operand1, operand2 := operand2 })

/-- src/spv/raw/reader.rs:628 (macros 440-479) -/
def OpBitwiseXor.read (block : Block) : R (Block × OpBitwiseXor) := do
  let (block, result_type) ← MemoryBlockRead.read block
  let (block, result_id) ← MemoryBlockRead.read block
  let (block, operand1) ← MemoryBlockRead.read block
  let (block, operand2) ← MemoryBlockRead.read block
  return (block, { result_type := result_type, result_id := result_id, operand1 := operand1, operand2 := operand2 })

/-- src/spv/raw/reader.rs:629 (macros 440-479) -/
def OpBitwiseAnd.read (block : Block) : R (Block × OpBitwiseAnd) := do
  let (block, result_type) ← MemoryBlockRead.read block
  let (block, result_id) ← MemoryBlockRead.read block
  let (block, operand1) ← MemoryBlockRead.read block
  let (block, operand2) ← MemoryBlockRead.read block
  return (block, { result_type := result_type, result_id := result_id, operand1 := operand1, operand2 := operand2 })

/-- src/spv/raw/reader.rs:632 (macros 440-479) -/
def OpIEqual.read (block : Block) : R (Block × OpIEqual) := do
  let (block, result_type) ← MemoryBlockRead.read block
  let (block, result_id) ← MemoryBlockRead.read block
  let (block, operand1) ← MemoryBlockRead.read block
  let (block, operand2) ← MemoryBlockRead.read block
  return (block, { result_type := result_type, result_id := result_id, operand1 := operand1, operand2 := operand2 })

/-- src/spv/raw/reader.rs:633 (macros 440-479) -/
def OpINotEqual.read (block : Block) : R (Block × OpINotEqual) := do
  let (block, result_type) ← MemoryBlockRead.read block
  let (block, result_id) ← MemoryBlockRead.read block
  let (block, operand1) ← MemoryBlockRead.read block
  let (block, operand2) ← MemoryBlockRead.read block
  return (block, { result_type := result_type, result_id := result_id, operand1 := operand1, operand2 := operand2 })

/-- src/spv/raw/reader.rs:634 (macros 440-479) -/
def OpUGreaterThan.read (block : Block) : R (Block × OpUGreaterThan) := do
  let (block, result_type) ← MemoryBlockRead.read block
  let (block, result_id) ← MemoryBlockRead.read block
  let (block, operand1) ← MemoryBlockRead.read block
  let (block, operand2) ← MemoryBlockRead.read block
  return (block, { result_type := result_type, result_id := result_id, operand1 := operand1, operand2 := operand2 })

/-- src/spv/raw/reader.rs:635 (macros 440-479) -/
def OpSGreaterThan.read (block : Block) : R (Block × OpSGreaterThan) := do
  let (block, result_type) ← MemoryBlockRead.read block
  let (block, result_id) ← MemoryBlockRead.read block
  let (block, operand1) ← MemoryBlockRead.read block
  let (block, operand2) ← MemoryBlockRead.read block
  return (block, { result_type := result_type, result_id := result_id, operand1 := operand1, operand2 := operand2 })

/-- src/spv/raw/reader.rs:636 (macros 440-479) -/
def OpUGreaterThanEqual.read (block : Block) : R (Block × OpUGreaterThanEqual) := do
  let (block, result_type) ← MemoryBlockRead.read block
  let (block, result_id) ← MemoryBlockRead.read block
  let (block, operand1) ← MemoryBlockRead.read block
  let (block, operand2) ← MemoryBlockRead.read block
  return (block, { result_type := result_type, result_id := result_id, operand1 := operand1, operand2 := operand2 })

/-- src/spv/raw/reader.rs:637 (macros 440-479) -/
def OpSGreaterThanEqual.read (block : Block) : R (Block × OpSGreaterThanEqual) := do
  let (block, result_type) ← MemoryBlockRead.read block
  let (block, result_id) ← MemoryBlockRead.read block
  let (block, operand1) ← MemoryBlockRead.read block
  let (block, operand2) ← MemoryBlockRead.read block
  return (block, { result_type := result_type, result_id := result_id, operand1 := operand1, operand2 := operand2 })

/-- src/spv/raw/reader.rs:638 (macros 440-479) -/
def OpULessThan.read (block : Block) : R (Block × OpULessThan) := do
  let (block, result_type) ← MemoryBlockRead.read block
  let (block, result_id) ← MemoryBlockRead.read block
  let (block, operand1) ← MemoryBlockRead.read block
  let (block, operand2) ← MemoryBlockRead.read block
  return (block, { result_type := result_type, result_id := result_id, operand1 := operand1, operand2 := operand2 })

/-- src/spv/raw/reader.rs:639 (macros 440-479) -/
def OpSLessThan.read (block : Block) : R (Block × OpSLessThan) := do
  let (block, result_type) ← MemoryBlockRead.read block
  let (block, result_id) ← MemoryBlockRead.read block
  let (block, operand1) ← MemoryBlockRead.read block
  let (block, operand2) ← MemoryBlockRead.read block
  return (block, { result_type := result_type, result_id := result_id, operand1 := operand1, operand2 := operand2 })

/-- src/spv/raw/reader.rs:640 (macros 440-479) -/
def OpULessThanEqual.read (block : Block) : R (Block × OpULessThanEqual) := do
  let (block, result_type) ← MemoryBlockRead.read block
  let (block, result_id) ← MemoryBlockRead.read block
  let (block, operand1) ← MemoryBlockRead.read block
  let (block, operand2) ← MemoryBlockRead.read block
  return (block, { result_type := result_type, result_id := result_id, operand1 := operand1, operand2 := operand2 })

/-- src/spv/raw/reader.rs:641 (macros 440-479) -/
def OpSLessThanEqual.read (block : Block) : R (Block × OpSLessThanEqual) := do
  let (block, result_type) ← MemoryBlockRead.read block
  let (block, result_id) ← MemoryBlockRead.read block
  let (block, operand1) ← MemoryBlockRead.read block
  let (block, operand2) ← MemoryBlockRead.read block
  return (block, { result_type := result_type, result_id := result_id, operand1 := operand1, operand2 := operand2 })

/-- src/spv/raw/reader.rs:642 (macros 440-479) -/
def OpFOrdEqual.read (block : Block) : R (Block × OpFOrdEqual) := do
  let (block, result_type) ← MemoryBlockRead.read block
  let (block, result_id) ← MemoryBlockRead.read block
  let (block, operand1) ← MemoryBlockRead.read block
  let (block, operand2) ← MemoryBlockRead.read block
  return (block, { result_type := result_type, result_id := result_id, operand1 := operand1, operand2 := operand2 })

/-- src/spv/raw/reader.rs:643 (macros 440-479) -/
def OpFUnordEqual.read (block : Block) : R (Block × OpFUnordEqual) := do
  let (block, result_type) ← MemoryBlockRead.read block
  let (block, result_id) ← MemoryBlockRead.read block
  let (block, operand1) ← MemoryBlockRead.read block
  let (block, operand2) ← MemoryBlockRead.read block
  return (block, { result_type := result_type, result_id := result_id, operand1 := operand1, operand2 := operand2 })

/-- src/spv/raw/reader.rs:644 (macros 440-479) -/
def OpFOrdNotEqual.read (block : Block) : R (Block × OpFOrdNotEqual) := do
  let (block, result_type) ← MemoryBlockRead.read block
  let (block, result_id) ← MemoryBlockRead.read block
  let (block, operand1) ← MemoryBlockRead.read block
  let (block, operand2) ← MemoryBlockRead.read block
  return (block, { result_type := result_type, result_id := result_id, operand1 := operand1, operand2 := operand2 })

/-- src/spv/raw/reader.rs:645 (macros 440-479) -/
def OpFUnordNotEqual.read (block : Block) : R (Block × OpFUnordNotEqual) := do
  let (block, result_type) ← MemoryBlockRead.read block
  let (block, result_id) ← MemoryBlockRead.read block
  let (block, operand1) ← MemoryBlockRead.read block
  let (block, operand2) ← MemoryBlockRead.read block
  return (block, { result_type := result_type, result_id := result_id, operand1 := operand1, operand2 := operand2 })

/-- src/spv/raw/reader.rs:646 (macros 440-479) -/
def OpFOrdLessThan.read (block : Block) : R (Block × OpFOrdLessThan) := do
  let (block, result_type) ← MemoryBlockRead.read block
  let (block, result_id) ← MemoryBlockRead.read block
  let (block, operand1) ← MemoryBlockRead.read block
  let (block, operand2) ← MemoryBlockRead.read block
  return (block, { result_type := result_type, result_id := result_id, operand1 := operand1, operand2 := operand2 })

/-- src/spv/raw/reader.rs:647 (macros 440-479) -/
def OpFUnordLessThan.read (block : Block) : R (Block × OpFUnordLessThan) := do
  let (block, result_type) ← MemoryBlockRead.read block
  let (block, result_id) ← MemoryBlockRead.read block
  let (block, operand1) ← MemoryBlockRead.read block
  let (block, operand2) ← MemoryBlockRead.read block
  return (block, { result_type := result_type, result_id := result_id, operand1 := operand1, operand2 := operand2 })

/-- src/spv/raw/reader.rs:648 (macros 440-479) -/
def OpFOrdGreaterThan.read (block : Block) : R (Block × OpFOrdGreaterThan) := do
  let (block, result_type) ← MemoryBlockRead.read block
  let (block, result_id) ← MemoryBlockRead.read block
  let (block, operand1) ← MemoryBlockRead.read block
  let (block, operand2) ← MemoryBlockRead.read block
  return (block, { result_type := result_type, result_id := result_id, operand1 := operand1, operand2 := operand2 })

/-- src/spv/raw/reader.rs:649 (macros 440-479) -/
def OpFUnordGreaterThan.read (block : Block) : R (Block × OpFUnordGreaterThan) := do
  let (block, result_type) ← MemoryBlockRead.read block
  let (block, result_id) ← MemoryBlockRead.read block
  let (block, operand1) ← MemoryBlockRead.read block
  let (block, operand2) ← MemoryBlockRead.read block
  return (block, { result_type := result_type, result_id := result_id, operand1 := operand1, operand2 := operand2 })

/-- src/spv/raw/reader.rs:650 (macros 440-479) -/
def OpFOrdLessThanEqual.read (block : Block) : R (Block × OpFOrdLessThanEqual) := do
  let (block, result_type) ← MemoryBlockRead.read block
  let (block, result_id) ← MemoryBlockRead.read block
  let (block, operand1) ← MemoryBlockRead.read block
  let (block, operand2) ← MemoryBlockRead.read block
  return (block, { result_type := result_type, result_id := result_id, operand1 := operand1, operand2 := operand2 })

/-- src/spv/raw/reader.rs:651 (macros 440-479) -/
def OpFUnordLessThanEqual.read (block : Block) : R (Block × OpFUnordLessThanEqual) := do
  let (block, result_type) ← MemoryBlockRead.read block
  let (block, result_id) ← MemoryBlockRead.read block
  let (block, operand1) ← MemoryBlockRead.read block
  let (block, operand2) ← MemoryBlockRead.read block
  return (block, { result_type := result_type, result_id := result_id, operand1 := operand1, operand2 := operand2 })

/-- src/spv/raw/reader.rs:652 (macros 440-479) -/
def OpFOrdGreaterThanEqual.read (block : Block) : R (Block × OpFOrdGreaterThanEqual) := do
  let (block, result_type) ← MemoryBlockRead.read block
  let (block, result_id) ← MemoryBlockRead.read block
  let (block, operand1) ← MemoryBlockRead.read block
  let (block, operand2) ← MemoryBlockRead.read block
  return (block, { result_type := result_type, result_id := result_id, operand1 := operand1, operand2 := operand2 })

/-- src/spv/raw/reader.rs:653 (macros 440-479) -/
def OpFUnordGreaterThanEqual.read (block : Block) : R (Block × OpFUnordGreaterThanEqual) := do
  let (block, result_type) ← MemoryBlockRead.read block
  let (block, result_id) ← MemoryBlockRead.read block
  let (block, operand1) ← MemoryBlockRead.read block
  let (block, operand2) ← MemoryBlockRead.read block
  return (block, { result_type := result_type, result_id := result_id, operand1 := operand1, operand2 := operand2 })

end Magma
