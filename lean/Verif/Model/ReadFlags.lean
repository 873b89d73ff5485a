import Verif.Model.Block
/-! Operand readers with bit masks or several words (`src/spv/raw/mod.rs`). -/

namespace Magma

/-- src/spv/raw/mod.rs:481-486 -/
instance : MemoryBlockRead SourceVersion where
  read block := do
    let (block, word) ← block.readWord
    return (block, ⟨word⟩)

/-- src/spv/raw/mod.rs:488-493 -/
instance : MemoryBlockRead MemberIndex where
  read block := do
    let (block, word) ← block.readWord
    return (block, ⟨word⟩)

/-- src/spv/raw/mod.rs:828-839 -/
instance : MemoryBlockRead FunctionControl where
  read block := do
    let (block, value) ← block.readWord
    return (block, { inline := (value &&& 0x1) != 0
                     dont_inline := (value &&& 0x2) != 0
                     pure_function := (value &&& 0x4) != 0
                     const_function := (value &&& 0x8) != 0 })

/-- src/spv/raw/mod.rs:841-854 -/
instance : MemoryBlockRead MemoryAccess where
  read block := do
    let (block, memory_access_word) ← block.readWord
    if (memory_access_word &&& 0xFFF8) != 0 then
      fail (.UnknownMemoryAccess memory_access_word)
    else
      return (block, { volatile := (memory_access_word &&& 0x1) != 0
                       aligned := (memory_access_word &&& 0x2) != 0
                       non_temporal := (memory_access_word &&& 0x4) != 0 })

/-- src/spv/raw/mod.rs:939-954 -/
instance : MemoryBlockRead FpFastMathMode where
  read block := do
    let (block, id) ← block.readWord
    if (id &&& 0xFFC0) != 0 then
      fail (.UnknownFpFastMathMode id)
    else
      return (block, { not_nan := (id &&& 0x1) != 0
                       not_inf := (id &&& 0x2) != 0
                       nsz := (id &&& 0x4) != 0
                       allow_recip := (id &&& 0x8) != 0
                       fast := (id &&& 0x10) != 0 })

/-- src/spv/raw/mod.rs:1079-1100 -/
instance : MemoryBlockRead LoopControl where
  read block := do
    let (block, word) ← block.readWord
    if (word &&& 0xFFF0) != 0 then
      fail (.UnknownLoopControl word)
    else
      let dependency_length_val := (word &&& 0x8) != 0
      let (block, dependency_length) ←
        if dependency_length_val then do
          let (block, num) ← block.readWord
          pure (block, some num)
        else
          pure (block, none)
      return (block, { unroll := (word &&& 0x1) != 0
                       dont_unroll := (word &&& 0x2) != 0
                       dependency_infinite := (word &&& 0x4) != 0
                       dependency_length := dependency_length })

/-- src/spv/raw/mod.rs:1102-1114 -/
instance : MemoryBlockRead SelectionControl where
  read block := do
    let (block, word) ← block.readWord
    if (word &&& 0xFFFC) != 0 then
      fail (.UnknownSelectionControl word)
    else
      return (block, { flatten := (word &&& 0x1) != 0
                       dont_flatten := (word &&& 0x2) != 0 })

/-- src/spv/raw/mod.rs:1116-1126 -/
instance : MemoryBlockRead BranchWeights where
  read block := do
    let (block, w1) ← block.readWord
    let (block, w2) ← block.readWord
    return (block, { true_weight := w1, false_weight := w2 })

/-- src/spv/raw/mod.rs:1128-1138 -/
instance : MemoryBlockRead PhiArg where
  read block := do
    let (block, «variable») ← MemoryBlockRead.read block
    let (block, parent) ← MemoryBlockRead.read block
    return (block, { «variable» := «variable», parent := parent })

end Magma
