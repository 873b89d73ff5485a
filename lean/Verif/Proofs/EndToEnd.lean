import Verif.Proofs.ModuleBytes
import Verif.Proofs.ValidateLayout
import Verif.Proofs.Flow
import Verif.Spec.WordMachine
/-! From words to executions. -/

namespace Magma
open Spec
variable {X : Type}

/-- What the word machine sees of an instruction -/
def sight : Core X → Nat × List UInt32
  | .OpLabel op => (248, [op.result_id.val])
  | .OpBranch op => (249, [op.target_label.val])
  | .OpBranchConditional op => (250, [op.condition.val, op.true_label.val, op.false_label.val])
  | .OpReturn _ => (253, [])
  | i => (opcode i, [])

/-- What the word machine sees of a frame -/
def norm (f : Nat × List UInt32) : Nat × List UInt32 :=
  (f.1, if f.1 = 248 then f.2.take 1 else if f.1 = 249 then f.2.take 1 else if f.1 = 250 then f.2.take 3 else [])

theorem sight_fst (i : Core X) : (sight i).1 = opcode i := by cases i <;> rfl

theorem norm_spells {known : List (ExtInstSet X)} {before : List (Core X)} {i : Core X} {ops : List UInt32}
    (h : SpellsOperands known before i ops) : norm (opcode i, ops) = sight i := by
  cases i
  case OpLabel op =>
    obtain ⟨ws, rfl, rfl⟩ := h
    rfl
  case OpBranch op =>
    obtain ⟨ws, rfl, rfl⟩ := h
    rfl
  case OpBranchConditional op =>
    obtain ⟨ws, rfl, ws', rfl, ws'', rfl, -⟩ := h
    rfl
  all_goals rfl

theorem frames_spells {known : List (ExtInstSet X)} : ∀ (insts before : List (Core X)) (ws : List UInt32) (n : Nat),
    SpellsBody known before insts ws → ws.length ≤ n → (frames n ws).map norm = insts.map sight
  | [], before, ws, n, h, hn => by
    cases h
    cases n <;> rfl
  | i :: insts, before, ws, n, h, hn => by
    obtain ⟨u, ws', rfl, ⟨-, head, ops, rfl, hh, hs⟩, hb⟩ := h
    cases n with
    | zero => simp at hn
    | succ n =>
      obtain ⟨wc, e1, e2, e3⟩ := hh
      have e4 : head.toNat / 65536 - 1 = ops.length := by omega
      have e5 : head.toNat % 65536 = opcode i := by omega
      rw [List.cons_append, frames]
      simp only [e4, e5, List.take_left, List.drop_left]
      rw [List.map_cons, List.map_cons, norm_spells hs, frames_spells insts _ ws' n hb (by
        simp only [List.length_append, List.length_cons] at hn
        omega)]

/-! ### The machine only uses what `norm` keeps -/

theorem isLabel_norm (id : UInt32) (f : Nat × List UInt32) : isLabel id (norm f) = isLabel id f := by
  obtain ⟨k, ws⟩ := f
  by_cases h : k = 248
  · subst h
    cases ws <;> rfl
  · have : (k == 248) = false := by simpa using h
    simp only [isLabel, norm, this, Bool.false_and]

theorem leadsTo_norm (d : Bool) (f : Nat × List UInt32) : leadsTo d (norm f) = leadsTo d f := by
  obtain ⟨k, ws⟩ := f
  by_cases h1 : k = 249
  · subst h1
    cases ws <;> rfl
  by_cases h2 : k = 250
  · subst h2
    rcases ws with _ | ⟨a, _ | ⟨b, _ | ⟨c, ws⟩⟩⟩ <;> rfl
  by_cases h3 : k = 253
  · subst h3
    rfl
  · have (ws : List UInt32) : leadsTo d (k, ws) = none := by
      rw [leadsTo.eq_def]
      split
      · rename_i h; exact absurd (congrArg Prod.fst h) h1
      · rename_i h; exact absurd (congrArg Prod.fst h) h2
      · rename_i h; exact absurd (congrArg Prod.fst h) h3
      · rfl
    rw [this, norm, this]

theorem blockEnd_norm (d : Bool) (fs : List (Nat × List UInt32)) (id : UInt32) :
    (blockEnd (fs.map norm) id).bind (leadsTo d) = (blockEnd fs id).bind (leadsTo d) := by
  have h1 : (fs.map norm).dropWhile (fun f => !isLabel id f) = (fs.dropWhile (fun f => !isLabel id f)).map norm := by
    induction fs with
    | nil => rfl
    | cons f fs ih =>
      rw [List.map_cons, List.dropWhile_cons, List.dropWhile_cons, isLabel_norm]
      split
      · exact ih
      · rfl
  rw [blockEnd, h1, blockEnd]
  generalize fs.dropWhile (fun f => !isLabel id f) = gs
  induction gs with
  | nil => rfl
  | cons g gs ih =>
    rw [List.map_cons, List.find?_cons, List.find?_cons, show endsBlock (norm g) = endsBlock g from rfl]
    cases endsBlock g with
    | true => exact leadsTo_norm d g
    | false => exact ih

theorem runFrames_norm (fs : List (Nat × List UInt32)) (ds : List Bool) (id : UInt32) :
    runFrames (fs.map norm) ds id = runFrames fs ds id := by
  induction ds generalizing id with
  | nil => rfl
  | cons d ds ih =>
    rw [runFrames, runFrames, blockEnd_norm]
    split
    · rfl
    · rfl
    · rw [ih]

/-! ### Blocks -/

theorem code_opcode (c : GroupCode X) : (opcode (codeInst c) == 248) = false ∧
    endsBlock (sight (codeInst c)) = false := by cases c <;> exact ⟨rfl, rfl⟩

theorem merge_opcode (m : GroupMerge) : (opcode (X := X) (mergeInst m) == 248) = false ∧
    endsBlock (sight (X := X) (mergeInst m)) = false := by cases m <;> exact ⟨rfl, rfl⟩

theorem branch_opcode (b : GroupBranch) : (opcode (X := X) (branchInst b) == 248) = false ∧
    endsBlock (sight (X := X) (branchInst b)) = true := by cases b <;> exact ⟨rfl, rfl⟩

theorem isLabel_sight {id : UInt32} {i : Core X} (h : (opcode i == 248) = false) : isLabel id (sight i) = false := by
  rw [isLabel, sight_fst, h, Bool.false_and]

/-- The instructions of a block after its label -/
def blockTail (b : BasicBlock X) : List (Core X) :=
  b.code.map codeInst ++ b.merge.toList.map mergeInst ++ [branchInst b.branch]

theorem blockTail_noLabel (b : BasicBlock X) : ∀ i ∈ blockTail b, (opcode i == 248) = false := by
  intro i hi
  rw [blockTail, List.mem_append, List.mem_append] at hi
  rcases hi with (hi | hi) | hi
  · obtain ⟨c, -, rfl⟩ := List.mem_map.mp hi
    exact (code_opcode c).1
  · obtain ⟨c, -, rfl⟩ := List.mem_map.mp hi
    exact (merge_opcode c).1
  · rw [List.mem_singleton.mp hi]
    exact (branch_opcode _).1

theorem blockTail_end (b : BasicBlock X) (r : List (Nat × List UInt32)) :
    ((blockTail b).map sight ++ r).find? endsBlock = some (sight (branchInst b.branch : Core X)) := by
  have key (l : List (Core X)) (h : ∀ i ∈ l, endsBlock (sight i) = false) (r : List (Nat × List UInt32)) :
      (l.map sight ++ r).find? endsBlock = r.find? endsBlock := by
    induction l with
    | nil => rfl
    | cons i l ih =>
      rw [List.map_cons, List.cons_append, List.find?_cons, h i List.mem_cons_self]
      exact ih (fun i hi => h i (List.mem_cons_of_mem _ hi))
  rw [blockTail, List.map_append, List.append_assoc, key]
  · rw [List.map_cons, List.map_nil, List.singleton_append, List.find?_cons, (branch_opcode b.branch).2]
  · intro i hi
    rcases List.mem_append.mp hi with hi | hi
    · obtain ⟨c, -, rfl⟩ := List.mem_map.mp hi
      exact (code_opcode c).2
    · obtain ⟨c, -, rfl⟩ := List.mem_map.mp hi
      exact (merge_opcode c).2

theorem skip_noLabel (id : UInt32) (l : List (Core X)) (h : ∀ i ∈ l, (opcode i == 248) = false)
    (r : List (Nat × List UInt32)) :
    (l.map sight ++ r).dropWhile (fun f => !isLabel id f) = r.dropWhile (fun f => !isLabel id f) := by
  induction l with
  | nil => rfl
  | cons i l ih =>
    rw [List.map_cons, List.cons_append, List.dropWhile_cons_of_pos]
    · exact ih (fun i hi => h i (List.mem_cons_of_mem _ hi))
    · rw [isLabel_sight (h i List.mem_cons_self)]
      rfl

theorem blockEnd_blocks (id : UInt32) (blocks : List (BasicBlock X)) (r : List (Core X))
    (hr : ∀ i ∈ r, (opcode i == 248) = false) :
    blockEnd ((blocks.flatMap blockInsts).map sight ++ r.map sight) id =
      (blockOf blocks ⟨id⟩).map (fun b => sight (branchInst b.branch : Core X)) := by
  induction blocks with
  | nil =>
    rw [blockEnd, List.flatMap_nil, List.map_nil, List.nil_append]
    have := skip_noLabel id r hr []
    rw [List.append_nil] at this
    rw [this]
    rfl
  | cons b blocks ih =>
    have hb : blockInsts b = .OpLabel b.label :: blockTail b := rfl
    rw [List.flatMap_cons, hb, List.cons_append, List.map_cons, List.map_append, List.cons_append, List.append_assoc,
      blockEnd, blockOf, List.find?_cons]
    by_cases h : b.label.result_id.val = id
    · have hl : isLabel id (sight (X := X) (.OpLabel b.label)) = true := by
        simp [isLabel, sight, h]
      have h' : (b.label.result_id.val == (BlockId.mk id).val) = true := by simpa using h
      rw [h', List.dropWhile_cons_of_neg (by rw [hl]; decide), List.find?_cons]
      exact blockTail_end b _
    · have hl : isLabel id (sight (X := X) (.OpLabel b.label)) = false := by
        simp [isLabel, sight, h]
      have h' : (b.label.result_id.val == (BlockId.mk id).val) = false := by simpa using h
      rw [h', List.dropWhile_cons_of_pos (by rw [hl]; rfl), skip_noLabel id _ (blockTail_noLabel b)]
      exact ih

theorem runFrames_blocks {fs : List (Nat × List UInt32)} {blocks : List (BasicBlock X)}
    (h : ∀ id, blockEnd fs id = (blockOf blocks ⟨id⟩).map (fun b => sight (branchInst b.branch : Core X)))
    (ds : List Bool) (id : UInt32) : runFrames fs ds id = runBlocks blocks ds ⟨id⟩ := by
  induction ds generalizing id with
  | nil => rfl
  | cons d ds ih =>
    rw [runFrames, runBlocks, h]
    cases hb : blockOf blocks ⟨id⟩ with
    | none => rfl
    | some b =>
      cases hbr : b.branch with
      | OpBranch op => simp [branchInst, sight, leadsTo, hbr, ih]
      | OpBranchConditional op => simp [branchInst, sight, leadsTo, hbr, ih]
      | OpReturn op => simp [branchInst, sight, leadsTo, hbr]

theorem find_label_norm (fs : List (Nat × List UInt32)) :
    (fs.map norm).find? (fun f => f.1 == 248) = (fs.find? (fun f => f.1 == 248)).map norm := by
  induction fs with
  | nil => rfl
  | cons f fs ih =>
    rw [List.map_cons, List.find?_cons, List.find?_cons]
    show (match f.1 == 248 with | true => _ | false => _) = _
    cases f.1 == 248 with
    | true => rfl
    | false => exact ih

/-- Running the words of a function is running its blocks. -/
theorem runWords_definition {known : List (ExtInstSet X)} {before : List (Core X)} {d : FunctionDefinition X}
    {ws : List UInt32} {first : BasicBlock X} {more : List (BasicBlock X)}
    (h : SpellsBody known before (definitionInsts d) ws) (hb : d.blocks = first :: more) (ds : List Bool) :
    runWords ws ds = some (runBlocks d.blocks ds ⟨labelId first⟩) := by
  have hf := frames_spells _ _ _ ws.length h (Nat.le_refl _)
  have hhead : ∀ i ∈ (.OpFunction d.function :: d.parameters.map .OpFunctionParameter : List (Core X)),
      (opcode i == 248) = false := by
    intro i hi
    rcases List.mem_cons.mp hi with rfl | hi
    · rfl
    · obtain ⟨p, -, rfl⟩ := List.mem_map.mp hi
      rfl
  have hsplit : (definitionInsts d).map sight =
      (.OpFunction d.function :: d.parameters.map .OpFunctionParameter : List (Core X)).map sight ++
        ((d.blocks.flatMap blockInsts).map sight ++ [.OpFunctionEnd {}].map (sight (X := X))) := by
    simp only [definitionInsts, List.map_append, List.map_cons, List.append_assoc, List.cons_append]
  have hend (id : UInt32) : blockEnd ((frames ws.length ws).map norm) id =
      (blockOf d.blocks ⟨id⟩).map (fun b => sight (branchInst b.branch : Core X)) := by
    rw [hf, hsplit, ← blockEnd_blocks id d.blocks [.OpFunctionEnd {}] (by
      intro i hi
      rw [List.mem_singleton.mp hi]
      rfl), blockEnd, blockEnd, skip_noLabel id _ hhead]
  have hlab : ((frames ws.length ws).map norm).find? (fun f => f.1 == 248) = some (248, [labelId first]) := by
    rw [hf, hsplit, List.find?_append, hb]
    have : ((.OpFunction d.function :: d.parameters.map .OpFunctionParameter : List (Core X)).map sight).find?
        (fun f => f.1 == 248) = none := by
      rw [List.find?_eq_none]
      intro f hf
      obtain ⟨i, hi, rfl⟩ := List.mem_map.mp hf
      rw [sight_fst, hhead i hi]
      decide
    rw [this]
    rfl
  rw [find_label_norm] at hlab
  rw [runWords]
  cases hl : (frames ws.length ws).find? (fun f => f.1 == 248) with
  | none => rw [hl] at hlab; cases hlab
  | some f =>
    rw [hl] at hlab
    obtain ⟨k, ops⟩ := f
    simp only [Option.map_some, Option.some.injEq, norm, Prod.mk.injEq] at hlab
    obtain ⟨rfl, hlab⟩ := hlab
    cases ops with
    | nil => cases hlab
    | cons l ops =>
      simp at hlab
      subst hlab
      simp only
      rw [← runFrames_norm, runFrames_blocks hend]

end Magma
