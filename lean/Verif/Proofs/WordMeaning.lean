import Verif.Proofs.EndToEnd
import Verif.Spec.WordMeaning
/-! From the meaning of words to that of instructions. -/

namespace Magma
open Spec
variable {X S : Type}

/-- The instruction is spelled by the frame, where all the instructions before are among `all`. -/
def Spelled (known : List (ExtInstSet X)) (all : List (Core X)) (p : Core X × (Nat × List UInt32)) : Prop :=
  ∃ before head, (∀ i ∈ before, i ∈ all) ∧ p.2.1 = head.toNat % 65536 ∧ SpellsInst known before p.1 (head :: p.2.2)

/-- The frames of words, each with its instruction -/
theorem frames_pairs {known : List (ExtInstSet X)} {all : List (Core X)} :
    ∀ (insts before : List (Core X)) (ws : List UInt32) (n : Nat), SpellsBody known before insts ws → ws.length ≤ n →
      (∀ i ∈ before, i ∈ all) → (∀ i ∈ insts, i ∈ all) →
      ∃ ps : List (Core X × (Nat × List UInt32)), ps.map (·.1) = insts ∧ ps.map (·.2) = frames n ws ∧
        ∀ p ∈ ps, Spelled known all p
  | [], _, _, n, h, _, _, _ => by
    cases h
    exact ⟨[], rfl, by cases n <;> rfl, by simp⟩
  | i :: insts, before, ws, n, h, hn, hb, hi => by
    obtain ⟨u, ws', rfl, hsi, hbody⟩ := h
    obtain ⟨hsup, head, ops, rfl, hh, hs⟩ := hsi
    cases n with
    | zero => simp at hn
    | succ n =>
      have hh' := hh
      obtain ⟨wc, e1, e2, e3⟩ := hh'
      have e4 : head.toNat / 65536 - 1 = ops.length := by omega
      obtain ⟨ps, h1, h2, h3⟩ := frames_pairs (all := all) insts (before ++ [i]) ws' n hbody (by
        simp only [List.length_append, List.length_cons] at hn
        omega) (by
        intro j hj
        rcases List.mem_append.mp hj with hj | hj
        · exact hb j hj
        · rw [List.mem_singleton.mp hj]
          exact hi i List.mem_cons_self) (fun j hj => hi j (List.mem_cons_of_mem _ hj))
      refine ⟨(i, (head.toNat % 65536, ops)) :: ps, by rw [List.map_cons, h1], ?_, ?_⟩
      · rw [List.cons_append, frames]
        simp only [e4, List.take_left, List.drop_left]
        rw [List.map_cons, h2]
      · intro p hp
        rcases List.mem_cons.mp hp with rfl | hp
        · exact ⟨before, head, hb, rfl, hsup, head, ops, rfl, hh, hs⟩
        · exact h3 p hp

theorem Spelled.opcode {known : List (ExtInstSet X)} {all : List (Core X)} {p : Core X × (Nat × List UInt32)}
    (h : Spelled known all p) : p.2.1 = opcode p.1 := by
  obtain ⟨before, head, -, h1, -, head', ops, h2, ⟨wc, e1, e2, -⟩, -⟩ := h
  cases h2
  omega

theorem Spelled.norm {known : List (ExtInstSet X)} {all : List (Core X)} {p : Core X × (Nat × List UInt32)}
    (h : Spelled known all p) : norm p.2 = sight p.1 := by
  have ho := h.opcode
  obtain ⟨before, head, -, h1, -, head', ops, h2, -, hs⟩ := h
  cases h2
  rw [← norm_spells hs, ← ho]

theorem code_notImport (c : GroupCode X) : ∀ op, codeInst c ≠ .OpExtInstImport op := by
  intro op
  cases c <;> exact fun h => nomatch h

/-- Code is spelled in the same way wherever the imports are the same or more. -/
theorem code_spells_mono {known : List (ExtInstSet X)} {before all : List (Core X)} (h : ∀ i ∈ before, i ∈ all)
    {c : GroupCode X} {ws : List UInt32} (hs : SpellsInst known before (codeInst c) ws) :
    SpellsInst known all (codeInst c) ws := by
  obtain ⟨hsup, head, ops, rfl, hh, hs⟩ := hs
  refine ⟨hsup, head, ops, rfl, hh, ?_⟩
  rcases core_cases (codeInst c) with ⟨op, ho⟩ | ⟨op, ho⟩ | ⟨h1, h2⟩
  · exact (code_notImport c op ho).elim
  · rw [ho] at hs ⊢
    obtain ⟨number, args, importer, name, s, h1, h2, h3⟩ := hs
    exact ⟨number, args, importer, name, s, h1, h _ h2, h3⟩
  · rw [SpellsOperands_plain h1 h2] at hs ⊢
    exact hs

/-- What the reader remembers after all the instructions -/
theorem inv_after {known : List (ExtInstSet X)} : ∀ (insts before : List (Core X)) (bound : BoundSets X)
    (ws : List UInt32), Inv known bound before → SpellsBody known before insts ws →
    ∃ bound', Inv known bound' (before ++ insts)
  | [], before, bound, _, h, _ => ⟨bound, by rw [List.append_nil]; exact h⟩
  | i :: insts, before, bound, ws, h, hs => by
    obtain ⟨u, ws', rfl, ⟨-, head, ops, rfl, -, ho⟩, hb⟩ := hs
    obtain ⟨bound', hr⟩ := (OpsRel_iff h i ops).mpr ho
    obtain ⟨b, hb⟩ := inv_after insts (before ++ [i]) bound' ws' (h.step hr) hb
    exact ⟨b, by rw [List.append_assoc] at hb; exact hb⟩

/-- Words spell one instruction. -/
theorem spellsInst_unique {known : List (ExtInstSet X)} {bound : BoundSets X} {all : List (Core X)}
    (h : Inv known bound all) {i j : Core X} {head head' : UInt32} {ops : List UInt32}
    (hi : SpellsInst known all i (head :: ops)) (hj : SpellsInst known all j (head' :: ops))
    (he : head.toNat % 65536 = head'.toNat % 65536) : i = j := by
  have hj' : SpellsInst known all j (head :: ops) := by
    obtain ⟨-, a, b, e, ⟨wc, e1, e2, e3⟩, -⟩ := hi
    cases e
    obtain ⟨s, a', b', e, ⟨wc', e1', e2', -⟩, ho⟩ := hj
    cases e
    exact ⟨s, head, ops, rfl, ⟨wc, by omega, e2', e3⟩, ho⟩
  have one (k : Core X) (hk : SpellsInst known all k (head :: ops)) : bodyW known bound [] (head :: ops) = .ok [k] :=
    (bodyW_iff h).mpr ⟨⟨head :: ops, [], by rw [List.append_nil], hk, rfl⟩, rfl⟩
  have := one i hi
  rw [one j hj'] at this
  cases this
  rfl

/-! ### The code of a block -/

theorem isLabel_spelled {known : List (ExtInstSet X)} {all : List (Core X)} {p : Core X × (Nat × List UInt32)}
    (h : Spelled known all p) (id : UInt32) : isLabel id p.2 = isLabel id (sight p.1) := by
  rw [← h.norm, isLabel_norm]

theorem isCode_spelled {known : List (ExtInstSet X)} {all : List (Core X)} {p : Core X × (Nat × List UInt32)}
    (h : Spelled known all p) : isCode p.2 = isCode (sight p.1) := by
  rw [← h.norm]
  rfl

theorem code_isCode (c : GroupCode X) : isCode (sight (codeInst c)) = true := by cases c <;> rfl

theorem takeWhile_block (b : BasicBlock X) (r : List (Core X)) :
    (blockTail b ++ r).takeWhile (fun i => isCode (sight i)) = b.code.map codeInst := by
  have key (l : List (GroupCode X)) (r : List (Core X))
      (hr : r.takeWhile (fun i => isCode (sight i)) = []) :
      (l.map codeInst ++ r).takeWhile (fun i => isCode (sight i)) = l.map codeInst := by
    induction l with
    | nil => exact hr
    | cons c l ih => rw [List.map_cons, List.cons_append, List.takeWhile_cons, code_isCode, if_pos rfl, ih]
  rw [blockTail, List.append_assoc, List.append_assoc, key]
  cases b.merge with
  | none => cases b.branch <;> rfl
  | some m => cases m <;> rfl

theorem skip_noLabel' (id : UInt32) (l : List (Core X)) (h : ∀ i ∈ l, (opcode i == 248) = false) (r : List (Core X)) :
    (l ++ r).dropWhile (fun i => !isLabel id (sight i)) = r.dropWhile (fun i => !isLabel id (sight i)) := by
  induction l with
  | nil => rfl
  | cons i l ih =>
    rw [List.cons_append, List.dropWhile_cons_of_pos]
    · exact ih (fun i hi => h i (List.mem_cons_of_mem _ hi))
    · rw [isLabel_sight (h i List.mem_cons_self)]
      rfl

/-- The instructions between a label and what ends its code are the code of the block. -/
theorem code_of_block (id : UInt32) (blocks : List (BasicBlock X)) (r : List (Core X)) {b : BasicBlock X}
    (hb : blockOf blocks ⟨id⟩ = some b) :
    (((blocks.flatMap blockInsts ++ r).dropWhile (fun i => !isLabel id (sight i))).drop 1).takeWhile
      (fun i => isCode (sight i)) = b.code.map codeInst := by
  induction blocks with
  | nil => cases hb
  | cons b' blocks ih =>
    have hb' : blockInsts b' = .OpLabel b'.label :: blockTail b' := rfl
    rw [blockOf, List.find?_cons] at hb
    rw [List.flatMap_cons, hb', List.cons_append, List.cons_append]
    by_cases h : b'.label.result_id.val = id
    · have hl : isLabel id (sight (X := X) (.OpLabel b'.label)) = true := by
        simp [isLabel, sight, h]
      have h' : (b'.label.result_id.val == (BlockId.mk id).val) = true := by simpa using h
      rw [h'] at hb
      cases hb
      rw [List.dropWhile_cons_of_neg (by rw [hl]; decide), List.drop_one, List.tail_cons, List.append_assoc]
      exact takeWhile_block _ _
    · have hl : isLabel id (sight (X := X) (.OpLabel b'.label)) = false := by
        simp [isLabel, sight, h]
      have h' : (b'.label.result_id.val == (BlockId.mk id).val) = false := by simpa using h
      rw [h'] at hb
      rw [List.dropWhile_cons_of_pos (by rw [hl]; rfl), List.append_assoc, skip_noLabel' id _ (blockTail_noLabel b')]
      exact ih hb

theorem dropWhile_pairs {A B : Type} {ps : List (A × B)} {f : A → Bool} {g : B → Bool}
    (h : ∀ p ∈ ps, f p.1 = g p.2) : ∃ qs : List (A × B), qs.map (·.1) = (ps.map (·.1)).dropWhile f ∧
      qs.map (·.2) = (ps.map (·.2)).dropWhile g ∧ ∀ q ∈ qs, q ∈ ps := by
  induction ps with
  | nil => exact ⟨[], rfl, rfl, by simp⟩
  | cons p ps ih =>
    obtain ⟨qs, h1, h2, h3⟩ := ih (fun q hq => h q (List.mem_cons_of_mem _ hq))
    rw [List.map_cons, List.map_cons, List.dropWhile_cons, List.dropWhile_cons, h p List.mem_cons_self]
    cases g p.2 with
    | true => exact ⟨qs, h1, h2, fun q hq => List.mem_cons_of_mem _ (h3 q hq)⟩
    | false => exact ⟨p :: ps, rfl, rfl, fun q hq => hq⟩

theorem takeWhile_pairs {A B : Type} {ps : List (A × B)} {f : A → Bool} {g : B → Bool}
    (h : ∀ p ∈ ps, f p.1 = g p.2) : ∃ qs : List (A × B), qs.map (·.1) = (ps.map (·.1)).takeWhile f ∧
      qs.map (·.2) = (ps.map (·.2)).takeWhile g ∧ ∀ q ∈ qs, q ∈ ps := by
  induction ps with
  | nil => exact ⟨[], rfl, rfl, by simp⟩
  | cons p ps ih =>
    obtain ⟨qs, h1, h2, h3⟩ := ih (fun q hq => h q (List.mem_cons_of_mem _ hq))
    rw [List.map_cons, List.map_cons, List.takeWhile_cons, List.takeWhile_cons, h p List.mem_cons_self]
    cases g p.2 with
    | true =>
      refine ⟨p :: qs, by simp [h1], by simp [h2], ?_⟩
      intro q hq
      rcases List.mem_cons.mp hq with rfl | hq
      · exact List.mem_cons_self
      · exact List.mem_cons_of_mem _ (h3 q hq)
    | false => exact ⟨[], rfl, rfl, by simp⟩

/-- Running code is running the words that spell it. -/
theorem code_runs {known : List (ExtInstSet X)} {all : List (Core X)} {W : WordMeaning S} {M : Machine X S}
    (hm : SameMeaning known all W M) (last : Option UInt32) : ∀ (code : List (GroupCode X))
    (qs : List (Core X × (Nat × List UInt32))) (s : S), (∀ q ∈ qs, Spelled known all q) →
    qs.map (·.1) = code.map codeInst →
    (qs.map (·.2)).foldl (fun s f => W.run last f s) s = code.foldl (fun s i => M.run last i s) s
  | [], [], _, _, _ => rfl
  | [], _ :: _, _, _, h => by cases h
  | _ :: _, [], _, _, h => by cases h
  | i :: code, (c, f) :: qs, s, hq, h => by
    rw [List.map_cons, List.map_cons, List.cons.injEq] at h
    obtain ⟨h1, h2⟩ := h
    have h1 : c = codeInst i := h1
    subst h1
    obtain ⟨before, head, hb, ho, hs⟩ := hq _ List.mem_cons_self
    obtain ⟨k, ops⟩ := f
    have ho : k = head.toNat % 65536 := ho
    subst ho
    rw [List.map_cons, List.foldl_cons, List.foldl_cons, hm.run i head ops (code_spells_mono hb hs) last s]
    exact code_runs hm last code qs _ (fun q h => hq q (List.mem_cons_of_mem _ h)) h2

theorem blockEnd_map_norm (fs : List (Nat × List UInt32)) (id : UInt32) :
    blockEnd (fs.map norm) id = (blockEnd fs id).map norm := by
  have h1 : (fs.map norm).dropWhile (fun f => !isLabel id f) = (fs.dropWhile (fun f => !isLabel id f)).map norm := by
    induction fs with
    | nil => rfl
    | cons f fs ih =>
      rw [List.map_cons, List.dropWhile_cons, List.dropWhile_cons, isLabel_norm]
      split
      · exact ih
      · rfl
  rw [blockEnd, h1, blockEnd]
  generalize fs.dropWhile (fun f => !isLabel id f) = gs
  induction gs with
  | nil => rfl
  | cons g gs ih =>
    rw [List.map_cons, List.find?_cons, List.find?_cons, show endsBlock (norm g) = endsBlock g from rfl]
    cases endsBlock g with
    | true => rfl
    | false => exact ih

theorem leadsTo_norm_state (W : WordMeaning S) (s : S) (f : Nat × List UInt32) :
    W.leadsTo s (norm f) = W.leadsTo s f := by
  obtain ⟨k, ws⟩ := f
  by_cases h1 : k = 249
  · subst h1
    cases ws <;> rfl
  by_cases h2 : k = 250
  · subst h2
    rcases ws with _ | ⟨a, _ | ⟨b, _ | ⟨c, ws⟩⟩⟩ <;> rfl
  by_cases h3 : k = 253
  · subst h3
    rfl
  · have (ws : List UInt32) : W.leadsTo s (k, ws) = none := by
      rw [WordMeaning.leadsTo.eq_def]
      split
      · rename_i h; exact absurd (congrArg Prod.fst h) h1
      · rename_i h; exact absurd (congrArg Prod.fst h) h2
      · rename_i h; exact absurd (congrArg Prod.fst h) h3
      · rfl
    rw [this, norm, this]

theorem runFrames_machine {W : WordMeaning S} {M : Machine X S} (hh : ∀ id s, W.holds id s = M.holds ⟨id⟩ s)
    {fs : List (Nat × List UInt32)} {blocks : List (BasicBlock X)}
    (hend : ∀ id, blockEnd (fs.map norm) id =
      (blockOf blocks ⟨id⟩).map (fun b => sight (branchInst b.branch : Core X)))
    (hcode : ∀ id b, blockOf blocks ⟨id⟩ = some b → ∀ last s,
      (blockCode fs id).foldl (fun s f => W.run last f s) s = b.code.foldl (fun s i => M.run last i s) s) :
    ∀ (n : Nat) (id : UInt32) (c : Config S), W.runFrames fs n id c = runMachine M blocks n ⟨id⟩ c
  | 0, _, _ => rfl
  | n + 1, id, c => by
    have ih := runFrames_machine hh hend hcode n
    have he := hend id
    rw [blockEnd_map_norm] at he
    rw [WordMeaning.runFrames, runMachine]
    cases hb : blockOf blocks ⟨id⟩ with
    | none =>
      rw [hb] at he
      cases hl : blockEnd fs id with
      | none => rfl
      | some l => rw [hl] at he; cases he
    | some b =>
      rw [hb] at he
      cases hl : blockEnd fs id with
      | none => rw [hl] at he; cases he
      | some l =>
        rw [hl, Option.map_some, Option.map_some, Option.some.injEq] at he
        have hid : labelId b = id := by
          have := List.find?_some hb
          simpa [labelId] using this
        have hc : (⟨some id, (blockCode fs id).foldl (fun s f => W.run c.last f s) c.state⟩ : Config S) =
            M.enter b c := by
          rw [Machine.enter, hcode id b hb, hid]
        have hl' (s : S) : W.leadsTo s l = W.leadsTo s (sight (branchInst b.branch : Core X)) := by
          rw [← he, leadsTo_norm_state]
        have hcs : (blockCode fs id).foldl (fun s f => W.run c.last f s) c.state = (M.enter b c).state :=
          congrArg Config.state hc
        have hc2 : (⟨some id, (M.enter b c).state⟩ : Config S) = M.enter b c := by rw [← hcs, hc]
        simp only [hl', hcs, hc2]
        cases hr : b.branch with
        | OpReturn op => rfl
        | OpBranch op =>
          simp only [branchInst, sight, WordMeaning.leadsTo, ih]
        | OpBranchConditional op =>
          simp only [branchInst, sight, WordMeaning.leadsTo, ih, hh]

/-- Running the words of a function is running its blocks. -/
theorem runWords_machine {known : List (ExtInstSet X)} {all before : List (Core X)} {W : WordMeaning S}
    {M : Machine X S} (hm : SameMeaning known all W M) {d : FunctionDefinition X} {ws : List UInt32}
    {first : BasicBlock X} {more : List (BasicBlock X)} (h : SpellsBody known before (definitionInsts d) ws)
    (hbe : ∀ i ∈ before, i ∈ all) (hin : ∀ i ∈ definitionInsts d, i ∈ all) (hb : d.blocks = first :: more) (n : Nat)
    (c : Config S) : W.runWords ws n c = some (runMachine M d.blocks n ⟨labelId first⟩ c) := by
  have hf := frames_spells _ _ _ ws.length h (Nat.le_refl _)
  obtain ⟨ps, hp1, hp2, hp3⟩ := frames_pairs (all := all) _ _ _ ws.length h (Nat.le_refl _) hbe hin
  have hhead : ∀ i ∈ (.OpFunction d.function :: d.parameters.map .OpFunctionParameter : List (Core X)),
      (opcode i == 248) = false := by
    intro i hi
    rcases List.mem_cons.mp hi with rfl | hi
    · rfl
    · obtain ⟨p, -, rfl⟩ := List.mem_map.mp hi
      rfl
  have hdef : definitionInsts d = (.OpFunction d.function :: d.parameters.map .OpFunctionParameter : List (Core X)) ++
      (d.blocks.flatMap blockInsts ++ [.OpFunctionEnd {}]) := by
    simp only [definitionInsts, List.append_assoc, List.cons_append]
  have hsplit : (definitionInsts d).map sight =
      (.OpFunction d.function :: d.parameters.map .OpFunctionParameter : List (Core X)).map sight ++
        ((d.blocks.flatMap blockInsts).map sight ++ [.OpFunctionEnd {}].map (sight (X := X))) := by
    rw [hdef, List.map_append, List.map_append]
  have hend (id : UInt32) : blockEnd ((frames ws.length ws).map norm) id =
      (blockOf d.blocks ⟨id⟩).map (fun b => sight (branchInst b.branch : Core X)) := by
    rw [hf, hsplit, ← blockEnd_blocks id d.blocks [.OpFunctionEnd {}] (by
      intro i hi
      rw [List.mem_singleton.mp hi]
      rfl), blockEnd, blockEnd, skip_noLabel id _ hhead]
  have hcode (id : UInt32) (b : BasicBlock X) (hbo : blockOf d.blocks ⟨id⟩ = some b) (last : Option UInt32) (s : S) :
      (blockCode (frames ws.length ws) id).foldl (fun s f => W.run last f s) s =
        b.code.foldl (fun s i => M.run last i s) s := by
    obtain ⟨qs, q1, q2, q3⟩ := dropWhile_pairs (ps := ps) (f := fun i => !isLabel id (sight i))
      (g := fun f => !isLabel id f) (fun p hp => by rw [isLabel_spelled (hp3 p hp)])
    obtain ⟨rs, r1, r2, r3⟩ := takeWhile_pairs (ps := qs.drop 1) (f := fun i => isCode (sight i)) (g := isCode)
      (fun p hp => by rw [isCode_spelled (hp3 p (q3 p (List.mem_of_mem_drop hp)))])
    rw [List.map_drop, q1, hp1, hdef, skip_noLabel' id _ hhead, code_of_block id _ _ hbo] at r1
    rw [List.map_drop, q2, hp2] at r2
    rw [blockCode, ← r2]
    exact code_runs hm last b.code rs s (fun q hq => hp3 q (q3 q (List.mem_of_mem_drop (r3 q hq)))) r1
  have hlab : ((frames ws.length ws).map norm).find? (fun f => f.1 == 248) = some (248, [labelId first]) := by
    rw [hf, hsplit, List.find?_append, hb]
    have : ((.OpFunction d.function :: d.parameters.map .OpFunctionParameter : List (Core X)).map sight).find?
        (fun f => f.1 == 248) = none := by
      rw [List.find?_eq_none]
      intro f hf
      obtain ⟨i, hi, rfl⟩ := List.mem_map.mp hf
      rw [sight_fst, hhead i hi]
      decide
    rw [this]
    rfl
  rw [find_label_norm] at hlab
  rw [WordMeaning.runWords]
  cases hl : (frames ws.length ws).find? (fun f => f.1 == 248) with
  | none => rw [hl] at hlab; cases hlab
  | some f =>
    rw [hl] at hlab
    obtain ⟨k, ops⟩ := f
    simp only [Option.map_some, Option.some.injEq, norm, Prod.mk.injEq] at hlab
    obtain ⟨rfl, hlab⟩ := hlab
    cases ops with
    | nil => cases hlab
    | cons l ops =>
      simp at hlab
      subst hlab
      simp only
      rw [runFrames_machine hm.holds hend hcode]

end Magma
