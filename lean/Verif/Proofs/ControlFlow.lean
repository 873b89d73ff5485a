import Verif.Model.ControlFlow
/-! The successful runs of the search, without fuel. -/

namespace Magma
variable {X : Type}

theorem cok_bind {α β : Type} (a : α) (f : α → CF β) : (Except.ok a >>= f) = f a := rfl
theorem cerr_bind {α β : Type} (e : Fault ControlFlowError) (f : α → CF β) :
    ((Except.error e : CF α) >>= f) = .error e := rfl

theorem cbind_ok {α β : Type} {x : CF α} {f : α → CF β} {b : β} :
    (x >>= f) = .ok b ↔ ∃ a, x = .ok a ∧ f a = .ok b := by
  cases x with
  | error e => simp [cerr_bind]
  | ok a => simp [cok_bind]

theorem cbind_error {α β : Type} {x : CF α} {f : α → CF β} {e : Fault ControlFlowError} :
    (x >>= f) = .error e ↔ x = .error e ∨ ∃ a, x = .ok a ∧ f a = .error e := by
  cases x with
  | error e => simp [cerr_bind]
  | ok a => simp [cok_bind]

/-- The search from a block returns a chain and where control goes afterwards. -/
inductive Found (get : BlockId → Option (BasicBlock X)) :
    BlockId → FlowList → ControlFlowChain → Continue → Prop where
  | merged {id fl} : FlowList.merges fl id = true → Found get id fl (.Block []) (.Next id)
  | ret {id fl b r} : FlowList.merges fl id = false → get id = some b → b.branch = .OpReturn r →
      Found get id fl (.Atom id) .Return
  | branch {id fl b op c n} : FlowList.merges fl id = false → get id = some b →
      b.branch = .OpBranch op → b.merge = none → Found get ⟨op.target_label.val⟩ fl c n →
      Found get id fl (.block [.Atom id, c]) n
  | loop {id fl b op lm c c2 n} : FlowList.merges fl id = false → get id = some b →
      b.branch = .OpBranch op → b.merge = some (.OpLoopMerge lm) →
      Found get ⟨op.target_label.val⟩ (.Loop id ⟨lm.merge_block.val⟩ lm.loop_control :: fl) c (.Next id) →
      Found get ⟨lm.merge_block.val⟩ fl c2 n →
      Found get id fl (.block [.Loop id c lm.loop_control none, c2]) n
  | sel {id fl b op sm c1 c2 c3 n} : FlowList.merges fl id = false → get id = some b →
      b.branch = .OpBranchConditional op → b.merge = some (.OpSelectionMerge sm) →
      Found get ⟨op.true_label.val⟩ (.If ⟨sm.merge_block.val⟩ sm.selection_control :: fl) c1
        (.Next ⟨sm.merge_block.val⟩) →
      Found get ⟨op.false_label.val⟩ (.If ⟨sm.merge_block.val⟩ sm.selection_control :: fl) c2
        (.Next ⟨sm.merge_block.val⟩) →
      Found get ⟨sm.merge_block.val⟩ fl c3 n →
      Found get id fl (.block [.Selection id c1 c2 sm.selection_control op.weights, c3]) n
  | exit {id fl b op head merge c} : FlowList.merges fl id = false → get id = some b →
      b.branch = .OpBranchConditional op → b.merge = none →
      FlowList.innermostLoop fl = some (head, merge) →
      (⟨op.false_label.val⟩ = merge ∨ ⟨op.false_label.val⟩ = head) →
      Found get ⟨op.true_label.val⟩ fl c (.Next head) →
      Found get id fl (.Selection id c
        (if ⟨op.false_label.val⟩ = merge then .Break else .Continue) SelectionControl.default op.weights)
        (.Next head)

theorem found_of_search {map : BlockMap X} : ∀ {fuel : Nat} {id : BlockId} {fl : FlowList}
    {c : ControlFlowChain} {n : Continue}, searchBlock map fuel id fl = .ok (c, n) →
    Found map.get id fl c n := by
  intro fuel
  induction fuel with
  | zero => intro id fl c n h; cases h
  | succ fuel ih =>
    intro id fl c n h
    rw [searchBlock] at h
    by_cases hm : fl.merges id = true
    · rw [if_pos hm] at h
      cases h
      exact .merged hm
    · rw [if_neg hm] at h
      simp only [Bool.not_eq_true] at hm
      cases hg : map.get id with
      | none => rw [hg] at h; cases h
      | some b =>
        simp only [hg] at h
        cases hb : b.branch with
        | OpReturn r =>
          simp only [hb] at h
          cases h
          exact .ret hm hg hb
        | OpBranch op =>
          simp only [hb] at h
          cases hmg : b.merge with
          | none =>
            simp only [hmg, cbind_ok, Prod.exists] at h
            obtain ⟨c', n', h1, h2⟩ := h
            cases h2
            exact .branch hm hg hb hmg (ih h1)
          | some mg =>
            cases mg with
            | OpSelectionMerge sm => simp only [hmg] at h; cases h
            | OpLoopMerge lm =>
              simp only [hmg, cbind_ok, Prod.exists] at h
              obtain ⟨c', n', h1, h2⟩ := h
              by_cases hn : n' = .Next id
              · rw [if_pos hn] at h2
                simp only [cbind_ok, Prod.exists] at h2
                obtain ⟨c2, n2, h3, h4⟩ := h2
                cases h4
                subst hn
                exact .loop hm hg hb hmg (ih h1) (ih h3)
              · rw [if_neg hn] at h2
                cases h2
        | OpBranchConditional op =>
          simp only [hb] at h
          cases hmg : b.merge with
          | none =>
            simp only [hmg] at h
            cases hi : fl.innermostLoop with
            | none => simp only [hi] at h; cases h
            | some hd =>
              obtain ⟨head, merge⟩ := hd
              simp only [hi] at h
              by_cases hbr : (⟨op.false_label.val⟩ : BlockId) = merge ∨ (⟨op.false_label.val⟩ : BlockId) = head
              · rw [if_pos hbr] at h
                simp only [cbind_ok, Prod.exists] at h
                obtain ⟨c', n', h1, h2⟩ := h
                by_cases hn : n' = .Next head
                · rw [if_pos hn] at h2
                  subst hn
                  cases h2
                  exact .exit hm hg hb hmg hi hbr (ih h1)
                · rw [if_neg hn] at h2
                  cases h2
              · rw [if_neg hbr] at h
                cases h
          | some mg =>
            cases mg with
            | OpLoopMerge sm => simp only [hmg] at h; cases h
            | OpSelectionMerge sm =>
              simp only [hmg, cbind_ok, Prod.exists] at h
              obtain ⟨c1, n1, h1, c2, n2, h2, h3⟩ := h
              by_cases hn : n1 = n2 ∧ n1 = .Next ⟨sm.merge_block.val⟩
              · rw [if_pos hn] at h3
                simp only [cbind_ok, Prod.exists] at h3
                obtain ⟨c3, n3, h4, h5⟩ := h3
                cases h5
                obtain ⟨rfl, rfl⟩ := hn
                exact .sel hm hg hb hmg (ih h1) (ih h2) (ih h4)
              · rw [if_neg hn] at h3
                cases h3

theorem search_of_found {map : BlockMap X} {id : BlockId} {fl : FlowList} {c : ControlFlowChain}
    {n : Continue} (h : Found map.get id fl c n) :
    ∃ fuel, ∀ fuel', fuel ≤ fuel' → searchBlock map fuel' id fl = .ok (c, n) := by
  induction h with
  | merged hm =>
    refine ⟨1, fun fuel' hf => ?_⟩
    obtain ⟨k, rfl⟩ : ∃ k, fuel' = k + 1 := ⟨fuel' - 1, by omega⟩
    rw [searchBlock, if_pos hm]
    rfl
  | ret hm hg hb =>
    refine ⟨1, fun fuel' hf => ?_⟩
    obtain ⟨k, rfl⟩ : ∃ k, fuel' = k + 1 := ⟨fuel' - 1, by omega⟩
    rw [searchBlock, if_neg (by simp [hm])]
    simp only [hg, hb]
  | branch hm hg hb hmg _ ih =>
    obtain ⟨f, ih⟩ := ih
    refine ⟨f + 1, fun fuel' hf => ?_⟩
    obtain ⟨k, rfl⟩ : ∃ k, fuel' = k + 1 := ⟨fuel' - 1, by omega⟩
    rw [searchBlock, if_neg (by simp [hm])]
    simp only [hg, hb, hmg, ih k (by omega), cok_bind]
    rfl
  | loop hm hg hb hmg _ _ ih1 ih2 =>
    obtain ⟨f1, ih1⟩ := ih1
    obtain ⟨f2, ih2⟩ := ih2
    refine ⟨f1 + f2 + 1, fun fuel' hf => ?_⟩
    obtain ⟨k, rfl⟩ : ∃ k, fuel' = k + 1 := ⟨fuel' - 1, by omega⟩
    rw [searchBlock, if_neg (by simp [hm])]
    simp only [hg, hb, hmg, ih1 k (by omega), ih2 k (by omega), cok_bind, if_true]
    rfl
  | sel hm hg hb hmg _ _ _ ih1 ih2 ih3 =>
    obtain ⟨f1, ih1⟩ := ih1
    obtain ⟨f2, ih2⟩ := ih2
    obtain ⟨f3, ih3⟩ := ih3
    refine ⟨f1 + f2 + f3 + 1, fun fuel' hf => ?_⟩
    obtain ⟨k, rfl⟩ : ∃ k, fuel' = k + 1 := ⟨fuel' - 1, by omega⟩
    rw [searchBlock, if_neg (by simp [hm])]
    simp only [hg, hb, hmg, ih1 k (by omega), ih2 k (by omega), ih3 k (by omega), cok_bind, and_self,
      if_true]
    rfl
  | exit hm hg hb hmg hi hbr _ ih =>
    obtain ⟨f, ih⟩ := ih
    refine ⟨f + 1, fun fuel' hf => ?_⟩
    obtain ⟨k, rfl⟩ : ∃ k, fuel' = k + 1 := ⟨fuel' - 1, by omega⟩
    rw [searchBlock, if_neg (by simp [hm])]
    simp only [hg, hb, hmg, hi, ih k (by omega), cok_bind, if_pos hbr, if_true]
    rfl

/-- Control goes on at a block where an enclosing construct merges. -/
theorem Found.next_merges {get : BlockId → Option (BasicBlock X)} {id : BlockId} {fl : FlowList}
    {c : ControlFlowChain} {n : Continue} (h : Found get id fl c n) :
    ∀ t, n = .Next t → fl.merges t = true := by
  induction h with
  | merged hm => rintro t ⟨⟩; exact hm
  | ret => rintro t ⟨⟩
  | branch _ _ _ _ _ ih => exact ih
  | loop _ _ _ _ _ _ _ ih => exact ih
  | sel _ _ _ _ _ _ _ _ _ ih => exact ih
  | exit _ _ _ _ _ _ _ ih => exact ih

/-! ### The map of blocks -/

theorem get_cons (id id' : BlockId) (b : BasicBlock X) (map : BlockMap X) :
    BlockMap.get ((id', b) :: map) id = if id = id' then some b else map.get id := by
  simp only [BlockMap.get, List.lookup_cons]
  by_cases h : id = id'
  · simp [h]
  · rw [if_neg h]
    have : (id == id') = false := by simp [h]
    rw [this]

def labelOf (b : BasicBlock X) : BlockId := ⟨b.label.result_id.val⟩

theorem build_ok {blocks : List (BasicBlock X)} : ∀ {map : BlockMap X},
    (∀ b ∈ blocks, map.get (labelOf b) = none) → (blocks.map labelOf).Nodup →
    ∃ map', buildBlockMap blocks map = .ok map' ∧
      ∀ id, map'.get id = (blocks.find? (fun b => labelOf b == id)).or (map.get id) := by
  induction blocks with
  | nil => intro map _ _; exact ⟨map, rfl, by simp⟩
  | cons b bs ih =>
    intro map h1 h2
    simp only [List.map_cons, List.nodup_cons] at h2
    have hb := h1 b (by simp)
    have hb' : map.get ⟨b.label.result_id.val⟩ = none := hb
    obtain ⟨map', e, hget⟩ := ih (map := (labelOf b, b) :: map) (by
      intro b' hb''
      rw [get_cons, if_neg]
      · exact h1 b' (by simp [hb''])
      · intro he
        exact h2.1 (he ▸ List.mem_map_of_mem hb'')) h2.2
    refine ⟨map', ?_, ?_⟩
    · simp only [buildBlockMap, hb', Option.isSome_none]
      exact e
    · intro id
      rw [hget id, get_cons, List.find?_cons]
      by_cases hid : id = labelOf b
      · subst hid
        have hn : bs.find? (fun b' => labelOf b' == labelOf b) = none := by
          rw [List.find?_eq_none]
          intro b' hb' he
          exact h2.1 (by rw [← beq_iff_eq.mp he]; exact List.mem_map_of_mem hb')
        simp [hn]
      · have hne : (labelOf b == id) = false := by simp [Ne.symm hid]
        rw [if_neg hid, hne]

/-- The map is not built when two blocks share an id: the first block whose id occurs before it is
reported. -/
theorem build_error {blocks : List (BasicBlock X)} : ∀ {map : BlockMap X} {e : Fault ControlFlowError},
    buildBlockMap blocks map = .error e →
    ∃ pre b post, blocks = pre ++ b :: post ∧ e = .err (.DuplicateBlockId (labelOf b)) ∧
      ((map.get (labelOf b)).isSome = true ∨ labelOf b ∈ pre.map labelOf) ∧
      (pre.map labelOf).Nodup ∧ ∀ b' ∈ pre, map.get (labelOf b') = none := by
  induction blocks with
  | nil => intro map e h; cases h
  | cons b bs ih =>
    intro map e h
    simp only [buildBlockMap] at h
    by_cases hs : (map.get ⟨b.label.result_id.val⟩).isSome = true
    · rw [if_pos hs] at h
      cases h
      exact ⟨[], b, bs, rfl, rfl, .inl hs, by simp, by simp⟩
    · rw [if_neg hs] at h
      obtain ⟨pre, b', post, rfl, he, hd, hn, hm⟩ := ih h
      have key (b'' : BasicBlock X) : BlockMap.get ((⟨b.label.result_id.val⟩, b) :: map) (labelOf b'') = none ↔
          labelOf b'' ≠ labelOf b ∧ map.get (labelOf b'') = none := by
        rw [get_cons]
        by_cases h' : labelOf b'' = labelOf b
        · have h'' : labelOf b'' = ⟨b.label.result_id.val⟩ := h'
          rw [if_pos h'']
          simp [h']
        · have h'' : ¬ labelOf b'' = ⟨b.label.result_id.val⟩ := h'
          simp [h', h'']
      refine ⟨b :: pre, b', post, rfl, he, ?_, ?_, ?_⟩
      · rcases hd with hd | hd
        · rw [get_cons] at hd
          by_cases h' : labelOf b' = ⟨b.label.result_id.val⟩
          · right
            have : labelOf b' = labelOf b := h'
            simp [this]
          · rw [if_neg h'] at hd
            exact .inl hd
        · right
          simp only [List.map_cons, List.mem_cons]
          exact .inr hd
      · simp only [List.map_cons, List.nodup_cons]
        refine ⟨?_, hn⟩
        intro hmem
        obtain ⟨b'', hb'', he'⟩ := List.mem_map.mp hmem
        exact ((key b'').mp (hm b'' hb'')).1 he'
      · intro b'' hb''
        rcases List.mem_cons.mp hb'' with rfl | hb''
        · exact Option.not_isSome_iff_eq_none.mp hs
        · exact ((key b'').mp (hm b'' hb'')).2

theorem build_nodup {blocks : List (BasicBlock X)} : ∀ {map map' : BlockMap X},
    buildBlockMap blocks map = .ok map' →
    (blocks.map labelOf).Nodup ∧ ∀ b ∈ blocks, map.get (labelOf b) = none := by
  induction blocks with
  | nil => intro map map' _; simp
  | cons b bs ih =>
    intro map map' h
    simp only [buildBlockMap] at h
    by_cases hs : (map.get ⟨b.label.result_id.val⟩).isSome = true
    · rw [if_pos hs] at h; cases h
    · rw [if_neg hs] at h
      obtain ⟨h1, h2⟩ := ih h
      have key (b'' : BasicBlock X) (hb'' : b'' ∈ bs) :
          labelOf b'' ≠ labelOf b ∧ map.get (labelOf b'') = none := by
        have := h2 b'' hb''
        rw [get_cons] at this
        by_cases h' : labelOf b'' = ⟨b.label.result_id.val⟩
        · rw [if_pos h'] at this; cases this
        · rw [if_neg h'] at this
          exact ⟨h', this⟩
      constructor
      · simp only [List.map_cons, List.nodup_cons]
        refine ⟨?_, h1⟩
        intro hmem
        obtain ⟨b'', hb'', he'⟩ := List.mem_map.mp hmem
        exact (key b'' hb'').1 he'
      · intro b'' hb''
        rcases List.mem_cons.mp hb'' with rfl | hb''
        · exact Option.not_isSome_iff_eq_none.mp hs
        · exact (key b'' hb'').2

end Magma
