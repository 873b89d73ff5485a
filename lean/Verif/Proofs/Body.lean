import Verif.Proofs.Header
/-! Lemmas: the sequence of instructions. -/

namespace Magma
open Spec

/-- The map of sets holds what the instructions read so far imported. -/
structure Inv {X : Type} (known : List (ExtInstSet X)) (bound : BoundSets X)
    (before : List (Core X)) : Prop where
  imported : ∀ id i name, i ∈ before → importName id i = some name →
    ∃ s, setNamed known name = some s ∧ bound.lookup id = some s
  bound : ∀ id s, bound.lookup id = some s → ∃ i ∈ before, ∃ name, importName id i = some name ∧
    setNamed known name = some s

theorem Inv.nil {X : Type} (known : List (ExtInstSet X)) : Inv known [] [] :=
  ⟨by simp, by simp [List.lookup]⟩

theorem Inv.none_iff {X : Type} {known : List (ExtInstSet X)} {bound : BoundSets X}
    {before : List (Core X)} (h : Inv known bound before) (id : UInt32) :
    bound.lookup id = none ↔ ∀ i ∈ before, importName id i = none := by
  constructor
  · intro hn i hi
    cases hname : importName id i with
    | none => rfl
    | some name =>
      obtain ⟨s, _, hs⟩ := h.imported id i name hi hname
      rw [hn] at hs
      cases hs
  · intro hn
    cases hl : bound.lookup id with
    | none => rfl
    | some s =>
      obtain ⟨i, hi, name, h1, _⟩ := h.bound id s hl
      rw [hn i hi] at h1
      cases h1

theorem Inv.some_iff {X : Type} {known : List (ExtInstSet X)} {bound : BoundSets X}
    {before : List (Core X)} (h : Inv known bound before) (id : UInt32) (s : ExtInstSet X) :
    bound.lookup id = some s ↔ ∃ i name, i ∈ before ∧ importName id i = some name ∧
      setNamed known name = some s := by
  constructor
  · intro hl
    obtain ⟨i, hi, name, h1, h2⟩ := h.bound id s hl
    exact ⟨i, name, hi, h1, h2⟩
  · rintro ⟨i, name, hi, h1, h2⟩
    obtain ⟨s', h3, h4⟩ := h.imported id i name hi h1
    rw [h2] at h3
    cases h3
    exact h4

theorem OpsRel_plain {X : Type} {known : List (ExtInstSet X)} {bound bound' : BoundSets X}
    {inst : Core X} {ws rest : List UInt32} (h1 : ∀ op, inst ≠ .OpExtInstImport op)
    (h2 : ∀ op, inst ≠ .OpExtInst op) :
    OpsRel known bound inst ws rest bound' ↔ Reads (operands inst) ws rest ∧ bound' = bound := by
  unfold OpsRel
  split
  · exact (h1 _ rfl).elim
  · exact (h2 _ rfl).elim
  · rfl

theorem SpellsOperands_plain {X : Type} {known : List (ExtInstSet X)} {before : List (Core X)}
    {inst : Core X} {ws : List UInt32} (h1 : ∀ op, inst ≠ .OpExtInstImport op)
    (h2 : ∀ op, inst ≠ .OpExtInst op) :
    SpellsOperands known before inst ws ↔ Reads (operands inst) ws [] := by
  unfold SpellsOperands
  split
  · exact (h1 _ rfl).elim
  · exact (h2 _ rfl).elim
  · rfl

theorem importName_plain {X : Type} {inst : Core X} (h1 : ∀ op, inst ≠ .OpExtInstImport op)
    (id : UInt32) : importName id inst = none := by
  unfold importName
  split
  · exact (h1 _ rfl).elim
  · rfl

/-- The three kinds of instructions -/
theorem core_cases {X : Type} (inst : Core X) : (∃ op, inst = .OpExtInstImport op) ∨
    (∃ op, inst = .OpExtInst op) ∨
    ((∀ op, inst ≠ .OpExtInstImport op) ∧ ∀ op, inst ≠ .OpExtInst op) := by
  by_cases h1 : ∃ op, inst = .OpExtInstImport op
  · exact .inl h1
  · by_cases h2 : ∃ op, inst = .OpExtInst op
    · exact .inr (.inl h2)
    · exact .inr (.inr ⟨fun op h => h1 ⟨op, h⟩, fun op h => h2 ⟨op, h⟩⟩)

theorem OpsRel_iff {X : Type} {known : List (ExtInstSet X)} {bound : BoundSets X}
    {before : List (Core X)} (h : Inv known bound before) (inst : Core X) (ws : List UInt32) :
    (∃ bound', OpsRel known bound inst ws [] bound') ↔ SpellsOperands known before inst ws := by
  rcases core_cases inst with ⟨op, rfl⟩ | ⟨op, rfl⟩ | ⟨h1, h2⟩
  · simp only [OpsRel, SpellsOperands, h.none_iff]
    constructor
    · rintro ⟨b', hr, s, hs, hn, rfl⟩
      exact ⟨hr, by simp [hs], hn⟩
    · rintro ⟨hr, hs, hn⟩
      obtain ⟨s, hs⟩ := Option.ne_none_iff_exists'.mp hs
      exact ⟨_, hr, s, hs, hn, rfl⟩
  · simp only [OpsRel, SpellsOperands, h.some_iff]
    constructor
    · rintro ⟨b', n, args, s, hr, ⟨i, name, hi, hn, hs⟩, hx, rfl⟩
      exact ⟨n, args, i, name, s, hr, hi, hn, hs, hx⟩
    · rintro ⟨n, args, i, name, s, hr, hi, hn, hs, hx⟩
      exact ⟨_, n, args, s, hr, ⟨i, name, hi, hn, hs⟩, hx, rfl⟩
  · simp only [OpsRel_plain h1 h2, SpellsOperands_plain h1 h2]
    constructor
    · rintro ⟨b', hr, rfl⟩
      exact hr
    · intro hr
      exact ⟨_, hr, rfl⟩

theorem Inv.step {X : Type} {known : List (ExtInstSet X)} {bound bound' : BoundSets X}
    {before : List (Core X)} (h : Inv known bound before) {inst : Core X} {ws rest : List UInt32}
    (hr : OpsRel known bound inst ws rest bound') : Inv known bound' (before ++ [inst]) := by
  have plain (hp : ∀ op, inst ≠ .OpExtInstImport op) : Inv known bound (before ++ [inst]) := by
    refine ⟨?_, ?_⟩
    · intro id i name hi hn
      simp only [List.mem_append, List.mem_singleton] at hi
      rcases hi with hi | rfl
      · exact h.imported id i name hi hn
      · rw [importName_plain hp] at hn
        cases hn
    · intro id s hs
      obtain ⟨i, hi, name, h1, h2⟩ := h.bound id s hs
      exact ⟨i, by simp [hi], name, h1, h2⟩
  rcases core_cases inst with ⟨op, rfl⟩ | ⟨op, rfl⟩ | ⟨h1, h2⟩
  · obtain ⟨hr, s, hs, hn, rfl⟩ := hr
    refine ⟨?_, ?_⟩
    · intro id i name hi hname
      simp only [List.mem_append, List.mem_singleton] at hi
      rcases hi with hi | rfl
      · obtain ⟨s', h1, h2⟩ := h.imported id i name hi hname
        refine ⟨s', h1, ?_⟩
        simp only [List.lookup]
        split
        · rename_i heq
          have : id = op.result_id.val := by simpa using heq
          subst this
          rw [hn] at h2
          cases h2
        · exact h2
      · simp only [importName] at hname
        split at hname
        · rename_i heq
          simp only [Option.some.injEq] at hname
          subst hname heq
          exact ⟨s, hs, by simp [List.lookup]⟩
        · cases hname
    · intro id s' hl
      simp only [List.lookup] at hl
      split at hl
      · rename_i heq
        have : id = op.result_id.val := by simpa using heq
        subst this
        simp only [Option.some.injEq] at hl
        subst hl
        exact ⟨.OpExtInstImport op, by simp, op.name, by simp [importName], hs⟩
      · obtain ⟨i, hi, name, h1, h2⟩ := h.bound id s' hl
        exact ⟨i, by simp [hi], name, h1, h2⟩
  · obtain ⟨n, args, s, hr, _, _, rfl⟩ := hr
    exact plain (by simp)
  · rw [OpsRel_plain h1 h2] at hr
    rw [hr.2]
    exact plain h1

theorem isHead_opWords {k n : Nat} {head : UInt32} (h : IsHead k (n + 1) head) :
    opWords head = n ∧ head.toNat % 65536 = k := by
  obtain ⟨wc, h1, h2, h3⟩ := h
  unfold opWords
  omega

theorem isHead_of {k n : Nat} {head : UInt32} (h1 : opWords head = n) (h2 : k = head.toNat % 65536) :
    IsHead k (n + 1) head := by
  unfold opWords at h1
  refine ⟨head.toNat / 65536, ?_, ?_, ?_⟩ <;> omega

theorem bodyW_ok_cons {X : Type} {known : List (ExtInstSet X)} {bound : BoundSets X}
    {t : List UInt8} {ws : List UInt32} {inst : Core X} {insts : List (Core X)} :
    bodyW known bound t ws = .ok (inst :: insts) ↔
      ∃ head ops ws' bound', ws = head :: (ops ++ ws') ∧ ops.length = opWords head ∧
        supported inst = true ∧ opcode inst = head.toNat % 65536 ∧
        OpsRel known bound inst ops [] bound' ∧
        bodyW known bound' t ws' = .ok insts := by
  cases ws with
  | nil =>
    rw [bodyW_nil]
    constructor
    · intro h; split at h <;> simp at h
    · rintro ⟨head, ops, ws', b, h, _⟩; cases h
  | cons head ws =>
    by_cases hs : ws.length < opWords head
    · rw [bodyW_short hs]
      simp only [reduceCtorEq, false_iff]
      rintro ⟨h', ops, ws', b, heq, hl, _⟩
      simp only [List.cons.injEq] at heq
      obtain ⟨rfl, rfl⟩ := heq
      simp at hs
      omega
    · have hs : opWords head ≤ ws.length := by omega
      rw [bodyW_cons hs]
      simp only [bind_ok, Prod.exists, pure_ok, List.cons.injEq, decode_iff]
      constructor
      · rintro ⟨i, b, ⟨h1, h2, h3⟩, l, h4, rfl, rfl⟩
        exact ⟨head, _, _, b, ⟨rfl, (List.take_append_drop _ ws).symm⟩, by simp [hs], h1, h2, h3,
          h4⟩
      · rintro ⟨_, ops, ws', b, ⟨rfl, rfl⟩, hl, h1, h2, h3, h4⟩
        rw [← hl]
        simp only [List.take_left', List.drop_left']
        exact ⟨inst, b, ⟨h1, h2, h3⟩, insts, h4, rfl, rfl⟩

theorem bodyW_ok_nil {X : Type} {known : List (ExtInstSet X)} {bound : BoundSets X}
    {t : List UInt8} {ws : List UInt32} :
    bodyW known bound t ws = .ok [] ↔ ws = [] ∧ t = [] := by
  cases ws with
  | nil =>
    rw [bodyW_nil]
    split <;> simp_all
  | cons head ws =>
    by_cases hs : ws.length < opWords head
    · rw [bodyW_short hs]
      simp
    · rw [bodyW_cons (by omega)]
      simp only [bind_ok, pure_ok]
      simp

/-- The main loop accepts exactly the spellings of a sequence of instructions. -/
theorem bodyW_iff {X : Type} {known : List (ExtInstSet X)} {insts : List (Core X)} :
    ∀ {bound : BoundSets X} {before : List (Core X)} {ws : List UInt32} {t : List UInt8},
    Inv known bound before →
    (bodyW known bound t ws = .ok insts ↔ SpellsBody known before insts ws ∧ t = []) := by
  induction insts with
  | nil =>
    intro bound before ws t _
    rw [bodyW_ok_nil]
    rfl
  | cons inst insts ih =>
    intro bound before ws t hinv
    rw [bodyW_ok_cons]
    simp only [SpellsBody]
    constructor
    · rintro ⟨head, ops, ws', b, rfl, hl, h1, h2, h3, h4⟩
      rw [ih (hinv.step h3)] at h4
      exact ⟨⟨head :: ops, ws', rfl, ⟨h1, head, ops, rfl, isHead_of hl.symm h2,
        (OpsRel_iff hinv inst ops).mp ⟨b, h3⟩⟩, h4.1⟩, h4.2⟩
    · rintro ⟨⟨u, ws', rfl, ⟨h1, head, ops, rfl, h2, h3⟩, h4⟩, rfl⟩
      obtain ⟨b, h3⟩ := (OpsRel_iff hinv inst ops).mpr h3
      obtain ⟨h5, h6⟩ := isHead_opWords h2
      exact ⟨head, ops, ws', b, rfl, h5.symm, h1, h6.symm, h3, (ih (hinv.step h3)).mpr ⟨h4, rfl⟩⟩

/-- The sets in the map come from the list of known sets. -/
theorem OpsRel_bound_sub {X : Type} {known : List (ExtInstSet X)} {bound bound' : BoundSets X}
    {inst : Core X} {ws rest : List UInt32} (hr : OpsRel known bound inst ws rest bound')
    (h : ∀ p ∈ bound, p.2 ∈ known) : ∀ p ∈ bound', p.2 ∈ known := by
  rcases core_cases inst with ⟨op, rfl⟩ | ⟨op, rfl⟩ | ⟨h1, h2⟩
  · obtain ⟨hr, s, hs, hn, rfl⟩ := hr
    intro p hp
    rcases List.mem_cons.mp hp with rfl | hp
    · exact List.mem_of_find?_eq_some hs
    · exact h p hp
  · obtain ⟨n, args, s, hr, _, _, rfl⟩ := hr
    exact h
  · rw [OpsRel_plain h1 h2] at hr
    rw [hr.2]
    exact h

theorem bodyW_safe {X : Type} {known : List (ExtInstSet X)}
    (hk : ∀ s ∈ known, ∀ n ws, Safe (s.readInstruction n ws)) (t : List UInt8) (n : Nat) :
    ∀ (ws : List UInt32) (bound : BoundSets X), ws.length ≤ n → (∀ p ∈ bound, p.2 ∈ known) →
    Safe (bodyW known bound t ws) := by
  induction n with
  | zero =>
    intro ws bound hl hb
    have : ws = [] := by cases ws with
      | nil => rfl
      | cons _ _ => simp at hl
    subst this
    rw [bodyW_nil]
    exact .ite (.ok _) (.fail _)
  | succ n ih =>
    intro ws bound hl hb
    cases ws with
    | nil =>
      rw [bodyW_nil]
      exact .ite (.ok _) (.fail _)
    | cons head ws =>
      by_cases hs : ws.length < opWords head
      · rw [bodyW_short hs]
        exact .fail _
      · rw [bodyW_cons (by omega)]
        refine Safe.bind (decode_safe _ _ _ _ fun p hp => hk _ (hb p hp)) fun p hp => ?_
        obtain ⟨inst, b⟩ := p
        have := (decode_iff.mp hp).2.2
        refine Safe.bind (ih _ _ (by simp at hl ⊢; omega) (OpsRel_bound_sub this hb)) fun _ _ => .pure _

/-- Errors that say that the input ended too early -/
def IsEos (e : Fault ReadError) : Prop :=
  e = .err .UnexpectedEndOfStream ∨ e = .err .UnexpectedStreamAlignment

theorem isEos_eosError (t : List UInt8) : IsEos (.err (eosError t)) := by
  unfold eosError
  split
  · exact .inl rfl
  · exact .inr rfl

/-- A prefix of the words of accepted instructions -/
theorem bodyW_prefix {X : Type} {known : List (ExtInstSet X)} {insts : List (Core X)} :
    ∀ {bound : BoundSets X} {ws : List UInt32} {t : List UInt8} (n : Nat) (t' : List UInt8),
    bodyW known bound t ws = .ok insts →
    (∃ insts', insts' <+: insts ∧ bodyW known bound t' (ws.take n) = .ok insts') ∨
    ∃ e, IsEos e ∧ bodyW known bound t' (ws.take n) = .error e := by
  have base (bound : BoundSets X) (t' : List UInt8) (insts : List (Core X)) :
      (∃ insts', insts' <+: insts ∧ bodyW known bound t' [] = .ok insts') ∨
      ∃ e, IsEos e ∧ bodyW known bound t' [] = .error e := by
    rw [bodyW_nil]
    split
    · exact .inl ⟨[], List.nil_prefix, rfl⟩
    · exact .inr ⟨_, .inr rfl, rfl⟩
  induction insts with
  | nil =>
    intro bound ws t n t' h
    rw [bodyW_ok_nil] at h
    obtain ⟨rfl, rfl⟩ := h
    simp only [List.take_nil]
    exact base bound t' []
  | cons inst insts ih =>
    intro bound ws t n t' h
    obtain ⟨head, ops, ws', b, rfl, hl, h1, h2, h3, h4⟩ := bodyW_ok_cons.mp h
    cases n with
    | zero => exact base bound t' _
    | succ n =>
      simp only [List.take_succ_cons]
      by_cases hn : n < ops.length
      · refine .inr ⟨_, isEos_eosError t', bodyW_short ?_⟩
        simp only [List.length_take, List.length_append]
        omega
      · have hn : ops.length ≤ n := by omega
        rw [List.take_append, List.take_of_length_le hn]
        rcases ih (n - ops.length) t' h4 with ⟨l, hl', hb⟩ | ⟨e, he, hb⟩
        · refine .inl ⟨inst :: l, List.cons_prefix_cons.mpr ⟨rfl, hl'⟩, ?_⟩
          exact bodyW_ok_cons.mpr ⟨head, ops, _, b, rfl, hl, h1, h2, h3, hb⟩
        · refine .inr ⟨e, he, ?_⟩
          rw [bodyW_cons (by simp; omega), ← hl]
          simp only [List.take_left', List.drop_left']
          rw [decode_iff.mpr ⟨h1, h2, h3⟩, ok_bind, hb]
          rfl

/-- An error that is not about the end of the input does not depend on what follows. -/
theorem bodyW_extend {X : Type} {known : List (ExtInstSet X)} (n : Nat) :
    ∀ {bound : BoundSets X} {ws : List UInt32} {t : List UInt8} {e : Fault ReadError}
    (more : List UInt32) (t' : List UInt8), ws.length ≤ n →
    bodyW known bound t ws = .error e → ¬ IsEos e →
    bodyW known bound t' (ws ++ more) = .error e := by
  induction n with
  | zero =>
    intro bound ws t e more t' hl h he
    have : ws = [] := by cases ws with
      | nil => rfl
      | cons _ _ => simp at hl
    subst this
    rw [bodyW_nil] at h
    split at h
    · cases h
    · cases h
      exact (he (.inr rfl)).elim
  | succ n ih =>
    intro bound ws t e more t' hl h he
    cases ws with
    | nil =>
      rw [bodyW_nil] at h
      split at h
      · cases h
      · cases h
        exact (he (.inr rfl)).elim
    | cons head ws =>
      by_cases hs : ws.length < opWords head
      · rw [bodyW_short hs] at h
        cases h
        exact (he (isEos_eosError t)).elim
      · have hs : opWords head ≤ ws.length := by omega
        rw [bodyW_cons hs] at h
        rw [List.cons_append, bodyW_cons (by simp; omega), List.take_append_of_le_length hs,
          List.drop_append_of_le_length hs]
        cases hd : decode head (ws.take (opWords head)) known bound with
        | error e' =>
          rw [hd] at h
          cases h
          rfl
        | ok p =>
          rw [hd, ok_bind] at h
          rw [ok_bind]
          cases hb : bodyW known p.2 t (ws.drop (opWords head)) with
          | error e' =>
            rw [hb] at h
            cases h
            rw [ih more t' (by simp at hl ⊢; omega) hb he]
            rfl
          | ok l =>
            rw [hb] at h
            cases h

end Magma
