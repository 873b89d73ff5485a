import Verif.Proofs.ReadsOps
/-! Lemmas: what the operand readers do when words are missing. -/

namespace Magma
open Spec

/-- Reading looks at nothing after the words it takes, unless it asks for the end. -/
theorem Reads_local {os : List Operand} : ∀ {u rest : List UInt32} (rest' : List UInt32),
    Reads os (u ++ rest) rest → (.done ∈ os → rest' = []) → Reads os (u ++ rest') rest' := by
  induction os with
  | nil =>
    intro u rest rest' h _
    have : u = [] := by simpa [Reads] using h
    simp [this, Reads]
  | cons o os ih =>
    intro u rest rest' h hd
    have hd' : Operand.done ∈ os → rest' = [] := fun h => hd (List.mem_cons_of_mem _ h)
    cases o with
    | lit w =>
      obtain ⟨ws', h1, h⟩ := h
      obtain ⟨v, rfl⟩ := Reads_suffix h
      have : u = w :: v := List.append_cancel_right (by simpa using h1)
      subst this
      exact ⟨_, rfl, ih rest' h hd'⟩
    | mask i x =>
      obtain ⟨w, ws', h1, hw, h⟩ := h
      obtain ⟨v, rfl⟩ := Reads_suffix h
      have : u = w :: v := List.append_cancel_right (by simpa using h1)
      subst this
      exact ⟨w, _, rfl, hw, ih rest' h hd'⟩
    | str s =>
      obtain ⟨u', ws', h1, hs, h⟩ := h
      obtain ⟨v, rfl⟩ := Reads_suffix h
      have : u = u' ++ v := List.append_cancel_right (by simpa using h1)
      subst this
      exact ⟨u', v ++ rest', by simp, hs, ih rest' h hd'⟩
    | done =>
      have hr := hd (List.mem_cons_self ..)
      subst hr
      obtain ⟨h1, h⟩ := h
      have : u = [] := (List.append_eq_nil_iff.mp h1).1
      subst this
      have := ih [] h (fun _ => rfl)
      exact ⟨rfl, this⟩
    | never => exact h.elim

theorem Reads_done {os : List Operand} : ∀ {ws rest : List UInt32}, Reads os ws rest →
    .done ∈ os → rest = [] := by
  induction os with
  | nil => simp
  | cons o os ih =>
    intro ws rest h hd
    cases o with
    | lit w =>
      obtain ⟨ws', rfl, h⟩ := h
      exact ih h (by simpa using hd)
    | mask i v =>
      obtain ⟨w, ws', rfl, _, h⟩ := h
      exact ih h (by simpa using hd)
    | str s =>
      obtain ⟨u', ws', rfl, _, h⟩ := h
      exact ih h (by simpa using hd)
    | done =>
      obtain ⟨rfl, h⟩ := h
      obtain ⟨u, hu⟩ := Reads_suffix h
      exact (List.append_eq_nil_iff.mp hu.symm).2
    | never => exact h.elim

/-- Prefixes of the rest are fine too. -/
theorem Reads_prefix {os : List Operand} {u rest p : List UInt32} (h : Reads os (u ++ rest) rest)
    (hp : p <+: rest) : Reads os (u ++ p) p := by
  refine Reads_local p h fun hd => ?_
  rw [Reads_done h hd] at hp
  simpa using hp

theorem prefix_split {p u v : List UInt32} (h : p <+: u ++ v) :
    p <+: u ∨ ∃ q, p = u ++ q ∧ q <+: v := by
  by_cases hl : p.length ≤ u.length
  · exact .inl (List.prefix_of_prefix_length_le h (List.prefix_append _ _) hl)
  · obtain ⟨q, rfl⟩ := List.prefix_of_prefix_length_le (List.prefix_append u v) h (by omega)
    exact .inr ⟨q, rfl, by simpa using h⟩

/-- The error for missing words, or success with all the words used up -/
def Stops {α : Type} (x : R (Block × α)) : Prop :=
  x = fail .UnexpectedEndOfInstruction ∨ ∃ a, x = .ok ([], a)

/-- Given only a prefix of the words it would take, the reader stops. -/
structure Trunc {α : Type} (read : Block → R (Block × α)) : Prop where
  empty : Stops (read [])
  pre : ∀ u rest a, read (u ++ rest) = .ok (rest, a) → ∀ p, p <+: u → Stops (read p)

/-- The reader takes words from the front, and does not look at the rest. -/
structure Local {α : Type} (read : Block → R (Block × α)) : Prop where
  suffix : ∀ ws rest a, read ws = .ok (rest, a) → ∃ u, ws = u ++ rest
  pre : ∀ u rest a, read (u ++ rest) = .ok (rest, a) → ∀ p, p <+: rest → read (u ++ p) = .ok (p, a)

theorem Lawful.local {α : Type} [MemoryBlockRead α] [Encode α] [Lawful α] :
    Local (MemoryBlockRead.read : Block → R (Block × α)) where
  suffix ws rest a h := Reads_suffix ((Lawful.iff ws rest a).mp h)
  pre _ _ _ h _ hp := (Lawful.iff _ _ _).mpr (Reads_prefix ((Lawful.iff _ _ _).mp h) hp)

theorem Stops.err {α : Type} : Stops (fail .UnexpectedEndOfInstruction : R (Block × α)) := .inl rfl
theorem Stops.ok {α : Type} (a : α) : Stops (.ok ([], a) : R (Block × α)) := .inr ⟨a, rfl⟩

theorem Trunc.pure {α : Type} (a : α) : Trunc (fun block => (pure (block, a) : R (Block × α))) where
  empty := .ok a
  pre u rest b h p hp := by
    simp only [pure_ok, Prod.mk.injEq] at h
    have : u = [] := by simpa using h.1
    subst this
    have : p = [] := by simpa using hp
    subst this
    exact .ok a

theorem Local.pure {α : Type} (a : α) : Local (fun block => (pure (block, a) : R (Block × α))) where
  suffix ws rest b h := by
    simp only [pure_ok, Prod.mk.injEq] at h
    exact ⟨[], h.1⟩
  pre u rest b h p hp := by
    simp only [pure_ok, Prod.mk.injEq] at h ⊢
    have : u = [] := by simpa using h.1
    simp [this, h.2]

theorem Trunc.bind {α β : Type} {r1 : Block → R (Block × α)} {r2 : Block × α → R (Block × β)}
    (h1 : Trunc r1) (l1 : Local r1) (h2 : ∀ a, Trunc fun block => r2 (block, a))
    (l2 : ∀ a, Local fun block => r2 (block, a)) : Trunc fun block => r1 block >>= r2 where
  empty := by
    rcases h1.empty with h | ⟨a, h⟩
    · rw [h]; exact .err
    · rw [h]; exact (h2 a).empty
  pre u rest b h p hp := by
    simp only [bind_ok, Prod.exists] at h
    obtain ⟨mid, a, ha, hb⟩ := h
    obtain ⟨u1, hu1⟩ := l1.suffix _ _ _ ha
    obtain ⟨u2, rfl⟩ := (l2 a).suffix _ _ _ hb
    have hu : u = u1 ++ u2 := List.append_cancel_right (by simpa using hu1)
    subst hu
    rcases prefix_split hp with hp | ⟨p2, rfl, hp2⟩
    · simp only [List.append_assoc] at ha
      rcases h1.pre _ _ _ ha p hp with h | ⟨a', h⟩
      · rw [h]; exact .err
      · rw [h]; exact (h2 a').empty
    · have h3 := l1.pre u1 (u2 ++ rest) a (by simpa using ha) p2 (hp2.trans (List.prefix_append _ _))
      rw [h3]
      exact (h2 a).pre u2 rest b hb p2 hp2

theorem Local.bind {α β : Type} {r1 : Block → R (Block × α)} {r2 : Block × α → R (Block × β)}
    (l1 : Local r1) (l2 : ∀ a, Local fun block => r2 (block, a)) :
    Local fun block => r1 block >>= r2 where
  suffix ws rest b h := by
    simp only [bind_ok, Prod.exists] at h
    obtain ⟨mid, a, ha, hb⟩ := h
    obtain ⟨u1, rfl⟩ := l1.suffix _ _ _ ha
    obtain ⟨u2, rfl⟩ := (l2 a).suffix _ _ _ hb
    exact ⟨u1 ++ u2, by simp⟩
  pre u rest b h p hp := by
    simp only [bind_ok, Prod.exists] at h
    obtain ⟨mid, a, ha, hb⟩ := h
    obtain ⟨u1, hu1⟩ := l1.suffix _ _ _ ha
    obtain ⟨u2, rfl⟩ := (l2 a).suffix _ _ _ hb
    have hu : u = u1 ++ u2 := List.append_cancel_right (by simpa using hu1)
    subst hu
    have h3 := l1.pre u1 (u2 ++ rest) a (by simpa using ha) (u2 ++ p) (by simpa using hp)
    simp only [List.append_assoc, h3]
    exact (l2 a).pre u2 rest b hb p hp

/-- A reader that takes at least a word first: the rest of the reading need not stop on nothing. -/
theorem Trunc.word {β : Type} {r2 : Block × UInt32 → R (Block × β)}
    (h2 : ∀ w u rest b, r2 (u ++ rest, w) = .ok (rest, b) → ∀ p, p <+: u → Stops (r2 (p, w)))
    (l2 : ∀ w, Local fun block => r2 (block, w)) : Trunc fun block => block.readWord >>= r2 where
  empty := .err
  pre u rest b h p hp := by
    simp only [bind_ok, Prod.exists, readWord_ok] at h
    obtain ⟨mid, w, hw, hb⟩ := h
    obtain ⟨u2, rfl⟩ := (l2 w).suffix _ _ _ hb
    have hu : u = w :: u2 := List.append_cancel_right (by simpa using hw)
    subst hu
    cases p with
    | nil => exact .err
    | cons x p =>
      rw [List.cons_prefix_cons] at hp
      obtain ⟨rfl, hp⟩ := hp
      exact h2 x u2 rest b hb p hp

theorem readWord_local : Local Block.readWord := Lawful.local (α := UInt32)

theorem readWord_trunc : Trunc Block.readWord where
  empty := .err
  pre u rest a h p hp := by
    rw [readWord_ok] at h
    have : u = [a] := List.append_cancel_right (by simpa using h)
    subst this
    cases p with
    | nil => exact .err
    | cons x p =>
      rw [List.cons_prefix_cons] at hp
      have : p = [] := by simpa using hp.2
      subst this
      exact .ok _

/-- One word, and then a decision that takes no more words -/
theorem Trunc.word_pure {β : Type} {f : Block × UInt32 → R (Block × β)}
    (hf : ∀ block w, (∃ e, ∀ block, f (block, w) = fail e) ∨ ∃ b, f (block, w) = .ok (block, b)) :
    Trunc fun block => block.readWord >>= f where
  empty := .err
  pre u rest b h p hp := by
    simp only [bind_ok, Prod.exists, readWord_ok] at h
    obtain ⟨mid, w, hw, hb⟩ := h
    rcases hf mid w with ⟨e, he⟩ | ⟨b', hb'⟩
    · rw [he] at hb; cases hb
    · rw [hb'] at hb
      cases hb
      have hu : u = [w] := List.append_cancel_right (by simpa using hw)
      subst hu
      cases p with
      | nil => exact .err
      | cons x p =>
        rw [List.cons_prefix_cons] at hp
        obtain ⟨rfl, hp⟩ := hp
        have : p = [] := by simpa using hp
        subst this
        rcases hf [] x with ⟨e, he⟩ | ⟨b', hb''⟩
        · rw [he] at hb'; cases hb'
        · exact .inr ⟨b', hb''⟩

class TruncRead (α : Type) [MemoryBlockRead α] : Prop where
  trunc : Trunc (MemoryBlockRead.read : Block → R (Block × α))

instance : TruncRead UInt32 := ⟨readWord_trunc⟩
instance : TruncRead OpId := ⟨.word_pure fun _ w => .inr ⟨⟨w⟩, rfl⟩⟩
instance : TruncRead ResultId := ⟨.word_pure fun _ w => .inr ⟨⟨w⟩, rfl⟩⟩
instance : TruncRead SourceVersion := ⟨.word_pure fun _ w => .inr ⟨⟨w⟩, rfl⟩⟩
instance : TruncRead MemberIndex := ⟨.word_pure fun _ w => .inr ⟨⟨w⟩, rfl⟩⟩

theorem readEnum_trunc {α : Type} (table : List (UInt32 × α)) (e : UInt32 → ReadError) :
    Trunc (readEnum table e) := by
  refine Trunc.word_pure fun block w => ?_
  dsimp only
  cases h : table.lookup w with
  | none => exact .inl ⟨e w, fun _ => rfl⟩
  | some a => exact .inr ⟨a, rfl⟩

instance : TruncRead BuiltIn := ⟨readEnum_trunc _ _⟩
instance : TruncRead FunctionParameterAttribute := ⟨readEnum_trunc _ _⟩
instance : TruncRead FpRoundingMode := ⟨readEnum_trunc _ _⟩
instance : TruncRead LinkageType := ⟨readEnum_trunc _ _⟩
instance : TruncRead AddressingModel := ⟨readEnum_trunc _ _⟩
instance : TruncRead MemoryModel := ⟨readEnum_trunc _ _⟩
instance : TruncRead ExecutionModel := ⟨readEnum_trunc _ _⟩
instance : TruncRead Capability := ⟨readEnum_trunc _ _⟩
instance : TruncRead Signedness := ⟨readEnum_trunc _ _⟩
instance : TruncRead StorageClass := ⟨readEnum_trunc _ _⟩
instance : TruncRead Dim := ⟨readEnum_trunc _ _⟩
instance : TruncRead DepthStatus := ⟨readEnum_trunc _ _⟩
instance : TruncRead Arrayed := ⟨readEnum_trunc _ _⟩
instance : TruncRead MS := ⟨readEnum_trunc _ _⟩
instance : TruncRead SampledStatus := ⟨readEnum_trunc _ _⟩
instance : TruncRead ImageFormat := ⟨readEnum_trunc _ _⟩
instance : TruncRead AccessQualifier := ⟨readEnum_trunc _ _⟩

instance : TruncRead SourceLanguage := by
  refine ⟨Trunc.word_pure fun block w => .inr ?_⟩
  dsimp only
  cases h : SourceLanguage.table.lookup w with
  | none => exact ⟨_, rfl⟩
  | some a => exact ⟨_, rfl⟩

instance : TruncRead FunctionControl := ⟨.word_pure fun _ _ => .inr ⟨_, rfl⟩⟩

macro "guard_trunc" c:term : tactic => `(tactic| (
  refine ⟨Trunc.word_pure fun block w => ?_⟩
  dsimp only
  by_cases hc : ((w &&& $c) != 0) = true
  · exact .inl ⟨_, fun _ => if_pos hc⟩
  · exact .inr ⟨_, if_neg hc⟩))

instance : TruncRead MemoryAccess := by guard_trunc 0xFFF8
instance : TruncRead FpFastMathMode := by guard_trunc 0xFFC0
instance : TruncRead SelectionControl := by guard_trunc 0xFFFC

instance : TruncRead BranchWeights :=
  ⟨.bind readWord_trunc readWord_local
    (fun _ => .bind readWord_trunc readWord_local (fun _ => .pure _) (fun _ => .pure _))
    (fun _ => .bind readWord_local (fun _ => .pure _))⟩

instance : TruncRead PhiArg :=
  ⟨.bind TruncRead.trunc Lawful.local
    (fun _ => .bind TruncRead.trunc Lawful.local (fun _ => .pure _) (fun _ => .pure _))
    (fun _ => .bind Lawful.local (fun _ => .pure _))⟩

theorem Local.fail {α : Type} (e : ReadError) : Local (fun _ => (Magma.fail e : R (Block × α))) where
  suffix _ _ _ h := by cases h
  pre _ _ _ h := by cases h

instance : TruncRead LoopControl := by
  refine ⟨Trunc.word ?_ ?_⟩
  · intro w u rest b h p hp
    dsimp only at h ⊢
    by_cases hc : ((w &&& 0xFFF0) != 0) = true
    · rw [if_pos hc] at h; cases h
    · rw [if_neg hc] at h ⊢
      by_cases h8 : ((w &&& 0x8) != 0) = true
      · simp only [h8, ite_true] at h ⊢
        simp only [bind_ok, Prod.exists, readWord_ok, pure_bind, pure_ok, Prod.mk.injEq] at h
        obtain ⟨a, d, h1, rfl, rfl⟩ := h
        have hu : u = [d] := List.append_cancel_right (by simpa using h1)
        subst hu
        cases p with
        | nil => exact .err
        | cons x p =>
          rw [List.cons_prefix_cons] at hp
          have : p = [] := by simpa using hp.2
          subst this
          exact .inr ⟨_, rfl⟩
      · simp only [h8] at h ⊢
        simp only [Bool.false_eq_true, ite_false, pure_bind, pure_ok, Prod.mk.injEq] at h
        obtain ⟨h1, rfl⟩ := h
        have hu : u = [] := by simpa using h1
        subst hu
        have : p = [] := by simpa using hp
        subst this
        exact .inr ⟨_, rfl⟩
  · intro w
    dsimp only
    by_cases hc : ((w &&& 0xFFF0) != 0) = true
    · simp only [if_pos hc]; exact .fail _
    · simp only [if_neg hc]
      by_cases h8 : ((w &&& 0x8) != 0) = true
      · simp only [h8, ite_true, pure_bind]
        refine .bind readWord_local fun _ => ?_
        dsimp only
        exact .pure _
      · simp only [h8, Bool.false_eq_true, ite_false, pure_bind]
        exact .pure _

theorem TruncRead.option {α : Type} [MemoryBlockRead α] [TruncRead α] :
    Trunc (MemoryBlockRead.read : Block → R (Block × Option α)) where
  empty := .inr ⟨none, rfl⟩
  pre u rest a h p hp := by
    cases p with
    | nil => exact .inr ⟨none, rfl⟩
    | cons x p =>
      cases u with
      | nil => simp at hp
      | cons y u =>
        have h : (MemoryBlockRead.read (y :: u ++ rest) >>= fun q : Block × α =>
          (pure (q.1, some q.2) : R _)) = .ok (rest, a) := h
        simp only [bind_ok, Prod.exists, pure_ok, Prod.mk.injEq] at h
        obtain ⟨_, b, h1, rfl, rfl⟩ := h
        change Stops (MemoryBlockRead.read (x :: p) >>= fun q : Block × α =>
          (pure (q.1, some q.2) : R _))
        rcases TruncRead.trunc.pre _ _ _ h1 _ hp with h | ⟨a', h⟩
        · rw [h]; exact .err
        · rw [h]; exact .inr ⟨_, rfl⟩

instance {α : Type} [MemoryBlockRead α] [TruncRead α] : TruncRead (Option α) := ⟨TruncRead.option⟩

theorem readVecLoop_trunc {α : Type} [MemoryBlockRead α] [Encode α] [Lawful α] [Eats α] [TruncRead α] :
    ∀ (fuel : Nat) (u : Block) (acc : List α) (fuel' : Nat) (l : List α),
    readVecLoop fuel u acc = .ok ([], l) → ∀ (p : Block) (acc' : List α), p <+: u → p.length < fuel' →
      Stops (readVecLoop fuel' p acc') := by
  intro fuel
  induction fuel with
  | zero => intro u acc fuel' l h; cases h
  | succ fuel ih =>
    intro u acc fuel' l h p acc' hp hf
    cases fuel' with
    | zero => omega
    | succ fuel' =>
      cases p with
      | nil => exact .inr ⟨_, rfl⟩
      | cons x p =>
        cases u with
        | nil => simp at hp
        | cons y u =>
          have h : (MemoryBlockRead.read (y :: u) >>= fun q : Block × α =>
            readVecLoop fuel q.1 (q.2 :: acc)) = .ok ([], l) := h
          change Stops (MemoryBlockRead.read (x :: p) >>= fun q : Block × α =>
            readVecLoop fuel' q.1 (q.2 :: acc'))
          simp only [bind_ok, Prod.exists] at h
          obtain ⟨mid, a, h1, h2⟩ := h
          obtain ⟨u1, hu1⟩ := Lawful.local.suffix _ _ _ h1
          rw [hu1] at h1 hp
          rcases prefix_split hp with hp | ⟨q, hq, hp2⟩
          · rcases TruncRead.trunc.pre _ _ _ h1 _ hp with h | ⟨a', h⟩
            · rw [h]; exact .err
            · rw [h]
              cases fuel' with
              | zero => simp at hf
              | succ fuel' => exact .inr ⟨_, rfl⟩
          · have h3 := Lawful.local.pre _ _ _ h1 q hp2
            rw [hq, h3]
            refine ih mid _ fuel' l h2 q _ hp2 ?_
            have hlt := Reads_lt ((Lawful.iff _ _ _).mp h1) (Eats.eats a)
            have := congrArg List.length hq
            simp at *
            omega

instance {α : Type} [MemoryBlockRead α] [RustSize α] [Encode α] [Lawful α] [Eats α] [WordSized α]
    [TruncRead α] : TruncRead (List α) := by
  have heq (ws : Block) : (MemoryBlockRead.read ws : R (Block × List α)) =
      readVecLoop (ws.length + 1) ws [] := by
    simp only [MemoryBlockRead.read, if_neg (WordSized.sized (α := α))]
  refine ⟨⟨.inr ⟨[], heq []⟩, ?_⟩⟩
  intro u rest l h p hp
  have hd : rest = [] := Reads_done ((Lawful.iff _ _ _).mp h) (by simp [enc])
  subst hd
  rw [List.append_nil, heq] at h
  rw [heq]
  exact readVecLoop_trunc _ u [] _ l h p [] hp (by omega)

theorem readStringLoop_trunc {u : Block} : ∀ {acc : List UInt8} {rest : Block} {bs : List UInt8},
    readStringLoop (u ++ rest) acc = .ok (rest, bs) → ∀ p, p <+: u → p ≠ u →
    readStringLoop p acc = fail .UnexpectedEndOfInstruction := by
  induction u with
  | nil => intro acc rest bs _ p hp hne; exact absurd (by simpa using hp) hne
  | cons w u ih =>
    intro acc rest bs h p hp hne
    cases p with
    | nil => rfl
    | cons x p =>
      rw [List.cons_prefix_cons] at hp
      obtain ⟨rfl, hp⟩ := hp
      simp only [List.cons_append, readStringLoop] at h ⊢
      split at h
      · rename_i r hr
        simp only [ok_ok, Prod.mk.injEq] at h
        have : u = [] := by simpa using h.1
        subst this
        have : p = [] := by simpa using hp
        subst this
        exact absurd rfl hne
      · rename_i r hr
        exact ih h p hp (fun h => hne (by rw [h]))

instance : TruncRead String := by
  refine ⟨⟨.err, ?_⟩⟩
  intro u rest s h p hp
  by_cases hne : p = u
  · subst hne
    have := (Lawful.local (α := String)).pre _ _ _ h [] List.nil_prefix
    rw [List.append_nil] at this
    exact .inr ⟨s, this⟩
  · simp only [MemoryBlockRead.read, bind_ok, Prod.exists] at h ⊢
    obtain ⟨r, bs, h1, h2⟩ := h
    have : r = rest := by
      split at h2
      · simp only [ok_ok, Prod.mk.injEq] at h2; exact h2.1
      · cases h2
    subst this
    rw [readStringLoop_trunc h1 p hp hne]
    exact .err

structure HandlerTrunc {α : Type} (p : UInt32 × (Block → R (Block × α))) : Prop where
  trunc : Trunc p.2
  «local» : Local p.2

theorem readHandler_trunc {α : Type} {table : List (UInt32 × (Block → R (Block × α)))}
    {e : UInt32 → ReadError} (ht : ∀ p ∈ table, HandlerTrunc p) : Trunc (readHandler table e) := by
  refine Trunc.word ?_ ?_
  · intro w u rest b h p hp
    dsimp only at h ⊢
    cases hl : table.lookup w with
    | none => rw [hl] at h; cases h
    | some f =>
      rw [hl] at h
      exact (ht _ (mem_of_lookup hl)).trunc.pre u rest b h p hp
  · intro w
    dsimp only
    cases hl : table.lookup w with
    | none => exact .fail _
    | some f => exact (ht _ (mem_of_lookup hl)).local

theorem HandlerTrunc.unit {α : Type} (k : UInt32) (a : α) : HandlerTrunc (k, readUnit a) :=
  ⟨.pure a, .pure a⟩

theorem HandlerTrunc.one {α β : Type} [MemoryBlockRead β] [Encode β] [Lawful β] [TruncRead β]
    (k : UInt32) (f : β → α) : HandlerTrunc (k, read1 f) :=
  ⟨.bind TruncRead.trunc Lawful.local (fun _ => .pure _) (fun _ => .pure _),
    .bind Lawful.local (fun _ => .pure _)⟩

theorem HandlerTrunc.two {α β γ : Type} [MemoryBlockRead β] [Encode β] [Lawful β] [TruncRead β]
    [MemoryBlockRead γ] [Encode γ] [Lawful γ] [TruncRead γ]
    (k : UInt32) (f : β → γ → α) : HandlerTrunc (k, read2 f) :=
  ⟨.bind TruncRead.trunc Lawful.local
    (fun _ => .bind TruncRead.trunc Lawful.local (fun _ => .pure _) (fun _ => .pure _))
    (fun _ => .bind Lawful.local (fun _ => .pure _)),
    .bind Lawful.local (fun _ => .bind Lawful.local (fun _ => .pure _))⟩

theorem HandlerTrunc.three {α β γ δ : Type} [MemoryBlockRead β] [Encode β] [Lawful β] [TruncRead β]
    [MemoryBlockRead γ] [Encode γ] [Lawful γ] [TruncRead γ]
    [MemoryBlockRead δ] [Encode δ] [Lawful δ] [TruncRead δ]
    (k : UInt32) (f : β → γ → δ → α) : HandlerTrunc (k, read3 f) :=
  ⟨.bind TruncRead.trunc Lawful.local
    (fun _ => .bind TruncRead.trunc Lawful.local
      (fun _ => .bind TruncRead.trunc Lawful.local (fun _ => .pure _) (fun _ => .pure _))
      (fun _ => .bind Lawful.local (fun _ => .pure _)))
    (fun _ => .bind Lawful.local (fun _ => .bind Lawful.local (fun _ => .pure _))),
    .bind Lawful.local (fun _ => .bind Lawful.local (fun _ => .bind Lawful.local (fun _ => .pure _)))⟩

macro "handlers_trunc" : tactic => `(tactic| (
  repeat' (first
    | exact fun _ h => absurd h List.not_mem_nil
    | refine List.forall_mem_cons.mpr ⟨HandlerTrunc.unit _ _, ?_⟩
    | refine List.forall_mem_cons.mpr ⟨HandlerTrunc.one _ _, ?_⟩
    | refine List.forall_mem_cons.mpr ⟨HandlerTrunc.two _ _, ?_⟩
    | refine List.forall_mem_cons.mpr ⟨HandlerTrunc.three _ _, ?_⟩)))

instance : TruncRead ExecutionMode := by
  refine ⟨readHandler_trunc ?_⟩
  unfold executionModeHandlers
  handlers_trunc

instance : TruncRead Decoration := by
  refine ⟨readHandler_trunc ?_⟩
  unfold decorationHandlers
  handlers_trunc

end Magma
