import Verif.Proofs.TruncOps
import Verif.Proofs.Serialise
import Verif.Proofs.ReadsHandler
import Verif.Spec.Blame
/-! Lemmas: instructions that end too early could have gone on. -/

namespace Magma
open Spec

theorem BadEnd_suffix {ws vs : List UInt32} (h : ws <:+ vs) (hb : BadEnd ws) : BadEnd vs := by
  obtain ⟨u, rfl⟩ := h
  obtain ⟨pre, w, rfl, hb⟩ := hb
  exact ⟨u ++ pre, w, by simp, hb⟩

/-- Some words are read completely, and words that end too early are the start of such, unless they end in the
middle of what cannot be a string. -/
structure Short {α : Type} (read : Block → R (Block × α)) : Prop where
  full : ∃ ws a, read ws = .ok ([], a)
  short : ∀ ws, read ws = fail .UnexpectedEndOfInstruction → BadEnd ws ∨ ∃ more a, read (ws ++ more) = .ok ([], a)

/-- What is read does not depend on what follows. -/
structure Stable {α : Type} (read : Block → R (Block × α)) : Prop where
  suffix : ∀ ws rest a, read ws = .ok (rest, a) → rest <:+ ws
  more : ∀ ws rest a, read ws = .ok (rest, a) → ∀ more, read (ws ++ more) = .ok (rest ++ more, a)

theorem Stable.of_law {α : Type} [MemoryBlockRead α] [Encode α] [Lawful α] (h : ∀ a : α, Operand.done ∉ enc a) :
    Stable (MemoryBlockRead.read : Block → R (Block × α)) where
  suffix ws rest a hr := by
    obtain ⟨u, rfl⟩ := Reads_suffix ((Lawful.iff ws rest a).mp hr)
    exact List.suffix_append _ _
  more ws rest a hr more := by
    have hr := (Lawful.iff ws rest a).mp hr
    obtain ⟨u, rfl⟩ := Reads_suffix hr
    rw [Lawful.iff, List.append_assoc]
    exact Reads_local _ hr (fun hd => absurd hd (h a))

theorem Short.pure {α : Type} (a : α) : Short (fun block => (pure (block, a) : R (Block × α))) :=
  ⟨⟨[], a, rfl⟩, fun _ h => by cases h⟩

theorem Short.bind {α β : Type} {r1 : Block → R (Block × α)} {r2 : Block × α → R (Block × β)} (h1 : Short r1)
    (s1 : Stable r1) (h2 : ∀ a, Short fun block => r2 (block, a)) : Short fun block => r1 block >>= r2 where
  full := by
    obtain ⟨ws, a, h⟩ := h1.full
    obtain ⟨vs, b, h'⟩ := (h2 a).full
    refine ⟨ws ++ vs, b, ?_⟩
    try dsimp only
    rw [s1.more _ _ _ h vs]
    exact h'
  short ws h := by
    cases hr : r1 ws with
    | error e =>
      try dsimp only at h
      rw [hr] at h
      cases h
      rcases h1.short ws hr with hb | ⟨more, a, hm⟩
      · exact .inl hb
      · obtain ⟨vs, b, h'⟩ := (h2 a).full
        refine .inr ⟨more ++ vs, b, ?_⟩
        try dsimp only
        rw [← List.append_assoc, s1.more _ _ _ hm vs]
        exact h'
    | ok p =>
      obtain ⟨rest, a⟩ := p
      try dsimp only at h
      rw [hr] at h
      rcases (h2 a).short rest h with hb | ⟨more, b, hm⟩
      · exact .inl (BadEnd_suffix (s1.suffix _ _ _ hr) hb)
      · refine .inr ⟨more, b, ?_⟩
        try dsimp only
        rw [s1.more _ _ _ hr more]
        exact hm

theorem Short.word {β : Type} {f : Block × UInt32 → R (Block × β)} (w0 : UInt32) (h0 : ∃ ws a, f (ws, w0) = .ok ([], a))
    (h : ∀ w ws, f (ws, w) = fail .UnexpectedEndOfInstruction → BadEnd ws ∨ ∃ more a, f (ws ++ more, w) = .ok ([], a)) :
    Short fun block => Block.readWord block >>= f where
  full := by
    obtain ⟨ws, a, h0⟩ := h0
    exact ⟨w0 :: ws, a, h0⟩
  short ws hr := by
    cases ws with
    | nil =>
      obtain ⟨ws, a, h0⟩ := h0
      exact .inr ⟨w0 :: ws, a, h0⟩
    | cons w ws =>
      rcases h w ws hr with hb | ⟨more, a, hm⟩
      · exact .inl (BadEnd_suffix (List.suffix_cons _ _) hb)
      · exact .inr ⟨more, a, hm⟩

/-- The last operand -/
theorem Short.last {α β : Type} {r1 : Block → R (Block × α)} {r2 : Block × α → R (Block × β)} (h1 : Short r1)
    (h2 : ∀ a, ∃ b, ∀ block, r2 (block, a) = .ok (block, b)) : Short fun block => r1 block >>= r2 where
  full := by
    obtain ⟨ws, a, h⟩ := h1.full
    obtain ⟨b, h'⟩ := h2 a
    refine ⟨ws, b, ?_⟩
    try dsimp only
    rw [h]
    exact h' _
  short ws h := by
    cases hr : r1 ws with
    | error e =>
      try dsimp only at h
      rw [hr] at h
      cases h
      rcases h1.short ws hr with hb | ⟨more, a, hm⟩
      · exact .inl hb
      · obtain ⟨b, h'⟩ := h2 a
        refine .inr ⟨more, b, ?_⟩
        try dsimp only
        rw [hm]
        exact h' _
    | ok p =>
      obtain ⟨rest, a⟩ := p
      try dsimp only at h
      rw [hr] at h
      obtain ⟨b, h'⟩ := h2 a
      have h : r2 (rest, a) = _ := h
      rw [h'] at h
      cases h

class ShortRead (α : Type) [MemoryBlockRead α] : Prop where
  short : Short (MemoryBlockRead.read : Block → R (Block × α))

class StableRead (α : Type) [MemoryBlockRead α] : Prop where
  stable : Stable (MemoryBlockRead.read : Block → R (Block × α))

/-- An optional operand that only optional ones follow -/
theorem Short.opt {α β : Type} [MemoryBlockRead α] [ShortRead α] [StableRead α] {r2 : Block × Option α → R (Block × β)}
    (h2 : ∀ a, Short fun block => r2 (block, a)) (hn : ∃ b, r2 ([], none) = .ok ([], b)) :
    Short fun block => (MemoryBlockRead.read block : R (Block × Option α)) >>= r2 where
  full := by
    obtain ⟨b, hn⟩ := hn
    exact ⟨[], b, hn⟩
  short ws h := by
    have hs : Short fun block => (MemoryBlockRead.read block : R (Block × α)) >>= fun p => r2 (p.1, some p.2) :=
      .bind ShortRead.short StableRead.stable (fun a => h2 (some a))
    cases ws with
    | nil =>
      obtain ⟨b, hn⟩ := hn
      have h : r2 ([], none) = _ := h
      rw [hn] at h
      cases h
    | cons w ws =>
      have e : ∀ vs, (MemoryBlockRead.read (w :: vs) : R (Block × Option α)) >>= r2 =
          ((MemoryBlockRead.read (w :: vs) : R (Block × α)) >>= fun p => r2 (p.1, some p.2)) := by
        intro vs
        simp only [MemoryBlockRead.read, Block.remaining, List.length_cons, Nat.zero_lt_succ, if_true]
        cases (MemoryBlockRead.read (w :: vs) : R (Block × α)) <;> rfl
      try dsimp only at h
      rw [e] at h
      rcases hs.short (w :: ws) h with hb | ⟨more, b, hm⟩
      · exact .inl hb
      · refine .inr ⟨more, b, ?_⟩
        try dsimp only
        rw [List.cons_append, e]
        exact hm

instance : ShortRead UInt32 :=
  ⟨⟨[0], 0, rfl⟩, fun ws h => by
    cases ws with
    | nil => exact .inr ⟨[0], 0, rfl⟩
    | cons w ws => cases h⟩

/-- A word that is taken as it is, or refused for what it is -/
theorem Short.value {α : Type} {f : Block × UInt32 → R (Block × α)} (w0 : UInt32) (h0 : ∃ a, f ([], w0) = .ok ([], a))
    (h : ∀ w ws, f (ws, w) ≠ fail .UnexpectedEndOfInstruction) : Short fun block => Block.readWord block >>= f := by
  obtain ⟨a, h0⟩ := h0
  exact .word w0 ⟨[], a, h0⟩ fun w ws hw => absurd hw (h w ws)

instance : ShortRead OpId := ⟨.value 0 ⟨_, rfl⟩ fun _ _ h => by cases h⟩
instance : ShortRead ResultId := ⟨.value 0 ⟨_, rfl⟩ fun _ _ h => by cases h⟩
instance : ShortRead SourceVersion := ⟨.value 0 ⟨_, rfl⟩ fun _ _ h => by cases h⟩
instance : ShortRead MemberIndex := ⟨.value 0 ⟨_, rfl⟩ fun _ _ h => by cases h⟩
instance : ShortRead FunctionControl := ⟨.value 0 ⟨_, rfl⟩ fun _ _ h => by cases h⟩
instance : ShortRead SourceLanguage := by
  refine ⟨.value 0 ⟨_, rfl⟩ fun w _ h => ?_⟩
  dsimp only at h
  split at h <;> cases h

macro "guard_short" : tactic => `(tactic| (
  refine ⟨.value 0 ⟨_, rfl⟩ fun w _ h => ?_⟩
  dsimp only at h
  split at h <;> cases h))

instance : ShortRead MemoryAccess := by guard_short
instance : ShortRead FpFastMathMode := by guard_short
instance : ShortRead SelectionControl := by guard_short

instance : ShortRead LoopControl := by
  refine ⟨.word 0 ⟨[], _, rfl⟩ fun w ws h => ?_⟩
  dsimp only at h
  by_cases hc : ((w &&& 0xFFF0) != 0) = true
  · rw [if_pos hc] at h
    cases h
  · rw [if_neg hc] at h
    cases ws with
    | cons x xs => by_cases h8 : ((w &&& 0x8) != 0) = true <;> simp only [h8] at h <;> cases h
    | nil =>
      refine .inr ?_
      by_cases h8 : ((w &&& 0x8) != 0) = true
      · refine ⟨[0], ⟨(w &&& 0x1) != 0, (w &&& 0x2) != 0, (w &&& 0x4) != 0, some 0⟩, ?_⟩
        dsimp only
        rw [if_neg hc, if_pos h8]
        rfl
      · simp only [h8] at h
        cases h

theorem readEnum_short {α : Type} {table : List (UInt32 × α)} {e : UInt32 → ReadError} (w0 : UInt32)
    (h0 : (table.lookup w0).isSome = true) (he : ∀ w, e w ≠ .UnexpectedEndOfInstruction) : Short (readEnum table e) := by
  refine .value w0 ?_ ?_
  · dsimp only
    obtain ⟨a, ha⟩ := Option.isSome_iff_exists.mp h0
    rw [ha]
    exact ⟨a, rfl⟩
  · intro w ws h
    dsimp only at h
    split at h
    · cases h
    · cases h' : e w <;> rw [h'] at h <;> first | exact he w h' | cases h

instance : ShortRead AddressingModel := ⟨readEnum_short 0 rfl fun _ h => by cases h⟩
instance : ShortRead MemoryModel := ⟨readEnum_short 0 rfl fun _ h => by cases h⟩
instance : ShortRead ExecutionModel := ⟨readEnum_short 0 rfl fun _ h => by cases h⟩
instance : ShortRead Capability := ⟨readEnum_short 0 rfl fun _ h => by cases h⟩
instance : ShortRead BuiltIn := ⟨readEnum_short 0 rfl fun _ h => by cases h⟩
instance : ShortRead FpRoundingMode := ⟨readEnum_short 0 rfl fun _ h => by cases h⟩
instance : ShortRead LinkageType := ⟨readEnum_short 0 rfl fun _ h => by cases h⟩
instance : ShortRead Signedness := ⟨readEnum_short 0 rfl fun _ h => by cases h⟩
instance : ShortRead StorageClass := ⟨readEnum_short 0 rfl fun _ h => by cases h⟩
instance : ShortRead FunctionParameterAttribute := ⟨readEnum_short 0 rfl fun _ h => by cases h⟩
instance : ShortRead Dim := ⟨readEnum_short 0 rfl fun _ h => by cases h⟩
instance : ShortRead DepthStatus := ⟨readEnum_short 0 rfl fun _ h => by cases h⟩
instance : ShortRead Arrayed := ⟨readEnum_short 0 rfl fun _ h => by cases h⟩
instance : ShortRead MS := ⟨readEnum_short 0 rfl fun _ h => by cases h⟩
instance : ShortRead SampledStatus := ⟨readEnum_short 0 rfl fun _ h => by cases h⟩
instance : ShortRead ImageFormat := ⟨readEnum_short 0 rfl fun _ h => by cases h⟩
instance : ShortRead AccessQualifier := ⟨readEnum_short 0 rfl fun _ h => by cases h⟩

instance : StableRead UInt32 := ⟨.of_law fun _ => by simp [enc]⟩
instance : StableRead OpId := ⟨.of_law fun _ => by simp [enc]⟩
instance : StableRead ResultId := ⟨.of_law fun _ => by simp [enc]⟩
instance : StableRead SourceVersion := ⟨.of_law fun _ => by simp [enc]⟩
instance : StableRead MemberIndex := ⟨.of_law fun _ => by simp [enc]⟩
instance : StableRead FunctionControl := ⟨.of_law fun _ => by simp [enc]⟩
instance : StableRead MemoryAccess := ⟨.of_law fun _ => by simp [enc]⟩
instance : StableRead FpFastMathMode := ⟨.of_law fun _ => by simp [enc]⟩
instance : StableRead SelectionControl := ⟨.of_law fun _ => by simp [enc]⟩
instance : StableRead AddressingModel := ⟨.of_law fun _ => by simp [enc]⟩
instance : StableRead MemoryModel := ⟨.of_law fun _ => by simp [enc]⟩
instance : StableRead ExecutionModel := ⟨.of_law fun _ => by simp [enc]⟩
instance : StableRead Capability := ⟨.of_law fun _ => by simp [enc]⟩
instance : StableRead BuiltIn := ⟨.of_law fun _ => by simp [enc]⟩
instance : StableRead FpRoundingMode := ⟨.of_law fun _ => by simp [enc]⟩
instance : StableRead LinkageType := ⟨.of_law fun _ => by simp [enc]⟩
instance : StableRead Signedness := ⟨.of_law fun _ => by simp [enc]⟩
instance : StableRead StorageClass := ⟨.of_law fun _ => by simp [enc]⟩
instance : StableRead FunctionParameterAttribute := ⟨.of_law fun _ => by simp [enc]⟩
instance : StableRead Dim := ⟨.of_law fun _ => by simp [enc]⟩
instance : StableRead DepthStatus := ⟨.of_law fun _ => by simp [enc]⟩
instance : StableRead Arrayed := ⟨.of_law fun _ => by simp [enc]⟩
instance : StableRead MS := ⟨.of_law fun _ => by simp [enc]⟩
instance : StableRead SampledStatus := ⟨.of_law fun _ => by simp [enc]⟩
instance : StableRead ImageFormat := ⟨.of_law fun _ => by simp [enc]⟩
instance : StableRead AccessQualifier := ⟨.of_law fun _ => by simp [enc]⟩

instance : StableRead LoopControl := ⟨.of_law fun a => by cases h : a.dependency_length <;> simp [enc, h]⟩
instance : StableRead SourceLanguage := by
  refine ⟨.of_law fun a => ?_⟩
  cases a with
  | Other n =>
    simp only [enc]
    split <;> simp
  | _ => simp [enc]
instance : StableRead BranchWeights := ⟨.of_law fun _ => by simp [enc]⟩
instance : StableRead PhiArg := ⟨.of_law fun _ => by simp [enc]⟩
instance : StableRead String := ⟨.of_law fun _ => by simp [enc]⟩
instance : StableRead ExecutionMode := ⟨.of_law fun a => by cases a <;> simp [enc]⟩
instance : StableRead Decoration := ⟨.of_law fun a => by cases a <;> simp [enc]⟩

instance : ShortRead BranchWeights :=
  ⟨.bind ShortRead.short StableRead.stable fun _ => .bind ShortRead.short StableRead.stable fun _ => .pure _⟩
instance : ShortRead PhiArg :=
  ⟨.bind ShortRead.short StableRead.stable fun _ => .bind ShortRead.short StableRead.stable fun _ => .pure _⟩

/-! ### Strings -/

theorem words_prefix {ws : List UInt32} : ∀ {us : List UInt32}, ws.flatMap wordBytes <+: us.flatMap wordBytes → ws <+: us := by
  induction ws with
  | nil => exact fun _ => List.nil_prefix
  | cons w ws ih =>
    intro us h
    cases us with
    | nil =>
      have := h.length_le
      simp [wordBytes] at this
    | cons u us =>
      rw [List.flatMap_cons, List.flatMap_cons] at h
      obtain ⟨t, ht⟩ := h
      rw [List.append_assoc] at ht
      obtain ⟨h1, h2⟩ := List.append_inj ht rfl
      rw [wordBytes_inj h1]
      exact List.cons_prefix_cons.mpr ⟨rfl, ih ⟨t, h2⟩⟩

theorem readStringLoop_open : ∀ (ws : Block) (acc : List UInt8),
    readStringLoop ws acc = fail .UnexpectedEndOfInstruction → 0 ∉ ws.flatMap wordBytes := by
  intro ws
  induction ws with
  | nil => exact fun _ _ h => absurd h List.not_mem_nil
  | cons w ws ih =>
    intro acc h
    have push : ∀ (cs acc : List UInt8), (pushChars cs acc).2 = false → 0 ∉ cs := by
      intro cs
      induction cs with
      | nil => exact fun _ _ h => absurd h List.not_mem_nil
      | cons c cs ih =>
        intro acc h
        rw [pushChars] at h
        split at h
        · cases h
        · rename_i hc
          intro hm
          rcases List.mem_cons.mp hm with rfl | hm
          · exact hc rfl
          · exact ih _ h hm
    rw [readStringLoop] at h
    split at h
    · cases h
    · rename_i bytes he
      rw [List.flatMap_cons, List.mem_append]
      rintro (hm | hm)
      · rw [← wordChars_eq] at hm
        exact push (wordChars w) acc (by rw [he]) hm
      · exact ih _ h hm

instance : ShortRead String := by
  refine ⟨⟨[0], "", rfl⟩, fun ws h => ?_⟩
  have hz : 0 ∉ ws.flatMap wordBytes := by
    refine readStringLoop_open ws [] ?_
    simp only [MemoryBlockRead.read] at h
    cases hr : readStringLoop ws [] with
    | error e =>
      rw [hr] at h
      cases h
      rfl
    | ok p =>
      rw [hr, ok_bind] at h
      split at h <;> cases h
  by_cases hs : ∃ s : String, 0 ∉ stringBytes s ∧ ws.flatMap wordBytes <+: stringBytes s
  · obtain ⟨s, h0, hp⟩ := hs
    have hsp := stringWords_spells h0
    have hpre : ws <+: stringWords s := by
      obtain ⟨pad, e, -⟩ := hsp
      apply words_prefix
      rw [e]
      exact hp.trans (List.prefix_append _ _)
    obtain ⟨more, hm⟩ := hpre
    refine .inr ⟨more, s, ?_⟩
    rw [hm, Lawful.iff]
    exact ⟨_, [], (List.append_nil _).symm, hsp, rfl⟩
  · exact .inl ⟨[], ws, rfl, hz, fun s h0 hp => hs ⟨s, h0, hp⟩⟩

/-! ### Lists -/

theorem readVecLoop_short {α : Type} [MemoryBlockRead α] [Encode α] [Lawful α] [Eats α] [ShortRead α] [StableRead α] :
    ∀ (fuel : Nat) (ws : Block) (acc : List α), readVecLoop fuel ws acc = fail .UnexpectedEndOfInstruction →
      BadEnd ws ∨ ∃ more l, ∀ fuel', (ws ++ more).length < fuel' → readVecLoop fuel' (ws ++ more) acc = .ok ([], l) := by
  intro fuel
  induction fuel with
  | zero => intro ws acc h; cases h
  | succ fuel ih =>
    intro ws acc h
    rw [readVecLoop] at h
    split at h
    · rename_i hpos
      cases hr : (MemoryBlockRead.read ws : R (Block × α)) with
      | error e =>
        rw [hr] at h
        cases h
        rcases ShortRead.short.short ws hr with hb | ⟨more, a, hm⟩
        · exact .inl hb
        · refine .inr ⟨more, (a :: acc).reverse, fun fuel' hf => ?_⟩
          have hp : (ws ++ more).length > 0 := by
            have : ws.length > 0 := hpos
            rw [List.length_append]
            omega
          obtain ⟨n, rfl⟩ : ∃ n, fuel' = n + 2 := ⟨fuel' - 2, by omega⟩
          rw [readVecLoop, if_pos (show (ws ++ more).remaining > 0 from hp), hm, ok_bind]
          rfl
      | ok p =>
        obtain ⟨rest, a⟩ := p
        rw [hr, ok_bind] at h
        rcases ih rest (a :: acc) h with hb | ⟨more, l, hm⟩
        · exact .inl (BadEnd_suffix (StableRead.stable.suffix _ _ _ hr) hb)
        · refine .inr ⟨more, l, fun fuel' hf => ?_⟩
          have hlt := Reads_lt ((Lawful.iff _ _ _).mp hr) (Eats.eats a)
          rw [List.length_append] at hf
          obtain ⟨n, rfl⟩ : ∃ n, fuel' = n + 1 := ⟨fuel' - 1, by omega⟩
          have hp : (ws ++ more).length > 0 := by
            rw [List.length_append]
            omega
          rw [readVecLoop, if_pos (show (ws ++ more).remaining > 0 from hp), StableRead.stable.more _ _ _ hr more, ok_bind]
          exact hm n (by rw [List.length_append]; omega)
    · cases h

theorem list_short {α : Type} [MemoryBlockRead α] [RustSize α] [Encode α] [Lawful α] [Eats α] [ShortRead α]
    [StableRead α] (hs : ¬ min 1 (RustSize.size α / 4) = 0) : ShortRead (List α) := by
  refine ⟨⟨[], [], ?_⟩, fun ws h => ?_⟩
  · simp only [MemoryBlockRead.read]
    rw [if_neg hs]
    rfl
  · simp only [MemoryBlockRead.read] at h ⊢
    rw [if_neg hs] at h
    rcases readVecLoop_short _ ws [] h with hb | ⟨more, l, hm⟩
    · exact .inl hb
    · refine .inr ⟨more, l, ?_⟩
      rw [if_neg hs]
      exact hm _ (Nat.lt_succ_self _)

instance : ShortRead (List OpId) := list_short (by decide)
instance : ShortRead (List UInt32) := list_short (by decide)
instance : ShortRead (List PhiArg) := list_short (by decide)

/-! ### Operands with operands -/

theorem readHandler_short {α : Type} {table : List (UInt32 × (Block → R (Block × α)))} {e : UInt32 → ReadError}
    (w0 : UInt32) (h0 : (table.lookup w0).isSome = true) (ht : ∀ p ∈ table, Short p.2)
    (he : ∀ w, e w ≠ .UnexpectedEndOfInstruction) : Short (readHandler table e) := by
  refine .word w0 ?_ ?_
  · dsimp only
    obtain ⟨f, hf⟩ := Option.isSome_iff_exists.mp h0
    rw [hf]
    exact (ht _ (mem_of_lookup hf)).full
  · intro w ws h
    dsimp only at h ⊢
    cases hl : table.lookup w with
    | none =>
      rw [hl] at h
      dsimp only at h
      cases h' : e w <;> rw [h'] at h <;> first | exact absurd h' (he w) | cases h
    | some f =>
      rw [hl] at h
      exact (ht _ (mem_of_lookup hl)).short ws h

theorem read1_short {α β : Type} [MemoryBlockRead β] [ShortRead β] (f : β → α) : Short (read1 f) :=
  .last ShortRead.short fun _ => ⟨_, fun _ => rfl⟩
theorem read2_short {α β γ : Type} [MemoryBlockRead β] [ShortRead β] [StableRead β] [MemoryBlockRead γ] [ShortRead γ]
    (f : β → γ → α) : Short (read2 f) :=
  .bind ShortRead.short StableRead.stable fun _ => .last ShortRead.short fun _ => ⟨_, fun _ => rfl⟩
theorem read3_short {α β γ δ : Type} [MemoryBlockRead β] [ShortRead β] [StableRead β] [MemoryBlockRead γ] [ShortRead γ]
    [StableRead γ] [MemoryBlockRead δ] [ShortRead δ] (f : β → γ → δ → α) : Short (read3 f) :=
  .bind ShortRead.short StableRead.stable fun _ =>
    .bind ShortRead.short StableRead.stable fun _ => .last ShortRead.short fun _ => ⟨_, fun _ => rfl⟩

macro "handlers_short" : tactic => `(tactic| (
  repeat' (first
    | exact fun _ h => absurd h List.not_mem_nil
    | refine List.forall_mem_cons.mpr ⟨Short.pure _, ?_⟩
    | refine List.forall_mem_cons.mpr ⟨read1_short _, ?_⟩
    | refine List.forall_mem_cons.mpr ⟨read2_short _, ?_⟩
    | refine List.forall_mem_cons.mpr ⟨read3_short _, ?_⟩)))

instance : ShortRead ExecutionMode := by
  refine ⟨readHandler_short 0 rfl ?_ fun _ h => by cases h⟩
  unfold executionModeHandlers
  handlers_short

instance : ShortRead Decoration := by
  refine ⟨readHandler_short 0 rfl ?_ fun _ h => by cases h⟩
  unfold decorationHandlers
  handlers_short

class OpShort {α : Type} (read : Block → R (Block × α)) : Prop where
  short : Short read

macro "op_short" r:ident : tactic => `(tactic| (
  refine ⟨?_⟩
  unfold $r:ident
  repeat' (first
    | exact Short.pure _
    | refine Short.bind ShortRead.short StableRead.stable (fun _ => ?_)
    | refine Short.opt (fun _ => ?_) ⟨_, rfl⟩
    | exact Short.last ShortRead.short (fun _ => ⟨_, fun _ => rfl⟩))))

instance : OpShort OpNop.read := by op_short OpNop.read
instance : OpShort OpUndef.read := by op_short OpUndef.read
instance : OpShort OpSourceContinued.read := by op_short OpSourceContinued.read
instance : OpShort OpSource.read := by op_short OpSource.read
instance : OpShort OpSourceExtension.read := by op_short OpSourceExtension.read
instance : OpShort OpName.read := by op_short OpName.read
instance : OpShort OpMemberName.read := by op_short OpMemberName.read
instance : OpShort OpString.read := by op_short OpString.read
instance : OpShort OpDecorate.read := by op_short OpDecorate.read
instance : OpShort OpMemberDecorate.read := by op_short OpMemberDecorate.read
instance : OpShort OpExtension.read := by op_short OpExtension.read
instance : OpShort OpMemoryModel.read := by op_short OpMemoryModel.read
instance : OpShort OpEntryPoint.read := by op_short OpEntryPoint.read
instance : OpShort OpExecutionMode.read := by op_short OpExecutionMode.read
instance : OpShort OpCapability.read := by op_short OpCapability.read
instance : OpShort OpTypeVoid.read := by op_short OpTypeVoid.read
instance : OpShort OpTypeBool.read := by op_short OpTypeBool.read
instance : OpShort OpTypeInt.read := by op_short OpTypeInt.read
instance : OpShort OpTypeFloat.read := by op_short OpTypeFloat.read
instance : OpShort OpTypeVector.read := by op_short OpTypeVector.read
instance : OpShort OpTypeMatrix.read := by op_short OpTypeMatrix.read
instance : OpShort OpTypeImage.read := by op_short OpTypeImage.read
instance : OpShort OpTypeSampler.read := by op_short OpTypeSampler.read
instance : OpShort OpTypeSampledImage.read := by op_short OpTypeSampledImage.read
instance : OpShort OpTypeArray.read := by op_short OpTypeArray.read
instance : OpShort OpTypeRuntimeArray.read := by op_short OpTypeRuntimeArray.read
instance : OpShort OpTypeStruct.read := by op_short OpTypeStruct.read
instance : OpShort OpTypeOpaque.read := by op_short OpTypeOpaque.read
instance : OpShort OpTypePointer.read := by op_short OpTypePointer.read
instance : OpShort OpTypeFunction.read := by op_short OpTypeFunction.read
instance : OpShort OpConstant.read := by op_short OpConstant.read
instance : OpShort OpConstantComposite.read := by op_short OpConstantComposite.read
instance : OpShort OpFunction.read := by op_short OpFunction.read
instance : OpShort OpFunctionParameter.read := by op_short OpFunctionParameter.read
instance : OpShort OpFunctionEnd.read := by op_short OpFunctionEnd.read
instance : OpShort OpVariable.read := by op_short OpVariable.read
instance : OpShort OpLoad.read := by op_short OpLoad.read
instance : OpShort OpStore.read := by op_short OpStore.read
instance : OpShort OpAccessChain.read := by op_short OpAccessChain.read
instance : OpShort OpConvertUToF.read := by op_short OpConvertUToF.read
instance : OpShort OpPhi.read := by op_short OpPhi.read
instance : OpShort OpLoopMerge.read := by op_short OpLoopMerge.read
instance : OpShort OpSelectionMerge.read := by op_short OpSelectionMerge.read
instance : OpShort OpLabel.read := by op_short OpLabel.read
instance : OpShort OpBranch.read := by op_short OpBranch.read
instance : OpShort OpBranchConditional.read := by op_short OpBranchConditional.read
instance : OpShort OpReturn.read := by op_short OpReturn.read
instance : OpShort OpBitcast.read := by op_short OpBitcast.read
instance : OpShort OpIAdd.read := by op_short OpIAdd.read
instance : OpShort OpFAdd.read := by op_short OpFAdd.read
instance : OpShort OpISub.read := by op_short OpISub.read
instance : OpShort OpFSub.read := by op_short OpFSub.read
instance : OpShort OpIMul.read := by op_short OpIMul.read
instance : OpShort OpFMul.read := by op_short OpFMul.read
instance : OpShort OpUDiv.read := by op_short OpUDiv.read
instance : OpShort OpSDiv.read := by op_short OpSDiv.read
instance : OpShort OpFDiv.read := by op_short OpFDiv.read
instance : OpShort OpUMod.read := by op_short OpUMod.read
instance : OpShort OpSRem.read := by op_short OpSRem.read
instance : OpShort OpSMod.read := by op_short OpSMod.read
instance : OpShort OpFRem.read := by op_short OpFRem.read
instance : OpShort OpFMod.read := by op_short OpFMod.read
instance : OpShort OpIAddCarry.read := by op_short OpIAddCarry.read
instance : OpShort OpISubBorrow.read := by op_short OpISubBorrow.read
instance : OpShort OpUMulExtended.read := by op_short OpUMulExtended.read
instance : OpShort OpSMulExtended.read := by op_short OpSMulExtended.read
instance : OpShort OpBitwiseOr.read := by op_short OpBitwiseOr.read
instance : OpShort OpBitwiseXor.read := by op_short OpBitwiseXor.read
instance : OpShort OpBitwiseAnd.read := by op_short OpBitwiseAnd.read
instance : OpShort OpIEqual.read := by op_short OpIEqual.read
instance : OpShort OpINotEqual.read := by op_short OpINotEqual.read
instance : OpShort OpUGreaterThan.read := by op_short OpUGreaterThan.read
instance : OpShort OpSGreaterThan.read := by op_short OpSGreaterThan.read
instance : OpShort OpUGreaterThanEqual.read := by op_short OpUGreaterThanEqual.read
instance : OpShort OpSGreaterThanEqual.read := by op_short OpSGreaterThanEqual.read
instance : OpShort OpULessThan.read := by op_short OpULessThan.read
instance : OpShort OpSLessThan.read := by op_short OpSLessThan.read
instance : OpShort OpULessThanEqual.read := by op_short OpULessThanEqual.read
instance : OpShort OpSLessThanEqual.read := by op_short OpSLessThanEqual.read
instance : OpShort OpFOrdEqual.read := by op_short OpFOrdEqual.read
instance : OpShort OpFUnordEqual.read := by op_short OpFUnordEqual.read
instance : OpShort OpFOrdNotEqual.read := by op_short OpFOrdNotEqual.read
instance : OpShort OpFUnordNotEqual.read := by op_short OpFUnordNotEqual.read
instance : OpShort OpFOrdLessThan.read := by op_short OpFOrdLessThan.read
instance : OpShort OpFUnordLessThan.read := by op_short OpFUnordLessThan.read
instance : OpShort OpFOrdGreaterThan.read := by op_short OpFOrdGreaterThan.read
instance : OpShort OpFUnordGreaterThan.read := by op_short OpFUnordGreaterThan.read
instance : OpShort OpFOrdLessThanEqual.read := by op_short OpFOrdLessThanEqual.read
instance : OpShort OpFUnordLessThanEqual.read := by op_short OpFUnordLessThanEqual.read
instance : OpShort OpFOrdGreaterThanEqual.read := by op_short OpFOrdGreaterThanEqual.read
instance : OpShort OpFUnordGreaterThanEqual.read := by op_short OpFUnordGreaterThanEqual.read
instance : OpShort readImport := by op_short readImport

end Magma
