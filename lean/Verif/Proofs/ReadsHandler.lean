import Verif.Proofs.ReadsMask
/-! Lemmas: enumerants that have operands of their own. -/

namespace Magma
open Spec

theorem readHandler_ok {α : Type} {table : List (UInt32 × (Block → R (Block × α)))}
    {e : UInt32 → ReadError} {ws rest : List UInt32} {a : α} :
    readHandler table e ws = .ok (rest, a) ↔
      ∃ w r h, ws = w :: r ∧ table.lookup w = some h ∧ h r = .ok (rest, a) := by
  simp only [readHandler, bind_ok, Prod.exists, readWord_ok]
  constructor
  · rintro ⟨r, w, rfl, h⟩
    split at h
    · rename_i f hf
      exact ⟨w, r, f, rfl, hf, h⟩
    · simp at h
  · rintro ⟨w, r, f, rfl, hf, h⟩
    exact ⟨r, w, rfl, by simp [hf, h]⟩

/-- A handler of a table entry reads a value that is spelled with the entry's number. -/
structure HandlerOk {α : Type} [Encode α] (p : UInt32 × (Block → R (Block × α))) : Prop where
  reads : ∀ r rest a, p.2 r = .ok (rest, a) → Reads (enc a) (p.1 :: r) rest
  safe : ∀ r, Safe (p.2 r)

theorem readHandler_sound {α : Type} [Encode α]
    {table : List (UInt32 × (Block → R (Block × α)))}
    {e : UInt32 → ReadError} (ht : ∀ p ∈ table, HandlerOk p) {ws rest : List UInt32} {a : α}
    (h : readHandler table e ws = .ok (rest, a)) : Reads (enc a) ws rest := by
  obtain ⟨w, r, f, rfl, hf, h⟩ := readHandler_ok.mp h
  exact (ht _ (mem_of_lookup hf)).1 r rest a h

theorem readHandler_safe {α : Type} [Encode α] {table : List (UInt32 × (Block → R (Block × α)))}
    {e : UInt32 → ReadError} (ht : ∀ p ∈ table, HandlerOk p) (ws : List UInt32) :
    Safe (readHandler table e ws) := by
  refine Safe.bind (readWord_safe _) fun p _ => ?_
  dsimp only
  split
  · rename_i h hf
    exact (ht _ (mem_of_lookup hf)).2 _
  · exact .fail _

theorem HandlerOk.unit {α : Type} [Encode α] {k : UInt32} {a : α} (h : enc a = [.lit k]) :
    HandlerOk (k, readUnit a) := by
  refine ⟨?_, fun r => .ok _⟩
  intro r rest a' ha
  simp only [readUnit, ok_ok, Prod.mk.injEq] at ha
  obtain ⟨rfl, rfl⟩ := ha
  rw [h]
  exact ⟨r, rfl, rfl⟩

theorem HandlerOk.one {α β : Type} [Encode α] [MemoryBlockRead β] [Encode β] [Lawful β]
    {k : UInt32} {f : β → α} (h : ∀ b, enc (f b) = .lit k :: enc b) :
    HandlerOk (k, read1 f) := by
  refine ⟨?_, fun r => Safe.bind (Lawful.safe _) fun _ _ => .pure _⟩
  intro r rest a' ha
  simp only [read1, bind_ok, Prod.exists, Lawful.iff, pure_ok, Prod.mk.injEq] at ha
  obtain ⟨_, b, hb, rfl, rfl⟩ := ha
  rw [h]
  exact ⟨r, rfl, hb⟩

theorem HandlerOk.two {α β γ : Type} [Encode α] [MemoryBlockRead β] [Encode β] [Lawful β]
    [MemoryBlockRead γ] [Encode γ] [Lawful γ] {k : UInt32} {f : β → γ → α}
    (h : ∀ b c, enc (f b c) = .lit k :: (enc b ++ enc c)) :
    HandlerOk (k, read2 f) := by
  refine ⟨?_, fun r => Safe.bind (Lawful.safe _) fun _ _ =>
    Safe.bind (Lawful.safe _) fun _ _ => .pure _⟩
  intro r rest a' ha
  simp only [read2, bind_ok, Prod.exists, Lawful.iff, pure_ok, Prod.mk.injEq] at ha
  obtain ⟨r1, b, hb, r2, c, hc, rfl, rfl⟩ := ha
  rw [h]
  exact ⟨r, rfl, Reads_append.mpr ⟨r1, hb, hc⟩⟩

theorem HandlerOk.three {α β γ δ : Type} [Encode α] [MemoryBlockRead β] [Encode β] [Lawful β]
    [MemoryBlockRead γ] [Encode γ] [Lawful γ] [MemoryBlockRead δ] [Encode δ] [Lawful δ]
    {k : UInt32} {f : β → γ → δ → α}
    (h : ∀ b c d, enc (f b c d) = .lit k :: (enc b ++ enc c ++ enc d)) :
    HandlerOk (k, read3 f) := by
  refine ⟨?_, fun r => Safe.bind (Lawful.safe _) fun _ _ => Safe.bind (Lawful.safe _) fun _ _ =>
    Safe.bind (Lawful.safe _) fun _ _ => .pure _⟩
  intro r rest a' ha
  simp only [read3, bind_ok, Prod.exists, Lawful.iff, pure_ok, Prod.mk.injEq] at ha
  obtain ⟨r1, b, hb, r2, c, hc, r3, d, hd, rfl, rfl⟩ := ha
  rw [h]
  exact ⟨r, rfl, Reads_append.mpr ⟨r2, Reads_append.mpr ⟨r1, hb, hc⟩, hd⟩⟩

theorem unit_complete {α : Type} {table : List (UInt32 × (Block → R (Block × α)))}
    {e : UInt32 → ReadError} {k : UInt32} {a : α} {ws rest : List UInt32}
    (hk : table.lookup k = some (readUnit a)) (h : Reads [.lit k] ws rest) :
    readHandler table e ws = .ok (rest, a) := by
  obtain ⟨r, rfl, rfl⟩ := h
  exact readHandler_ok.mpr ⟨k, _, _, rfl, hk, rfl⟩

theorem one_complete {α β : Type} [MemoryBlockRead β] [Encode β] [Lawful β]
    {table : List (UInt32 × (Block → R (Block × α)))}
    {e : UInt32 → ReadError} {k : UInt32} {f : β → α} {b : β} {ws rest : List UInt32}
    (hk : table.lookup k = some (read1 f)) (h : Reads (.lit k :: enc b) ws rest) :
    readHandler table e ws = .ok (rest, f b) := by
  obtain ⟨r, rfl, h⟩ := h
  refine readHandler_ok.mpr ⟨k, _, _, rfl, hk, ?_⟩
  simp only [read1, bind_ok, Prod.exists, Lawful.iff, pure_ok, Prod.mk.injEq]
  exact ⟨rest, b, h, rfl, rfl⟩

theorem two_complete {α β γ : Type} [MemoryBlockRead β] [Encode β] [Lawful β]
    [MemoryBlockRead γ] [Encode γ] [Lawful γ] {table : List (UInt32 × (Block → R (Block × α)))}
    {e : UInt32 → ReadError} {k : UInt32} {f : β → γ → α} {b : β} {c : γ} {ws rest : List UInt32}
    (hk : table.lookup k = some (read2 f)) (h : Reads (.lit k :: (enc b ++ enc c)) ws rest) :
    readHandler table e ws = .ok (rest, f b c) := by
  obtain ⟨r, rfl, h⟩ := h
  obtain ⟨r1, hb, hc⟩ := Reads_append.mp h
  refine readHandler_ok.mpr ⟨k, _, _, rfl, hk, ?_⟩
  simp only [read2, bind_ok, Prod.exists, Lawful.iff, pure_ok, Prod.mk.injEq]
  exact ⟨r1, b, hb, rest, c, hc, rfl, rfl⟩

theorem three_complete {α β γ δ : Type} [MemoryBlockRead β] [Encode β] [Lawful β]
    [MemoryBlockRead γ] [Encode γ] [Lawful γ] [MemoryBlockRead δ] [Encode δ] [Lawful δ]
    {table : List (UInt32 × (Block → R (Block × α)))}
    {e : UInt32 → ReadError} {k : UInt32} {f : β → γ → δ → α} {b : β} {c : γ} {d : δ}
    {ws rest : List UInt32} (hk : table.lookup k = some (read3 f))
    (h : Reads (.lit k :: (enc b ++ enc c ++ enc d)) ws rest) :
    readHandler table e ws = .ok (rest, f b c d) := by
  obtain ⟨r, rfl, h⟩ := h
  obtain ⟨r2, h, hd⟩ := Reads_append.mp h
  obtain ⟨r1, hb, hc⟩ := Reads_append.mp h
  refine readHandler_ok.mpr ⟨k, _, _, rfl, hk, ?_⟩
  simp only [read3, bind_ok, Prod.exists, Lawful.iff, pure_ok, Prod.mk.injEq]
  exact ⟨r1, b, hb, r2, c, hc, rest, d, hd, rfl, rfl⟩

macro "handlers_ok" t:ident : tactic => `(tactic| (
  simp only [$t:ident, List.forall_mem_cons]
  repeat' apply And.intro
  all_goals first
    | exact HandlerOk.unit rfl
    | exact HandlerOk.one fun _ => rfl
    | exact HandlerOk.two fun _ _ => rfl
    | exact HandlerOk.three fun _ _ _ => rfl
    | simp))

theorem executionModeHandlers_ok : ∀ p ∈ executionModeHandlers, HandlerOk p := by
  handlers_ok executionModeHandlers

theorem decorationHandlers_ok : ∀ p ∈ decorationHandlers, HandlerOk p := by
  handlers_ok decorationHandlers

instance : Lawful ExecutionMode where
  iff ws rest a := by
    constructor
    · exact readHandler_sound executionModeHandlers_ok
    · intro h
      cases a
      all_goals first
        | exact unit_complete rfl h
        | exact one_complete rfl h
        | exact three_complete rfl h
  safe := readHandler_safe executionModeHandlers_ok

instance : Lawful Decoration where
  iff ws rest a := by
    constructor
    · exact readHandler_sound decorationHandlers_ok
    · intro h
      cases a
      all_goals first
        | exact unit_complete rfl h
        | exact one_complete rfl h
        | exact two_complete rfl h
  safe := readHandler_safe decorationHandlers_ok

theorem sourceLanguage_lookup_none {w : UInt32} :
    SourceLanguage.table.lookup w = none ↔ ¬ w ≤ 4 := by
  constructor
  · intro h hw
    have h4 : w.toNat < 5 := by
      have := UInt32.le_iff_toNat_le.mp hw
      simp at this; omega
    revert h
    exact forall_small (P := fun w => ¬ SourceLanguage.table.lookup w = none) 5 (by decide) w h4
  · intro hw
    have h (k : UInt32) (hk : k ≤ 4) : (w == k) = false := by
      simp only [beq_eq_false_iff_ne]
      rintro rfl
      exact hw hk
    simp [SourceLanguage.table, List.lookup, h 0 (by decide), h 1 (by decide), h 2 (by decide),
      h 3 (by decide), h 4 (by decide)]

instance : Lawful SourceLanguage where
  iff ws rest a := by
    simp only [MemoryBlockRead.read, bind_ok, Prod.exists, readWord_ok]
    constructor
    · rintro ⟨r, w, rfl, h⟩
      split at h
      · rename_i l hl
        simp only [pure_ok, Prod.mk.injEq] at h
        obtain ⟨rfl, rfl⟩ := h
        have hm := mem_of_lookup hl
        simp only [SourceLanguage.table, List.mem_cons, Prod.mk.injEq, List.not_mem_nil,
          or_false] at hm
        rcases hm with ⟨rfl, rfl⟩ | ⟨rfl, rfl⟩ | ⟨rfl, rfl⟩ | ⟨rfl, rfl⟩ | ⟨rfl, rfl⟩ <;>
          exact ⟨r, rfl, rfl⟩
      · rename_i hl
        simp only [pure_ok, Prod.mk.injEq] at h
        obtain ⟨rfl, rfl⟩ := h
        simp only [enc, if_neg (sourceLanguage_lookup_none.mp hl)]
        exact ⟨r, rfl, rfl⟩
    · intro h
      cases a with
      | Other n =>
        simp only [enc] at h
        split at h
        · exact h.elim
        · rename_i hn
          obtain ⟨r, rfl, rfl⟩ := h
          refine ⟨r, n, rfl, ?_⟩
          rw [sourceLanguage_lookup_none.mpr hn]
          rfl
      | _ =>
        obtain ⟨r, rfl, rfl⟩ := h
        exact ⟨r, _, rfl, rfl⟩
  safe ws := by
    refine Safe.bind (readWord_safe _) fun p _ => ?_
    dsimp only
    split
    · exact .pure _
    · exact .pure _

end Magma
