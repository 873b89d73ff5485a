import Verif.Props.Instructions
/-! Properties of the module header: C09, C10, C19. -/

namespace Magma.Props
open Spec

/-- C09 is violated: a module with version word `0x00F10000` (version 241.0) is accepted, and its
version is reported as 1.0. -/
theorem C09_violated : ∃ bytes m, readModule (X := Empty) bytes [] = .ok m ∧
    bytes = bytesOf true [0x07230203, 0x00F10000, 0, 1, 0] ∧ m.version = ⟨1, 0⟩ :=
  ⟨_, { version := ⟨1, 0⟩, generator := ⟨.KhronosReserved, 0⟩, bound := 1, instructions := [] }, by rfl,
    rfl, rfl⟩

/-- C09, the part that holds: the version words that are accepted are `0x00m10n0p` in nibbles
(`IsVersionWord`); each of them has the same effect as `0x00010000`; with any other word the
(masked) version bytes are reported. Missing from the full claim: the high nibbles of the major,
minor and low byte are not checked. -/
theorem C09_version_partial {X : Type} (known : List (ExtInstSet X)) (le : Bool) (ver : UInt32)
    (ws : List UInt32) (t : List UInt8) (ht : t.length < 4) :
    (IsVersionWord ver → readModule (bytesOf le (0x07230203 :: ver :: ws) ++ t) known =
      readModule (bytesOf le (0x07230203 :: 0x00010000 :: ws) ++ t) known) ∧
    (¬ IsVersionWord ver → readModule (bytesOf le (0x07230203 :: ver :: ws) ++ t) known =
      .error (.err (.UnknownVersionBytes (UInt8.ofNat (ver.toNat / 16777216))
        (UInt8.ofNat (ver.toNat / 65536 % 16)) (UInt8.ofNat (ver.toNat / 256 % 16))
        (UInt8.ofNat (ver.toNat % 16))))) := by
  rw [readModule_bytesOf ht, readModule_bytesOf ht]
  have h1 : readVersion 0x00010000 = .ok ⟨1, 0⟩ := readVersion_iff.mpr ⟨by simp [IsVersionWord], rfl⟩
  constructor
  · intro hv
    have h2 : readVersion ver = .ok ⟨1, 0⟩ := readVersion_iff.mpr ⟨hv, rfl⟩
    match ws with
    | [] => simp only [headerW, h1, h2]
    | [_] => simp only [headerW, h1, h2]
    | [_, _] => simp only [headerW, h1, h2]
    | _ :: _ :: _ :: _ => simp only [headerW, h1, h2]
  · intro hv
    have h2 := readVersion_error hv
    match ws with
    | [] => simp only [headerW, h2]; rfl
    | [_] => simp only [headerW, h2]; rfl
    | [_, _] => simp only [headerW, h2]; rfl
    | _ :: _ :: _ :: _ => simp only [headerW, h2]; rfl

/-- C09: every accepted module has such a version word and version 1.0. -/
theorem C09_accepted_partial {X : Type} {known : List (ExtInstSet X)} {bytes : List UInt8}
    {m : RawModule X} (h : readModule bytes known = .ok m) :
    m.version = ⟨1, 0⟩ ∧ ∃ le ver ws, bytes = bytesOf le (0x07230203 :: ver :: ws) ∧
      IsVersionWord ver := by
  obtain ⟨ws, ⟨ver, gen, body, rfl, h1, h2, h3, h4⟩, hd⟩ := (readModule_iff _ _ _).mp h
  refine ⟨h2, ?_⟩
  rcases hd with rfl | rfl
  · exact ⟨true, ver, _, rfl, h1⟩
  · exact ⟨false, ver, _, rfl, h1⟩

example : IsVersionWord 0x00F10000 ∧ ¬ IsVersionWord 0x00010100 ∧ ¬ IsVersionWord 0x01010000 := by
  simp [IsVersionWord]

/-- C10: less than one word -/
theorem C10_no_magic {X : Type} (known : List (ExtInstSet X)) (bytes : List UInt8)
    (h : bytes.length < 4) : readModule bytes known =
      .error (.err (if bytes = [] then .UnexpectedEndOfStream else .UnexpectedStreamAlignment)) := by
  rcases readModule_cases known bytes with ⟨t, ws, ht, hd, hr⟩ | ⟨_, hr⟩ | ⟨h4, hr⟩
  · exfalso
    rcases hd with rfl | rfl
    · simp [wordBytes] at h
      omega
    · simp [wordBytes] at h
      omega
  · rw [hr, eosError]
  · omega

/-- C10: fewer than five words, the version word if present being good -/
theorem C10_short_header {X : Type} (known : List (ExtInstSet X)) (le : Bool) (ws : List UInt32)
    (t : List UInt8) (ht : t.length < 4) (hl : ws.length < 4)
    (hv : ∀ ver ∈ ws.head?, IsVersionWord ver) :
    readModule (bytesOf le (0x07230203 :: ws) ++ t) known =
      .error (.err (if t = [] then .UnexpectedEndOfStream else .UnexpectedStreamAlignment)) := by
  rw [readModule_bytesOf ht]
  match ws with
  | [] => simp only [headerW, eosError]
  | [v] => simp only [headerW, eosError, readVersion_iff.mpr ⟨hv v rfl, rfl⟩]; rfl
  | [v, _] => simp only [headerW, eosError, readVersion_iff.mpr ⟨hv v rfl, rfl⟩]; rfl
  | [v, _, _] => simp only [headerW, eosError, readVersion_iff.mpr ⟨hv v rfl, rfl⟩]; rfl
  | _ :: _ :: _ :: _ :: _ => simp at hl; omega

/-- C10: the schema word must be zero; generator and bound are not checked before. -/
theorem C10_schema {X : Type} (known : List (ExtInstSet X)) (le : Bool)
    (ver gen bound schema : UInt32) (ws : List UInt32) (t : List UInt8) (ht : t.length < 4)
    (hv : IsVersionWord ver) (hs : schema ≠ 0) :
    readModule (bytesOf le (0x07230203 :: ver :: gen :: bound :: schema :: ws) ++ t) known =
      .error (.err .UnknownReservedSchema) := by
  rw [readModule_bytesOf ht]
  simp only [headerW, readVersion_iff.mpr ⟨hv, rfl⟩, ok_bind, if_pos hs]

/-- C10: after a good header there are no header errors any more. In particular `UnknownVersion` is
never returned. -/
theorem C10_after_header {X : Type} {known : List (ExtInstSet X)}
    (hk : ∀ s ∈ known, OnlyOperandErrors s) (le : Bool) (ver gen bound : UInt32) (ws : List UInt32)
    (t : List UInt8) (ht : t.length < 4) (hv : IsVersionWord ver) (e : ReadError)
    (h : readModule (bytesOf le (0x07230203 :: ver :: gen :: bound :: 0 :: ws) ++ t) known =
      .error (.err e)) :
    e ≠ .BadMagic ∧ (∀ a b c d, e ≠ .UnknownVersionBytes a b c d) ∧ (∀ v, e ≠ .UnknownVersion v) ∧
      e ≠ .UnknownReservedSchema := by
  rw [readModule_bytesOf ht] at h
  simp only [headerW, readVersion_iff.mpr ⟨hv, rfl⟩, ok_bind] at h
  rw [if_neg (by simp)] at h
  cases hb : bodyW known [] t ws with
  | ok l => rw [hb] at h; cases h
  | error e' =>
    rw [hb] at h
    cases h
    have := bodyW_inside (fun s hs => (hk s hs).inner) t _ ws [] (Nat.le_refl _) (by simp) _ hb
    refine ⟨?_, ?_, ?_, ?_⟩ <;> intros <;> rintro rfl <;> cases this

/-- After the magic number, two errors are not possible. -/
theorem after_magic {X : Type} {known : List (ExtInstSet X)} (hk : ∀ s ∈ known, OnlyOperandErrors s)
    {le : Bool} {ws : List UInt32} {t : List UInt8} (ht : t.length < 4) {e : ReadError}
    (h : readModule (bytesOf le (0x07230203 :: ws) ++ t) known = .error (.err e)) :
    e ≠ .BadMagic ∧ ∀ v, e ≠ .UnknownVersion v := by
  have short (ws : List UInt32) (hl : ws.length < 4) (hv : ∀ ver ∈ ws.head?, IsVersionWord ver)
      (h : readModule (bytesOf le (0x07230203 :: ws) ++ t) known = .error (.err e)) :
      e ≠ .BadMagic ∧ ∀ v, e ≠ .UnknownVersion v := by
    rw [C10_short_header known le ws t ht hl hv] at h
    simp only [Except.error.injEq, Fault.err.injEq] at h
    subst h
    split <;> simp
  match ws with
  | [] => exact short [] (by simp) (by simp) h
  | ver :: ws =>
    by_cases hv : IsVersionWord ver
    · match ws with
      | [] => exact short _ (by simp) (by simpa using hv) h
      | [_] => exact short _ (by simp) (by simpa using hv) h
      | [_, _] => exact short _ (by simp) (by simpa using hv) h
      | gen :: bound :: schema :: ws =>
        by_cases hs : schema = 0
        · subst hs
          have := C10_after_header hk le ver gen bound ws t ht hv _ h
          exact ⟨this.1, this.2.2.1⟩
        · rw [C10_schema known le ver gen bound schema ws t ht hv hs] at h
          cases h
          simp
    · rw [(C09_version_partial known le ver ws t ht).2 hv] at h
      cases h
      simp

/-- C10: `UnknownVersion` is never returned. -/
theorem C10_unknown_version {X : Type} {known : List (ExtInstSet X)}
    (hk : ∀ s ∈ known, OnlyOperandErrors s) (bytes : List UInt8) (v : Version) :
    readModule bytes known ≠ .error (.err (.UnknownVersion v)) := by
  intro h
  rcases readModule_cases known bytes with ⟨t, ws, ht, hd, hr⟩ | ⟨h4, hr⟩ | ⟨h4, hr⟩
  · rcases hd with rfl | rfl
    · exact (after_magic (le := true) hk ht h).2 v rfl
    · exact (after_magic (le := false) hk ht h).2 v rfl
  · rw [h, eosError] at hr
    split at hr <;> cases hr
  · rw [h] at hr; cases hr

/-- C10: the first word decides about the magic number. -/
theorem C10_bad_magic {X : Type} {known : List (ExtInstSet X)}
    (hk : ∀ s ∈ known, OnlyOperandErrors s) (bytes : List UInt8) :
    readModule bytes known = .error (.err .BadMagic) ↔
      4 ≤ bytes.length ∧ bytes.take 4 ≠ [3, 2, 0x23, 7] ∧ bytes.take 4 ≠ [7, 0x23, 2, 3] := by
  constructor
  · intro h
    have hmagic (le : Bool) : bytes.take 4 ≠ bytesOf le [0x07230203] := by
      intro hb
      obtain ⟨h1, h2⟩ := chunk_flatMap le (bytes.drop 4)
      have hb' : bytes = bytesOf le (0x07230203 :: (chunk le (bytes.drop 4)).1) ++
          (chunk le (bytes.drop 4)).2 := by
        conv => lhs; rw [← List.take_append_drop 4 bytes, hb, ← h1]
        cases le <;> rfl
      rw [hb'] at h
      exact (after_magic hk h2 h).1 rfl
    refine ⟨?_, hmagic true, hmagic false⟩
    apply Nat.le_of_not_lt
    intro hl
    rw [C10_no_magic known bytes hl] at h
    split at h <;> cases h
  · rintro ⟨h4, h1, h2⟩
    rcases readModule_cases known bytes with ⟨t, ws, ht, hd, hr⟩ | ⟨h4', hr⟩ | ⟨_, hr⟩
    · exfalso
      rcases hd with rfl | rfl
      · exact h1 rfl
      · exact h2 rfl
    · omega
    · exact hr

/-- C10: the fields of an accepted module are those of the header words. -/
theorem C10_fields {X : Type} {known : List (ExtInstSet X)} {bytes : List UInt8} {m : RawModule X}
    (h : readModule bytes known = .ok m) :
    ∃ le ver gen ws, bytes = bytesOf le (0x07230203 :: ver :: gen :: m.bound :: 0 :: ws) ∧
      (toolCode m.generator.tool).toNat = gen.toNat / 65536 ∧
      m.generator.version.toNat = gen.toNat % 65536 := by
  obtain ⟨ws, ⟨ver, gen, body, rfl, h1, h2, ⟨h3, -⟩, h4⟩, hd⟩ := (readModule_iff _ _ _).mp h
  have := m.generator.version.toNat_lt
  rcases hd with rfl | rfl
  · exact ⟨true, ver, gen, body, rfl, by omega, by omega⟩
  · exact ⟨false, ver, gen, body, rfl, by omega, by omega⟩

/-- C10: a tool with a registered number is never reported as `Other`. -/
theorem C10_tools {X : Type} {known : List (ExtInstSet X)} {bytes : List UInt8} {m : RawModule X}
    (h : readModule bytes known = .ok m) (n : UInt16) (ht : m.generator.tool = .Other n) :
    12 ≤ n := by
  obtain ⟨ws, ⟨ver, gen, body, rfl, h1, h2, ⟨-, h3⟩, h4⟩, hd⟩ := (readModule_iff _ _ _).mp h
  exact h3 n ht

example : ∃ m, readModule (X := Empty) (bytesOf false [0x07230203, 0x00010000, 0x000B0005, 9, 0]) [] =
    .ok m ∧ m.generator = ⟨.Intel, 5⟩ ∧ m.bound = 9 := ⟨_, rfl, rfl, rfl⟩

/-- C19 is violated: a module with bound 1 may define the ids 0 and 7. -/
theorem C19_violated : ∃ bytes m, readModule (X := Empty) bytes [] = .ok m ∧
    m.bound = 1 ∧ m.instructions = [.OpTypeVoid ⟨⟨7⟩⟩, .OpTypeVoid ⟨⟨0⟩⟩] :=
  ⟨bytesOf true [0x07230203, 0x00010000, 0, 1, 0, 0x00020013, 7, 0x00020013, 0],
    { version := ⟨1, 0⟩, generator := ⟨.KhronosReserved, 0⟩, bound := 1,
      instructions := [.OpTypeVoid ⟨⟨7⟩⟩, .OpTypeVoid ⟨⟨0⟩⟩] }, by rfl, rfl, rfl⟩

/-- C19, the part that holds: the bound is what the header says and has no other effect: changing it
changes nothing but that field. Missing from the full claim: ids are not compared with it. -/
theorem C19_bound_unused_partial {X : Type} (known : List (ExtInstSet X)) (le : Bool)
    (ver gen bound bound' : UInt32) (ws : List UInt32) (t : List UInt8) (ht : t.length < 4) :
    readModule (bytesOf le (0x07230203 :: ver :: gen :: bound' :: ws) ++ t) known =
      (readModule (bytesOf le (0x07230203 :: ver :: gen :: bound :: ws) ++ t) known).map
        (fun m => { m with bound := bound' }) := by
  rw [readModule_bytesOf ht, readModule_bytesOf ht]
  match ws with
  | [] =>
    simp only [headerW]
    cases readVersion ver <;> rfl
  | z :: ws =>
    simp only [headerW]
    cases readVersion ver with
    | error e => rfl
    | ok v =>
      rw [ok_bind, ok_bind]
      by_cases hz : z ≠ 0
      · rw [if_pos hz, if_pos hz]; rfl
      · rw [if_neg hz, if_neg hz]
        cases bodyW known [] t ws <;> rfl

/-! The theorems applied -/

example : readModule (X := Empty) (bytesOf true (0x07230203 :: 0x00F10000 :: [0, 5, 0]) ++ []) [] =
    readModule (X := Empty) (bytesOf true (0x07230203 :: 0x00010000 :: [0, 5, 0]) ++ []) [] :=
  (C09_version_partial _ _ _ _ _ (by decide)).1 (by simp [IsVersionWord])
example : readModule (X := Empty) (bytesOf true (0x07230203 :: 0x00010100 :: [0, 5, 0]) ++ [1]) [] =
    .error (.err (.UnknownVersionBytes 0 1 1 0)) :=
  (C09_version_partial _ _ _ _ _ (by decide)).2 (by simp [IsVersionWord])
example := C09_accepted_partial Samples.read_bytes
example : readModule (X := Empty) [3, 2, 35] [] = .error (.err .UnexpectedStreamAlignment) :=
  C10_no_magic _ _ (by decide)
example : readModule (X := Empty) (bytesOf true (0x07230203 :: [0x00010000, 7]) ++ []) [] =
    .error (.err .UnexpectedEndOfStream) :=
  C10_short_header _ _ _ _ (by decide) (by decide) (by simp [IsVersionWord])
example : readModule (X := Empty) (bytesOf true (0x07230203 :: 0x00010000 :: 7 :: 8 :: 1 :: []) ++ []) [] =
    .error (.err .UnknownReservedSchema) :=
  C10_schema _ _ _ _ _ _ _ _ (by decide) (by simp [IsVersionWord]) (by decide)
example := C10_after_header (known := ([] : List (ExtInstSet Empty))) (fun _ h => nomatch h) true 0x00010000 7 8 [0x00010008] []
  (by decide) (by simp [IsVersionWord]) (.UnimplementedOp "OpLine") (by rfl)
example (v : Version) : readModule Samples.bytes Samples.sets ≠ .error (.err (.UnknownVersion v)) :=
  C10_unknown_version (by simpa [Samples.sets] using onlyOperandErrors_glsl) _ v
example : readModule (X := Empty) [1, 2, 3, 4] [] = .error (.err .BadMagic) :=
  (C10_bad_magic (known := []) nofun _).mpr (by decide)
example := C10_fields Samples.read_bytes
/-- A module of a tool that is not registered -/
example : (12 : UInt16) ≤ 77 := C10_tools (X := Empty) (known := [])
  (bytes := bytesOf true [0x07230203, 0x00010000, 0x004D0000, 9, 0])
  (m := ⟨⟨1, 0⟩, ⟨.Other 77, 0⟩, 9, []⟩) (by rfl) 77 rfl
example : (readModule (X := Empty) (bytesOf true (0x07230203 :: 0x00010000 :: 7 :: 100 :: [0]) ++ []) []).map (·.bound) =
    .ok 100 := by
  rw [C19_bound_unused_partial [] true 0x00010000 7 0 100 [0] [] (by decide)]
  rfl

end Magma.Props
