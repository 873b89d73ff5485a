import Verif.Proofs.Words
/-! Lemmas: the module header, and the whole reader on words. -/

namespace Magma
open Spec

/-- The fields of the generator word -/
def generatorOf (w : UInt32) : Generator :=
  { tool := readTool (w >>> 16).toUInt16, version := (w &&& 0xFFFF).toUInt16 }

/-- The reader after the magic number, on words. -/
def headerW {X : Type} (known : List (ExtInstSet X)) (t : List UInt8) :
    List UInt32 → R (RawModule X)
  | [] => fail (eosError t)
  | [ver] => readVersion ver >>= fun _ => fail (eosError t)
  | [ver, _] => readVersion ver >>= fun _ => fail (eosError t)
  | [ver, _, _] => readVersion ver >>= fun _ => fail (eosError t)
  | ver :: gen :: bound :: zero :: ws => readVersion ver >>= fun version =>
    if zero ≠ 0 then fail .UnknownReservedSchema
    else bodyW known [] t ws >>= fun l =>
      pure { version := version, generator := generatorOf gen, bound := bound, instructions := l }

/-- The reader on words; `swapped` are the words of the input in the other byte order. -/
def moduleW {X : Type} (known : List (ExtInstSet X)) (t : List UInt8) (ws swapped : List UInt32) :
    R (RawModule X) :=
  match ws with
  | [] => fail (eosError t)
  | magic :: ws =>
    if magic = SPIRV_MAGIC_NUMBER then headerW known t ws
    else if magic = SPIRV_MAGIC_NUMBER_OTHER_ENDIAN then headerW known t swapped.tail
    else fail .BadMagic

theorem bind_fail {E α β : Type} {e : E} {f : α → Except E β} :
    ((.error e : Except E α) >>= f) = .error e := rfl

theorem ok_bind {E α β : Type} {a : α} {f : α → Except E β} :
    ((.ok a : Except E α) >>= f) = f a := rfl

theorem pure_bind' {E α β : Type} {a : α} {f : α → Except E β} :
    ((pure a : Except E α) >>= f) = f a := rfl

/-- The part of `readModule` after the magic number -/
def afterMagic {X : Type} (known : List (ExtInstSet X)) (stream : Stream) : R (RawModule X) := do
  let (ver_word, stream) ← stream.readWord
  let version ← readVersion ver_word
  let (generator_word, stream) ← stream.readWord
  let generator_id : UInt16 := (generator_word >>> 16).toUInt16
  let generator : Generator :=
    { tool := readTool generator_id, version := (generator_word &&& 0xFFFF).toUInt16 }
  let (bound, stream) ← stream.readWord
  let (zero, stream) ← stream.readWord
  if zero ≠ 0 then fail .UnknownReservedSchema
  else do
    let instructions ← readLoop known (stream.source.length + 1) stream [] []
    return { version := version, generator := generator, bound := bound,
             instructions := instructions }

theorem readModule_eq {X : Type} (data : List UInt8) (known : List (ExtInstSet X)) :
    readModule data known = ((Stream.new data).readWord >>= fun p =>
      if p.1 = SPIRV_MAGIC_NUMBER then afterMagic known p.2
      else if p.1 = SPIRV_MAGIC_NUMBER_OTHER_ENDIAN then afterMagic known p.2.invertEndianness
      else fail .BadMagic) := by
  simp only [readModule]
  congr 1

theorem afterMagic_view {X : Type} (known : List (ExtInstSet X)) {s : Stream} {ws : List UInt32}
    {t : List UInt8} (hv : s.view = (ws, t)) : afterMagic known s = headerW known t ws := by
  unfold afterMagic
  match ws, hv with
  | [], hv => rw [readWord_view_nil hv]; rfl
  | ver :: ws, hv =>
    obtain ⟨s1, h1, hv1, _, _⟩ := readWord_view_cons hv
    rw [h1, ok_bind]
    dsimp only
    cases hver : readVersion ver with
    | error e =>
      rw [bind_fail]
      match ws with
      | [] => simp only [headerW, hver, bind_fail]
      | [_] => simp only [headerW, hver, bind_fail]
      | [_, _] => simp only [headerW, hver, bind_fail]
      | _ :: _ :: _ :: _ => simp only [headerW, hver, bind_fail]
    | ok version =>
      rw [ok_bind]
      match ws, hv1 with
      | [], hv1 => rw [readWord_view_nil hv1]; simp only [headerW, hver, ok_bind]; rfl
      | gen :: ws, hv1 =>
        obtain ⟨s2, h2, hv2, _, _⟩ := readWord_view_cons hv1
        rw [h2, ok_bind]
        dsimp only
        match ws, hv2 with
        | [], hv2 => rw [readWord_view_nil hv2]; simp only [headerW, hver, ok_bind]; rfl
        | bound :: ws, hv2 =>
          obtain ⟨s3, h3, hv3, _, _⟩ := readWord_view_cons hv2
          rw [h3, ok_bind]
          dsimp only
          match ws, hv3 with
          | [], hv3 => rw [readWord_view_nil hv3]; simp only [headerW, hver, ok_bind]; rfl
          | zero :: ws, hv3 =>
            obtain ⟨s4, h4, hv4, _, _⟩ := readWord_view_cons hv3
            rw [h4, ok_bind]
            simp only [headerW, hver, ok_bind]
            by_cases hz : zero ≠ 0
            · rw [if_pos hz, if_pos hz]
            · rw [if_neg hz, if_neg hz, readLoop_view known _ _ _ _ _ _ hv4 (by omega)]
              cases bodyW known [] t ws with
              | error e => rfl
              | ok l => rfl

theorem chunk_snd (bs : List UInt8) : (chunk true bs).2 = (chunk false bs).2 := by
  fun_induction chunk true bs with
  | case1 b0 b1 b2 b3 r ih => simp [chunk, ih]
  | case2 t h =>
    match t, h with
    | [], _ => rfl
    | [_], _ => rfl
    | [_, _], _ => rfl
    | [_, _, _], _ => rfl
    | _ :: _ :: _ :: _ :: _, h => exact (h _ _ _ _ _ rfl).elim

theorem readModule_words {X : Type} (data : List UInt8) (known : List (ExtInstSet X)) :
    readModule data known =
      moduleW known (chunk true data).2 (chunk true data).1 (chunk false data).1 := by
  rw [readModule_eq]
  have hv : (Stream.new data).view = chunk true data := rfl
  have hsnd := chunk_snd data
  match hc : chunk true data with
  | ([], t) =>
    rw [readWord_view_nil (hv.trans hc)]
    rfl
  | (magic :: ws, t) =>
    obtain ⟨s1, h1, hv1, hle, _⟩ := readWord_view_cons (hv.trans hc)
    rw [h1, ok_bind]
    simp only [moduleW]
    split
    · exact afterMagic_view known hv1
    · split
      · have hsrc : (chunk false data).1.tail = (chunk false s1.source).1 ∧
            (chunk false s1.source).2 = t := by
          rw [hc] at hsnd
          obtain ⟨hb, ht⟩ := chunk_iff.mp hc
          have hs1 : s1.source = ws.flatMap (orderedBytes true) ++ t := by
            have : chunk s1.is_le s1.source = (ws, t) := hv1
            rw [hle] at this
            exact (chunk_iff.mp this).1
          have : ∃ b0 b1 b2 b3, data = b0 :: b1 :: b2 :: b3 :: s1.source := by
            rw [hb, hs1]
            exact ⟨_, _, _, _, rfl⟩
          obtain ⟨b0, b1, b2, b3, rfl⟩ := this
          have hsnd : t = (chunk false (b0 :: b1 :: b2 :: b3 :: s1.source)).2 := hsnd
          refine ⟨by simp [chunk], ?_⟩
          rw [hsnd]
          simp [chunk]
        refine (afterMagic_view known (ws := (chunk false data).1.tail) (t := t) ?_)
        rw [hsrc.1, ← hsrc.2]
        obtain ⟨src, le⟩ := s1
        dsimp only at hle
        subst hle
        rfl
      · rfl

theorem readVersion_iff {w : UInt32} {v : Version} :
    readVersion w = .ok v ↔ IsVersionWord w ∧ v = ⟨1, 0⟩ := by
  have hand (n : Nat) : n &&& 15 = n % 16 := Nat.and_two_pow_sub_one_eq_mod _ 4
  have hw := w.toNat_lt
  have e3 : (w >>> 24).toUInt8 = 0 ↔ w.toNat / 16777216 = 0 := by
    rw [← UInt8.toNat_inj]
    simp [Nat.shiftRight_eq_div_pow]
    omega
  have e2 : ((w >>> 16) &&& 0xF).toUInt8 = 1 ↔ w.toNat / 65536 % 16 = 1 := by
    rw [← UInt8.toNat_inj]
    simp [Nat.shiftRight_eq_div_pow, hand]
  have e1 : ((w >>> 8) &&& 0xF).toUInt8 = 0 ↔ w.toNat / 256 % 16 = 0 := by
    rw [← UInt8.toNat_inj]
    simp [Nat.shiftRight_eq_div_pow, hand]
  have e0 : (w &&& 0xF).toUInt8 = 0 ↔ w.toNat % 16 = 0 := by
    rw [← UInt8.toNat_inj]
    simp [hand]
  unfold readVersion IsVersionWord
  dsimp only
  by_cases h : (w >>> 24).toUInt8 = 0 ∧ ((w >>> 16) &&& 0xF).toUInt8 = 1 ∧
      ((w >>> 8) &&& 0xF).toUInt8 = 0 ∧ (w &&& 0xF).toUInt8 = 0
  · rw [if_pos h]
    obtain ⟨h3, h2, h1, h0⟩ := h
    rw [pure_bind']
    simp only [h2, h1, and_self, ite_true, pure_ok]
    rw [e3] at h3; rw [e2] at h2; rw [e1] at h1; rw [e0] at h0
    simp [h3, h2, h1, h0, eq_comm]
  · rw [if_neg h]
    simp only [bind_fail, reduceCtorEq, false_iff]
    rw [e3, e2, e1, e0] at h
    exact fun h' => h h'.1

theorem readVersion_error {w : UInt32} (h : ¬ IsVersionWord w) :
    readVersion w = fail (.UnknownVersionBytes (UInt8.ofNat (w.toNat / 16777216))
      (UInt8.ofNat (w.toNat / 65536 % 16)) (UInt8.ofNat (w.toNat / 256 % 16))
      (UInt8.ofNat (w.toNat % 16))) := by
  have hand (n : Nat) : n &&& 15 = n % 16 := Nat.and_two_pow_sub_one_eq_mod _ 4
  have hw := w.toNat_lt
  have e3 : (w >>> 24).toUInt8 = UInt8.ofNat (w.toNat / 16777216) := by
    rw [← UInt8.toNat_inj]
    simp [Nat.shiftRight_eq_div_pow]
  have e2 : ((w >>> 16) &&& 0xF).toUInt8 = UInt8.ofNat (w.toNat / 65536 % 16) := by
    rw [← UInt8.toNat_inj]
    simp [Nat.shiftRight_eq_div_pow, hand]
    omega
  have e1 : ((w >>> 8) &&& 0xF).toUInt8 = UInt8.ofNat (w.toNat / 256 % 16) := by
    rw [← UInt8.toNat_inj]
    simp [Nat.shiftRight_eq_div_pow, hand]
    omega
  have e0 : (w &&& 0xF).toUInt8 = UInt8.ofNat (w.toNat % 16) := by
    rw [← UInt8.toNat_inj]
    simp [hand]
    omega
  unfold readVersion
  dsimp only
  split
  · rename_i hc
    exfalso
    apply h
    have := (readVersion_iff (w := w) (v := ⟨1, 0⟩)).mp (by
      unfold readVersion
      dsimp only
      rw [if_pos hc, pure_bind']
      simp only [hc.2.1, hc.2.2.1, and_self, ite_true]
      rfl)
    exact this.1
  · rw [e3, e2, e1, e0]
    rfl

theorem readVersion_safe (w : UInt32) : Safe (readVersion w) := by
  unfold readVersion
  dsimp only
  split
  · rw [pure_bind']
    exact .ite (.pure _) (.fail _)
  · exact .fail _

theorem readTool_code (w : UInt16) : toolCode (readTool w) = w ∧ ∀ n, readTool w = .Other n → 12 ≤ n := by
  by_cases h : w < 12
  · have : w.toNat < 12 := h
    have key : ∀ k, k < 12 → toolCode (readTool (UInt16.ofNat k)) = UInt16.ofNat k ∧
        (match readTool (UInt16.ofNat k) with | .Other _ => false | _ => true) = true := by
      decide
    have := key w.toNat this
    simp only [UInt16.ofNat_toNat] at this
    exact ⟨this.1, fun n hn => by rw [hn] at this; cases this.2⟩
  · have hne (k : UInt16) (hk : k < 12) : (w == k) = false := by
      simp only [beq_eq_false_iff_ne]
      rintro rfl
      exact h hk
    have : readTool w = .Other w := by
      simp [readTool, toolTable, List.lookup, hne 0 (by decide), hne 1 (by decide),
        hne 2 (by decide), hne 3 (by decide), hne 4 (by decide), hne 5 (by decide),
        hne 6 (by decide), hne 7 (by decide), hne 8 (by decide), hne 9 (by decide),
        hne 10 (by decide), hne 11 (by decide)]
    rw [this]
    refine ⟨rfl, fun n hn => ?_⟩
    cases hn
    exact UInt16.not_lt.mp h

theorem readTool_toolCode (t : Tool) (h : ∀ n, t = .Other n → 12 ≤ n) :
    readTool (toolCode t) = t := by
  cases t with
  | Other n =>
    have hn := h n rfl
    have hne (k : UInt16) (hk : k < 12) : (n == k) = false := by
      simp only [beq_eq_false_iff_ne]
      rintro rfl
      exact absurd hk (UInt16.not_lt.mpr hn)
    simp [toolCode, readTool, toolTable, List.lookup, hne 0 (by decide), hne 1 (by decide),
        hne 2 (by decide), hne 3 (by decide), hne 4 (by decide), hne 5 (by decide),
        hne 6 (by decide), hne 7 (by decide), hne 8 (by decide), hne 9 (by decide),
        hne 10 (by decide), hne 11 (by decide)]
  | _ => rfl

theorem generatorOf_iff {w : UInt32} {g : Generator} : generatorOf w = g ↔ IsGeneratorWord g w := by
  have hw := w.toNat_lt
  have hand (n : Nat) : n &&& 65535 = n % 65536 := Nat.and_two_pow_sub_one_eq_mod _ 16
  constructor
  · rintro rfl
    have h := readTool_code (w >>> 16).toUInt16
    refine ⟨?_, h.2⟩
    simp only [generatorOf, h.1]
    simp [Nat.shiftRight_eq_div_pow, hand]
    omega
  · rintro ⟨h1, h2⟩
    obtain ⟨tool, version⟩ := g
    dsimp only at h1 h2
    have ht := (toolCode tool).toNat_lt
    have hver := version.toNat_lt
    have e1 : (w >>> 16).toUInt16 = toolCode tool := by
      apply UInt16.toNat_inj.mp
      simp [Nat.shiftRight_eq_div_pow]
      omega
    have e2 : (w &&& 0xFFFF).toUInt16 = version := by
      apply UInt16.toNat_inj.mp
      simp [hand]
      omega
    simp only [generatorOf, e1, e2, readTool_toolCode tool h2]

/-- What is accepted after the magic number -/
theorem headerW_iff {X : Type} {known : List (ExtInstSet X)} {t : List UInt8} {ws : List UInt32}
    {m : RawModule X} :
    headerW known t ws = .ok m ↔ ∃ ver gen body, ws = ver :: gen :: m.bound :: 0 :: body ∧
      IsVersionWord ver ∧ m.version = ⟨1, 0⟩ ∧ IsGeneratorWord m.generator gen ∧
      bodyW known [] t body = .ok m.instructions := by
  match ws with
  | [] => simp [headerW]
  | [_] => simp [headerW, bind_ok]
  | [_, _] => simp [headerW, bind_ok]
  | [_, _, _] => simp [headerW, bind_ok]
  | ver :: gen :: bound :: zero :: ws =>
    simp only [headerW, bind_ok, readVersion_iff, guard_ok, pure_ok, List.cons.injEq]
    constructor
    · rintro ⟨v, ⟨hv, rfl⟩, hz, l, hb, rfl⟩
      refine ⟨ver, gen, ws, ⟨rfl, rfl, rfl, by simpa using hz, rfl⟩, hv, rfl, ?_, hb⟩
      exact generatorOf_iff.mp rfl
    · rintro ⟨_, _, _, ⟨rfl, rfl, rfl, rfl, rfl⟩, hv, hver, hg, hb⟩
      refine ⟨_, ⟨hv, rfl⟩, by simp, _, hb, ?_⟩
      obtain ⟨v, g, b, i⟩ := m
      dsimp only at hver hg
      rw [← hver, generatorOf_iff.mpr hg]

end Magma
