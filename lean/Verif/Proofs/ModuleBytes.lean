import Verif.Proofs.Body
import Verif.Spec.Serialise
/-! Lemmas: the whole reader on bytes. -/

namespace Magma
open Spec

/-- The word with the bytes in the other order -/
def bswap (w : UInt32) : UInt32 :=
  leWord (UInt8.ofNat (w.toNat / 16777216)) (UInt8.ofNat (w.toNat / 65536))
    (UInt8.ofNat (w.toNat / 256)) (UInt8.ofNat w.toNat)

theorem wordBytes_bswap (w : UInt32) : wordBytes (bswap w) = (wordBytes w).reverse := by
  rw [bswap, wordBytes_leWord]
  rfl

theorem wordBytes_inj {v w : UInt32} (h : wordBytes v = wordBytes w) : v = w := by
  have h1 := leWord_wordBytes v
  have h2 := leWord_wordBytes w
  simp only [wordBytes, List.cons.injEq, and_true] at h
  rw [← h1, ← h2, h.1, h.2.1, h.2.2.1, h.2.2.2]

theorem bswap_bswap (w : UInt32) : bswap (bswap w) = w := by
  apply wordBytes_inj
  rw [wordBytes_bswap, wordBytes_bswap, List.reverse_reverse]

theorem streamWord_false (a b c d : UInt8) : streamWord false a b c d = bswap (streamWord true a b c d) := by
  apply wordBytes_inj
  rw [wordBytes_bswap]
  simp [streamWord, beWord_eq, wordBytes_leWord]

theorem chunk_false (bs : List UInt8) :
    chunk false bs = ((chunk true bs).1.map bswap, (chunk true bs).2) := by
  fun_induction chunk true bs with
  | case1 b0 b1 b2 b3 r ih => simp [chunk, ih, streamWord_false]
  | case2 t h =>
    match t, h with
    | [], _ => rfl
    | [_], _ => rfl
    | [_, _], _ => rfl
    | [_, _, _], _ => rfl
    | _ :: _ :: _ :: _ :: _, h => exact (h _ _ _ _ _ rfl).elim

theorem chunk_swapWords (bs : List UInt8) :
    chunk true (swapWords bs) = ((chunk true bs).1.map bswap, (chunk true bs).2) := by
  rw [← chunk_false]
  fun_induction chunk false bs with
  | case1 b0 b1 b2 b3 r ih => simp [swapWords, chunk, ih, streamWord, beWord_eq]
  | case2 t h =>
    match t, h with
    | [], _ => rfl
    | [_], _ => rfl
    | [_, _], _ => rfl
    | [_, _, _], _ => rfl
    | _ :: _ :: _ :: _ :: _, h => exact (h _ _ _ _ _ rfl).elim

theorem bswap_magic : bswap SPIRV_MAGIC_NUMBER = SPIRV_MAGIC_NUMBER_OTHER_ENDIAN := by decide
theorem bswap_magic' : bswap SPIRV_MAGIC_NUMBER_OTHER_ENDIAN = SPIRV_MAGIC_NUMBER := by decide

theorem bswap_inj {v w : UInt32} : bswap v = w ↔ v = bswap w := by
  constructor
  · rintro rfl; rw [bswap_bswap]
  · rintro rfl; rw [bswap_bswap]

theorem map_bswap (ws : List UInt32) : (ws.map bswap).map bswap = ws := by
  simp [List.map_map, Function.comp_def, bswap_bswap]

theorem moduleW_swap {X : Type} (known : List (ExtInstSet X)) (t : List UInt8) (ws : List UInt32) :
    moduleW known t (ws.map bswap) ws = moduleW known t ws (ws.map bswap) := by
  cases ws with
  | nil => rfl
  | cons magic ws =>
    simp only [List.map_cons, moduleW, List.tail_cons, bswap_inj, bswap_magic, bswap_magic']
    by_cases h1 : magic = SPIRV_MAGIC_NUMBER
    · subst h1
      simp [show SPIRV_MAGIC_NUMBER ≠ SPIRV_MAGIC_NUMBER_OTHER_ENDIAN by decide]
    · rw [if_neg h1, if_neg h1]

theorem readModule_chunk {X : Type} (data : List UInt8) (known : List (ExtInstSet X)) :
    readModule data known = moduleW known (chunk true data).2 (chunk true data).1
      ((chunk true data).1.map bswap) := by
  rw [readModule_words, chunk_false]

theorem readModule_swapWords {X : Type} (data : List UInt8) (known : List (ExtInstSet X)) :
    readModule (swapWords data) known = readModule data known := by
  rw [readModule_chunk, readModule_chunk, chunk_swapWords]
  simp only [map_bswap]
  exact moduleW_swap _ _ _

theorem flatMap_bswap (ws : List UInt32) :
    (ws.map bswap).flatMap wordBytes = ws.flatMap (fun w => (wordBytes w).reverse) := by
  rw [List.flatMap_map]
  congr 1
  funext w
  exact wordBytes_bswap w

theorem orderedBytes_true : orderedBytes true = wordBytes := by
  funext w; rfl

/-- The two ways to be a sequence of words and a rest -/
theorem chunk_or {data t : List UInt8} {ws : List UInt32} (ht : t.length < 4) :
    (data = ws.flatMap wordBytes ++ t ∨ data = ws.flatMap (fun w => (wordBytes w).reverse) ++ t) ↔
      (chunk true data = (ws, t) ∨ chunk true data = (ws.map bswap, t)) := by
  simp only [chunk_iff, orderedBytes_true, flatMap_bswap, ht, and_true]

theorem moduleW_ok {X : Type} {known : List (ExtInstSet X)} {t : List UInt8} {ws : List UInt32}
    {r : R (RawModule X)} {ws' : List UInt32} (hr : headerW known t ws' = r)
    (h : ws = SPIRV_MAGIC_NUMBER :: ws' ∨ ws = (SPIRV_MAGIC_NUMBER :: ws').map bswap) :
    moduleW known t ws (ws.map bswap) = r := by
  rcases h with rfl | rfl
  · simp [moduleW, hr]
  · rw [map_bswap, moduleW_swap]
    simp [moduleW, hr]

theorem readModule_words_eq {X : Type} {known : List (ExtInstSet X)} {data t : List UInt8}
    {ws : List UInt32} (ht : t.length < 4)
    (h : data = (0x07230203 :: ws).flatMap wordBytes ++ t ∨
      data = (0x07230203 :: ws).flatMap (fun w => (wordBytes w).reverse) ++ t) :
    readModule data known = headerW known t ws := by
  rw [readModule_chunk]
  rw [chunk_or ht] at h
  rcases h with h | h
  · rw [h]; exact moduleW_ok rfl (.inl rfl)
  · rw [h]; exact moduleW_ok rfl (.inr rfl)

theorem bytesOf_true (ws : List UInt32) : bytesOf true ws = ws.flatMap wordBytes := rfl
theorem bytesOf_false (ws : List UInt32) :
    bytesOf false ws = ws.flatMap (fun w => (wordBytes w).reverse) := rfl

theorem bytesOf_append (le : Bool) (v w : List UInt32) :
    bytesOf le (v ++ w) = bytesOf le v ++ bytesOf le w := by
  simp [bytesOf]

theorem bytesOf_length (le : Bool) (ws : List UInt32) : (bytesOf le ws).length = 4 * ws.length := by
  induction ws with
  | nil => rfl
  | cons w ws ih =>
    have : bytesOf le (w :: ws) = (if le then wordBytes w else (wordBytes w).reverse) ++ bytesOf le ws := rfl
    rw [this, List.length_append, ih]
    cases le <;> simp [wordBytes] <;> omega

theorem readModule_bytesOf {X : Type} {known : List (ExtInstSet X)} {t : List UInt8}
    {ws : List UInt32} (ht : t.length < 4) (le : Bool) :
    readModule (bytesOf le (0x07230203 :: ws) ++ t) known = headerW known t ws := by
  refine readModule_words_eq ht ?_
  cases le
  · right; rfl
  · left; rfl

/-- If the reader gets past the magic number, the input is words after the magic number, in one of
the byte orders. -/
theorem readModule_cases {X : Type} (known : List (ExtInstSet X)) (data : List UInt8) :
    (∃ t ws, t.length < 4 ∧ (data = (0x07230203 :: ws).flatMap wordBytes ++ t ∨
      data = (0x07230203 :: ws).flatMap (fun w => (wordBytes w).reverse) ++ t) ∧
      readModule data known = headerW known t ws) ∨
    (data.length < 4 ∧ readModule data known = fail (eosError data)) ∨
    (4 ≤ data.length ∧ readModule data known = fail .BadMagic) := by
  have hc := chunk_flatMap true data
  have hr := readModule_chunk data known
  rcases hch : chunk true data with ⟨ws, t⟩
  rw [hch] at hc hr
  obtain ⟨hd, ht⟩ := hc
  cases ws with
  | nil =>
    right; left
    simp only [List.flatMap_nil, List.nil_append] at hd
    subst hd
    exact ⟨ht, hr⟩
  | cons magic ws =>
    by_cases h1 : magic = SPIRV_MAGIC_NUMBER
    · left
      subst h1
      have := hr
      simp only [moduleW, ite_true] at this
      refine ⟨t, ws, ht, .inl ?_, this⟩
      rw [← hd]; rfl
    · by_cases h2 : magic = SPIRV_MAGIC_NUMBER_OTHER_ENDIAN
      · left
        subst h2
        have := hr
        simp only [moduleW, if_neg h1, ite_true, List.map_cons, List.tail_cons] at this
        refine ⟨t, ws.map bswap, ht, ?_, this⟩
        rw [chunk_or ht, hch]
        right
        simp only [List.map_cons, map_bswap]
        rfl
      · right; right
        simp only [moduleW, if_neg h1, if_neg h2] at hr
        refine ⟨?_, hr⟩
        rw [← hd]
        simp [orderedBytes, wordBytes]

theorem readModule_iff {X : Type} (known : List (ExtInstSet X)) (data : List UInt8)
    (m : RawModule X) : readModule data known = .ok m ↔ SpellsModule known m data := by
  constructor
  · intro h
    rcases readModule_cases known data with ⟨t, ws, ht, hd, hr⟩ | ⟨_, hr⟩ | ⟨_, hr⟩
    · rw [h] at hr
      obtain ⟨ver, gen, body, rfl, h1, h2, h3, h4⟩ := headerW_iff.mp hr.symm
      obtain ⟨h5, rfl⟩ := (bodyW_iff (Inv.nil known)).mp h4
      refine ⟨_, ⟨ver, gen, body, rfl, h1, h2, h3, h5⟩, ?_⟩
      simpa using hd
    · rw [h] at hr; cases hr
    · rw [h] at hr; cases hr
  · rintro ⟨ws, ⟨ver, gen, body, rfl, h1, h2, h3, h4⟩, hd⟩
    rw [readModule_words_eq (t := []) (ws := ver :: gen :: m.bound :: 0 :: body) (by simp)
      (by simpa using hd)]
    exact headerW_iff.mpr ⟨ver, gen, body, rfl, h1, h2, h3, (bodyW_iff (Inv.nil known)).mpr ⟨h4, rfl⟩⟩

theorem SpellsBody_append {X : Type} {known : List (ExtInstSet X)} {l1 l2 : List (Core X)} :
    ∀ {before : List (Core X)} {ws : List UInt32},
    SpellsBody known before (l1 ++ l2) ws ↔ ∃ u v, ws = u ++ v ∧ SpellsBody known before l1 u ∧
      SpellsBody known (before ++ l1) l2 v := by
  induction l1 with
  | nil =>
    intro before ws
    simp [SpellsBody]
  | cons i l1 ih =>
    intro before ws
    simp only [List.cons_append, SpellsBody, ih]
    constructor
    · rintro ⟨u, ws', rfl, hi, u', v, rfl, h1, h2⟩
      exact ⟨u ++ u', v, by simp, ⟨u, u', rfl, hi, h1⟩, by simpa using h2⟩
    · rintro ⟨_, v, rfl, ⟨u, u', rfl, hi, h1⟩, h2⟩
      exact ⟨u, u' ++ v, by simp, hi, u', v, rfl, h1, by simpa using h2⟩

/-- After the instructions `before`, the reader goes on with a map that fits them. -/
theorem bodyW_after {X : Type} {known : List (ExtInstSet X)} {insts : List (Core X)} :
    ∀ {bound : BoundSets X} {before : List (Core X)} {body : List UInt32} (ws : List UInt32)
    (t : List UInt8), Inv known bound before → SpellsBody known before insts body →
    ∃ bound', Inv known bound' (before ++ insts) ∧
      bodyW known bound t (body ++ ws) = (bodyW known bound' t ws >>= fun l => pure (insts ++ l)) := by
  induction insts with
  | nil =>
    intro bound before body ws t hinv h
    have : body = [] := h
    subst this
    refine ⟨bound, by simpa using hinv, ?_⟩
    cases h : bodyW known bound t ws <;> simp [h, bind, Except.bind, pure, Except.pure]
  | cons inst insts ih =>
    intro bound before body ws t hinv h
    obtain ⟨u, ws', rfl, ⟨h1, head, ops, rfl, h2, h3⟩, h4⟩ := h
    obtain ⟨b, h3⟩ := (OpsRel_iff hinv inst ops).mpr h3
    obtain ⟨h5, h6⟩ := isHead_opWords h2
    obtain ⟨b', hinv', hb⟩ := ih ws t (hinv.step h3) h4
    refine ⟨b', by simpa using hinv', ?_⟩
    rw [List.append_assoc, List.cons_append, bodyW_cons (by simp; omega), h5]
    simp only [List.take_left', List.drop_left']
    rw [decode_iff.mpr ⟨h1, h6.symm, h3⟩, ok_bind, hb]
    cases bodyW known b' t ws <;> rfl

theorem Continues_read {X : Type} {known : List (ExtInstSet X)} {before : List (Core X)}
    {ws : List UInt32} {tail bytes : List UInt8} (h : Continues known before ws tail bytes) :
    ∃ bound', Inv known bound' before ∧ ∀ e, bodyW known bound' tail ws = .error e →
      readModule bytes known = .error e := by
  obtain ⟨le, ver, gen, bound, body, hver, hbody, ht, rfl⟩ := h
  obtain ⟨b', hinv, hb⟩ := bodyW_after ws tail (Inv.nil known) hbody
  refine ⟨b', by simpa using hinv, fun e he => ?_⟩
  rw [readModule_bytesOf ht]
  simp only [headerW, readVersion_iff.mpr ⟨hver, rfl⟩, ok_bind, ne_eq, not_true, ite_false]
  rw [hb, he]
  rfl

/-- Decoding errors of the instruction after `before` are errors of the module. -/
theorem Continues_error {X : Type} {known : List (ExtInstSet X)} {before : List (Core X)}
    {head : UInt32} {ops rest : List UInt32} {tail bytes : List UInt8} {e : Fault ReadError}
    (h : Continues known before (head :: (ops ++ rest)) tail bytes) (hl : ops.length = opWords head)
    (hd : ∀ bound', Inv known bound' before → decode head ops known bound' = .error e) :
    readModule bytes known = .error e := by
  obtain ⟨b, hinv, hb⟩ := Continues_read h
  apply hb
  rw [bodyW_cons (by simp; omega), ← hl]
  simp only [List.take_left', List.drop_left']
  rw [hd b hinv]
  rfl

theorem decode_eq {X : Type} {head : UInt32} {ops : List UInt32} {known : List (ExtInstSet X)}
    {bound : BoundSets X} {k : Nat} (hk : head.toNat % 65536 = k) {f : CoreReader X}
    (hf : (opTable X).lookup k = some (.read f)) :
    decode head ops known bound = (f ops known bound >>= fun p =>
      if !p.1.1.atEnd then fail .InstructionHadExcessData else return (p.1.2, p.2)) := by
  rw [decode, opcode_word, hk, hf]

theorem headerW_safe {X : Type} {known : List (ExtInstSet X)}
    (hk : ∀ s ∈ known, ∀ n ws, Safe (s.readInstruction n ws)) (t : List UInt8) (ws : List UInt32) :
    Safe (headerW known t ws) := by
  match ws with
  | [] => exact .fail _
  | [_] => exact Safe.bind (readVersion_safe _) fun _ _ => .fail _
  | [_, _] => exact Safe.bind (readVersion_safe _) fun _ _ => .fail _
  | [_, _, _] => exact Safe.bind (readVersion_safe _) fun _ _ => .fail _
  | _ :: _ :: _ :: _ :: ws =>
    exact Safe.bind (readVersion_safe _) fun _ _ => .ite (.fail _)
      (Safe.bind (bodyW_safe hk t _ ws [] (Nat.le_refl _) (by simp)) fun _ _ => .pure _)

theorem readModule_safe {X : Type} {known : List (ExtInstSet X)}
    (hk : ∀ s ∈ known, ∀ n ws, Safe (s.readInstruction n ws)) (data : List UInt8) :
    Safe (readModule data known) := by
  rcases readModule_cases known data with ⟨t, ws, ht, hd, hr⟩ | ⟨_, hr⟩ | ⟨_, hr⟩
  · rw [hr]; exact headerW_safe hk t ws
  · rw [hr]; exact .fail _
  · rw [hr]; exact .fail _

/-- Cutting the bytes cuts the words. -/
theorem chunk_take (bs : List UInt8) (n : Nat) :
    (chunk true (bs.take n)).1 = (chunk true bs).1.take (n / 4) := by
  induction n using Nat.strongRecOn generalizing bs with
  | ind n ih =>
    match bs, n with
    | [], n => simp [chunk]
    | [a], n => rw [chunk_short (by simp; omega), chunk_short (by simp)]; simp
    | [a, b], n => rw [chunk_short (by simp; omega), chunk_short (by simp)]; simp
    | [a, b, c], n => rw [chunk_short (by simp; omega), chunk_short (by simp)]; simp
    | a :: b :: c :: d :: r, 0 => simp [chunk]
    | a :: b :: c :: d :: r, 1 => rw [chunk_short (by simp)]; simp
    | a :: b :: c :: d :: r, 2 => rw [chunk_short (by simp)]; simp
    | a :: b :: c :: d :: r, 3 => rw [chunk_short (by simp)]; simp
    | a :: b :: c :: d :: r, n + 4 =>
      have := ih n (by omega) r
      simp [chunk, this]

theorem chunk_append (bs more : List UInt8) :
    ∃ w, (chunk true (bs ++ more)).1 = (chunk true bs).1 ++ w := by
  obtain ⟨h1, h2⟩ := chunk_flatMap true bs
  refine ⟨(chunk true ((chunk true bs).2 ++ more)).1, ?_⟩
  conv => lhs; rw [← h1]
  generalize (chunk true bs).1 = ws
  generalize (chunk true bs).2 = t
  rw [List.append_assoc]
  induction ws with
  | nil => rfl
  | cons w ws ih => simp [chunk_cons, ih]

theorem headerW_prefix {X : Type} {known : List (ExtInstSet X)} {t : List UInt8} {ws : List UInt32}
    {m : RawModule X} (h : headerW known t ws = .ok m) (n : Nat) (t' : List UInt8) :
    (∃ m', m'.version = m.version ∧ m'.generator = m.generator ∧ m'.bound = m.bound ∧
      m'.instructions <+: m.instructions ∧ headerW known t' (ws.take n) = .ok m') ∨
    ∃ e, IsEos e ∧ headerW known t' (ws.take n) = .error e := by
  obtain ⟨ver, gen, body, rfl, h1, h2, h3, h4⟩ := headerW_iff.mp h
  have hv : readVersion ver = .ok ⟨1, 0⟩ := readVersion_iff.mpr ⟨h1, rfl⟩
  match n with
  | 0 => exact .inr ⟨_, isEos_eosError t', rfl⟩
  | 1 => exact .inr ⟨_, isEos_eosError t', by simp [headerW, hv, ok_bind]⟩
  | 2 => exact .inr ⟨_, isEos_eosError t', by simp [headerW, hv, ok_bind]⟩
  | 3 => exact .inr ⟨_, isEos_eosError t', by simp [headerW, hv, ok_bind]⟩
  | n + 4 =>
    simp only [List.take_succ_cons]
    rcases bodyW_prefix n t' h4 with ⟨l, hl, hb⟩ | ⟨e, he, hb⟩
    · refine .inl ⟨{ m with instructions := l }, rfl, rfl, rfl, hl, ?_⟩
      exact headerW_iff.mpr ⟨ver, gen, body.take n, rfl, h1, h2, h3, hb⟩
    · refine .inr ⟨e, he, ?_⟩
      simp only [headerW, hv, ok_bind, ne_eq, not_true, ite_false, hb]
      rfl

theorem readModule_prefix {X : Type} {known : List (ExtInstSet X)} {data : List UInt8}
    {m : RawModule X} (h : readModule data known = .ok m) (n : Nat) :
    (∃ m', m'.version = m.version ∧ m'.generator = m.generator ∧ m'.bound = m.bound ∧
      m'.instructions <+: m.instructions ∧ readModule (data.take n) known = .ok m') ∨
    ∃ e, IsEos e ∧ readModule (data.take n) known = .error e := by
  rw [readModule_chunk] at h
  rw [readModule_chunk (data.take n), chunk_take]
  generalize (chunk true data).1 = ws at h ⊢
  generalize (chunk true data).2 = t at h
  generalize (chunk true (data.take n)).2 = t'
  cases ws with
  | nil => simp [moduleW] at h
  | cons magic ws =>
    cases hn : n / 4 with
    | zero => exact .inr ⟨_, isEos_eosError t', rfl⟩
    | succ k =>
      simp only [List.take_succ_cons, moduleW, List.map_cons, List.tail_cons] at h ⊢
      by_cases h1 : magic = SPIRV_MAGIC_NUMBER
      · rw [if_pos h1] at h ⊢
        exact headerW_prefix h k t'
      · rw [if_neg h1] at h ⊢
        by_cases h2 : magic = SPIRV_MAGIC_NUMBER_OTHER_ENDIAN
        · rw [if_pos h2] at h ⊢
          rw [List.map_take]
          exact headerW_prefix h k t'
        · rw [if_neg h2] at h
          cases h

theorem headerW_extend {X : Type} {known : List (ExtInstSet X)} {t : List UInt8} {ws : List UInt32}
    {e : Fault ReadError} (h : headerW known t ws = .error e) (he : ¬ IsEos e)
    (more : List UInt32) (t' : List UInt8) : headerW known t' (ws ++ more) = .error e := by
  have short (ver : UInt32) (ws : List UInt32)
      (h : (readVersion ver >>= fun _ => (fail (eosError t) : R (RawModule X))) = .error e) :
      headerW known t' (ver :: ws) = .error e := by
    cases hv : readVersion ver with
    | ok v =>
      rw [hv, ok_bind] at h
      cases h
      exact (he (isEos_eosError t)).elim
    | error e' =>
      rw [hv] at h
      cases h
      match ws with
      | [] => simp only [headerW, hv, bind_fail]
      | [_] => simp only [headerW, hv, bind_fail]
      | [_, _] => simp only [headerW, hv, bind_fail]
      | _ :: _ :: _ :: _ => simp only [headerW, hv, bind_fail]
  match ws with
  | [] =>
    cases h
    exact (he (isEos_eosError t)).elim
  | [ver] => exact short ver _ h
  | [ver, _] => exact short ver _ h
  | [ver, _, _] => exact short ver _ h
  | ver :: gen :: bound :: zero :: ws =>
    simp only [List.cons_append, headerW] at h ⊢
    cases hv : readVersion ver with
    | error e' => rw [hv] at h; exact h
    | ok v =>
      rw [hv, ok_bind] at h
      rw [ok_bind]
      by_cases hz : zero ≠ 0
      · rw [if_pos hz] at h ⊢
        exact h
      · rw [if_neg hz] at h ⊢
        cases hb : bodyW known [] t ws with
        | error e' =>
          rw [hb] at h
          cases h
          rw [bodyW_extend _ more t' (Nat.le_refl _) hb he]
          rfl
        | ok l => rw [hb] at h; cases h

theorem readModule_extend {X : Type} {known : List (ExtInstSet X)} {data : List UInt8}
    {e : Fault ReadError} (h : readModule data known = .error e) (he : ¬ IsEos e)
    (more : List UInt8) : readModule (data ++ more) known = .error e := by
  rw [readModule_chunk] at h ⊢
  obtain ⟨w, hw⟩ := chunk_append data more
  rw [hw]
  generalize (chunk true data).1 = ws at h ⊢
  generalize (chunk true data).2 = t at h
  generalize (chunk true (data ++ more)).2 = t'
  cases ws with
  | nil =>
    cases h
    exact (he (isEos_eosError t)).elim
  | cons magic ws =>
    simp only [List.cons_append, List.map_append, List.map_cons, moduleW, List.tail_cons] at h ⊢
    by_cases h1 : magic = SPIRV_MAGIC_NUMBER
    · rw [if_pos h1] at h ⊢
      exact headerW_extend h he w t'
    · rw [if_neg h1] at h ⊢
      by_cases h2 : magic = SPIRV_MAGIC_NUMBER_OTHER_ENDIAN
      · rw [if_pos h2] at h ⊢
        exact headerW_extend h he _ t'
      · rw [if_neg h2] at h ⊢
        exact h

end Magma
