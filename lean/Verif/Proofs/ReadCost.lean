import Verif.Model.ReaderCost
import Verif.Spec.ReadCost
import Verif.Proofs.ReferenceModule
/-! Lemmas: the metered reader does what the reader does, and what it costs. -/

namespace Magma
open Spec
variable {X : Type}

theorem metered_fst {α β : Type} (r : R α × Meter) (f : α → Meter → R β × Meter) :
    (metered r f).1 = r.1 >>= fun a => (f a r.2).1 := by
  obtain ⟨r, m⟩ := r
  cases r <;> rfl

theorem metered_ok {α β : Type} {r : R α × Meter} {a : α} (h : r.1 = .ok a) (f : α → Meter → R β × Meter) :
    metered r f = f a r.2 := by
  obtain ⟨r, m⟩ := r
  cases h
  rfl

theorem metered_error {α β : Type} {r : R α × Meter} {e : Fault ReadError} (h : r.1 = .error e)
    (f : α → Meter → R β × Meter) : metered r f = (.error e, r.2) := by
  obtain ⟨r, m⟩ := r
  cases h
  rfl

theorem readWordsM_fst (n : Nat) : ∀ (s : Stream) (m : Meter), (s.readWordsM n m).1 = s.readWords n := by
  induction n with
  | zero => intro s m; rfl
  | succ n ih =>
    intro s m
    simp only [Stream.readWordsM, Stream.readWords, metered_fst, ih]
    rfl

theorem readInstructionM_fst (s : Stream) (known : List (ExtInstSet X)) (bound : BoundSets X) (m : Meter) :
    (readInstructionM s known bound m).1 = readInstruction s known bound := by
  simp only [readInstructionM, readInstruction, metered_fst, readWordsM_fst]
  rfl

theorem readLoopM_fst (known : List (ExtInstSet X)) (fuel : Nat) : ∀ (s : Stream) (bound : BoundSets X)
    (acc : List (Core X)) (m : Meter), (readLoopM known fuel s bound acc m).1 = readLoop known fuel s bound acc := by
  induction fuel with
  | zero => intros; rfl
  | succ fuel ih =>
    intro s bound acc m
    simp only [readLoopM, readLoop]
    by_cases h : s.isEnd = true
    · rw [if_pos h, if_pos h]
    · rw [if_neg h, if_neg h]
      simp only [metered_fst, ih, readInstructionM_fst]

/-- The part of `readModuleM` after the magic number -/
def afterMagicM (known : List (ExtInstSet X)) (stream : Stream) (m : Meter) : R (RawModule X) × Meter :=
  metered (stream.readWordM m) fun (ver_word, stream) m =>
  metered (readVersion ver_word, m) fun version m =>
  metered (stream.readWordM m) fun (generator_word, stream) m =>
  let generator_id : UInt16 := (generator_word >>> 16).toUInt16
  let generator : Generator :=
    { tool := readTool generator_id, version := (generator_word &&& 0xFFFF).toUInt16 }
  metered (stream.readWordM m) fun (bound, stream) m =>
  metered (stream.readWordM m) fun (zero, stream) m =>
  if zero ≠ 0 then (fail .UnknownReservedSchema, m)
  else
    metered (readLoopM known (stream.source.length + 1) stream [] [] m) fun instructions m =>
    (.ok { version := version, generator := generator, bound := bound, instructions := instructions }, m)

theorem readModuleM_eq (data : List UInt8) (known : List (ExtInstSet X)) :
    readModuleM data known = metered ((Stream.new data).readWordM ⟨0, []⟩) fun p m =>
      if p.1 = SPIRV_MAGIC_NUMBER then afterMagicM known p.2 m
      else if p.1 = SPIRV_MAGIC_NUMBER_OTHER_ENDIAN then afterMagicM known p.2.invertEndianness m
      else (fail .BadMagic, m) := by
  simp only [readModuleM]
  congr 1
  funext p m
  by_cases h1 : p.1 = SPIRV_MAGIC_NUMBER
  · simp only [if_pos h1]
    rfl
  · simp only [if_neg h1]
    by_cases h2 : p.1 = SPIRV_MAGIC_NUMBER_OTHER_ENDIAN
    · simp only [if_pos h2]
      rfl
    · simp only [if_neg h2]
      rfl

theorem afterMagicM_fst (known : List (ExtInstSet X)) (s : Stream) (m : Meter) :
    (afterMagicM known s m).1 = afterMagic known s := by
  simp only [afterMagicM, afterMagic, metered_fst, apply_ite Prod.fst, readLoopM_fst, Stream.readWordM]
  rfl

theorem readModuleM_fst (data : List UInt8) (known : List (ExtInstSet X)) :
    (readModuleM data known).1 = readModule data known := by
  rw [readModuleM_eq, readModule_eq]
  simp only [metered_fst, apply_ite Prod.fst, afterMagicM_fst, Stream.readWordM]

theorem readWordsM_snd (n : Nat) : ∀ {s : Stream} {ws : List UInt32} {t : List UInt8} (_ : s.view = (ws, t))
    (m : Meter), (s.readWordsM n m).2 =
      ⟨m.reads + (if n ≤ ws.length then n else ws.length + 1), m.asked⟩ := by
  induction n with
  | zero => intro s ws t _ m; simp [Stream.readWordsM]
  | succ n ih =>
    intro s ws t h m
    simp only [Stream.readWordsM]
    cases ws with
    | nil =>
      rw [metered_error (r := s.readWordM m) (readWord_view_nil h)]
      rfl
    | cons w ws =>
      obtain ⟨s', h1, h2, _, _⟩ := readWord_view_cons h
      rw [metered_ok (r := s.readWordM m) h1]
      have h3 := ih h2 (s.readWordM m).2
      dsimp only
      cases hr : (s'.readWordsM n (s.readWordM m).2).1 with
      | error e =>
        rw [metered_error hr, h3]
        simp only [Stream.readWordM, List.length_cons, Meter.mk.injEq, and_true]
        split <;> split <;> omega
      | ok p =>
        rw [metered_ok hr, h3]
        simp only [Stream.readWordM, List.length_cons, Meter.mk.injEq, and_true]
        split <;> split <;> omega

theorem readInstructionM_nil {s : Stream} {t : List UInt8} (h : s.view = ([], t))
    (known : List (ExtInstSet X)) (bound : BoundSets X) (m : Meter) :
    (readInstructionM s known bound m).2 = ⟨m.reads + 1, m.asked⟩ := by
  simp only [readInstructionM]
  rw [metered_error (r := s.readWordM m) (readWord_view_nil h)]
  rfl

theorem readInstructionM_cons {s : Stream} {t : List UInt8} {head : UInt32} {ws : List UInt32}
    (h : s.view = (head :: ws, t)) (known : List (ExtInstSet X)) (bound : BoundSets X) (m : Meter) :
    (readInstructionM s known bound m).2 = ⟨m.reads + 1 + (if opWords head ≤ ws.length then opWords head
      else ws.length + 1), m.asked ++ [head.toNat / 65536]⟩ := by
  simp only [readInstructionM]
  obtain ⟨s', h1, h2, _, _⟩ := readWord_view_cons h
  rw [metered_ok (r := s.readWordM m) h1]
  simp only [wc_word]
  have h3 := readWordsM_snd (opWords head) h2 { (s.readWordM m).2 with
    asked := (s.readWordM m).2.asked ++ [head.toNat / 65536] }
  simp only [opWords] at h3 ⊢
  generalize s'.readWordsM (head.toNat / 65536 - 1) _ = r at h3 ⊢
  obtain ⟨r, m'⟩ := r
  dsimp only at h3
  subst h3
  cases r <;> rfl

theorem readLoopM_snd (known : List (ExtInstSet X)) (fuel : Nat) : ∀ (s : Stream)
    (bound : BoundSets X) (acc : List (Core X)) (ws : List UInt32) (t : List UInt8) (m : Meter),
    s.view = (ws, t) → s.source.length < fuel →
    (readLoopM known fuel s bound acc m).2 =
      ⟨m.reads + (bodyCost known t bound ws).1, m.asked ++ (bodyCost known t bound ws).2⟩ := by
  induction fuel with
  | zero => intro s bound acc ws t m _ h; omega
  | succ fuel ih =>
    intro s bound acc ws t m hv hf
    simp only [readLoopM]
    by_cases he : s.isEnd = true
    · rw [if_pos he]
      obtain ⟨rfl, rfl⟩ := (isEnd_view hv).mp he
      simp [bodyCost]
    · rw [if_neg he]
      rw [isEnd_view hv] at he
      have hfst := readInstructionM_fst s known bound m
      cases ws with
      | nil =>
        have ht : t ≠ [] := fun h => he ⟨rfl, h⟩
        rw [readInstruction_view_nil hv] at hfst
        rw [metered_error hfst, readInstructionM_nil hv]
        cases t with
        | nil => exact (ht rfl).elim
        | cons b t => simp [bodyCost]
      | cons head ws =>
        have hsnd := readInstructionM_cons hv known bound m
        rw [bodyCost]
        have ho : head.toNat / 65536 - 1 = opWords head := rfl
        simp only [ho]
        by_cases hn : ws.length < opWords head
        · rw [readInstruction_view_short hv hn] at hfst
          rw [metered_error hfst, hsnd, if_pos hn, if_neg (by omega)]
          simp only [Meter.mk.injEq, and_true]
          omega
        · have hn' : opWords head ≤ ws.length := by omega
          obtain ⟨s', h1, h2, h3, h4⟩ := readInstruction_view hv hn' known bound
          rw [h4] at hfst
          rw [if_neg hn, ← decode_checked]
          rw [if_pos hn'] at hsnd
          cases hd : decode head (ws.take (opWords head)) known bound with
          | error e =>
            rw [hd] at hfst
            rw [metered_error hfst, hsnd]
            simp only [Except.map, Meter.mk.injEq, and_true]
            omega
          | ok p =>
            rw [hd] at hfst
            rw [metered_ok hfst, hsnd]
            dsimp only
            rw [ih _ _ _ _ _ _ h1 (by omega)]
            simp only [Except.map, Meter.mk.injEq, List.append_assoc, List.cons_append, List.nil_append, and_true]
            omega

theorem checkVersion_error {w : UInt32} {e : Fault ReadError} (h : readVersion w = .error e) :
    checkVersion w = .error e := by
  rw [← readVersion_checked, h]
  rfl

theorem checkVersion_ok {w : UInt32} {v : Version} (h : readVersion w = .ok v) : checkVersion w = .ok () := by
  rw [← readVersion_checked, h]
  rfl

theorem afterMagicM_snd (known : List (ExtInstSet X)) {s : Stream} {ws : List UInt32} {t : List UInt8}
    (hv : s.view = (ws, t)) (m : Meter) :
    (afterMagicM known s m).2 = ⟨m.reads + (headerCost known t ws).1, m.asked ++ (headerCost known t ws).2⟩ := by
  rw [afterMagicM]
  match ws, hv with
  | [], hv =>
    rw [metered_error (r := s.readWordM m) (readWord_view_nil hv)]
    simp [headerCost, Stream.readWordM]
  | ver :: ws, hv =>
    obtain ⟨s1, h1, hv1, _, _⟩ := readWord_view_cons hv
    rw [metered_ok (r := s.readWordM m) h1]
    cases hver : readVersion ver with
    | error e =>
      simp [headerCost, checkVersion_error hver, metered, hver, Stream.readWordM]
    | ok version =>
      simp only [hver]
      rw [metered_ok (r := (.ok version, _)) rfl]
      simp only [headerCost, checkVersion_ok hver]
      match ws, hv1 with
      | [], hv1 =>
        rw [metered_error (r := s1.readWordM _) (readWord_view_nil hv1)]
        simp [Stream.readWordM]
      | gen :: ws, hv1 =>
        obtain ⟨s2, h2, hv2, _, _⟩ := readWord_view_cons hv1
        rw [metered_ok (r := s1.readWordM _) h2]
        match ws, hv2 with
        | [], hv2 =>
          rw [metered_error (r := s2.readWordM _) (readWord_view_nil hv2)]
          simp [Stream.readWordM]
        | bound :: ws, hv2 =>
          obtain ⟨s3, h3, hv3, _, _⟩ := readWord_view_cons hv2
          rw [metered_ok (r := s2.readWordM _) h3]
          match ws, hv3 with
          | [], hv3 =>
            rw [metered_error (r := s3.readWordM _) (readWord_view_nil hv3)]
            simp [Stream.readWordM]
          | zero :: ws, hv3 =>
            obtain ⟨s4, h4, hv4, _, _⟩ := readWord_view_cons hv3
            rw [metered_ok (r := s3.readWordM _) h4]
            dsimp only
            by_cases hz : zero = 0
            · rw [if_neg (by simp [hz]), if_pos hz]
              have hl := readLoopM_snd known (s4.source.length + 1) s4 [] [] ws t
                (s3.readWordM (s2.readWordM (s1.readWordM (s.readWordM m).2).2).2).2 hv4 (Nat.lt_succ_self _)
              have hpair {β : Type} (r : R (List (Core X)) × Meter) (f : List (Core X) → β) :
                  (metered r fun a m => (.ok (f a), m) : R β × Meter).2 = r.2 := by
                obtain ⟨r, m⟩ := r
                cases r <;> rfl
              rw [hpair, hl]
              simp only [Stream.readWordM, Meter.mk.injEq, and_true]
              omega
            · rw [if_pos hz, if_neg hz]
              simp [Stream.readWordM]

theorem readModuleM_snd (data : List UInt8) (known : List (ExtInstSet X)) :
    (readModuleM data known).2 = ⟨(readCost known data).1, (readCost known data).2⟩ := by
  rw [readModuleM_eq]
  have hshort (t : List UInt8) (h : t.length < 4) (hr : readCost known t = (1, [])) (f) :
      (metered (β := RawModule X) ((Stream.new t).readWordM ⟨0, []⟩) f).2 =
        ⟨(readCost known t).1, (readCost known t).2⟩ := by
    have hv : (Stream.new t).view = ([], t) := chunk_short h
    rw [metered_error (r := (Stream.new t).readWordM _) (readWord_view_nil hv), hr]
    rfl
  match data with
  | [] => exact hshort _ (by simp) rfl _
  | [_] => exact hshort _ (by simp) (by unfold readCost; split <;> simp_all) _
  | [_, _] => exact hshort _ (by simp) (by unfold readCost; split <;> simp_all) _
  | [_, _, _] => exact hshort _ (by simp) (by unfold readCost; split <;> simp_all) _
  | a :: b :: c :: d :: rest =>
    have hr : ((Stream.new (a :: b :: c :: d :: rest)).readWordM ⟨0, []⟩).1 =
        .ok (leWord a b c d, ⟨rest, true⟩) := rfl
    rw [metered_ok hr]
    dsimp only
    have hmagic (w x y z : UInt8) : leWord a b c d = leWord w x y z ↔ [a, b, c, d] = [w, x, y, z] := by
      rw [← wordBytes_leWord a b c d, ← wordBytes_leWord w x y z]
      exact ⟨fun h => by rw [h], fun h => wordBytes_inj h⟩
    have hm : SPIRV_MAGIC_NUMBER = leWord 3 2 0x23 7 := by decide
    have hm' : SPIRV_MAGIC_NUMBER_OTHER_ENDIAN = leWord 7 0x23 2 3 := by decide
    rw [hm, hm']
    simp only [hmagic]
    by_cases h1 : [a, b, c, d] = [3, 2, 0x23, 7]
    · rw [if_pos h1, afterMagicM_snd known (ws := (chunk true rest).1) (t := (chunk true rest).2) rfl]
      cases h1
      simp only [readCost, wordsOf_chunk]
      rfl
    · rw [if_neg h1]
      by_cases h2 : [a, b, c, d] = [7, 0x23, 2, 3]
      · rw [if_pos h2, afterMagicM_snd known (ws := (chunk false rest).1) (t := (chunk false rest).2) rfl]
        cases h2
        simp only [readCost, wordsOf_chunk]
        rfl
      · rw [if_neg h2]
        unfold readCost
        split
        · rename_i heq; cases heq; exact (h1 rfl).elim
        · rename_i heq; cases heq; exact (h2 rfl).elim
        · rfl

/-! ### Bounds -/

theorem bodyCost_reads (known : List (ExtInstSet X)) (t : List UInt8) (bound : BoundSets X) (ws : List UInt32) :
    (bodyCost known t bound ws).1 ≤ ws.length + 1 := by
  fun_induction bodyCost known t bound ws with
  | case1 => split <;> simp
  | case2 => simp only [List.length_cons]; omega
  | case3 => simp only [List.length_cons]; omega
  | case4 bound head ws size h bound' hc n sizes heq ih =>
    rw [heq] at ih
    simp only [List.length_drop] at ih
    simp only [List.length_cons]
    omega

theorem bodyCost_declared (known : List (ExtInstSet X)) (t : List UInt8) (bound : BoundSets X) (ws : List UInt32) :
    (bodyCost known t bound ws).2 <+: declared ws := by
  fun_induction bodyCost known t bound ws with
  | case1 => simp
  | case2 bound head ws size h => rw [declared]; exact ⟨_, rfl⟩
  | case3 bound head ws size h => rw [declared]; exact ⟨_, rfl⟩
  | case4 bound head ws size h bound' hc n sizes heq ih =>
    rw [heq] at ih
    rw [declared]
    simp only
    rw [if_neg h]
    obtain ⟨l, hl⟩ := ih
    exact ⟨l, by rw [← hl]; rfl⟩

theorem bodyCost_accepted (known : List (ExtInstSet X)) (t : List UInt8) (bound : BoundSets X) (ws : List UInt32)
    (h : checkBody known t bound ws = .ok ()) :
    bodyCost known t bound ws = (ws.length, declared ws) ∧ t = [] := by
  fun_induction bodyCost known t bound ws with
  | case1 =>
    rw [checkBody] at h
    cases t with
    | nil => exact ⟨by simp [declared], rfl⟩
    | cons => cases h
  | case2 bound head ws size hs =>
    rw [checkBody] at h
    rw [if_pos hs, tooShort_eq] at h
    cases h
  | case3 bound head ws size hs e he =>
    rw [checkBody] at h
    rw [if_neg hs, he] at h
    cases h
  | case4 bound head ws size hs bound' hc n sizes heq ih =>
    rw [checkBody] at h
    rw [if_neg hs, hc] at h
    obtain ⟨ih, ht⟩ := ih h
    rw [heq] at ih
    cases ih
    refine ⟨?_, ht⟩
    rw [declared]
    simp only [List.length_drop, List.length_cons, Prod.mk.injEq, if_neg hs]
    refine ⟨by omega, ?_⟩
    rw [if_neg hs]

theorem declared_init {ws : List UInt32} {init : List Nat} {last : Nat} {rest : List Nat} (n : Nat)
    (hn : ws.length ≤ n) (h : declared ws = init ++ last :: rest) :
    init.sum + 1 ≤ ws.length ∧ last ≤ 65535 := by
  induction n generalizing ws init with
  | zero =>
    have : ws = [] := List.length_eq_zero_iff.mp (by omega)
    subst this
    rw [declared] at h
    cases init <;> cases h
  | succ n ih =>
    cases ws with
    | nil => rw [declared] at h; cases init <;> cases h
    | cons head ws =>
      rw [declared] at h
      cases init with
      | nil =>
        simp only [List.nil_append, List.cons.injEq] at h
        have := head.toNat_lt
        simp only [List.sum_nil, List.length_cons]
        omega
      | cons a init =>
        simp only [List.cons_append, List.cons.injEq] at h
        obtain ⟨rfl, h⟩ := h
        by_cases hs : ws.length < head.toNat / 65536 - 1
        · rw [if_pos hs] at h
          cases init <;> cases h
        · rw [if_neg hs] at h
          have := ih (by rw [List.length_drop]; simp at hn; omega) h
          rw [List.length_drop] at this
          simp only [List.sum_cons, List.length_cons]
          omega

/-- A cost is that of a header that is cut short or refused, or of a header and a body. -/
def Costs (known : List (ExtInstSet X)) (bytes : List UInt8) (ref : Verdict Unit) (cost : Nat × List Nat) : Prop :=
  (cost.2 = [] ∧ cost.1 ≤ bytes.length / 4 + 1 ∧ ref ≠ .ok ()) ∨
    ∃ le t ver gen bound body, wordsOf le (bytes.drop 4) = (ver :: gen :: bound :: 0 :: body, t) ∧
      (le = true ↔ bytes.head? = some 3) ∧ (ref = .ok () ↔ checkBody known t [] body = .ok ()) ∧
      cost = (5 + (bodyCost known t [] body).1, (bodyCost known t [] body).2) ∧
      bytes.length = 4 * (body.length + 5) + t.length ∧ t.length < 4

theorem wordsOf_length (le : Bool) (rest : List UInt8) :
    rest.length = 4 * (wordsOf le rest).1.length + (wordsOf le rest).2.length ∧
      (wordsOf le rest).2.length < 4 := by
  rw [wordsOf_chunk]
  obtain ⟨h1, h2⟩ := chunk_flatMap le rest
  refine ⟨?_, h2⟩
  have h3 : ∀ ws : List UInt32, (ws.flatMap (orderedBytes le)).length = 4 * ws.length := by
    intro ws
    induction ws with
    | nil => rfl
    | cons w ws ih =>
      have : (orderedBytes le w).length = 4 := by cases le <;> rfl
      rw [List.flatMap_cons, List.length_append, ih, this, List.length_cons]
      omega
  have h4 := congrArg List.length h1
  rw [List.length_append, h3] at h4
  exact h4.symm

theorem headerCost_cases (known : List (ExtInstSet X)) {bytes : List UInt8} {le : Bool} {t : List UInt8}
    {ws : List UInt32} (hw : wordsOf le (bytes.drop 4) = (ws, t)) (h4 : 4 ≤ bytes.length)
    (hle : le = true ↔ bytes.head? = some 3) :
    Costs known bytes (checkModule known t ws) (1 + (headerCost known t ws).1, (headerCost known t ws).2) := by
  obtain ⟨hl1, hl2⟩ := wordsOf_length le (bytes.drop 4)
  rw [hw, List.length_drop] at hl1
  rw [hw] at hl2
  dsimp only at hl1 hl2
  match ws, hw, hl1 with
  | [], hw, hl1 =>
    left
    refine ⟨rfl, ?_, ?_⟩
    · simp only [headerCost]; omega
    · simp [checkModule, tooShort_eq]
  | ver :: ws, hw, hl1 =>
    simp only [headerCost, checkModule]
    cases hv : checkVersion ver with
    | error e =>
      left
      simp only [List.length_cons] at hl1
      refine ⟨rfl, ?_, fun h => (by cases h)⟩
      dsimp only
      omega
    | ok u =>
      match ws, hw, hl1 with
      | [], hw, hl1 | [_], hw, hl1 | [_, _], hw, hl1 =>
        left
        simp only [List.length_cons, List.length_nil] at hl1
        refine ⟨rfl, ?_, ?_⟩
        · simp only [List.length_cons, List.length_nil]
          omega
        · intro h
          simp only [tooShort_eq] at h
          cases h
      | gen :: bound :: schema :: ws, hw, hl1 =>
        simp only [List.length_cons] at hl1
        by_cases hz : schema = 0
        · right
          subst hz
          refine ⟨le, t, ver, gen, bound, ws, hw, hle, Iff.rfl, ?_, ?_, hl2⟩
          · simp only [if_true, Prod.mk.injEq, and_true]
            omega
          · omega
        · left
          simp only [if_neg hz]
          refine ⟨trivial, by omega, fun h => (by cases h)⟩

theorem readCost_cases (known : List (ExtInstSet X)) (bytes : List UInt8) :
    Costs known bytes (reference known bytes) (readCost known bytes) := by
  match bytes with
  | [] => exact .inl ⟨rfl, Nat.le_add_left _ _, fun h => (by cases h)⟩
  | [a] | [a, b] | [a, b, c] =>
    left
    unfold readCost reference
    split
    · simp_all
    · simp_all
    · split
      · simp_all
      · simp_all
      · simp_all
      · refine ⟨rfl, Nat.le_add_left _ _, fun h => ?_⟩
        simp only [tooShort_eq] at h
        cases h
  | a :: b :: c :: d :: rest =>
    by_cases h1 : [a, b, c, d] = [3, 2, 0x23, 7]
    · cases h1
      have := headerCost_cases known (bytes := 3 :: 2 :: 0x23 :: 7 :: rest) (le := true) (t := (wordsOf true rest).2)
        (ws := (wordsOf true rest).1) rfl (by simp) (by simp)
      simpa only [readCost, reference] using this
    · by_cases h2 : [a, b, c, d] = [7, 0x23, 2, 3]
      · cases h2
        have := headerCost_cases known (bytes := 7 :: 0x23 :: 2 :: 3 :: rest) (le := false)
          (t := (wordsOf false rest).2) (ws := (wordsOf false rest).1) rfl (by simp) (by simp)
        simpa only [readCost, reference] using this
      · left
        unfold readCost reference
        split
        · rename_i heq; cases heq; exact (h1 rfl).elim
        · rename_i heq; cases heq; exact (h2 rfl).elim
        · split
          · rename_i heq; cases heq; exact (h1 rfl).elim
          · rename_i heq; cases heq; exact (h2 rfl).elim
          · exact ⟨rfl, Nat.le_add_left _ _, fun h => (by cases h)⟩
          · rename_i h3
            exact (h3 _ _ _ _ _ rfl).elim

theorem declared_sum {known : List (ExtInstSet X)} (t : List UInt8) (bound : BoundSets X) {ws : List UInt32}
    (h : checkBody known t bound ws = .ok ()) : (declared ws).sum ≤ ws.length := by
  fun_induction bodyCost known t bound ws with
  | case1 => simp [declared]
  | case2 bound head ws size hs =>
    rw [checkBody] at h
    rw [if_pos hs, tooShort_eq] at h
    cases h
  | case3 bound head ws size hs e he =>
    rw [checkBody] at h
    rw [if_neg hs, he] at h
    cases h
  | case4 bound head ws size hs bound' hc n sizes heq ih =>
    rw [checkBody] at h
    rw [if_neg hs, hc] at h
    have ih := ih h
    rw [declared]
    rw [if_neg hs, List.sum_cons, List.length_cons]
    rw [List.length_drop] at ih
    have hsize : head.toNat / 65536 = size := rfl
    rw [hsize]
    omega

theorem readVecLoop_pairs_length (fuel : Nat) : ∀ (ws rest : Block) (items a : List PhiArg),
    readVecLoop fuel ws items = .ok (rest, a) → 2 * a.length = 2 * items.length + ws.length := by
  induction fuel with
  | zero => intro ws rest items a h; cases h
  | succ fuel ih =>
    intro ws rest items a h
    match ws with
    | [] => cases h; simp
    | [_] => cases h
    | v :: p :: ws =>
      have := ih ws rest (⟨⟨v⟩, ⟨p⟩⟩ :: items) a h
      simp only [List.length_cons] at this ⊢
      omega

end Magma
