import Verif.Proofs.Reference
import Verif.Proofs.ModuleBytes
/-! Lemmas: the reader against the reference. -/

namespace Magma
open Spec
variable {X : Type}

/-- The entry of the table gives the outcome of the reference. -/
def EntryChecked (p : Nat × OpEntry X) : Prop :=
  ∀ f, p.2 = .read f → ∀ (head : UInt32) (ws : Block) known (bound : BoundSets X), head.toNat % 65536 = p.1 →
    (decodeEntry f ws known bound).map Prod.snd = checkInst known bound head ws

theorem EntryChecked.unimplemented {k : Nat} {n : String} : EntryChecked (X := X) (k, .unimplemented n) := by
  rintro f hf
  cases hf

theorem EntryChecked.lift {α : Type} {k : Nat} {read : Block → R (Block × α)} {mk : α → Core X}
    [OpChecked read k] (h1 : k ≠ 11) (h2 : k ≠ 12) : EntryChecked (k, .read (liftOp read mk)) := by
  rintro f hf head ws known bound hk
  cases hf
  obtain ⟨cs, ho, hc⟩ := OpChecked.checked (read := read) (k := k)
  have := hc ws
  dsimp only at hk
  simp only [checkInst, hk, ho]
  rw [if_neg h1, if_neg h2, ← this]
  simp only [decodeEntry, liftOp]
  cases read ws with
  | error e => rfl
  | ok q =>
    obtain ⟨r, a⟩ := q
    cases r <;> rfl

theorem EntryChecked.import : EntryChecked (X := X) (11, .read OpExtInstImport.readCore) := by
  rintro f hf head ws known bound hk
  cases hf
  dsimp only at hk
  simp only [checkInst, hk, ite_true]
  match ws with
  | [] => rfl
  | id :: ws =>
    simp only [decodeEntry, readImport_eq, readImport]
    have hid : (MemoryBlockRead.read (id :: ws) : R (Block × ResultId)) = .ok (ws, ⟨id⟩) := rfl
    rw [hid, ok_bind]
    dsimp only
    rw [readString_eq]
    simp only [checkImport, List.headD_cons, List.drop_succ_cons, List.drop_zero]
    have hin : inTurn [anyWord, text] (id :: ws) = text ws := by
      show (text ws >>= fun r => .ok r) = _
      cases text ws <;> rfl
    rw [hin, text]
    cases afterText ws with
    | none => rfl
    | some rest =>
      dsimp only
      cases textOf ws with
      | none => rfl
      | some name =>
        simp only [Option.isSome_some, ite_true, asVerdict, ok_bind, pure_bind', bindImport]
        cases known.find? (fun s => s.name == name) with
        | none => rfl
        | some s =>
          simp only [BoundSets.insert, BoundSets.get]
          have hl : (bound.any fun p => p.1 == id) = (List.lookup id bound).isSome := by
            induction bound with
            | nil => rfl
            | cons q bound ih =>
              rw [List.any_cons, List.lookup_cons, ih]
              by_cases h : q.1 = id
              · simp [h]
              · have : (id == q.1) = false := by rw [beq_eq_false_iff_ne]; exact fun e => h e.symm
                simp [h, this]
          simp only [hl]
          cases List.lookup id bound with
          | some _ => rfl
          | none => cases rest <;> rfl

theorem EntryChecked.extInst : EntryChecked (X := X) (12, .read OpExtInst.readCore) := by
  rintro f hf head ws known bound hk
  cases hf
  dsimp only at hk
  simp only [checkInst, hk]
  rw [if_neg (by decide), if_pos trivial]
  match ws with
  | [] => rfl
  | [_] => rfl
  | [_, _] => rfl
  | [_, _, _] => rfl
  | rt :: res :: id :: n :: args =>
    have he : OpExtInst.readCore (rt :: res :: id :: n :: args) known bound = (match bound.get ⟨id⟩ with
      | some s => do
        let (block, extinst) ← s.readInstruction n args
        return ((block, .OpExtInst { result_type := ⟨rt⟩, result_id := ⟨res⟩, set := ⟨id⟩, instruction := extinst }), bound)
      | none => fail (.UnknownInstSetId ⟨id⟩) : R ((Block × Core X) × BoundSets X)) := rfl
    simp only [decodeEntry, he, checkExtInst, BoundSets.get]
    cases List.lookup id bound with
    | none => rfl
    | some s =>
      dsimp only
      cases s.readInstruction n args with
      | error e => rfl
      | ok q =>
        obtain ⟨r, x⟩ := q
        cases r <;> rfl

theorem opTable_checked : ∀ p ∈ opTable X, EntryChecked p := by
  unfold opTable
  repeat' (first
    | exact fun _ h => absurd h List.not_mem_nil
    | refine List.forall_mem_cons.mpr ⟨EntryChecked.unimplemented, ?_⟩
    | refine List.forall_mem_cons.mpr ⟨EntryChecked.lift (by decide) (by decide), ?_⟩
    | refine List.forall_mem_cons.mpr ⟨EntryChecked.import, ?_⟩
    | refine List.forall_mem_cons.mpr ⟨EntryChecked.extInst, ?_⟩)

theorem operandsOf_large (k : Nat) (h : 400 ≤ k) : operandsOf k = none := by
  unfold operandsOf
  split <;> first | omega | exact if_neg (by omega)

theorem operandsOf_small : ∀ k, k < 400 → (operandsOf k).isSome = true → specKind k = some none := by
  decide +kernel

theorem operandsOf_kind {k : Nat} (h : (operandsOf k).isSome = true) : specKind k = some none := by
  by_cases hk : k < 400
  · exact operandsOf_small k hk h
  · rw [operandsOf_large k (by omega)] at h
    cases h

theorem decode_checked (head : UInt32) (ops : List UInt32) (known : List (ExtInstSet X)) (bound : BoundSets X) :
    (decode head ops known bound).map Prod.snd = checkInst known bound head ops := by
  rw [decode, opcode_word]
  have hkind := opKinds_lookup X (head.toNat % 65536)
  have hno (hn : specKind (head.toNat % 65536) ≠ some none) :
      head.toNat % 65536 ≠ 11 ∧ head.toNat % 65536 ≠ 12 ∧ operandsOf (head.toNat % 65536) = none := by
    refine ⟨fun h => hn (h ▸ by decide +kernel), fun h => hn (h ▸ by decide +kernel), ?_⟩
    cases ho : operandsOf (head.toNat % 65536) with
    | none => rfl
    | some cs => exact absurd (operandsOf_kind (by rw [ho]; rfl)) hn
  cases he : (opTable X).lookup (head.toNat % 65536) with
  | none =>
    rw [he] at hkind
    have hs : specKind (head.toNat % 65536) = none := hkind.symm
    obtain ⟨h1, h2, ho⟩ := hno (by rw [hs]; exact fun h => by cases h)
    have hu : unimplementedOpcodes.lookup (head.toNat % 65536) = none := by
      unfold specKind at hs
      split at hs
      · cases hs
      · assumption
    simp only [checkInst]
    rw [if_neg h1, if_neg h2, ho]
    dsimp only
    rw [hu]
    dsimp only
    rw [← opcode_word, ← wc_word, UInt16.ofNat_toNat, UInt16.ofNat_toNat]
    rfl
  | some e =>
    cases e with
    | unimplemented name =>
      rw [he] at hkind
      have hs : specKind (head.toNat % 65536) = some (some name) := hkind.symm
      obtain ⟨h1, h2, ho⟩ := hno (by rw [hs]; exact fun h => by cases h)
      have hu : unimplementedOpcodes.lookup (head.toNat % 65536) = some name := by
        unfold specKind at hs
        split at hs
        · cases hs; assumption
        · split at hs <;> cases hs
      simp only [checkInst]
      rw [if_neg h1, if_neg h2, ho]
      dsimp only
      rw [hu]
      rfl
    | read f => exact opTable_checked _ (mem_of_lookup he) f rfl head ops known bound rfl

theorem tooShort_eq {α : Type} (t : List UInt8) : (tooShort t : Verdict α) = fail (eosError t) := by
  cases t <;> rfl

theorem bodyW_checked (known : List (ExtInstSet X)) (t : List UInt8) (n : Nat) : ∀ (ws : List UInt32) (bound : BoundSets X),
    ws.length ≤ n → (bodyW known bound t ws).map (fun _ => ()) = checkBody known t bound ws := by
  induction n with
  | zero =>
    intro ws bound hn
    have : ws = [] := List.length_eq_zero_iff.mp (by omega)
    subst this
    rw [bodyW_nil, checkBody]
    cases t <;> rfl
  | succ n ih =>
    intro ws bound hn
    cases ws with
    | nil =>
      rw [bodyW_nil, checkBody]
      cases t <;> rfl
    | cons head ws =>
      rw [checkBody]
      have ho : opWords head = head.toNat / 65536 - 1 := rfl
      simp only [← ho]
      by_cases hl : ws.length < opWords head
      · rw [bodyW_short hl, if_pos hl, tooShort_eq]
        rfl
      · rw [bodyW_cons (by omega), if_neg hl, ← decode_checked]
        cases decode head (ws.take (opWords head)) known bound with
        | error e => rfl
        | ok q =>
          have := ih (ws.drop (opWords head)) q.2 (by rw [List.length_drop]; simp at hn; omega)
          show _ = checkBody known t q.2 (ws.drop (opWords head))
          rw [← this]
          show (bodyW known q.2 t (ws.drop (opWords head)) >>= fun l => pure (q.1 :: l)).map _ = _
          cases bodyW known q.2 t (ws.drop (opWords head)) <;> rfl

theorem readVersion_checked (w : UInt32) : (readVersion w).map (fun _ => ()) = checkVersion w := by
  have hlt := w.toNat_lt
  have hand (n : Nat) : n &&& 15 = n % 16 := Nat.and_two_pow_sub_one_eq_mod _ 4
  have h3 : (w >>> 24).toUInt8 = UInt8.ofNat (w.toNat / 16777216) := by
    apply UInt8.toNat_inj.mp
    simp [Nat.shiftRight_eq_div_pow]
  have h2 : ((w >>> 16) &&& 0xF).toUInt8 = UInt8.ofNat (w.toNat / 65536 % 16) := by
    apply UInt8.toNat_inj.mp
    simp [Nat.shiftRight_eq_div_pow, hand]
    omega
  have h1 : ((w >>> 8) &&& 0xF).toUInt8 = UInt8.ofNat (w.toNat / 256 % 16) := by
    apply UInt8.toNat_inj.mp
    simp [Nat.shiftRight_eq_div_pow, hand]
    omega
  have h0 : (w &&& 0xF).toUInt8 = UInt8.ofNat (w.toNat % 16) := by
    apply UInt8.toNat_inj.mp
    simp [hand]
    omega
  simp only [readVersion, checkVersion, h3, h2, h1, h0]
  have hb (n k : Nat) (hn : n < 256) (hk : k < 256) : UInt8.ofNat n = UInt8.ofNat k ↔ n = k := by
    rw [← UInt8.toNat_inj, UInt8.toNat_ofNat', UInt8.toNat_ofNat', Nat.mod_eq_of_lt hn, Nat.mod_eq_of_lt hk]
  have hc : (UInt8.ofNat (w.toNat / 16777216) = 0 ∧ UInt8.ofNat (w.toNat / 65536 % 16) = 1 ∧
      UInt8.ofNat (w.toNat / 256 % 16) = 0 ∧ UInt8.ofNat (w.toNat % 16) = 0) ↔
      (w.toNat / 16777216 = 0 ∧ w.toNat / 65536 % 16 = 1 ∧ w.toNat / 256 % 16 = 0 ∧ w.toNat % 16 = 0) := by
    rw [← hb _ 0 (by omega) (by decide), ← hb _ 1 (by omega) (by decide), ← hb _ 0 (by omega) (by decide),
      ← hb _ 0 (by omega) (by decide)]
    exact Iff.rfl
  by_cases h : w.toNat / 16777216 = 0 ∧ w.toNat / 65536 % 16 = 1 ∧ w.toNat / 256 % 16 = 0 ∧ w.toNat % 16 = 0
  · rw [if_pos h, if_pos (hc.mpr h), h.2.1, h.2.2.1]
    rfl
  · rw [if_neg h, if_neg (mt hc.mp h)]
    rfl

theorem headerW_checked (known : List (ExtInstSet X)) (t : List UInt8) (ws : List UInt32) :
    (headerW known t ws).map (fun _ => ()) = checkModule known t ws := by
  cases ws with
  | nil => simp only [headerW, checkModule, tooShort_eq]; rfl
  | cons ver ws =>
    simp only [checkModule]
    rw [← readVersion_checked]
    match ws with
    | [] | [_] | [_, _] =>
      simp only [headerW, tooShort_eq]
      cases readVersion ver <;> rfl
    | gen :: bound :: zero :: ws =>
      simp only [headerW]
      cases readVersion ver with
      | error e => rfl
      | ok v =>
        show (if zero ≠ 0 then fail .UnknownReservedSchema
          else bodyW known [] t ws >>= fun l => pure _ : R (RawModule X)).map _ =
            if zero = 0 then checkBody known t [] ws else refuse .UnknownReservedSchema
        by_cases hz : zero = 0
        · rw [if_neg (by simp [hz]), if_pos hz, ← bodyW_checked known t _ ws [] (Nat.le_refl _)]
          cases bodyW known [] t ws <;> rfl
        · rw [if_pos hz, if_neg hz]
          rfl

theorem wordsOf_chunk (le : Bool) (bs : List UInt8) : wordsOf le bs = chunk le bs := by
  fun_induction chunk le bs with
  | case1 b0 b1 b2 b3 r ih =>
    simp only [wordsOf, ih]
    have hw : UInt32.ofNat (if le = true then b0.toNat + 256 * (b1.toNat + 256 * (b2.toNat + 256 * b3.toNat))
        else b3.toNat + 256 * (b2.toNat + 256 * (b1.toNat + 256 * b0.toNat))) = streamWord le b0 b1 b2 b3 := by
      apply UInt32.toNat_inj.mp
      have h0 := b0.toNat_lt
      have h1 := b1.toNat_lt
      have h2 := b2.toNat_lt
      have h3 := b3.toNat_lt
      rw [UInt32.toNat_ofNat']
      cases le
      · simp only [streamWord, Bool.false_eq_true, ite_false, beWord_eq, leWord_toNat]
        omega
      · simp only [streamWord, ite_true, leWord_toNat]
        omega
    rw [hw]
  | case2 t h =>
    unfold wordsOf
    split
    · exact (h _ _ _ _ _ rfl).elim
    · rfl

theorem readModule_reference (known : List (ExtInstSet X)) (bytes : List UInt8) :
    (readModule bytes known).map (fun _ => ()) = reference known bytes := by
  rw [readModule_words]
  have hshort (t : List UInt8) (h : t.length < 4) (hr : reference known t = tooShort t) :
      (moduleW known (chunk true t).2 (chunk true t).1 (chunk false t).1).map (fun _ => ()) = reference known t := by
    rw [chunk_short h, chunk_short h, hr, tooShort_eq]
    rfl
  match bytes with
  | [] => exact hshort _ (by simp) rfl
  | [_] => exact hshort _ (by simp) (by unfold reference; split <;> simp_all)
  | [_, _] => exact hshort _ (by simp) (by unfold reference; split <;> simp_all)
  | [_, _, _] => exact hshort _ (by simp) (by unfold reference; split <;> simp_all)
  | a :: b :: c :: d :: rest =>
    have hs := chunk_snd rest
    simp only [chunk, moduleW, List.tail_cons]
    have hmagic (w x y z : UInt8) : streamWord true a b c d = leWord w x y z ↔ [a, b, c, d] = [w, x, y, z] := by
      rw [← orderedBytes_streamWord true a b c d, ← orderedBytes_streamWord true w x y z]
      show leWord _ _ _ _ = leWord _ _ _ _ ↔ wordBytes (leWord _ _ _ _) = wordBytes (leWord _ _ _ _)
      exact ⟨fun h => by rw [h], fun h => wordBytes_inj h⟩
    have hm : SPIRV_MAGIC_NUMBER = leWord 3 2 0x23 7 := by decide
    have hm' : SPIRV_MAGIC_NUMBER_OTHER_ENDIAN = leWord 7 0x23 2 3 := by decide
    rw [hm, hm']
    simp only [hmagic]
    by_cases h1 : [a, b, c, d] = [3, 2, 0x23, 7]
    · rw [if_pos h1, headerW_checked]
      cases h1
      simp only [reference, wordsOf_chunk]
    · rw [if_neg h1]
      by_cases h2 : [a, b, c, d] = [7, 0x23, 2, 3]
      · rw [if_pos h2, headerW_checked, hs]
        cases h2
        simp only [reference, wordsOf_chunk]
      · rw [if_neg h2]
        unfold reference
        split
        · rename_i heq; cases heq; exact (h1 rfl).elim
        · rename_i heq; cases heq; exact (h2 rfl).elim
        · rfl
        · rename_i h3
          exact (h3 _ _ _ _ _ rfl).elim

end Magma
