import Verif.Proofs.ReaderErrors
/-! Lemmas: where an error of the reader comes from. -/

namespace Magma
open Spec

theorem SpellsBody_one {X : Type} {known : List (ExtInstSet X)} {before : List (Core X)}
    {inst : Core X} {u : List UInt32} (h : SpellsInst known before inst u) :
    SpellsBody known before [inst] u := ⟨u, [], by simp, h, rfl⟩

/-- An error after the header is an early end of the stream, or the error of the first bad
instruction. -/
theorem bodyW_error {X : Type} {known : List (ExtInstSet X)} {t : List UInt8}
    {e : Fault ReadError} (n : Nat) : ∀ {bound : BoundSets X} {before : List (Core X)}
    {ws : List UInt32}, ws.length ≤ n → Inv known bound before →
    (∀ p ∈ bound, p.2 ∈ known) → bodyW known bound t ws = .error e →
    ∃ insts u r bound', ws = u ++ r ∧ SpellsBody known before insts u ∧
      Inv known bound' (before ++ insts) ∧ (∀ p ∈ bound', p.2 ∈ known) ∧
      ((r = [] ∧ t ≠ [] ∧ e = .err (eosError t)) ∨
       (∃ head tl, r = head :: tl ∧ tl.length < opWords head ∧ e = .err (eosError t)) ∨
       ∃ head ops rest, r = head :: (ops ++ rest) ∧ ops.length = opWords head ∧
         decode head ops known bound' = .error e) := by
  have nil {bound : BoundSets X} {before : List (Core X)} (hi : Inv known bound before)
      (hk : ∀ p ∈ bound, p.2 ∈ known) (h : bodyW known bound t [] = .error e) :
      ∃ insts u r bound', ([] : List UInt32) = u ++ r ∧ SpellsBody known before insts u ∧
      Inv known bound' (before ++ insts) ∧ (∀ p ∈ bound', p.2 ∈ known) ∧
      ((r = [] ∧ t ≠ [] ∧ e = .err (eosError t)) ∨
       (∃ head tl, r = head :: tl ∧ tl.length < opWords head ∧ e = .err (eosError t)) ∨
       ∃ head ops rest, r = head :: (ops ++ rest) ∧ ops.length = opWords head ∧
         decode head ops known bound' = .error e) := by
    rw [bodyW_nil] at h
    split at h
    · cases h
    · rename_i ht
      cases h
      refine ⟨[], [], [], bound, rfl, rfl, by simpa using hi, hk, .inl ⟨rfl, ht, ?_⟩⟩
      rw [eosError, if_neg ht]
  induction n with
  | zero =>
    intro bound before ws hn hi hk h
    obtain rfl : ws = [] := List.length_eq_zero_iff.mp (by omega)
    exact nil hi hk h
  | succ n ih =>
    intro bound before ws hn hi hk h
    cases ws with
    | nil => exact nil hi hk h
    | cons head ws =>
      by_cases hs : ws.length < opWords head
      · rw [bodyW_short hs] at h
        cases h
        exact ⟨[], [], head :: ws, bound, rfl, rfl, by simpa using hi, hk,
          .inr (.inl ⟨head, ws, rfl, hs, rfl⟩)⟩
      · have hs : opWords head ≤ ws.length := by omega
        rw [bodyW_cons hs] at h
        cases hd : decode head (ws.take (opWords head)) known bound with
        | error e' =>
          rw [hd, bind_fail] at h
          cases h
          refine ⟨[], [], head :: ws, bound, rfl, rfl, by simpa using hi, hk,
            .inr (.inr ⟨head, ws.take (opWords head), ws.drop (opWords head), by simp, ?_, hd⟩)⟩
          simp; omega
        | ok p =>
          rw [hd, ok_bind] at h
          cases hb : bodyW known p.2 t (ws.drop (opWords head)) with
          | ok l => rw [hb] at h; cases h
          | error e' =>
            rw [hb, bind_fail] at h
            cases h
            obtain ⟨inst, b'⟩ := p
            obtain ⟨h1, h2, h3⟩ := decode_iff.mp hd
            have hi' := hi.step h3
            obtain ⟨insts, u, r, b2, e1, e2, e3, e3', e4⟩ :=
              ih (by simp at hn ⊢; omega) hi' (OpsRel_bound_sub h3 hk) hb
            refine ⟨inst :: insts, (head :: ws.take (opWords head)) ++ u, r, b2, ?_, ?_, ?_, e3', e4⟩
            · rw [List.append_assoc, ← e1]; simp
            · refine ⟨_, u, rfl, ⟨h1, head, _, rfl, isHead_of ?_ h2, ?_⟩, e2⟩
              · simp; omega
              · exact (OpsRel_iff hi _ _).mp ⟨_, h3⟩
            · simpa using e3

/-- Where the errors of `readModule` come from. -/
theorem readModule_error {X : Type} {known : List (ExtInstSet X)} {bytes : List UInt8}
    {e : Fault ReadError} (h : readModule bytes known = .error e) :
    (∃ x, e = .err x ∧ x.header = true) ∨ IsEos e ∨
    ∃ before head ops rest tail bound', Continues known before (head :: (ops ++ rest)) tail bytes ∧
      ops.length = opWords head ∧ Inv known bound' before ∧ (∀ p ∈ bound', p.2 ∈ known) ∧
      decode head ops known bound' = .error e := by
  rcases readModule_cases known bytes with ⟨t, ws, ht, hd, hr⟩ | ⟨_, hr⟩ | ⟨_, hr⟩
  · rw [h] at hr
    have ver (v : UInt32) (e : Fault ReadError) (h : readVersion v = .error e) :
        ∃ x, e = .err x ∧ x.header = true := by
      unfold readVersion at h
      dsimp only at h
      split at h
      · rw [pure_bind'] at h
        split at h
        · cases h
        · cases h; exact ⟨_, rfl, rfl⟩
      · cases h; exact ⟨_, rfl, rfl⟩
    have short (v : UInt32) (h : (.error e : R (RawModule X)) =
        (readVersion v >>= fun _ => fail (eosError t))) :
        (∃ x, e = .err x ∧ x.header = true) ∨ IsEos e := by
      cases hv : readVersion v with
      | error e' => rw [hv] at h; cases h; exact .inl (ver v _ hv)
      | ok _ => rw [hv] at h; cases h; exact .inr (isEos_eosError t)
    match ws with
    | [] => cases hr; exact .inr (.inl (isEos_eosError t))
    | [_] => exact (short _ hr).elim .inl fun h => .inr (.inl h)
    | [_, _] => exact (short _ hr).elim .inl fun h => .inr (.inl h)
    | [_, _, _] => exact (short _ hr).elim .inl fun h => .inr (.inl h)
    | v :: g :: b :: z :: ws =>
      simp only [headerW] at hr
      cases hv : readVersion v with
      | error e' => rw [hv] at hr; cases hr; exact .inl (ver v _ hv)
      | ok x =>
        rw [hv, ok_bind] at hr
        by_cases hz : z ≠ 0
        · rw [if_pos hz] at hr; cases hr; exact .inl ⟨_, rfl, rfl⟩
        · rw [if_neg hz] at hr
          cases hb : bodyW known [] t ws with
          | ok l => rw [hb] at hr; cases hr
          | error e' =>
            rw [hb, bind_fail] at hr
            cases hr
            have hz : z = 0 := by simpa using hz
            subst hz
            obtain ⟨insts, u, r, b2, rfl, e2, e3, e3', e4⟩ :=
              bodyW_error _ (Nat.le_refl _) (Inv.nil known) (by simp) hb
            rcases e4 with ⟨_, _, he⟩ | ⟨_, _, _, _, he⟩ | ⟨head, ops, rest, rfl, e5, e6⟩
            · right; left; rw [he]; exact isEos_eosError t
            · right; left; rw [he]; exact isEos_eosError t
            · right; right
              have hver := (readVersion_iff.mp hv).1
              refine ⟨insts, head, ops, rest, t, b2, ?_, e5, by simpa using e3, e3', e6⟩
              rcases hd with rfl | rfl
              · exact ⟨true, v, g, b, u, hver, e2, ht, rfl⟩
              · exact ⟨false, v, g, b, u, hver, e2, ht, rfl⟩
  · rw [h] at hr; cases hr; exact .inr (.inl (isEos_eosError _))
  · rw [h] at hr; cases hr; exact .inl ⟨_, rfl, rfl⟩

theorem Inner.not_outer {α : Type} {x : R α} (h : Inner x) {e : ReadError}
    (hx : x = .error (.err e)) : e.outer = false := h e hx

/-- Every error of decoding with an implemented opcode is one about operands. -/
theorem decode_inner {X : Type} {head : UInt32} {ops : List UInt32} {known : List (ExtInstSet X)}
    {bound : BoundSets X} (hb : ∀ p ∈ bound, ∀ n ws, Inner (p.2.readInstruction n ws))
    {e : ReadError} (h : decode head ops known bound = .error (.err e)) :
    ((opTable X).lookup (head.toNat % 65536) = none ∧
      e = .UnknownOp (UInt16.ofNat (head.toNat % 65536)) (UInt16.ofNat (head.toNat / 65536))) ∨
    (∃ name, (opTable X).lookup (head.toNat % 65536) = some (.unimplemented name) ∧
      e = .UnimplementedOp name) ∨
    e.outer = false := by
  unfold decode at h
  rw [opcode_word] at h
  have e1 : (head &&& 0xFFFF).toUInt16 = UInt16.ofNat (head.toNat % 65536) := by
    apply UInt16.toNat_inj.mp
    rw [opcode_word, UInt16.toNat_ofNat']
    omega
  have e2 : (head >>> 16).toUInt16 = UInt16.ofNat (head.toNat / 65536) := by
    apply UInt16.toNat_inj.mp
    rw [wc_word, UInt16.toNat_ofNat']
    have := head.toNat_lt
    omega
  split at h
  · rename_i hl
    cases h
    exact .inl ⟨hl, by rw [e1, e2]⟩
  · rename_i name hl
    cases h
    exact .inr (.inl ⟨name, hl, rfl⟩)
  · rename_i f hf
    right; right
    have hin := opTable_inner X _ (mem_of_lookup hf) f rfl ops known bound hb
    cases hx : f ops known bound with
    | error e' =>
      rw [hx] at h
      cases h
      exact hin e hx
    | ok p =>
      rw [hx] at h
      simp only [bind, Except.bind] at h
      split at h
      · cases h; rfl
      · cases h

theorem decode_unknown {X : Type} {head : UInt32} {ops : List UInt32} {known : List (ExtInstSet X)}
    {bound : BoundSets X} (h : (opTable X).lookup (head.toNat % 65536) = none) :
    decode head ops known bound = .error (.err (.UnknownOp (UInt16.ofNat (head.toNat % 65536))
      (UInt16.ofNat (head.toNat / 65536)))) := by
  unfold decode
  rw [opcode_word, h]
  have e1 : (head &&& 0xFFFF).toUInt16 = UInt16.ofNat (head.toNat % 65536) := by
    apply UInt16.toNat_inj.mp
    rw [opcode_word, UInt16.toNat_ofNat']
    omega
  have e2 : (head >>> 16).toUInt16 = UInt16.ofNat (head.toNat / 65536) := by
    apply UInt16.toNat_inj.mp
    rw [wc_word, UInt16.toNat_ofNat']
    have := head.toNat_lt
    omega
  dsimp only
  rw [e1, e2]

theorem decode_unimplemented {X : Type} {head : UInt32} {ops : List UInt32}
    {known : List (ExtInstSet X)} {bound : BoundSets X} {name : String}
    (h : (opTable X).lookup (head.toNat % 65536) = some (.unimplemented name)) :
    decode head ops known bound = .error (.err (.UnimplementedOp name)) := by
  unfold decode
  rw [opcode_word, h]

end Magma
