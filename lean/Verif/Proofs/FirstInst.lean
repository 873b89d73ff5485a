import Verif.Proofs.First
/-! Operand errors are about the first operand that is wrong: instructions. -/

namespace Magma
open Spec
variable {X : Type}

/-- The errors that are about an operand -/
def Operandal (e : ReadError) : Prop := refusedWord e ≠ none ∨ e = .InvalidString

theorem Operandal.ne {e : ReadError} (h : Operandal e) : e ≠ .UnexpectedEndOfInstruction := by
  rintro rfl
  rcases h with h | h
  · exact h rfl
  · cases h

/-- Operand errors of a table entry are about the first operand that is wrong. -/
def EntryFirst (p : Nat × OpEntry X) : Prop :=
  ∀ f, p.2 = .read f → p.1 ≠ 11 → p.1 ≠ 12 → ∀ ws known (bound : BoundSets X) e, Operandal e →
    f ws known bound = .error (.err e) → ∃ u q rest, ws = u ++ q ++ rest ∧ Refused e q ∧
      (∃ more inst, f (u ++ more) known bound = .ok (([], inst), bound)) ∧
      ∀ more known' bound', f (u ++ q ++ more) known' bound' = .error (.err e)

theorem EntryFirst.lift {α : Type} {k : Nat} {read : Block → R (Block × α)} {mk : α → Core X}
    [OpFirst read] : EntryFirst (k, .read (liftOp read mk)) := by
  rintro f hf - - ws known bound e ho he
  cases hf
  have hr : read ws = fail e := by
    cases hr : read ws with
    | error e' =>
      rw [liftOp, hr] at he
      cases he
      rfl
    | ok p =>
      rw [liftOp, hr] at he
      cases he
  obtain ⟨u, q, rest, hw, ⟨more, a, hm⟩, hx, hq⟩ := OpFirst.first.first ws e hr ho.ne
  refine ⟨u, q, rest, hw, hq, ⟨more, mk a, ?_⟩, fun more known' bound' => ?_⟩
  · rw [liftOp, hm]
    rfl
  · rw [liftOp, hx more]
    rfl

theorem EntryFirst.unimplemented {k : Nat} {n : String} : EntryFirst (X := X) (k, .unimplemented n) := by
  rintro f hf
  cases hf

theorem EntryFirst.import {e : OpEntry X} : EntryFirst (X := X) (11, e) := fun _ _ h => absurd rfl h
theorem EntryFirst.extInst {e : OpEntry X} : EntryFirst (X := X) (12, e) := fun _ _ _ h => absurd rfl h

theorem opTable_first (X : Type) : ∀ p ∈ opTable X, EntryFirst p := by
  unfold opTable
  repeat' (first
    | exact fun _ h => absurd h List.not_mem_nil
    | refine List.forall_mem_cons.mpr ⟨EntryFirst.unimplemented, ?_⟩
    | refine List.forall_mem_cons.mpr ⟨EntryFirst.import, ?_⟩
    | refine List.forall_mem_cons.mpr ⟨EntryFirst.extInst, ?_⟩
    | refine List.forall_mem_cons.mpr ⟨EntryFirst.lift, ?_⟩)

theorem first_import {known : List (ExtInstSet X)} {bound : BoundSets X} {ops : List UInt32} {e : ReadError}
    (ho : Operandal e) (h : OpExtInstImport.readCore ops known bound = .error (.err e)) :
    ∃ u q rest, ops = u ++ q ++ rest ∧ Refused e q ∧ CanGoOn X 11 u ∧ ¬ CanGoOn X 11 (u ++ q) ∧
      ∀ more known' (bound' : BoundSets X), OpExtInstImport.readCore (u ++ q ++ more) known' bound' = .error (.err e) := by
  rw [readImport_eq] at h
  have hr : readImport ops = fail e := by
    cases hr : readImport ops with
    | error e' =>
      rw [hr] at h
      cases h
      rfl
    | ok p =>
      rw [hr, ok_bind] at h
      simp only [bindImport] at h
      exfalso
      split at h
      · split at h <;> cases h
        rcases ho with ho | ho
        · exact ho rfl
        · cases ho
      · cases h
        rcases ho with ho | ho
        · exact ho rfl
        · cases ho
  obtain ⟨u, q, rest, hw, ⟨more, a, hm⟩, hx, hq⟩ := OpFirst.first.first ops e hr ho.ne
  refine ⟨u, q, rest, hw, hq, ⟨more, .OpExtInstImport a, rfl, ((readImport_law X).iff _ _ _).mp hm⟩, ?_, fun more known' bound' => ?_⟩
  · rintro ⟨more', inst, h1, h2⟩
    have hi : ∃ op, inst = .OpExtInstImport op := by
      cases inst <;> first | exact ⟨_, rfl⟩ | exact absurd h1 (by simp [opcode])
    obtain ⟨op, rfl⟩ := hi
    have h3 := ((readImport_law X).iff _ _ _).mpr h2
    rw [hx] at h3
    cases h3
  · rw [readImport_eq, hx more]
    rfl

theorem operandal_extInst {known : List (ExtInstSet X)} {bound : BoundSets X} {before : List (Core X)}
    (hinv : Inv known bound before) (hk : ∀ s ∈ known, OwnErrors s) {ops : List UInt32} {e : ReadError}
    (ho : Operandal e) (h : OpExtInst.readCore ops known bound = .error (.err e)) : False := by
  match ops with
  | [] => cases h; exact ho.ne rfl
  | [_] => cases h; exact ho.ne rfl
  | [_, _] => cases h; exact ho.ne rfl
  | [_, _, _] => cases h; exact ho.ne rfl
  | rt :: res :: id :: n :: args =>
    have he : (match bound.get ⟨id⟩ with
      | some s => do
        let (block, extinst) ← s.readInstruction n args
        return ((block, .OpExtInst { result_type := ⟨rt⟩, result_id := ⟨res⟩, set := ⟨id⟩, instruction := extinst }), bound)
      | none => fail (.UnknownInstSetId ⟨id⟩) : R ((Block × Core X) × BoundSets X)) =
        .error (.err e) := h
    cases hb : bound.get ⟨id⟩ with
    | none =>
      rw [hb] at he
      cases he
      rcases ho with ho | ho
      · exact ho rfl
      · cases ho
    | some s =>
      rw [hb] at he
      obtain ⟨i, hi, name, h1, h2⟩ := hinv.bound id s hb
      cases hx : s.readInstruction n args with
      | ok p => simp only [hx] at he; cases he
      | error e' =>
        simp only [hx] at he
        cases he
        rcases (hk s (List.mem_of_find?_eq_some h2)).1 n args _ hx with rfl | rfl
        · exact ho.ne rfl
        · rcases ho with ho | ho
          · exact ho rfl
          · cases ho

theorem supported_of_read {inst : Core X} {f : CoreReader X} (hl : (opTable X).lookup (opcode inst) = some (.read f)) :
    supported inst = true := by
  have hk := opKinds_lookup X (opcode inst)
  rw [hl] at hk
  have key : ∀ k ∈ [34, 35, 37, 38, 39], specKind k ≠ some none := by decide +kernel
  cases inst <;> first | rfl | exact absurd hk.symm (key _ (by simp [opcode]))

theorem decode_first {known : List (ExtInstSet X)} {bound : BoundSets X} {before : List (Core X)} {head : UInt32}
    {ops : List UInt32} (hinv : Inv known bound before) (hk : ∀ s ∈ known, OwnErrors s) {e : ReadError}
    (ho : Operandal e) (h : decode head ops known bound = .error (.err e)) :
    ∃ u q rest, ops = u ++ q ++ rest ∧ Refused e q ∧ CanGoOn X (head.toNat % 65536) u ∧
      ¬ CanGoOn X (head.toNat % 65536) (u ++ q) ∧ ∀ head' more known' (bound' : BoundSets X),
        head'.toNat % 65536 = head.toNat % 65536 → decode head' (u ++ q ++ more) known' bound' = .error (.err e) := by
  have other {e : ReadError} (ho : Operandal e) (h1 : refusedWord e = none) (h2 : e ≠ .InvalidString) : False :=
    ho.elim (fun h => h h1) h2
  cases hl : (opTable X).lookup (head.toNat % 65536) with
  | none =>
    rw [decode_unknown hl] at h
    cases h
    exact (other ho rfl (by simp)).elim
  | some en =>
    cases en with
    | unimplemented n =>
      rw [decode_unimplemented hl] at h
      cases h
      exact (other ho rfl (by simp)).elim
    | read f =>
      have hd (head' : UInt32) (ws : Block) (known' : List (ExtInstSet X)) (bound' : BoundSets X)
          (hh : head'.toNat % 65536 = head.toNat % 65536) (hf : f ws known' bound' = .error (.err e)) :
          decode head' ws known' bound' = .error (.err e) := by
        rw [decode, opcode_word, hh, hl]
        dsimp only
        rw [hf]
        rfl
      have hf : f ops known bound = .error (.err e) := by
        rw [decode, opcode_word, hl] at h
        dsimp only at h
        cases hf : f ops known bound with
        | error e' =>
          rw [hf] at h
          cases h
          rfl
        | ok p =>
          obtain ⟨⟨rest, inst⟩, b'⟩ := p
          rw [hf, ok_bind] at h
          dsimp only at h
          split at h
          · cases h
            exact (other ho rfl (by simp)).elim
          · cases h
      by_cases h11 : head.toNat % 65536 = 11
      · rw [h11, show (opTable X).lookup 11 = some (.read OpExtInstImport.readCore) from rfl] at hl
        cases hl
        obtain ⟨u, q, rest, h1, h2, h3, h4, h5⟩ := first_import ho hf
        rw [h11]
        exact ⟨u, q, rest, h1, h2, h3, h4, fun head' more known' bound' hh => hd _ _ _ _ (hh.trans h11.symm) (h5 _ _ _)⟩
      · by_cases h12 : head.toNat % 65536 = 12
        · rw [h12, show (opTable X).lookup 12 = some (.read OpExtInst.readCore) from rfl] at hl
          cases hl
          exact (operandal_extInst hinv hk ho hf).elim
        · obtain ⟨u, q, rest, h1, h2, ⟨more, inst, hm⟩, h4⟩ :=
            opTable_first X _ (mem_of_lookup hl) f rfl h11 h12 _ _ _ _ ho hf
          have h5 (head' : UInt32) (more : Block) (known' : List (ExtInstSet X)) (bound' : BoundSets X)
              (hh : head'.toNat % 65536 = head.toNat % 65536) := hd head' _ _ _ hh (h4 more known' bound')
          refine ⟨u, q, rest, h1, h2, ⟨more, inst, ?_⟩, ?_, h5⟩
          · obtain ⟨g1, -, g3⟩ := (opTable_ok X _ (mem_of_lookup hl) f rfl).sound _ _ _ _ _ _ hm
            refine ⟨g1, ?_⟩
            rcases core_cases inst with ⟨op, rfl⟩ | ⟨op, rfl⟩ | ⟨c1, c2⟩
            · exact absurd g1.symm h11
            · exact absurd g1.symm h12
            · rw [OpsRel_plain c1 c2] at g3
              exact g3.1
          · rintro ⟨more', inst', g1, g2⟩
            rcases core_cases inst' with ⟨op, rfl⟩ | ⟨op, rfl⟩ | ⟨c1, c2⟩
            · exact absurd g1.symm h11
            · exact absurd g1.symm h12
            · have := decode_iff (head := head) (known := known).mpr ⟨supported_of_read (g1 ▸ hl), g1,
                (OpsRel_plain (bound := bound) c1 c2).mpr ⟨g2, rfl⟩⟩
              rw [h5 head more' known bound rfl] at this
              cases this

end Magma
