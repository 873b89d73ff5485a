import Verif.Proofs.Blame
import Verif.Proofs.Short
import Verif.Proofs.OpKinds
/-! Lemmas: errors about instructions are justified by the instruction. -/

namespace Magma
open Spec
variable {X : Type}

theorem justifies_operand {known : List (ExtInstSet X)} {before : List (Core X)} {head : UInt32} {ops : List UInt32}
    {e : ReadError} (hn : e ≠ .UnexpectedEndOfInstruction) (h : BadOperand ops e) : Justifies known before head ops e := by
  cases e <;> first | exact h | exact h.elim | exact absurd rfl hn

/-- Reading stops where the spelling ends. -/
theorem Reads_split {os : List Operand} : ∀ {ws rest : List UInt32}, Reads os ws rest → ∃ p, ws = p ++ rest ∧ Reads os p [] := by
  induction os with
  | nil => intro ws rest h; exact ⟨[], h, rfl⟩
  | cons o os ih =>
    intro ws rest h
    cases o with
    | lit w =>
      obtain ⟨ws', rfl, h⟩ := h
      obtain ⟨p, rfl, hp⟩ := ih h
      exact ⟨w :: p, rfl, p, rfl, hp⟩
    | mask i v =>
      obtain ⟨w, ws', rfl, hv, h⟩ := h
      obtain ⟨p, rfl, hp⟩ := ih h
      exact ⟨w :: p, rfl, w, p, rfl, hv, hp⟩
    | str s =>
      obtain ⟨u, ws', rfl, hs, h⟩ := h
      obtain ⟨p, rfl, hp⟩ := ih h
      exact ⟨u ++ p, by simp, u, p, rfl, hs, hp⟩
    | done =>
      obtain ⟨rfl, h⟩ := h
      obtain ⟨p, hw, hp⟩ := ih h
      obtain ⟨rfl, rfl⟩ := List.append_eq_nil_iff.mp hw.symm
      exact ⟨[], rfl, rfl, hp⟩
    | never => exact h.elim

/-- The errors of an entry of the table are justified. -/
def EntryGood (p : Nat × OpEntry X) : Prop :=
  ∀ f, p.2 = .read f → ∀ ws known (bound : BoundSets X) before head, Inv known bound before →
    (∀ s ∈ known, OwnErrors s) → head.toNat % 65536 = p.1 →
    ∀ e, e ≠ .UnexpectedEndOfInstruction → f ws known bound = .error (.err e) → Justifies known before head ws e

theorem EntryGood.lift {α : Type} {k : Nat} {read : Block → R (Block × α)} {mk : α → Core X}
    [OpGood read] : EntryGood (k, .read (liftOp read mk)) := by
  rintro f hf ws known bound before head hinv hk hh e hn he
  cases hf
  cases hr : read ws with
  | error e' =>
    rw [liftOp, hr] at he
    cases he
    exact justifies_operand hn ((OpGood.good ws).err e hr)
  | ok p =>
    rw [liftOp, hr] at he
    cases he

theorem EntryGood.unimplemented {k : Nat} {n : String} : EntryGood (X := X) (k, .unimplemented n) := by
  rintro f hf
  cases hf

instance : OpGood readImport := by op_good readImport

theorem EntryGood.import : EntryGood (X := X) (11, .read OpExtInstImport.readCore) := by
  rintro f hf ws known bound before head hinv hk hh e hn he
  cases hf
  rw [readImport_eq] at he
  cases hr : readImport ws with
  | error e' =>
    rw [hr] at he
    cases he
    exact justifies_operand hn ((OpGood.good ws).err e hr)
  | ok p =>
    obtain ⟨rest, op⟩ := p
    obtain ⟨_, rfl, u, extra, rfl, hu, rfl⟩ := ((readImport_law X).iff _ _ _).mp hr
    rw [hr, ok_bind] at he
    simp only [bindImport] at he
    split at he
    · split at he
      · rename_i s hs _ s' hb
        cases he
        refine ⟨hh, ⟨_, rfl⟩, ?_⟩
        simp only [BoundSets.insert, BoundSets.get, Prod.mk.injEq] at hb
        obtain ⟨i, hi, name, h1, -⟩ := hinv.bound _ _ hb.2
        exact ⟨i, hi, by rw [h1]; exact Option.some_ne_none _⟩
      · cases he
    · rename_i hs
      cases he
      refine ⟨hh, _, u, _, rfl, hu, fun s hm hn => ?_⟩
      have := List.find?_eq_none.mp hs s hm
      simp [hn] at this

theorem EntryGood.extInst : EntryGood (X := X) (12, .read OpExtInst.readCore) := by
  rintro f hf ws known bound before head hinv hk hh e hn he
  cases hf
  match ws with
  | [] => cases he; exact absurd rfl hn
  | [_] => cases he; exact absurd rfl hn
  | [_, _] => cases he; exact absurd rfl hn
  | [_, _, _] => cases he; exact absurd rfl hn
  | rt :: res :: id :: n :: args =>
    have he : (match bound.get ⟨id⟩ with
      | some s => do
        let (block, extinst) ← s.readInstruction n args
        return ((block, .OpExtInst { result_type := ⟨rt⟩, result_id := ⟨res⟩, set := ⟨id⟩, instruction := extinst }), bound)
      | none => fail (.UnknownInstSetId ⟨id⟩) : R ((Block × Core X) × BoundSets X)) = .error (.err e) := he
    cases hb : bound.get ⟨id⟩ with
    | none =>
      rw [hb] at he
      cases he
      exact ⟨hh, ⟨_, _, _, rfl⟩, (hinv.none_iff id).mp hb⟩
    | some s =>
      rw [hb] at he
      obtain ⟨i, hi, name, h1, h2⟩ := hinv.bound id s hb
      have hsn : s.name = name := by simpa using List.find?_some h2
      cases hx : s.readInstruction n args with
      | ok p => simp only [hx] at he; cases he
      | error e' =>
        simp only [hx] at he
        cases he
        rcases (hk s (List.mem_of_find?_eq_some h2)).1 n args e hx with rfl | rfl
        · exact absurd rfl hn
        · exact ⟨hh, rt, res, id, args, rfl, i, hi, by rw [hsn]; exact h1⟩

theorem opTable_good (X : Type) : ∀ p ∈ opTable X, EntryGood p := by
  unfold opTable
  repeat' (first
    | exact fun _ h => absurd h List.not_mem_nil
    | refine List.forall_mem_cons.mpr ⟨EntryGood.unimplemented, ?_⟩
    | refine List.forall_mem_cons.mpr ⟨EntryGood.lift, ?_⟩
    | refine List.forall_mem_cons.mpr ⟨EntryGood.import, ?_⟩
    | refine List.forall_mem_cons.mpr ⟨EntryGood.extInst, ?_⟩)

/-- Instructions that end too early could have gone on. -/
def EntryShort (p : Nat × OpEntry X) : Prop :=
  ∀ f, p.2 = .read f → p.1 ≠ 11 → p.1 ≠ 12 → ∀ ws known (bound : BoundSets X),
    f ws known bound = .error (.err .UnexpectedEndOfInstruction) →
    BadEnd ws ∨ ∃ more inst, f (ws ++ more) known bound = .ok (([], inst), bound)

theorem EntryShort.lift {α : Type} {k : Nat} {read : Block → R (Block × α)} {mk : α → Core X}
    [OpShort read] : EntryShort (k, .read (liftOp read mk)) := by
  rintro f hf - - ws known bound he
  cases hf
  have hr : read ws = fail .UnexpectedEndOfInstruction := by
    cases hr : read ws with
    | error e' =>
      rw [liftOp, hr] at he
      cases he
      rfl
    | ok p =>
      rw [liftOp, hr] at he
      cases he
  rcases OpShort.short.short ws hr with hb | ⟨more, a, hm⟩
  · exact .inl hb
  · refine .inr ⟨more, mk a, ?_⟩
    rw [liftOp, hm]
    rfl

theorem EntryShort.unimplemented {k : Nat} {n : String} : EntryShort (X := X) (k, .unimplemented n) := by
  rintro f hf
  cases hf

theorem EntryShort.import {e : OpEntry X} : EntryShort (X := X) (11, e) := fun _ _ h => absurd rfl h
theorem EntryShort.extInst {e : OpEntry X} : EntryShort (X := X) (12, e) := fun _ _ _ h => absurd rfl h

theorem opTable_short (X : Type) : ∀ p ∈ opTable X, EntryShort p := by
  unfold opTable
  repeat' (first
    | exact fun _ h => absurd h List.not_mem_nil
    | refine List.forall_mem_cons.mpr ⟨EntryShort.unimplemented, ?_⟩
    | refine List.forall_mem_cons.mpr ⟨EntryShort.import, ?_⟩
    | refine List.forall_mem_cons.mpr ⟨EntryShort.extInst, ?_⟩
    | refine List.forall_mem_cons.mpr ⟨EntryShort.lift, ?_⟩)

theorem short_import {known : List (ExtInstSet X)} {bound : BoundSets X} {before : List (Core X)} {head : UInt32}
    {ops : List UInt32} (hk : head.toNat % 65536 = 11)
    (h : OpExtInstImport.readCore ops known bound = .error (.err .UnexpectedEndOfInstruction)) :
    Justifies known before head ops .UnexpectedEndOfInstruction := by
  rw [readImport_eq] at h
  have hr : readImport ops = fail .UnexpectedEndOfInstruction := by
    cases hr : readImport ops with
    | error e' =>
      rw [hr] at h
      cases h
      rfl
    | ok p =>
      rw [hr, ok_bind] at h
      simp only [bindImport] at h
      split at h
      · split at h <;> cases h
      · cases h
  rcases OpShort.short.short ops hr with hb | ⟨more, a, hm⟩
  · exact .inl hb
  · refine .inr (.inl ⟨by omega, more, ?_, .OpExtInstImport a, hk.symm, ((readImport_law X).iff _ _ _).mp hm⟩)
    rintro rfl
    rw [List.append_nil, hr] at hm
    cases hm

theorem short_extInst {known : List (ExtInstSet X)} {bound : BoundSets X} {before : List (Core X)} {head : UInt32}
    {ops : List UInt32} (hinv : Inv known bound before) (hk : head.toNat % 65536 = 12)
    (h : OpExtInst.readCore ops known bound = .error (.err .UnexpectedEndOfInstruction)) :
    Justifies known before head ops .UnexpectedEndOfInstruction := by
  refine .inr (.inr ⟨hk, ?_⟩)
  match ops with
  | [] => exact .inl (by decide)
  | [_] => exact .inl (by simp)
  | [_, _] => exact .inl (by simp)
  | [_, _, _] => exact .inl (by simp)
  | rt :: res :: id :: n :: args =>
    have he : (match bound.get ⟨id⟩ with
      | some s => do
        let (block, extinst) ← s.readInstruction n args
        return ((block, .OpExtInst { result_type := ⟨rt⟩, result_id := ⟨res⟩, set := ⟨id⟩, instruction := extinst }), bound)
      | none => fail (.UnknownInstSetId ⟨id⟩) : R ((Block × Core X) × BoundSets X)) =
        .error (.err .UnexpectedEndOfInstruction) := h
    cases hb : bound.get ⟨id⟩ with
    | none =>
      rw [hb] at he
      cases he
    | some s =>
      rw [hb] at he
      obtain ⟨i, hi, name, h1, h2⟩ := hinv.bound id s hb
      refine .inr ⟨rt, res, id, n, args, i, name, s, rfl, hi, h1, h2, ?_⟩
      cases hx : s.readInstruction n args with
      | ok p => simp only [hx] at he; cases he
      | error e' =>
        simp only [hx] at he
        cases he
        rfl

theorem decode_short {known : List (ExtInstSet X)} {bound : BoundSets X} {before : List (Core X)} {head : UInt32}
    {ops : List UInt32} (hinv : Inv known bound before) {f : Block → List (ExtInstSet X) → BoundSets X →
      R ((Block × Core X) × BoundSets X)} (hl : (opTable X).lookup (head.toNat % 65536) = some (.read f))
    (h : f ops known bound = .error (.err .UnexpectedEndOfInstruction)) :
    Justifies known before head ops .UnexpectedEndOfInstruction := by
  by_cases h11 : head.toNat % 65536 = 11
  · rw [h11, show (opTable X).lookup 11 = some (.read OpExtInstImport.readCore) from rfl] at hl
    cases hl
    exact short_import h11 h
  · by_cases h12 : head.toNat % 65536 = 12
    · rw [h12, show (opTable X).lookup 12 = some (.read OpExtInst.readCore) from rfl] at hl
      cases hl
      exact short_extInst hinv h12 h
    · rcases opTable_short X _ (mem_of_lookup hl) f rfl h11 h12 _ _ _ h with hb | ⟨more, inst, hm⟩
      · exact .inl hb
      · obtain ⟨h1, -, h3⟩ := (opTable_ok X _ (mem_of_lookup hl) f rfl).sound _ _ _ _ _ _ hm
        refine .inr (.inl ⟨h12, more, ?_, inst, h1, ?_⟩)
        · rintro rfl
          rw [List.append_nil, h] at hm
          cases hm
        · rcases core_cases inst with ⟨op, rfl⟩ | ⟨op, rfl⟩ | ⟨c1, c2⟩
          · exact absurd h1.symm h11
          · exact absurd h1.symm h12
          · rw [OpsRel_plain c1 c2] at h3
            exact h3.1

theorem decode_justified {known : List (ExtInstSet X)} {bound : BoundSets X} {before : List (Core X)} {head : UInt32}
    {ops : List UInt32} (hinv : Inv known bound before) (hk : ∀ s ∈ known, OwnErrors s) {e : ReadError}
    (h : decode head ops known bound = .error (.err e)) : Justifies known before head ops e := by
  have hkind := opKinds_lookup X (head.toNat % 65536)
  cases hl : (opTable X).lookup (head.toNat % 65536) with
  | none =>
    rw [decode_unknown hl] at h
    cases h
    have := head.toNat_lt
    have e1 : (UInt16.ofNat (head.toNat % 65536)).toNat = head.toNat % 65536 := by
      rw [UInt16.toNat_ofNat']; omega
    have e2 : (UInt16.ofNat (head.toNat / 65536)).toNat = head.toNat / 65536 := by
      rw [UInt16.toNat_ofNat']; omega
    rw [hl] at hkind
    simp only [specKind] at hkind
    split at hkind
    · cases hkind
    · rename_i hn
      split at hkind
      · cases hkind
      · rename_i hc
        refine ⟨by rw [e1, e2]; omega, by rw [e1]; exact hn, ?_⟩
        rw [e1]
        simpa using hc
  | some en =>
    cases en with
    | unimplemented n =>
      rw [decode_unimplemented hl] at h
      cases h
      rw [hl] at hkind
      simp only [specKind] at hkind
      split at hkind
      · rename_i n' hn'
        cases hkind
        exact hn'
      · split at hkind <;> cases hkind
    | read f =>
      rw [decode, opcode_word, hl] at h
      dsimp only at h
      cases hf : f ops known bound with
      | error e' =>
        rw [hf] at h
        cases h
        by_cases hn : e = .UnexpectedEndOfInstruction
        · subst hn
          exact decode_short hinv hl hf
        · exact opTable_good X _ (mem_of_lookup hl) f rfl ops known bound before head hinv hk rfl e hn hf
      | ok p =>
        obtain ⟨⟨rest, inst⟩, b'⟩ := p
        rw [hf, ok_bind] at h
        dsimp only at h
        split at h
        · rename_i hend
          cases h
          have hne : rest ≠ [] := by
            rintro rfl
            simp [Block.atEnd] at hend
          obtain ⟨h1, h2, h3⟩ := (opTable_ok X _ (mem_of_lookup hl) f rfl).sound _ _ _ _ _ _ hf
          rcases core_cases inst with ⟨op, rfl⟩ | ⟨op, rfl⟩ | ⟨c1, c2⟩
          · obtain ⟨hr, s, hs, hn, rfl⟩ := h3
            obtain ⟨p, rfl, hp⟩ := Reads_split hr
            exact ⟨p, rest, rfl, hne, _, h1, .inl ⟨hp, by rw [hs]; exact Option.some_ne_none _, (hinv.none_iff _).mp hn⟩⟩
          · obtain ⟨n, args, s, hr, hs, hx, rfl⟩ := h3
            obtain ⟨i, hi, name, h5, h6⟩ := hinv.bound _ s hs
            obtain ⟨v, rfl⟩ := (hk s (List.mem_of_find?_eq_some h6)).2 n args rest _ hx
            obtain ⟨_, rfl, _, rfl, _, rfl, rfl⟩ := hr
            refine ⟨op.result_type.val :: op.result_id.val :: op.set.val :: n :: v, rest, rfl, hne, _, h1, .inr ?_⟩
            exact ⟨_, _, _, n, _, i, name, s, _, rfl, hi, h5, h6, hx, rfl⟩
          · rw [OpsRel_plain c1 c2] at h3
            obtain ⟨p, rfl, hp⟩ := Reads_split h3.1
            exact ⟨p, rest, rfl, hne, _, h1, .inl ((SpellsOperands_plain c1 c2).mpr hp)⟩
        · cases h

end Magma
