import Verif.Spec.Edit
import Verif.Proofs.Concat
import Verif.Proofs.Errors
/-! Reading goes on in the same way after other instructions with the same imports. -/

namespace Magma
open Spec
variable {X : Type}

/-- The same sets under the same ids -/
def SameSets (b b' : BoundSets X) : Prop := ∀ id, List.lookup id b = List.lookup id b'

/-- The same outcome, with the same sets afterwards -/
def SameReads {α : Type} (x y : R (α × BoundSets X)) : Prop :=
  (∃ e, x = .error e ∧ y = .error e) ∨ ∃ a c c', x = .ok (a, c) ∧ y = .ok (a, c') ∧ SameSets c c'

/-- The entry of the table looks at the sets by their ids only. -/
def EntrySame (p : Nat × OpEntry X) : Prop :=
  ∀ f, p.2 = .read f → ∀ ws known (b b' : BoundSets X), SameSets b b' → SameReads (f ws known b) (f ws known b')

theorem EntrySame.unimplemented {k : Nat} {name : String} : EntrySame (X := X) (k, .unimplemented name) := by
  intro f hf
  cases hf

theorem EntrySame.lift {α : Type} {k : Nat} {read : Block → R (Block × α)} {mk : α → Core X} :
    EntrySame (k, .read (liftOp read mk)) := by
  intro f hf ws known b b' h
  cases hf
  unfold liftOp
  cases read ws with
  | error e => exact .inl ⟨e, rfl, rfl⟩
  | ok p => exact .inr ⟨_, _, _, rfl, rfl, h⟩

theorem EntrySame.import {k : Nat} : EntrySame (X := X) (k, .read OpExtInstImport.readCore) := by
  intro f hf ws known b b' h
  cases hf
  unfold OpExtInstImport.readCore
  cases (MemoryBlockRead.read ws : R (Block × ResultId)) with
  | error e => exact .inl ⟨e, rfl, rfl⟩
  | ok p =>
    simp only [ok_bind]
    cases (MemoryBlockRead.read p.1 : R (Block × String)) with
    | error e => exact .inl ⟨e, rfl, rfl⟩
    | ok q =>
      simp only [ok_bind]
      cases known.find? (fun s => s.name == q.2) with
      | none => exact .inl ⟨_, rfl, rfl⟩
      | some s =>
        simp only [BoundSets.insert, BoundSets.get, h p.2.val]
        cases List.lookup p.2.val b' with
        | some _ => exact .inl ⟨_, rfl, rfl⟩
        | none =>
          refine .inr ⟨_, _, _, rfl, rfl, fun id => ?_⟩
          rw [List.lookup_cons, List.lookup_cons, h id]

theorem EntrySame.extInst {k : Nat} : EntrySame (X := X) (k, .read OpExtInst.readCore) := by
  intro f hf ws known b b' h
  cases hf
  unfold OpExtInst.readCore
  cases (MemoryBlockRead.read ws : R (Block × OpId)) with
  | error e => exact .inl ⟨e, rfl, rfl⟩
  | ok p =>
    simp only [ok_bind]
    cases (MemoryBlockRead.read p.1 : R (Block × ResultId)) with
    | error e => exact .inl ⟨e, rfl, rfl⟩
    | ok q =>
      simp only [ok_bind]
      cases (MemoryBlockRead.read q.1 : R (Block × OpId)) with
      | error e => exact .inl ⟨e, rfl, rfl⟩
      | ok r =>
        simp only [ok_bind]
        cases (MemoryBlockRead.read r.1 : R (Block × UInt32)) with
        | error e => exact .inl ⟨e, rfl, rfl⟩
        | ok n =>
          simp only [ok_bind, BoundSets.get, h r.2.val]
          cases List.lookup r.2.val b' with
          | none => exact .inl ⟨_, rfl, rfl⟩
          | some s =>
            dsimp only
            cases s.readInstruction n.2 n.1 with
            | error e => exact .inl ⟨e, rfl, rfl⟩
            | ok x => exact .inr ⟨_, _, _, rfl, rfl, h⟩

theorem opTable_same (X : Type) : ∀ p ∈ opTable X, EntrySame p := by
  unfold opTable
  repeat' (first
    | exact fun _ h => absurd h List.not_mem_nil
    | refine List.forall_mem_cons.mpr ⟨EntrySame.unimplemented, ?_⟩
    | refine List.forall_mem_cons.mpr ⟨EntrySame.lift, ?_⟩
    | refine List.forall_mem_cons.mpr ⟨EntrySame.import, ?_⟩
    | refine List.forall_mem_cons.mpr ⟨EntrySame.extInst, ?_⟩)

theorem decode_same {known : List (ExtInstSet X)} {head : UInt32} {ops : List UInt32} {b b' : BoundSets X}
    (h : SameSets b b') : SameReads (decode head ops known b) (decode head ops known b') := by
  unfold decode
  cases he : (opTable X).lookup (head &&& 0xFFFF).toUInt16.toNat with
  | none => exact .inl ⟨_, rfl, rfl⟩
  | some e =>
    cases e with
    | unimplemented name => exact .inl ⟨_, rfl, rfl⟩
    | read f =>
      dsimp only
      rcases opTable_same X _ (mem_of_lookup he) f rfl ops known b b' h with ⟨e, e1, e2⟩ | ⟨a, c, c', e1, e2, hc⟩
      · rw [e1, e2]
        exact .inl ⟨e, rfl, rfl⟩
      · rw [e1, e2]
        obtain ⟨block, inst⟩ := a
        simp only [ok_bind]
        cases block.atEnd with
        | false => exact .inl ⟨_, rfl, rfl⟩
        | true => exact .inr ⟨_, _, _, rfl, rfl, hc⟩

theorem bodyW_same {known : List (ExtInstSet X)} {t : List UInt8} : ∀ (n : Nat) (ws : List UInt32) (b b' : BoundSets X),
    ws.length ≤ n → SameSets b b' → bodyW known b t ws = bodyW known b' t ws
  | _, [], b, b', _, _ => by rw [bodyW_nil, bodyW_nil]
  | 0, _ :: _, _, _, hn, _ => by cases hn
  | n + 1, head :: ws, b, b', hn, h => by
    by_cases hs : ws.length < opWords head
    · rw [bodyW_short hs, bodyW_short hs]
    · have hs : opWords head ≤ ws.length := by omega
      rw [bodyW_cons hs, bodyW_cons hs]
      rcases decode_same (known := known) (head := head) (ops := ws.take (opWords head)) h with
        ⟨e, e1, e2⟩ | ⟨a, c, c', e1, e2, hc⟩
      · rw [e1, e2]
      · rw [e1, e2, ok_bind, ok_bind]
        rw [bodyW_same n (ws.drop (opWords head)) c c' (by
          rw [List.length_drop]
          rw [List.length_cons] at hn
          omega) hc]

theorem inv_same {known : List (ExtInstSet X)} {b b' : BoundSets X} {l l' : List (Core X)} (h : Inv known b l)
    (h' : Inv known b' l') (hi : SameImports l l') : SameSets b b' := by
  have name (id : UInt32) (i : Core X) (n : String) (hn : importName id i = some n) :
      ∃ op : OpExtInstImport, i = .OpExtInstImport op := by
    unfold importName at hn
    split at hn
    · exact ⟨_, rfl⟩
    · cases hn
  intro id
  cases e : List.lookup id b with
  | some s =>
    obtain ⟨i, hm, n, hn, hs⟩ := h.bound id s e
    obtain ⟨op, rfl⟩ := name id i n hn
    obtain ⟨s', hs', e'⟩ := h'.imported id _ n ((hi op).mp hm) hn
    rw [e', ← hs', hs]
  | none =>
    refine ((h'.none_iff id).mpr fun i hm => ?_).symm
    cases hn : importName id i with
    | none => rfl
    | some n =>
      obtain ⟨op, rfl⟩ := name id i n hn
      rw [(h.none_iff id).mp e _ ((hi op).mpr hm)] at hn
      cases hn

theorem bytes_words (le : Bool) (bs : List UInt8) : ∃ ws t, bs = bytesOf le ws ++ t ∧ t.length < 4 := by
  obtain ⟨h1, h2⟩ := chunk_flatMap le bs
  exact ⟨_, _, h1.symm, h2⟩

/-- Reading on after instructions that were read -/
theorem readModule_on {known : List (ExtInstSet X)} {le : Bool} {ver gen bound : UInt32} {m : RawModule X} {body : List UInt32}
    (hv : IsVersionWord ver) (hb : SpellsBody known [] m.instructions body) (ws : List UInt32) {t : List UInt8}
    (ht : t.length < 4) :
    ∃ sets, Inv known sets m.instructions ∧
      readModule (bytesOf le [0x07230203, ver, gen, bound, 0] ++ bytesOf le body ++ (bytesOf le ws ++ t)) known =
      (bodyW known sets t ws).map fun l => RawModule.mk ⟨1, 0⟩ (generatorOf gen) bound (m.instructions ++ l) := by
  obtain ⟨sets, hinv, e⟩ := bodyW_after ws t (Inv.nil known) hb
  refine ⟨sets, by simpa using hinv, ?_⟩
  have e2 : bytesOf le [0x07230203, ver, gen, bound, 0] ++ bytesOf le body ++ (bytesOf le ws ++ t) =
      bytesOf le (0x07230203 :: ver :: gen :: bound :: 0 :: (body ++ ws)) ++ t := by
    have : (0x07230203 :: ver :: gen :: bound :: 0 :: (body ++ ws)) = [0x07230203, ver, gen, bound, 0] ++ (body ++ ws) := rfl
    rw [this, bytesOf_append, bytesOf_append, List.append_assoc, List.append_assoc, List.append_assoc]
  rw [e2, readModule_bytesOf ht]
  simp only [headerW, readVersion_iff.mpr ⟨hv, rfl⟩, ok_bind, ne_eq, not_true, ite_false]
  rw [e]
  cases bodyW known sets t ws <;> rfl

end Magma
