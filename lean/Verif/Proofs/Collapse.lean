import Verif.Proofs.Ids
import Verif.Proofs.IdsLogical
import Verif.Proofs.ModuleBytes
/-! Lemmas: ids of an accepted module may be replaced by equal ids as long as imports stay apart. -/

namespace Magma
open Spec
variable {X : Type} {σ : UInt32 → UInt32}

/-- Ids under which sets are bound stay apart. -/
def Apart (σ : UInt32 → UInt32) (bound : BoundSets X) : Prop :=
  ∀ p ∈ bound, ∀ q ∈ bound, σ p.1 = σ q.1 → p.1 = q.1

theorem lookup_ren {bound : BoundSets X} {id : UInt32} (h : ∀ q ∈ bound, σ id = σ q.1 → id = q.1) :
    List.lookup (σ id) (renBound σ bound) = List.lookup id bound := by
  unfold renBound
  induction bound with
  | nil => rfl
  | cons p bound ih =>
    rw [List.map_cons, List.lookup_cons, List.lookup_cons, ih (fun q hq => h q (.tail _ hq))]
    have : (σ id == σ p.1) = (id == p.1) := by
      rw [Bool.eq_iff_iff, beq_iff_eq, beq_iff_eq]
      exact ⟨h p (.head _), fun h => by rw [h]⟩
    rw [this]

theorem key_of_lookup {bound : BoundSets X} {id : UInt32} {s : ExtInstSet X} (h : List.lookup id bound = some s) :
    ∃ q ∈ bound, q.1 = id ∧ q.2 = s := by
  induction bound with
  | nil => cases h
  | cons p bound ih =>
    rw [List.lookup_cons] at h
    by_cases hp : (id == p.1) = true
    · rw [hp] at h
      cases h
      exact ⟨p, .head _, (beq_iff_eq.mp hp).symm, rfl⟩
    · rw [Bool.not_eq_true] at hp
      rw [hp] at h
      obtain ⟨q, hq, h⟩ := ih h
      exact ⟨q, .tail _ hq, h⟩

/-- The entry of the table does not care about ids if imports stay apart. -/
def EntryApart [Renames X] (σ : UInt32 → UInt32) (p : Nat × OpEntry X) : Prop :=
  ∀ f, p.2 = .read f → ∀ ws known bound q, (∀ q ∈ bound, TakesIds σ q.2) →
    decodeEntry f ws known bound = .ok q → Apart σ q.2 →
    decodeEntry f (renameParts σ (parts p.1) ws) known (renBound σ bound) = .ok (renBoth σ q)

theorem EntryApart.of [Renames X] {p : Nat × OpEntry X} (h : EntryRen σ p) : EntryApart σ p := by
  intro f hf ws known bound q hb hd _
  rw [h f hf ws known bound hb, hd]
  rfl

theorem EntryApart.import [Renames X] : EntryApart (X := X) σ (11, .read OpExtInstImport.readCore) := by
  rintro f hf ws known bound q hb hd hq
  cases hf
  simp only [decodeEntry, readImport_eq] at hd ⊢
  rw [OpFollows.follows (read := readImport) (k := 11) σ ws]
  cases hr : readImport ws with
  | error e => rw [hr] at hd; cases hd
  | ok r =>
    obtain ⟨r, op⟩ := r
    rw [hr] at hd
    simp only [Except.map, bind, Except.bind, bindImport] at hd ⊢
    have hn : (ren σ op).name = op.name := rfl
    rw [hn]
    cases hf : known.find? (fun s => s.name == op.name) with
    | none => rw [hf] at hd; cases hd
    | some s =>
      rw [hf] at hd
      simp only [BoundSets.insert] at hd ⊢
      cases hg : bound.get ⟨op.result_id.val⟩ with
      | some _ => rw [hg] at hd; cases hd
      | none =>
        rw [hg] at hd
        simp only [pure, Except.pure] at hd
        have hq2 : q.2 = (op.result_id.val, s) :: bound := by
          split at hd
          · cases hd
          · cases hd; rfl
        have : (renBound σ bound).get ⟨(ren σ op).result_id.val⟩ = bound.get ⟨op.result_id.val⟩ := by
          apply lookup_ren
          intro k hk h
          refine hq (op.result_id.val, s) ?_ k ?_ h
          · rw [hq2]; exact .head _
          · rw [hq2]; exact .tail _ hk
        rw [this, hg]
        simp only [pure, Except.pure]
        split at hd
        · cases hd
        · rename_i hx
          cases hd
          rw [if_neg hx]
          rfl

theorem EntryApart.extInst [Renames X] : EntryApart (X := X) σ (12, .read OpExtInst.readCore) := by
  rintro f hf ws known bound q hb hd hq
  cases hf
  match ws with
  | [] => cases hd
  | [_] => cases hd
  | [_, _] => cases hd
  | [_, _, _] => cases hd
  | rt :: res :: id :: n :: args =>
    have he (rt res id n : UInt32) (args : List UInt32) (bound : BoundSets X) :
        OpExtInst.readCore (rt :: res :: id :: n :: args) known bound = (match bound.get ⟨id⟩ with
      | some s => do
        let (block, extinst) ← s.readInstruction n args
        return ((block, .OpExtInst { result_type := ⟨rt⟩, result_id := ⟨res⟩, set := ⟨id⟩, instruction := extinst }), bound)
      | none => fail (.UnknownInstSetId ⟨id⟩) : R ((Block × Core X) × BoundSets X)) := rfl
    have hp : renameParts σ (parts 12) (rt :: res :: id :: n :: args) = σ rt :: σ res :: σ id :: n :: args.map σ := by
      show σ rt :: σ res :: σ id :: n :: renameParts σ [.ids] args = _
      rw [renameParts_ids]
    rw [hp]
    simp only [decodeEntry, he] at hd ⊢
    cases hg : bound.get ⟨id⟩ with
    | none => rw [hg] at hd; cases hd
    | some s =>
      rw [hg] at hd
      dsimp only at hd
      obtain ⟨k, hk, hk1, hk2⟩ := key_of_lookup (show List.lookup id bound = some s from hg)
      have hs : TakesIds σ s := hk2 ▸ hb k hk
      cases hr : s.readInstruction n args with
      | error e => rw [hr] at hd; cases hd
      | ok r =>
        obtain ⟨r, x⟩ := r
        rw [hr] at hd
        simp only [bind, Except.bind, pure, Except.pure] at hd
        by_cases ha : (!Block.atEnd r) = true
        · rw [if_pos ha] at hd; cases hd
        · rw [if_neg ha] at hd
          cases hd
          have : (renBound σ bound).get ⟨σ id⟩ = some s := by
            rw [← hg]
            apply lookup_ren
            intro j hj h
            rw [← hk1] at h ⊢
            exact hq k hk j hj h
          rw [this]
          dsimp only
          rw [hs n args, hr]
          simp only [renameRead, bind, Except.bind, pure, Except.pure]
          rw [show Block.atEnd (r.map σ) = Block.atEnd r from atEnd_length (List.length_map ..), if_neg ha]
          rfl

theorem opTable_apart [Renames X] : ∀ p ∈ opTable X, EntryApart σ p := by
  unfold opTable
  repeat' (first
    | exact fun _ h => absurd h List.not_mem_nil
    | refine List.forall_mem_cons.mpr ⟨.of EntryRen.unimplemented, ?_⟩
    | refine List.forall_mem_cons.mpr ⟨.of (EntryRen.lift (fun _ => rfl)), ?_⟩
    | refine List.forall_mem_cons.mpr ⟨EntryApart.import, ?_⟩
    | refine List.forall_mem_cons.mpr ⟨EntryApart.extInst, ?_⟩)

theorem decode_apart [Renames X] {head : UInt32} {ops : List UInt32} {q : Core X × BoundSets X}
    {known : List (ExtInstSet X)} {bound : BoundSets X} (hb : ∀ q ∈ bound, TakesIds σ q.2)
    (h : decode head ops known bound = .ok q) (ha : Apart σ q.2) :
    decode head (renameParts σ (parts (head.toNat % 65536)) ops) known (renBound σ bound) = .ok (renBoth σ q) := by
  rw [decode, opcode_word] at h ⊢
  cases he : (opTable X).lookup (head.toNat % 65536) with
  | none => rw [he] at h; cases h
  | some e =>
    rw [he] at h
    cases e with
    | unimplemented name => cases h
    | read f => exact opTable_apart _ (mem_of_lookup he) f rfl ops known bound q hb h ha

/-- The ids of imports stay apart. -/
def ImportsApart (σ : UInt32 → UInt32) (bound : BoundSets X) (l : List (Core X)) : Prop :=
  ∀ a b, (a ∈ bound.map Prod.fst ∨ ∃ op, Core.OpExtInstImport op ∈ l ∧ op.result_id.val = a) →
    (b ∈ bound.map Prod.fst ∨ ∃ op, Core.OpExtInstImport op ∈ l ∧ op.result_id.val = b) → σ a = σ b → a = b

theorem ImportsApart.step {head : UInt32} {ops : List UInt32} {inst : Core X} {l : List (Core X)}
    {known : List (ExtInstSet X)} {bound bound' : BoundSets X}
    (h : decode head ops known bound = .ok (inst, bound')) (ha : ImportsApart σ bound (inst :: l)) :
    Apart σ bound' ∧ ImportsApart σ bound' l := by
  have hsub : ∀ a ∈ bound'.map Prod.fst, a ∈ bound.map Prod.fst ∨
      ∃ op, Core.OpExtInstImport op ∈ inst :: l ∧ op.result_id.val = a := by
    obtain ⟨-, -, h⟩ := decode_iff.mp h
    unfold OpsRel at h
    split at h
    · obtain ⟨-, s, -, -, rfl⟩ := h
      intro a ha
      rcases List.mem_cons.mp ha with rfl | ha
      · exact .inr ⟨_, .head _, rfl⟩
      · exact .inl ha
    · obtain ⟨_, _, _, -, -, -, rfl⟩ := h
      exact fun a ha => .inl ha
    · obtain ⟨-, rfl⟩ := h
      exact fun a ha => .inl ha
  have hwide : ∀ a, (a ∈ bound'.map Prod.fst ∨ ∃ op, Core.OpExtInstImport op ∈ l ∧ op.result_id.val = a) →
      a ∈ bound.map Prod.fst ∨ ∃ op, Core.OpExtInstImport op ∈ inst :: l ∧ op.result_id.val = a := by
    rintro a (h | ⟨op, h, hv⟩)
    · exact hsub a h
    · exact .inr ⟨op, .tail _ h, hv⟩
  refine ⟨fun p hp q hq => ha _ _ (hsub _ ?_) (hsub _ ?_), fun a b h1 h2 => ha a b (hwide a h1) (hwide b h2)⟩
  · exact List.mem_map_of_mem hp
  · exact List.mem_map_of_mem hq

theorem bodyW_apart [Renames X] {known : List (ExtInstSet X)}
    (hk : ∀ s ∈ known, TakesIds σ s) (t : List UInt8) (ws : List UInt32) (bound : BoundSets X)
    (hb : ∀ q ∈ bound, TakesIds σ q.2) {l : List (Core X)} (h : bodyW known bound t ws = .ok l)
    (ha : ImportsApart σ bound l) :
    bodyW known (renBound σ bound) t (renameWords σ ws) = .ok (l.map (renameInst σ)) := by
  induction hn : ws.length using Nat.strongRecOn generalizing ws bound l with
  | _ n ih =>
    cases ws with
    | nil =>
      rw [renameWords]
      rw [bodyW_nil] at h ⊢
      split at h
      · rename_i ht
        cases h
        rw [if_pos ht]
        rfl
      · cases h
    | cons head ws =>
      rw [renameWords]
      have hl : (renameWords σ (List.drop (opWords head) ws)).length = ws.length - opWords head := by
        rw [renameWords_length, List.length_drop]
      by_cases hs : ws.length < opWords head
      · rw [bodyW_short hs] at h
        cases h
      · have hp : (renameParts σ (parts (head.toNat % 65536)) (ws.take (opWords head))).length = opWords head := by
          rw [renameParts_length, List.length_take]; omega
        rw [bodyW_cons (by omega)] at h
        obtain ⟨⟨inst, bound'⟩, hd, h⟩ := bind_ok.mp h
        obtain ⟨l', hrest, hl'⟩ := bind_ok.mp h
        cases hl'
        obtain ⟨ha1, ha2⟩ := ha.step hd
        rw [bodyW_cons]
        · change (decode head (List.take _ (renameParts σ _ (ws.take (opWords head)) ++ _)) _ _ >>= fun p =>
            bodyW known p.2 t (List.drop _ (renameParts σ _ (ws.take (opWords head)) ++ _)) >>= _) = _
          rw [List.take_left' hp, List.drop_left' hp, decode_apart hb hd ha1]
          simp only [renBoth, ok_bind]
          have := ih (ws.drop (opWords head)).length (by rw [← hn, List.length_drop, List.length_cons]; omega)
            (ws.drop (opWords head)) bound' (decode_takes hk hb hd) hrest ha2 rfl
          change bodyW known (renBound σ bound') t (renameWords σ (ws.drop (opWords head))) >>= _ = _
          rw [this]
          rfl
        · simp only [opWords] at hp ⊢
          rw [List.length_append]
          omega

theorem headerW_apart [Renames X] {known : List (ExtInstSet X)} (hk : ∀ s ∈ known, TakesIds σ s) {t : List UInt8}
    {ver gen bound schema : UInt32} {ws : List UInt32} {raw : RawModule X}
    (h : headerW known t (ver :: gen :: bound :: schema :: ws) = .ok raw)
    (ha : ImportsApart σ [] raw.instructions) :
    headerW known t (ver :: gen :: bound :: schema :: renameWords σ ws) = .ok (renameModule σ raw) := by
  simp only [headerW] at h ⊢
  obtain ⟨v, hv, h⟩ := bind_ok.mp h
  rw [hv, ok_bind]
  split at h
  · cases h
  · rename_i hz
    rw [if_neg hz]
    obtain ⟨l, hl, h⟩ := bind_ok.mp h
    cases h
    have := bodyW_apart hk t ws [] (fun q hq => absurd hq List.not_mem_nil) hl ha
    rw [show renBound σ ([] : BoundSets X) = [] from rfl] at this
    rw [this]
    rfl

end Magma
