import Verif.Proofs.Errors
import Verif.Proofs.Serialise
/-! Lemmas: errors of single instructions and of modules. -/

namespace Magma
open Spec

/-- The entry of the table, and all that is known of it -/
theorem decode_entry {X : Type} {head : UInt32} {inst : Core X} (hs : supported inst = true)
    (hk : head.toNat % 65536 = opcode inst) :
    ∃ f : CoreReader X, (opTable X).lookup (head.toNat % 65536) = some (.read f) ∧
      (∀ ops known bound, decode head ops known bound = (f ops known bound >>= fun p =>
        if !p.1.1.atEnd then fail .InstructionHadExcessData else return (p.1.2, p.2))) ∧
      (∀ known bound ws rest bound', OpsRel known bound inst ws rest bound' →
        f ws known bound = .ok ((rest, inst), bound')) ∧
      EntryTrunc (opcode inst, .read f) := by
  obtain ⟨f, hf, hc⟩ := opTable_complete inst hs
  refine ⟨f, by rw [hk, hf], ?_, hc, opTable_trunc X _ (mem_of_lookup hf)⟩
  intro ops known bound
  exact decode_eq hk hf

theorem OpsRel_local {X : Type} {known : List (ExtInstSet X)} {bound bound' : BoundSets X}
    {inst : Core X} {ops : List UInt32} (hx : ∀ op, inst ≠ .OpExtInst op)
    (hd : .done ∉ operands inst) (h : OpsRel known bound inst ops [] bound') (extra : List UInt32) :
    OpsRel known bound inst (ops ++ extra) extra bound' := by
  rcases core_cases inst with ⟨op, rfl⟩ | ⟨op, rfl⟩ | ⟨h1, h2⟩
  · obtain ⟨hr, s, hs, hn, rfl⟩ := h
    refine ⟨Reads_local (rest := []) extra (by simpa using hr) (fun h => absurd h hd), s, hs, hn, rfl⟩
  · exact absurd rfl (hx op)
  · rw [OpsRel_plain h1 h2] at h ⊢
    exact ⟨Reads_local (rest := []) extra (by simpa using h.1) (fun h => absurd h hd), h.2⟩

theorem decode_excess {X : Type} {head : UInt32} {inst : Core X} {ops : List UInt32}
    {known : List (ExtInstSet X)} {bound bound' : BoundSets X} (hs : supported inst = true)
    (hk : head.toNat % 65536 = opcode inst) (hx : ∀ op, inst ≠ .OpExtInst op)
    (hd : .done ∉ operands inst) (h : OpsRel known bound inst ops [] bound') {extra : List UInt32}
    (he : extra ≠ []) :
    decode head (ops ++ extra) known bound = fail .InstructionHadExcessData := by
  obtain ⟨f, -, h1, h2, -⟩ := decode_entry hs hk
  rw [h1, h2 _ _ _ _ _ (OpsRel_local hx hd h extra), ok_bind]
  cases extra with
  | nil => exact absurd rfl he
  | cons _ _ => rfl

theorem decode_missing {X : Type} {head : UInt32} {inst : Core X} {ops : List UInt32}
    {known : List (ExtInstSet X)} {bound bound' : BoundSets X} (hs : supported inst = true)
    (hk : head.toNat % 65536 = opcode inst) (hx : ∀ op, inst ≠ .OpExtInst op)
    (h : OpsRel known bound inst ops [] bound') {q : List UInt32} (hq : q <+: ops) :
    decode head q known bound = fail .UnexpectedEndOfInstruction ∨
      ∃ inst' b', decode head q known bound = .ok (inst', b') := by
  obtain ⟨f, -, h1, h2, h3⟩ := decode_entry hs hk
  have hn : opcode inst ≠ 12 := by
    cases inst <;> first | (simp [opcode]; done) | exact absurd rfl (hx _)
  have h4 := h2 _ _ _ _ _ h
  rcases h3 f rfl hn known bound ops [] inst bound' (by simpa using h4) q hq with h | ⟨i, b, h⟩
  · left; rw [h1, h]; rfl
  · right
    refine ⟨i, b, ?_⟩
    rw [h1, h]
    rfl

/-- If the kind of the instruction has no optional and no variadic operands, leaving out words is
always noticed. -/
theorem decode_missing_fixed {X : Type} {head : UInt32} {inst : Core X} {ops : List UInt32}
    {known : List (ExtInstSet X)} {bound bound' : BoundSets X} (hs : supported inst = true)
    (hk : head.toNat % 65536 = opcode inst) (hx : ∀ op, inst ≠ .OpExtInst op)
    (hd : ∀ inst' : Core X, opcode inst' = opcode inst → .done ∉ operands inst')
    (h : OpsRel known bound inst ops [] bound') {q : List UInt32} (hq : q <+: ops) (hne : q ≠ ops) :
    decode head q known bound = fail .UnexpectedEndOfInstruction := by
  rcases decode_missing hs hk hx h hq with h1 | ⟨i, b, h1⟩
  · exact h1
  · exfalso
    obtain ⟨h2, h3, h4⟩ := decode_iff.mp h1
    have hx' : ∀ op, i ≠ .OpExtInst op := by
      rintro op rfl
      rw [hk] at h3
      cases inst <;> first | (simp [opcode] at h3; done) | exact absurd rfl (hx _)
    obtain ⟨v, rfl⟩ := hq
    have hv : v ≠ [] := by rintro rfl; simp at hne
    have h5 := decode_excess h2 h3.symm hx' (hd i (by omega)) h4 hv
    rw [decode_iff.mpr ⟨hs, hk.symm, h⟩] at h5
    cases h5

/-- Errors about the header -/
def ReadError.header : ReadError → Bool
  | .BadMagic | .UnknownVersionBytes .. | .UnknownVersion _ | .UnknownReservedSchema => true
  | _ => false

theorem ReadError.header_outer {e : ReadError} (h : e.header = true) : e.outer = true := by
  cases e <;> simp_all [ReadError.header, ReadError.outer]

/-- Not a header error -/
def NoHeaderError {α : Type} (x : R α) : Prop := ∀ e, x = .error (.err e) → e.header = false

theorem NoHeaderError.ok {α : Type} (a : α) : NoHeaderError (.ok a : R α) := by intro e h; cases h
theorem NoHeaderError.fail {α : Type} {e : ReadError} (he : e.header = false) :
    NoHeaderError (Magma.fail e : R α) := by
  intro e' h; cases h; exact he
theorem NoHeaderError.bind {α β : Type} {x : R α} {f : α → R β} (hx : NoHeaderError x)
    (hf : ∀ a, x = .ok a → NoHeaderError (f a)) : NoHeaderError (x >>= f) := by
  intro e h
  cases x with
  | error e' => cases h; exact hx e rfl
  | ok a => exact hf a rfl e h

theorem decode_inside {X : Type} (head : UInt32) (ops : List UInt32) (known : List (ExtInstSet X))
    (bound : BoundSets X) (hb : ∀ p ∈ bound, ∀ n ws, Inner (p.2.readInstruction n ws)) :
    NoHeaderError (decode head ops known bound) := by
  unfold decode
  split
  · exact .fail rfl
  · exact .fail rfl
  · rename_i f hf
    refine NoHeaderError.bind ?_ fun p _ => ?_
    · intro e he
      have := opTable_inner X _ (mem_of_lookup hf) f rfl ops known bound hb e he
      cases hh : e.header with
      | false => rfl
      | true => rw [ReadError.header_outer hh] at this; cases this
    · dsimp only
      split
      · exact .fail rfl
      · exact .ok _

theorem eosError_header (t : List UInt8) : (eosError t).header = false := by
  unfold eosError
  split <;> rfl

theorem bodyW_inside {X : Type} {known : List (ExtInstSet X)}
    (hk : ∀ s ∈ known, ∀ n ws, Inner (s.readInstruction n ws)) (t : List UInt8) (n : Nat) :
    ∀ (ws : List UInt32) (bound : BoundSets X), ws.length ≤ n → (∀ p ∈ bound, p.2 ∈ known) →
    NoHeaderError (bodyW known bound t ws) := by
  have base (bound : BoundSets X) : NoHeaderError (bodyW known bound t []) := by
    rw [bodyW_nil]
    split
    · exact .ok _
    · exact .fail rfl
  induction n with
  | zero =>
    intro ws bound hl hb
    have : ws = [] := by cases ws with
      | nil => rfl
      | cons _ _ => simp at hl
    subst this
    exact base bound
  | succ n ih =>
    intro ws bound hl hb
    cases ws with
    | nil => exact base bound
    | cons head ws =>
      by_cases hs : ws.length < opWords head
      · rw [bodyW_short hs]
        exact .fail (eosError_header t)
      · rw [bodyW_cons (by omega)]
        refine NoHeaderError.bind (decode_inside _ _ _ _ fun p hp => hk _ (hb p hp)) fun p hp => ?_
        obtain ⟨inst, b⟩ := p
        have := (decode_iff.mp hp).2.2
        exact NoHeaderError.bind (ih _ _ (by simp at hl ⊢; omega) (OpsRel_bound_sub this hb))
          fun _ _ => .ok _

theorem IsHead_mod {op n : Nat} {head : UInt32} (h : IsHead op n head) : head.toNat % 65536 = op := by
  obtain ⟨wc, h1, h2, -⟩ := h
  omega

end Magma
