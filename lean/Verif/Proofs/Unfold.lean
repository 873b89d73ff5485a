import Verif.Spec.Unfold
import Verif.Proofs.Ends
import Verif.Proofs.Live
import Verif.Proofs.Course
/-! Lemmas: a program in which every occurrence of a block gets its own number. -/

namespace Magma.Unfold
open Spec Spec.Program
variable {X S : Type}

/-- Every occurrence of a block gets its own number, from `n` on. -/
def number (n : Nat) : Program → Program
  | .done => .done
  | .ret _ => .ret ⟨UInt32.ofNat n⟩
  | .atom _ rest => .atom ⟨UInt32.ofNat n⟩ (number (n + 1) rest)
  | .sel _ left right h w rest => .sel ⟨UInt32.ofNat n⟩ (number (n + 1) left) (number (n + 1 + left.ids.length) right) h w
    (number (n + 1 + left.ids.length + right.ids.length) rest)
  | .loop _ body h rest => .loop ⟨UInt32.ofNat n⟩ (number (n + 1) body) h (number (n + 1 + body.ids.length) rest)
  | .exit _ b w rest => .exit ⟨UInt32.ofNat n⟩ b w (number (n + 1) rest)

/-- Other blocks -/
def rename (σ : UInt32 → UInt32) : Program → Program
  | .done => .done
  | .ret id => .ret ⟨σ id.val⟩
  | .atom id rest => .atom ⟨σ id.val⟩ (rename σ rest)
  | .sel id left right h w rest => .sel ⟨σ id.val⟩ (rename σ left) (rename σ right) h w (rename σ rest)
  | .loop id body h rest => .loop ⟨σ id.val⟩ (rename σ body) h (rename σ rest)
  | .exit id b w rest => .exit ⟨σ id.val⟩ b w (rename σ rest)

theorem number_ids : ∀ (s : Program) (n : Nat),
    (number n s).ids.map BlockId.val = (List.range' n s.ids.length).map UInt32.ofNat := by
  intro s
  induction s with
  | done => intro n; rfl
  | ret id => intro n; rfl
  | atom id rest ih =>
    intro n
    simp only [number, ids, List.map_cons, List.length_cons, List.range'_succ, ih]
  | sel id l r h w rest ihl ihr ih =>
    intro n
    simp only [number, ids, List.map_cons, List.length_cons, List.range'_succ, List.map_append, List.length_append, ih, ihl,
      ihr, ← List.range'_append_1, ← Nat.add_assoc]
  | loop id b h rest ihb ih =>
    intro n
    simp only [number, ids, List.map_cons, List.length_cons, List.range'_succ, List.map_append, List.length_append, ih, ihb,
      ← List.range'_append_1]
  | exit id b w rest ih =>
    intro n
    simp only [number, ids, List.map_cons, List.length_cons, List.range'_succ, ih]

theorem rename_number (σ : UInt32 → UInt32) : ∀ (s : Program) (n : Nat),
    (List.range' n s.ids.length).map (fun i => σ (UInt32.ofNat i)) = s.ids.map BlockId.val → rename σ (number n s) = s := by
  intro s
  induction s with
  | done => intro n _; rfl
  | ret id =>
    intro n h
    have h := (List.cons.inj h).1
    simp only [number, rename, h]
  | atom id rest ih =>
    intro n h
    simp only [ids, List.map_cons, List.length_cons, List.range'_succ] at h
    obtain ⟨h0, h⟩ := List.cons.inj h
    simp only [number, rename, h0, ih _ h]
  | sel id l r hh w rest ihl ihr ih =>
    intro n h
    simp only [ids, List.map_cons, List.length_cons, List.range'_succ, List.map_append, List.length_append,
      ← List.range'_append_1] at h
    obtain ⟨h0, h⟩ := List.cons.inj h
    obtain ⟨h, h3⟩ := List.append_inj h (by simp)
    obtain ⟨h1, h2⟩ := List.append_inj h (by simp)
    rw [← Nat.add_assoc] at h3
    simp only [number, rename, h0, ihl _ h1, ihr _ h2, ih _ h3]
  | loop id b hh rest ihb ih =>
    intro n h
    simp only [ids, List.map_cons, List.length_cons, List.range'_succ, List.map_append, List.length_append,
      ← List.range'_append_1] at h
    obtain ⟨h0, h⟩ := List.cons.inj h
    obtain ⟨h1, h2⟩ := List.append_inj h (by simp)
    simp only [number, rename, h0, ihb _ h1, ih _ h2]
  | exit id b w rest ih =>
    intro n h
    simp only [ids, List.map_cons, List.length_cons, List.range'_succ] at h
    obtain ⟨h0, h⟩ := List.cons.inj h
    simp only [number, rename, h0, ih _ h]

theorem number_finished (s : Program) (n : Nat) : (number n s).finished = s.finished := by cases s <;> rfl

theorem number_wellFormed : ∀ (s : Program) (n : Nat) (tail more : Bool), s.WellFormed tail more →
    (number n s).WellFormed tail more := by
  intro s
  induction s with
  | done => intro n t m h; exact h
  | ret id => intro n t m h; exact h
  | atom id rest ih => intro n t m h; exact ih _ _ _ h
  | sel id l r hh w rest ihl ihr ih =>
    intro n t m h
    obtain ⟨h1, h2, h3⟩ := h
    simp only [number, WellFormed, number_finished]
    exact ⟨ihl _ _ _ h1, ihr _ _ _ h2, ih _ _ _ h3⟩
  | loop id b hh rest ihb ih =>
    intro n t m h
    exact ⟨ihb _ _ _ h.1, ih _ _ _ h.2⟩
  | exit id b w rest ih =>
    intro n t m h
    exact ⟨h.1, ih _ _ _ h.2⟩

theorem rename_toChain (σ : UInt32 → UInt32) (s : Program) :
    (rename σ s).toChain = renameChain σ s.toChain ∧ (rename σ s).toChains = renameChains σ s.toChains := by
  induction s with
  | done => exact ⟨rfl, rfl⟩
  | ret id => exact ⟨rfl, rfl⟩
  | atom id rest ih => simp only [rename, toChain, toChains, renameChain, renameChains, ih, and_self]
  | sel id l r hh w rest ihl ihr ih =>
    simp only [rename, toChain, toChains, renameChain, renameChains, ih, ihl, ihr, and_self]
  | loop id b hh rest ihb ih => simp only [rename, toChain, toChains, renameChain, renameChains, ih, ihb, and_self]
  | exit id b w rest ih =>
    cases b <;> simp only [rename, toChain, toChains, renameChain, renameChains, ih, and_self, if_true, if_false,
      Bool.false_eq_true]

/-- The copy of a block -/
def image (σ : UInt32 → UInt32) (id : BlockId) : BlockId := ⟨σ id.val⟩

theorem rename_entry (σ : UInt32 → UInt32) (s : Program) (k : Option BlockId) :
    (rename σ s).entry (k.map (image σ)) = (s.entry k).map (image σ) := by
  cases s <;> rfl

theorem target_image (σ : UInt32 → UInt32) {k : Option BlockId} (h : ∃ e, k = some e) :
    Program.target (k.map (image σ)) = σ (Program.target k) := by
  obtain ⟨e, rfl⟩ := h
  rfl

theorem rename_ends (σ : UInt32 → UInt32) : ∀ (s : Program) (lp : Option (BlockId × BlockId)) (k : Option BlockId)
    (tail : Bool), s.WellFormed tail k.isSome → (tail = true → lp.isSome = true) →
    (rename σ s).ends (lp.map fun p => (image σ p.1, image σ p.2)) (k.map (image σ)) =
      (s.ends lp k).map fun p => (image σ p.1, p.2.rename σ) := by
  intro s
  induction s with
  | done => intros; rfl
  | ret id => intros; rfl
  | atom id rest ih =>
    intro lp k tail hw hl
    simp only [rename, ends, List.map_cons, ih lp k tail hw hl, rename_entry, target_image σ (entry_some rest hw)]
    rfl
  | sel id l r hh w rest ihl ihr ih =>
    intro lp k tail hw hl
    obtain ⟨h1, h2, h3⟩ := hw
    obtain ⟨e, he⟩ := entry_some rest h3
    have hl' : (tail && rest.finished) = true → lp.isSome = true := fun h => hl (Bool.and_eq_true_iff.mp h).1
    have t1 := target_image σ (entry_some l (k := some e) h1)
    have t2 := target_image σ (entry_some r (k := some e) h2)
    have i1 := ihl lp (some e) _ h1 hl'
    have i2 := ihr lp (some e) _ h2 hl'
    simp only [rename, ends, List.map_cons, List.map_append, ih lp k tail h3 hl, rename_entry, he, i1, i2, t1, t2]
    rfl
  | loop id b hh rest ihb ih =>
    intro lp k tail hw hl
    obtain ⟨h1, h3⟩ := hw
    obtain ⟨e, he⟩ := entry_some rest h3
    have t1 := target_image σ (entry_some b (k := some id) h1)
    have i1 := ihb (some (id, e)) (some id) true h1 fun _ => rfl
    have re := rename_entry σ b (some id)
    simp only [Option.map_some] at t1 i1 re
    simp only [rename, ends, List.map_cons, List.map_append, ih lp k tail h3 hl, rename_entry, he, Option.map_some]
    have e1 : (⟨Program.target (some (image σ e))⟩ : BlockId) = image σ e := rfl
    have e2 : (⟨Program.target (some e)⟩ : BlockId) = e := rfl
    have e3 : (⟨σ id.val⟩ : BlockId) = image σ id := rfl
    rw [e1, e2, e3, i1, re, t1]
    rfl
  | exit id b w rest ih =>
    intro lp k tail hw hl
    obtain ⟨ht, h3⟩ := hw
    obtain ⟨p, rfl⟩ := Option.isSome_iff_exists.mp (hl ht)
    simp only [rename, ends, List.map_cons, ih (some p) k tail h3 hl, rename_entry, target_image σ (entry_some rest h3)]
    cases b <;> rfl

/-! ### The blocks -/

/-- Another condition -/
def withCondition (c : Option OpId) : GroupBranch → GroupBranch
  | .OpBranchConditional op => .OpBranchConditional { op with condition := c.getD op.condition }
  | b => b

/-- A copy of a block -/
def copyBlock (b : BasicBlock X) (id : BlockId) (e : BlockEnd) : BasicBlock X :=
  { blockFor (X := X) id e with code := b.code, branch := withCondition (conditionOf b) (blockFor (X := X) id e).branch }

theorem copy_label (b : BasicBlock X) (id : BlockId) (e : BlockEnd) : labelId (copyBlock b id e) = id.val :=
  blockFor_label id e

theorem copy_end (b : BasicBlock X) (id : BlockId) (e : BlockEnd) : endOf (copyBlock b id e) = e := by cases e <;> rfl

theorem blockFor_end (id : BlockId) (e : BlockEnd) : endOf (blockFor (X := X) id e) = e := by cases e <;> rfl

theorem copy_of {σ : UInt32 → UInt32} {b : BasicBlock X} {id : BlockId} {e : BlockEnd} (hl : labelId b = σ id.val)
    (he : endOf b = e.rename σ) : CopyOf σ (copyBlock b id e) b := by
  refine ⟨by rw [copy_label, hl], rfl, by rw [copy_end, he], ?_⟩
  obtain ⟨bl, bc, bm, bb⟩ := b
  rcases bm with - | (m | m) <;> cases bb <;> cases e <;> first | (cases he; done) | rfl

/-! ### What copies compute -/

theorem enter_copy {σ : UInt32 → UInt32} {M : Machine X S} {b b' : BasicBlock X} (h : CopyOf σ b b') (c : Config S) :
    M.enter b' (c.through σ) = ((M.through σ).enter b c).through σ := by
  simp only [Machine.enter, Config.through, Machine.through, h.label, h.code, Option.map_some]

/-- As long as the copies do not get stuck, the blocks do what their copies do. -/
theorem run_copies {σ : UInt32 → UInt32} {M : Machine X S} {f g : List (BasicBlock X)} (hg : (g.map labelId).Nodup)
    (h : ∀ b ∈ f, ∃ b' ∈ g, CopyOf σ b b') : ∀ (n : Nat) (id : BlockId) (c : Config S),
    (runMachine (M.through σ) f n id c).2.2 ≠ .stuck →
    runMachine M g n ⟨σ id.val⟩ (c.through σ) = throughRun σ (runMachine (M.through σ) f n id c)
  | 0, id, c, _ => rfl
  | n + 1, id, c, hs => by
    rw [runMachine] at hs
    cases hb : blockOf f id with
    | none =>
      rw [hb] at hs
      exact absurd rfl hs
    | some b =>
      obtain ⟨hm, hl⟩ := Magma.blockOf_some hb
      obtain ⟨b', hm', hc⟩ := h b hm
      have hb' : blockOf g ⟨σ id.val⟩ = some b' := by
        rw [← hl, ← hc.label]
        exact Magma.blockOf_mem hg hm'
      rw [runMachine, runMachine, hb, hb']
      rw [hb] at hs
      dsimp only at hs ⊢
      rw [enter_copy hc]
      have he := hc.ends
      have hd := hc.condition
      have ih := run_copies (M := M) hg h n
      obtain ⟨bl, bc, bm, bb⟩ := b
      obtain ⟨bl', bc', bm', bb'⟩ := b'
      cases bb with
      | OpReturn op =>
        cases bb' with
        | OpReturn op' => rfl
        | OpBranch op' => rcases bm' with _ | (_ | _) <;> cases he
        | OpBranchConditional op' => cases hd
      | OpBranch op =>
        cases bb' with
        | OpReturn op' => rcases bm with _ | (_ | _) <;> cases he
        | OpBranchConditional op' => cases hd
        | OpBranch op' =>
          have ht : op'.target_label.val = σ op.target_label.val := by
            rcases bm with _ | (_ | _) <;> rcases bm' with _ | (_ | _) <;> first
              | (simp only [endOf, BlockEnd.rename, BlockEnd.goto.injEq, BlockEnd.gotoLoop.injEq,
                  BlockEnd.gotoSelection.injEq] at he
                 first | exact he | exact he.1)
              | cases he
          dsimp only at hs ⊢
          rw [ht, ih ⟨op.target_label.val⟩ _ hs]
          rfl
      | OpBranchConditional op =>
        cases bb' with
        | OpReturn op' => cases hd
        | OpBranch op' => cases hd
        | OpBranchConditional op' =>
          have ht : op'.true_label.val = σ op.true_label.val ∧ op'.false_label.val = σ op.false_label.val := by
            rcases bm with _ | (_ | _) <;> rcases bm' with _ | (_ | _) <;> first
              | (simp only [endOf, BlockEnd.rename, BlockEnd.choose.injEq, BlockEnd.chooseLoop.injEq,
                  BlockEnd.chooseSelection.injEq] at he
                 exact ⟨he.1, he.2.1⟩)
              | cases he
          have hd : op'.condition = op.condition := Option.some.inj hd
          dsimp only at hs ⊢
          rw [ht.1, ht.2, hd]
          have e : (if M.holds op.condition (Config.through σ ((M.through σ).enter ⟨bl, bc, bm, .OpBranchConditional op⟩ c)).state
              then σ op.true_label.val else σ op.false_label.val) =
              σ (if (M.through σ).holds op.condition ((M.through σ).enter ⟨bl, bc, bm, .OpBranchConditional op⟩ c).state
                then op.true_label.val else op.false_label.val) := (apply_ite σ _ _ _).symm
          rw [e, ih ⟨_⟩ _ hs]
          rfl

end Magma.Unfold
