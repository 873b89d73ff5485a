import Verif.Proofs.Slack
import Verif.Proofs.Header
import Verif.Proofs.Reference
/-! C80: tidied words have the same outcome. -/

namespace Magma.Slacks
open Spec
variable {α β X : Type}

theorem alike_refl (r : R α) : Agrees r r := .inl rfl

theorem alike_bind {r r' : R α} {f f' : α → R β} (h : Agrees r r') (hf : ∀ a, Agrees (f a) (f' a)) :
    Agrees (r >>= f) (r' >>= f') := by
  rcases h with rfl | ⟨e, rfl, rfl⟩
  · match r' with
    | .ok a => exact hf a
    | .error _ => exact .inl rfl
  · exact .inr ⟨e, rfl, rfl⟩

theorem alike_same {r r' : R α} (h : Agrees r r') (f : α → R β) : Agrees (r >>= f) (r' >>= f) :=
  alike_bind h fun _ => alike_refl _

/-- A type of one word -/
class Word (α : Type) [MemoryBlockRead α] : Prop where
  read_cons : ∃ g : UInt32 → R α, ∀ w ws, (MemoryBlockRead.read (w :: ws) : R (Block × α)) = g w >>= fun a => .ok (ws, a)

instance : Word OpId := ⟨fun w => .ok ⟨w⟩, fun _ _ => rfl⟩
instance : Word ResultId := ⟨fun w => .ok ⟨w⟩, fun _ _ => rfl⟩
instance : Word UInt32 := ⟨fun w => .ok w, fun _ _ => rfl⟩
instance : Word SourceVersion := ⟨fun w => .ok ⟨w⟩, fun _ _ => rfl⟩
instance : Word MemberIndex := ⟨fun w => .ok ⟨w⟩, fun _ _ => rfl⟩
instance : Word SourceLanguage := ⟨fun w => match SourceLanguage.table.lookup w with
    | some lang => .ok lang
    | none => .ok (.Other w), fun w ws => by
  show (match SourceLanguage.table.lookup w with
    | some lang => pure (ws, lang)
    | none => pure (ws, .Other w) : R (Block × SourceLanguage)) = _
  dsimp only
  cases SourceLanguage.table.lookup w <;> rfl⟩

theorem word_enum (table : List (UInt32 × α)) (e : UInt32 → ReadError) : ∃ g : UInt32 → R α, ∀ w ws,
    readEnum table e (w :: ws) = g w >>= fun a => .ok (ws, a) := by
  refine ⟨fun w => match table.lookup w with
    | some a => .ok a
    | none => fail (e w), fun w ws => ?_⟩
  show (match table.lookup w with
    | some a => pure (ws, a)
    | none => fail (e w) : R (Block × α)) = _
  dsimp only
  cases table.lookup w <;> rfl

instance : Word ExecutionModel := ⟨word_enum _ _⟩
instance [MemoryBlockRead α] [Word α] : Word (Option α) := by
  obtain ⟨g, hg⟩ := Word.read_cons (α := α)
  refine ⟨fun w => g w >>= fun a => .ok (some a), fun w ws => ?_⟩
  show (MemoryBlockRead.read (w :: ws) >>= fun p => pure (p.1, some p.2) : R (Block × Option α)) = _
  rw [hg]
  dsimp only
  cases g w <;> rfl

/-- The words of the operands before stay the same. -/
theorem alike_word [MemoryBlockRead α] [Word α] {k k' : Block × α → R β} {w : UInt32} {ws ws' : Block}
    (h : ∀ a, Agrees (k (ws, a)) (k' (ws', a))) :
    Agrees (MemoryBlockRead.read (w :: ws) >>= k) (MemoryBlockRead.read (w :: ws') >>= k') := by
  obtain ⟨g, hg⟩ := Word.read_cons (α := α)
  rw [hg, hg]
  match g w with
  | .ok a => exact h a
  | .error _ => exact .inl rfl

theorem wordBytes_upToNul {w : UInt32} (h1 : (wordBytes w).contains 0 = true) :
    (wordBytes (upToNul w)).contains 0 = true ∧
      (wordBytes (upToNul w)).takeWhile (· != 0) = (wordBytes w).takeWhile (· != 0) := by
  obtain ⟨a, b, c, d, hw, hp⟩ := wordBytes_packs w
  rw [hw] at h1 ⊢
  rw [hp, upToNul_pack]
  have z : (0 : UInt32) = packWord 0 0 0 0 := rfl
  by_cases c1 : a = 0
  · simp [c1, z, wordBytes_packWord]
  · by_cases c2 : b = 0
    · simp [c1, c2, wordBytes_packWord]
    · by_cases c3 : c = 0
      · simp [c1, c2, c3, wordBytes_packWord]
      · by_cases c4 : d = 0
        · simp [c1, c2, c3, c4, wordBytes_packWord]
        · simp [Ne.symm c1, Ne.symm c2, Ne.symm c3, Ne.symm c4] at h1

theorem readStringLoop_tidy : ∀ (ws : Block) (acc : List UInt8),
    readStringLoop (tidyText _root_.id ws) acc = readStringLoop ws acc
  | [], _ => rfl
  | w :: ws, acc => by
    rw [tidyText]
    split
    · rename_i h
      obtain ⟨h1, h2⟩ := wordBytes_upToNul h
      simp only [readStringLoop]
      rw [pushChars_eq, pushChars_eq, wordChars_eq, wordChars_eq, h, h1]
      have e : ∀ l : List UInt8, l.takeWhile (· ≠ 0) = l.takeWhile (· != 0) := fun l => by
        congr 1
        funext x
        by_cases hx : x = 0 <;> simp [hx]
      rw [e, e, h2]
      rfl
    · rename_i h
      have h : (wordBytes w).contains 0 = false := by simpa using h
      rw [readStringLoop, readStringLoop, pushChars_eq, wordChars_eq, h]
      exact readStringLoop_tidy ws _

theorem readString_tidy (ws : Block) : (MemoryBlockRead.read (tidyText _root_.id ws) : R (Block × String)) =
    MemoryBlockRead.read ws := by
  show (readStringLoop (tidyText _root_.id ws) [] >>= _) = (readStringLoop ws [] >>= _)
  rw [readStringLoop_tidy]

theorem tidy_none : tidy [] = _root_.id := by
  funext ws
  rw [tidy, _root_.id]

theorem alike_text {k : Block × String → R β} {ws : Block} :
    Agrees (MemoryBlockRead.read ws >>= k) (MemoryBlockRead.read (tidy [.text] ws) >>= k) := by
  rw [tidy, tidy_none, readString_tidy]
  exact alike_refl _

theorem alike_textOption {k : Block × Option String → R β} {ws : Block} :
    Agrees (MemoryBlockRead.read ws >>= k) (MemoryBlockRead.read (tidy [.text] ws) >>= k) := by
  match ws with
  | [] => exact alike_refl _
  | w :: ws =>
    have h : ∃ w' ws', tidy [.text] (w :: ws) = w' :: ws' := by
      rw [tidy, tidyText]
      split <;> exact ⟨_, _, rfl⟩
    obtain ⟨w', ws', h⟩ := h
    have ht := alike_text (k := fun p => pure (p.1, some p.2)) (ws := w :: ws)
    rw [h] at ht ⊢
    exact alike_same ht k

/-! ### Masks -/

theorem clear_and (w i b : UInt32) (h : ~~~i &&& b = b) : (w &&& ~~~i) &&& b = w &&& b := by
  rw [UInt32.and_assoc, h]

theorem alike_ite {c c' : Prop} [Decidable c] [Decidable c'] (hc : c ↔ c') {e : ReadError} {r r' : R α} (h : Agrees r r') :
    Agrees (if c then fail e else r) (if c' then fail (tidyError e) else r') := by
  by_cases h1 : c
  · rw [if_pos h1, if_pos (hc.mp h1)]
    exact .inr ⟨e, rfl, rfl⟩
  · rw [if_neg h1, if_neg fun h => h1 (hc.mpr h)]
    exact h

theorem alike_functionControl (w : UInt32) (ws : Block) : Agrees (MemoryBlockRead.read (w :: ws) : R (Block × FunctionControl))
    (MemoryBlockRead.read ((w &&& ~~~0xFFFFFFF0) :: ws)) := by
  refine .inl ?_
  simp only [MemoryBlockRead.read, Block.readWord, ok_bind]
  rw [clear_and w _ 1 (by decide), clear_and w _ 2 (by decide), clear_and w _ 4 (by decide), clear_and w _ 8 (by decide)]

theorem alike_memoryAccess (w : UInt32) (ws : Block) : Agrees (MemoryBlockRead.read (w :: ws) : R (Block × MemoryAccess))
    (MemoryBlockRead.read ((w &&& ~~~0xFFFF0000) :: ws)) := by
  simp only [MemoryBlockRead.read, Block.readWord, ok_bind]
  rw [clear_and w _ 1 (by decide), clear_and w _ 2 (by decide), clear_and w _ 4 (by decide), clear_and w _ 0xFFF8 (by decide)]
  exact alike_ite Iff.rfl (alike_refl _)

theorem alike_fastMath (w : UInt32) (ws : Block) : Agrees (MemoryBlockRead.read (w :: ws) : R (Block × FpFastMathMode))
    (MemoryBlockRead.read ((w &&& ~~~0xFFFF0020) :: ws)) := by
  simp only [MemoryBlockRead.read, Block.readWord, ok_bind]
  rw [clear_and w _ 1 (by decide), clear_and w _ 2 (by decide), clear_and w _ 4 (by decide), clear_and w _ 8 (by decide),
    clear_and w _ 16 (by decide), clear_and w _ 0xFFC0 (by decide)]
  exact alike_ite Iff.rfl (alike_refl _)

theorem alike_loopControl (w : UInt32) (ws : Block) : Agrees (MemoryBlockRead.read (w :: ws) : R (Block × LoopControl))
    (MemoryBlockRead.read ((w &&& ~~~0xFFFF0000) :: ws)) := by
  simp only [MemoryBlockRead.read, Block.readWord, ok_bind]
  rw [clear_and w _ 1 (by decide), clear_and w _ 2 (by decide), clear_and w _ 4 (by decide), clear_and w _ 8 (by decide),
    clear_and w _ 0xFFF0 (by decide)]
  exact alike_ite Iff.rfl (alike_refl _)

theorem alike_selectionControl (w : UInt32) (ws : Block) : Agrees (MemoryBlockRead.read (w :: ws) : R (Block × SelectionControl))
    (MemoryBlockRead.read ((w &&& ~~~0xFFFF0000) :: ws)) := by
  simp only [MemoryBlockRead.read, Block.readWord, ok_bind]
  rw [clear_and w _ 1 (by decide), clear_and w _ 2 (by decide), clear_and w _ 0xFFFC (by decide)]
  exact alike_ite Iff.rfl (alike_refl _)

theorem alike_option [MemoryBlockRead α] {w w' : UInt32} {ws : Block}
    (h : Agrees (MemoryBlockRead.read (w :: ws) : R (Block × α)) (MemoryBlockRead.read (w' :: ws))) :
    Agrees (MemoryBlockRead.read (w :: ws) : R (Block × Option α)) (MemoryBlockRead.read (w' :: ws)) :=
  alike_same h fun p => pure (p.1, some p.2)

/-! ### Decorations -/

theorem alike_decoration (ws : Block) : Agrees (MemoryBlockRead.read ws : R (Block × Decoration))
    (MemoryBlockRead.read (tidy (decorationSlack ws) ws)) := by
  match ws with
  | [] => exact alike_refl _
  | d :: ws =>
    rw [decorationSlack]
    by_cases h1 : d = 40
    · subst h1
      match ws with
      | [] => exact alike_refl _
      | w :: ws => exact alike_same (alike_fastMath w ws) fun p => pure (p.1, Decoration.FpFastMathMode p.2)
    · by_cases h2 : d = 41
      · subst h2
        exact alike_text (ws := ws)
          (k := fun p => MemoryBlockRead.read p.1 >>= fun q => pure (q.1, Decoration.LinkageAttributes p.2 q.2))
      · rw [if_neg h1, if_neg h2]
        exact alike_refl _

/-! ### Instructions -/

theorem alike_lift {read : Block → R (Block × α)} {mk : α → Core X} {ops ops' : Block} {known : List (ExtInstSet X)}
    {bound : BoundSets X} (h : Agrees (read ops) (read ops')) :
    Agrees (liftOp read mk ops known bound) (liftOp read mk ops' known bound) :=
  alike_same h fun p => pure ((p.1, mk p.2), bound)

theorem alike_entry (code : Nat) (f : CoreReader X) (h : (opTable X).lookup code = some (.read f)) (ops : Block)
    (known : List (ExtInstSet X)) (bound : BoundSets X) :
    Agrees (f ops known bound) (f (tidy (slackOf code ops) ops) known bound) := by
  unfold slackOf
  split
  · cases h
    exact alike_lift alike_text
  · cases h
    exact alike_lift alike_text
  · cases h
    exact alike_lift alike_text
  · cases h
    refine alike_lift ?_
    match ops with
    | [] => exact alike_refl _
    | _ :: ws => exact alike_word fun _ => alike_text
  · cases h
    refine alike_lift ?_
    match ops with
    | [] => exact alike_refl _
    | _ :: ws => exact alike_word fun _ => alike_text
  · cases h
    match ops with
    | [] => exact alike_refl _
    | _ :: ws => exact alike_word fun _ => alike_text
  · cases h
    refine alike_lift ?_
    match ops with
    | [] => exact alike_refl _
    | _ :: ws => exact alike_word fun _ => alike_text
  · cases h
    refine alike_lift ?_
    match ops with
    | [] => exact alike_refl _
    | [_] => exact alike_refl _
    | _ :: _ :: ws => exact alike_word fun _ => alike_word fun _ => alike_text
  · cases h
    refine alike_lift ?_
    match ops with
    | [] => exact alike_refl _
    | [_] => exact alike_refl _
    | _ :: _ :: ws => exact alike_word fun _ => alike_word fun _ => alike_text
  · cases h
    refine alike_lift ?_
    match ops with
    | [] => exact alike_refl _
    | [_] => exact alike_refl _
    | [_, _] => exact alike_refl _
    | _ :: _ :: _ :: ws => exact alike_word fun _ => alike_word fun _ => alike_word fun _ => alike_textOption
  · cases h
    refine alike_lift ?_
    match ops with
    | [] => exact alike_refl _
    | [_] => exact alike_refl _
    | [_, _] => exact alike_refl _
    | _ :: _ :: w :: ws => exact alike_word fun _ => alike_word fun _ => alike_same (alike_functionControl w ws) _
  · cases h
    refine alike_lift ?_
    match ops with
    | [] => exact alike_refl _
    | [_] => exact alike_refl _
    | [_, _] => exact alike_refl _
    | [_, _, _] => exact alike_refl _
    | _ :: _ :: _ :: w :: ws =>
      exact alike_word fun _ => alike_word fun _ => alike_word fun _ => alike_same (alike_option (alike_memoryAccess w ws)) _
  · cases h
    refine alike_lift ?_
    match ops with
    | [] => exact alike_refl _
    | [_] => exact alike_refl _
    | [_, _] => exact alike_refl _
    | _ :: _ :: w :: ws =>
      exact alike_word fun _ => alike_word fun _ => alike_same (alike_option (alike_memoryAccess w ws)) _
  · cases h
    refine alike_lift ?_
    match ops with
    | [] => exact alike_refl _
    | [_] => exact alike_refl _
    | [_, _] => exact alike_refl _
    | _ :: _ :: w :: ws => exact alike_word fun _ => alike_word fun _ => alike_same (alike_loopControl w ws) _
  · cases h
    refine alike_lift ?_
    match ops with
    | [] => exact alike_refl _
    | [_] => exact alike_refl _
    | _ :: w :: ws => exact alike_word fun _ => alike_same (alike_selectionControl w ws) _
  · cases h
    refine alike_lift ?_
    match ops with
    | [] => exact alike_refl _
    | _ :: ws => exact alike_word fun _ => alike_same (alike_decoration ws) _
  · cases h
    refine alike_lift ?_
    match ops with
    | [] => exact alike_refl _
    | [_] => exact alike_refl _
    | _ :: _ :: ws => exact alike_word fun _ => alike_word fun _ => alike_same (alike_decoration ws) _
  · exact alike_refl _

theorem tidyHead_low (head : UInt32) : (tidyHead head &&& 0xFFFF).toUInt16 = (head &&& 0xFFFF).toUInt16 := by
  rw [← UInt16.toNat_inj, opcode_word, opcode_word, tidyHead_toNat]
  omega

theorem tidyHead_high (head : UInt32) : (tidyHead head >>> 16).toUInt16 =
    if (head >>> 16).toUInt16 = 0 then (1 : UInt16) else (head >>> 16).toUInt16 := by
  have h := wc_word head
  have h' := wc_word (tidyHead head)
  rw [tidyHead_toNat] at h'
  split
  · rename_i hz
    rw [hz] at h
    rw [← UInt16.toNat_inj, h']
    have : (0 : UInt16).toNat = 0 := rfl
    have : (1 : UInt16).toNat = 1 := rfl
    omega
  · rename_i hz
    rw [← UInt16.toNat_inj] at hz ⊢
    have : (0 : UInt16).toNat = 0 := rfl
    omega

theorem alike_decode (head : UInt32) (ops : Block) (known : List (ExtInstSet X)) (bound : BoundSets X) :
    Agrees (decode head ops known bound)
      (decode (tidyHead head) (tidy (slackOf (head.toNat % 65536) ops) ops) known bound) := by
  rw [decode, decode, tidyHead_low, tidyHead_high]
  have he := opcode_word head
  cases hl : (opTable X).lookup (head &&& 0xFFFF).toUInt16.toNat with
  | none => exact .inr ⟨_, rfl, rfl⟩
  | some e =>
    cases e with
    | unimplemented name => exact alike_refl _
    | read f =>
      rw [he] at hl
      exact alike_same (alike_entry _ f hl ops known bound) _

theorem opWords_tidyHead (head : UInt32) : opWords (tidyHead head) = opWords head := by
  rw [opWords, opWords, tidyHead_toNat]
  have := head.toNat_lt
  omega

theorem alike_body (known : List (ExtInstSet X)) (t : List UInt8) (bound : BoundSets X) (ws : List UInt32) :
    Agrees (bodyW known bound t ws) (bodyW known bound t (tidyBody ws)) := by
  match ws with
  | [] => rw [tidyBody]; exact alike_refl _
  | head :: ws =>
    rw [tidyBody_cons]
    by_cases h : ws.length < opWords head
    · rw [bodyW_short h, bodyW_short]
      · exact alike_refl _
      · rw [opWords_tidyHead, List.length_append, tidy_length, tidyBody_length, ← List.length_append,
          List.take_append_drop]
        exact h
    · have h : opWords head ≤ ws.length := by omega
      have ht : (tidy (slackOf (head.toNat % 65536) (ws.take (head.toNat / 65536 - 1)))
          (ws.take (head.toNat / 65536 - 1))).length = opWords (tidyHead head) := by
        rw [tidy_length, List.length_take, opWords_tidyHead]
        exact Nat.min_eq_left h
      rw [bodyW_cons h, bodyW_cons (by rw [List.length_append, ht]; omega), List.take_left' ht, List.drop_left' ht]
      exact alike_bind (alike_decode head _ known bound) fun p => alike_same (alike_body known t p.2 _) _
  termination_by ws.length
  decreasing_by simp; omega

theorem readVersion_tidy (w : UInt32) : readVersion (tidyVersion w) = readVersion w := by
  have hw := w.toNat_lt
  have ht : (tidyVersion w).toNat = w.toNat / 16777216 * 16777216 + w.toNat / 65536 % 16 * 65536 +
      w.toNat / 256 % 16 * 256 + w.toNat % 16 := by
    rw [tidyVersion, UInt32.toNat_ofNat', Nat.mod_eq_of_lt (by omega)]
  have key : ∀ a b c d : Nat, b < 16 → c < 16 → d < 16 →
      (a * 16777216 + b * 65536 + c * 256 + d) / 16777216 = a ∧
      (a * 16777216 + b * 65536 + c * 256 + d) / 65536 % 16 = b ∧
      (a * 16777216 + b * 65536 + c * 256 + d) / 256 % 16 = c ∧
      (a * 16777216 + b * 65536 + c * 256 + d) % 16 = d := fun a b c d _ _ _ =>
    ⟨by omega, by omega, by omega, by omega⟩
  obtain ⟨h1, h2, h3, h4⟩ := key (w.toNat / 16777216) (w.toNat / 65536 % 16) (w.toNat / 256 % 16) (w.toNat % 16)
    (Nat.mod_lt _ (by decide)) (Nat.mod_lt _ (by decide)) (Nat.mod_lt _ (by decide))
  rw [← ht] at h1 h2 h3 h4
  by_cases h : IsVersionWord w
  · have h' : IsVersionWord (tidyVersion w) := by rw [IsVersionWord, h1, h2, h3, h4]; exact h
    rw [readVersion_iff.mpr ⟨h, rfl⟩, readVersion_iff.mpr ⟨h', rfl⟩]
  · have h' : ¬ IsVersionWord (tidyVersion w) := by rw [IsVersionWord, h1, h2, h3, h4]; exact h
    rw [readVersion_error h, readVersion_error h', h1, h2, h3, h4]

theorem alike_header (known : List (ExtInstSet X)) (t : List UInt8) (ws : List UInt32) :
    Agrees (headerW known t ws) (headerW known t (tidyWords ws)) := by
  match ws with
  | [] => exact alike_refl _
  | [_] => exact alike_refl _
  | [_, _] => exact alike_refl _
  | [_, _, _] => exact alike_refl _
  | ver :: gen :: bound :: zero :: ws =>
    rw [tidyWords, headerW, headerW, readVersion_tidy]
    refine alike_bind (alike_refl _) fun v => ?_
    split
    · exact alike_refl _
    · exact alike_same (alike_body known t [] ws) _

end Magma.Slacks
