import Verif.Spec.Standard
import Verif.Proofs.ReferenceModule
/-! Lemmas: the reference for the reader against the tables of the standard. -/

namespace Magma.Standard
open Spec hiding wordsOf Operand
variable {X : Type}

/-- The check takes the words of an operand from the front. -/
class Realises (c : Check) (k : Kind) : Prop where
  iff : ∀ ws rest, c ws = .ok rest ↔ ∃ us, ws = us ++ rest ∧ crate k us

/-- The checks let the operands of the table through. -/
def Lets (cs : List Check) (items : List Item) : Prop := ∀ ws, inTurn cs ws = .ok [] ↔ Fit crate items ws

theorem bind_ok' {α β : Type} {x : Except ReadError α} {f : α → Except ReadError β} {b : β} :
    (x >>= f) = .ok b ↔ ∃ a, x = .ok a ∧ f a = .ok b := by
  cases x with
  | error e => exact ⟨fun h => (by cases h), fun ⟨_, h, _⟩ => by cases h⟩
  | ok a => exact ⟨fun h => ⟨a, rfl, h⟩, fun ⟨_, h, h'⟩ => by cases h; exact h'⟩

theorem Lets.nil : Lets [] [] := fun ws =>
  ⟨fun h => by injection h, fun h => by rw [show ws = [] from h]; rfl⟩

theorem Lets.one {c : Check} {k : Kind} {cs : List Check} {items : List Item} [Realises c k] (h : Lets cs items) :
    Lets (c :: cs) (.one k :: items) := by
  intro ws
  simp only [inTurn, Fit, bind_ok']
  constructor
  · rintro ⟨rest, hc, hr⟩
    obtain ⟨us, rfl, hk⟩ := (Realises.iff (k := k) _ _).mp hc
    exact ⟨us, rest, rfl, hk, (h rest).mp hr⟩
  · rintro ⟨us, vs, rfl, hk, hf⟩
    exact ⟨vs, (Realises.iff (k := k) _ _).mpr ⟨us, rfl, hk⟩, (h vs).mpr hf⟩

theorem Lets.opt {c : Check} {k : Kind} {cs : List Check} {items : List Item} [Realises c k] (h : Lets cs items)
    (he : Fit crate items []) : Lets (optionally c :: cs) (.opt k :: items) := by
  intro ws
  cases ws with
  | nil =>
    simp only [inTurn, Fit, optionally, true_or, iff_true]
    exact (h []).mpr he
  | cons w ws =>
    have := (Lets.one (k := k) (c := c) h) (w :: ws)
    simp only [inTurn, Fit, optionally, reduceCtorEq, false_or] at this ⊢
    exact this

theorem Lets.value : Lets [anyWords] [.one .value] := fun ws =>
  ⟨fun _ => ⟨ws, [], by simp, trivial, rfl⟩, fun _ => rfl⟩

theorem manyOf_id (ws : List UInt32) : manyOf crate .id ws := by
  refine ⟨ws.map fun w => [w], ?_, ?_⟩
  · induction ws with
    | nil => rfl
    | cons w ws ih => rw [List.map_cons, List.flatten_cons, ← ih]; rfl
  · intro p hp
    obtain ⟨w, _, rfl⟩ := List.mem_map.mp hp
    exact ⟨w, rfl⟩

theorem Lets.ids : Lets [anyWords] [.many .id] := fun ws =>
  ⟨fun _ => ⟨ws, [], by simp, manyOf_id ws, rfl⟩, fun _ => rfl⟩

theorem manyOf_pair (n : Nat) : ∀ ws : List UInt32, ws.length = 2 * n → manyOf crate .phiPair ws := by
  induction n with
  | zero =>
    intro ws h
    exact ⟨[], by simpa using h, by simp⟩
  | succ n ih =>
    intro ws h
    match ws, h with
    | v :: w :: ws, h =>
      obtain ⟨parts, rfl, hp⟩ := ih ws (by simp at h; omega)
      refine ⟨[v, w] :: parts, rfl, ?_⟩
      rintro p (_ | ⟨_, hm⟩)
      · exact ⟨v, w, rfl⟩
      · exact hp p hm

theorem even_of_pairs (parts : List (List UInt32)) (h : ∀ p ∈ parts, crate .phiPair p) :
    parts.flatten.length % 2 = 0 := by
  induction parts with
  | nil => rfl
  | cons p parts ih =>
    obtain ⟨v, w, rfl⟩ := h p (List.mem_cons_self ..)
    have := ih fun q hq => h q (List.mem_cons_of_mem _ hq)
    rw [List.flatten_cons, List.length_append]
    simp only [List.length_cons, List.length_nil]
    omega

theorem Lets.pairs : Lets [anyPairs] [.many .phiPair] := by
  intro ws
  have hl : inTurn [anyPairs] ws = .ok [] ↔ ws.length % 2 = 0 := by
    simp only [inTurn, anyPairs]
    by_cases h : ws.length % 2 = 0
    · rw [if_pos h]; exact ⟨fun _ => h, fun _ => rfl⟩
    · rw [if_neg h]; exact ⟨fun h' => (by cases h'), fun h' => absurd h' h⟩
  rw [hl]
  constructor
  · intro h
    exact ⟨ws, [], by simp, manyOf_pair (ws.length / 2) ws (by omega), rfl⟩
  · rintro ⟨us, vs, rfl, ⟨parts, rfl, hp⟩, rfl⟩
    rw [List.append_nil]
    exact even_of_pairs parts hp

theorem fit_one (M : Meaning) (ks : List Kind) (ws : List UInt32) : Fit M (ks.map .one) ws ↔ allOf M ks ws := by
  induction ks generalizing ws with
  | nil => exact Iff.rfl
  | cons k ks ih => simp only [List.map_cons, Fit, allOf, ih]

theorem Lets.choice {follow : Nat → Option (List Check)} {e : UInt32 → ReadError} {table : List (Nat × List Kind)}
    (h : ∀ p ∈ table, ∃ cs, follow p.1 = some cs ∧ Lets cs (p.2.map .one))
    (hn : ∀ n, (follow n).isSome = true → ∃ p ∈ table, p.1 = n) : Lets [selects follow e] [.choice table] := by
  intro ws
  cases ws with
  | nil =>
    refine ⟨fun h => (by cases h), ?_⟩
    rintro ⟨w, ks, us, vs, _, hw, _⟩
    cases hw
  | cons w ws =>
    have hl : inTurn [selects follow e] (w :: ws) = .ok [] ↔ ∃ cs, follow w.toNat = some cs ∧ inTurn cs ws = .ok [] := by
      simp only [inTurn, selects]
      cases follow w.toNat with
      | none => exact ⟨fun h => (by cases h), fun ⟨_, h, _⟩ => by cases h⟩
      | some cs =>
        dsimp only
        constructor
        · intro h
          obtain ⟨r, h1, h2⟩ := bind_ok'.mp h
          cases h2
          exact ⟨cs, rfl, h1⟩
        · rintro ⟨cs', hc, h1⟩
          cases hc
          exact bind_ok'.mpr ⟨[], h1, rfl⟩
    rw [hl]
    constructor
    · rintro ⟨cs, hf, hc⟩
      obtain ⟨p, hp, hpw⟩ := hn w.toNat (by rw [hf]; rfl)
      obtain ⟨cs', hf', hlet⟩ := h p hp
      rw [hpw, hf] at hf'
      cases hf'
      refine ⟨w, p.2, ws, [], hpw ▸ hp, by simp, ?_, rfl⟩
      rw [← fit_one]
      exact (hlet ws).mp hc
    · rintro ⟨w', ks, us, vs, hm, hw, ha, rfl⟩
      simp only [List.append_nil, List.cons.injEq] at hw
      obtain ⟨rfl, rfl⟩ := hw
      obtain ⟨cs, hf, hlet⟩ := h _ hm
      exact ⟨cs, hf, (hlet ws).mpr ((fit_one ..).mpr ha)⟩

/-- A check of one word -/
theorem Realises.word {ok : UInt32 → Bool} {e : UInt32 → ReadError} {k : Kind}
    (h : ∀ us, crate k us ↔ ∃ w, us = [w] ∧ ok w = true) : Realises (wordWith ok e) k := by
  constructor
  intro ws rest
  simp only [h]
  cases ws with
  | nil =>
    refine ⟨fun h => (by cases h), ?_⟩
    rintro ⟨_, hu, w, rfl, _⟩
    cases hu
  | cons w ws =>
    simp only [wordWith]
    by_cases hw : ok w = true
    · rw [if_pos hw]
      constructor
      · intro h
        cases h
        exact ⟨[w], rfl, w, rfl, hw⟩
      · rintro ⟨_, hu, w', rfl, _⟩
        cases hu
        rfl
    · rw [if_neg hw]
      refine ⟨fun h => (by cases h), ?_⟩
      rintro ⟨_, hu, w', rfl, hw'⟩
      cases hu
      exact absurd hw' hw

theorem anyWord_eq : anyWord = wordWith (fun _ => true) (fun _ => .BadMagic) := by
  funext ws
  cases ws <;> rfl

theorem Realises.any {k : Kind} (h : ∀ us, crate k us ↔ ∃ w, us = [w]) : Realises anyWord k := by
  rw [anyWord_eq]
  exact .word fun us => by rw [h]; simp

instance : Realises anyWord .id := .any fun _ => Iff.rfl
instance : Realises anyWord .number := .any fun _ => Iff.rfl
instance : Realises anyWord .sourceLanguage := .any fun _ => Iff.rfl
instance : Realises anyWord .functionControl := .any fun _ => Iff.rfl

instance : Realises (inTurn [anyWord, anyWord]) .weights := by
  constructor
  intro ws rest
  match ws with
  | [] => exact ⟨fun h => (by cases h), fun ⟨_, hu, v, w, hk⟩ => by subst hk; cases hu⟩
  | [_] => exact ⟨fun h => (by cases h), fun ⟨_, hu, v, w, hk⟩ => by subst hk; cases hu⟩
  | v :: w :: ws =>
    constructor
    · intro h
      cases h
      exact ⟨[v, w], rfl, v, w, rfl⟩
    · rintro ⟨_, hu, v', w', rfl⟩
      cases hu
      rfl

theorem Realises.upTo {k : Kind} {last : Nat} {reserved : List Nat} {e : UInt32 → ReadError}
    (h : ∀ us, crate k us ↔ ∃ w : UInt32, us = [w] ∧ w.toNat ∈ values k)
    (h1 : ∀ n ∈ values k, n ≤ last ∧ n ∉ reserved)
    (h2 : ∀ n, n < last + 1 → n ∉ reserved → n ∈ values k) : Realises (Spec.upTo last reserved e) k := by
  refine .word fun us => ?_
  rw [h]
  have (w : UInt32) : w.toNat ∈ values k ↔ (decide (w.toNat ≤ last) && !reserved.contains w.toNat) = true := by
    simp only [Bool.and_eq_true, decide_eq_true_eq, Bool.not_eq_true', List.contains_eq_mem, decide_eq_false_iff_not]
    exact ⟨h1 _, fun ⟨a, b⟩ => h2 _ (by omega) b⟩
  simp only [this]

instance {e} : Realises (upTo 2 [] e) .addressingModel := .upTo (fun _ => Iff.rfl) (by decide +kernel) (by decide +kernel)
instance {e} : Realises (upTo 2 [] e) .memoryModel := .upTo (fun _ => Iff.rfl) (by decide +kernel) (by decide +kernel)
instance {e} : Realises (upTo 6 [] e) .executionModel := .upTo (fun _ => Iff.rfl) (by decide +kernel) (by decide +kernel)
instance {e} : Realises (upTo 57 [16, 26] e) .capability :=
  .upTo (fun _ => Iff.rfl) (by decide +kernel) (by decide +kernel)
instance {e} : Realises (upTo 1 [] e) .signedness := .upTo (fun _ => Iff.rfl) (by decide +kernel) (by decide +kernel)
instance {e} : Realises (upTo 6 [] e) .dim := .upTo (fun _ => Iff.rfl) (by decide +kernel) (by decide +kernel)
instance {e} : Realises (upTo 2 [] e) .depth := .upTo (fun _ => Iff.rfl) (by decide +kernel) (by decide +kernel)
instance {e} : Realises (upTo 1 [] e) .arrayed := .upTo (fun _ => Iff.rfl) (by decide +kernel) (by decide +kernel)
instance {e} : Realises (upTo 1 [] e) .multisampled := .upTo (fun _ => Iff.rfl) (by decide +kernel) (by decide +kernel)
instance {e} : Realises (upTo 2 [] e) .sampled := .upTo (fun _ => Iff.rfl) (by decide +kernel) (by decide +kernel)
instance {e} : Realises (upTo 39 [] e) .imageFormat := .upTo (fun _ => Iff.rfl) (by decide +kernel) (by decide +kernel)
instance {e} : Realises (upTo 2 [] e) .accessQualifier := .upTo (fun _ => Iff.rfl) (by decide +kernel) (by decide +kernel)
instance {e} : Realises (upTo 11 [] e) .storageClass := .upTo (fun _ => Iff.rfl) (by decide +kernel) (by decide +kernel)
instance {e} : Realises (upTo 43 [2, 21, 35] e) .builtIn :=
  .upTo (fun _ => Iff.rfl) (by decide +kernel) (by decide +kernel)
instance {e} : Realises (upTo 7 [] e) .parameterAttribute :=
  .upTo (fun _ => Iff.rfl) (by decide +kernel) (by decide +kernel)
instance {e} : Realises (upTo 3 [] e) .roundingMode := .upTo (fun _ => Iff.rfl) (by decide +kernel) (by decide +kernel)
instance {e} : Realises (upTo 1 [] e) .linkageType := .upTo (fun _ => Iff.rfl) (by decide +kernel) (by decide +kernel)

instance {e} : Realises (maskBelow 6 e) .fastMath := .word fun us => by simp [crate]
instance {e} : Realises (maskBelow 2 e) .selectionControl := .word fun us => by simp [crate]

instance : Realises memoryAccess .memoryAccess := .word fun us => by simp [crate]

instance : Realises loopControl .loopControl := by
  constructor
  intro ws rest
  cases ws with
  | nil =>
    refine ⟨fun h => (by cases h), ?_⟩
    rintro ⟨us, hu, w, _, hk⟩
    split at hk
    · obtain ⟨n, rfl⟩ := hk; cases hu
    · subst hk; cases hu
  | cons w ws =>
    have hl : loopControl (w :: ws) = .ok rest ↔ w.toNat % 65536 < 16 ∧
        (if w.toNat.testBit 3 then anyWord ws else .ok ws) = .ok rest := by
      simp only [loopControl, maskBelow, wordWith, List.headD_cons]
      by_cases h : w.toNat % 65536 < 16
      · have h' : w.toNat % 65536 < 2 ^ 4 := h
        rw [if_pos (by simpa using h)]
        exact ⟨fun hr => ⟨h, hr⟩, fun hr => hr.2⟩
      · rw [if_neg (by simpa using h)]
        exact ⟨fun hr => (by cases hr), fun hr => absurd hr.1 h⟩
    rw [hl]
    constructor
    · rintro ⟨h, hr⟩
      by_cases hb : w.toNat.testBit 3 = true
      · rw [if_pos hb] at hr
        cases ws with
        | nil => cases hr
        | cons n ws =>
          cases hr
          refine ⟨[w, n], rfl, w, h, ?_⟩
          rw [if_pos hb]
          exact ⟨n, rfl⟩
      · rw [if_neg hb] at hr
        cases hr
        refine ⟨[w], rfl, w, h, ?_⟩
        rw [if_neg hb]
    · rintro ⟨us, hu, w', h, hk⟩
      by_cases hb : w'.toNat.testBit 3 = true
      · rw [if_pos hb] at hk
        obtain ⟨n, rfl⟩ := hk
        cases hu
        exact ⟨h, by rw [if_pos hb]; rfl⟩
      · rw [if_neg hb] at hk
        subst hk
        cases hu
        exact ⟨h, by rw [if_neg hb]; rfl⟩

theorem spells_any {s : String} {us : List UInt32} : SpellsWith (fun _ => True) s us ↔ SpellsString s us := by
  simp [SpellsWith, SpellsString]

theorem text_iff {ws rest : List UInt32} : text ws = .ok rest ↔
    ∃ us s, ws = us ++ rest ∧ SpellsWith (fun _ => True) s us ∧ textOf ws = some s := by
  have hr := readString_eq ws
  simp only [text]
  constructor
  · intro h
    cases ha : afterText ws with
    | none => rw [ha] at h; cases h
    | some r =>
      rw [ha] at h hr
      dsimp only at h hr
      cases ht : textOf ws with
      | none => rw [ht] at h; cases h
      | some s =>
        rw [ht] at h hr
        dsimp only at hr
        cases h
        obtain ⟨u, _, hu, hs, hd⟩ := (Lawful.iff ws rest s).mp hr
        cases hd
        exact ⟨u, s, hu, spells_any.mpr hs, rfl⟩
  · rintro ⟨us, s, hu, hs, ht⟩
    have hk := (Lawful.iff ws rest s).mpr ⟨us, rest, hu, spells_any.mp hs, rfl⟩
    rw [hr] at hk
    cases ha : afterText ws with
    | none => rw [ha] at hk; cases hk
    | some r =>
      rw [ha, ht] at hk
      cases hk
      simp [ht]

theorem textOf_spells {us rest : List UInt32} {s : String} (h : SpellsWith (fun _ => True) s us) :
    textOf (us ++ rest) = some s := by
  have hk := (Lawful.iff (us ++ rest) rest s).mpr ⟨us, rest, rfl, spells_any.mp h, rfl⟩
  rw [readString_eq] at hk
  cases ha : afterText (us ++ rest) with
  | none => rw [ha] at hk; cases hk
  | some r =>
    rw [ha] at hk
    cases ht : textOf (us ++ rest) with
    | none => rw [ht] at hk; cases hk
    | some t => rw [ht] at hk; cases hk; rfl

instance : Realises text .string := by
  constructor
  intro ws rest
  rw [text_iff]
  constructor
  · rintro ⟨us, s, hu, hs, _⟩
    exact ⟨us, hu, s, hs⟩
  · rintro ⟨us, rfl, s, hs⟩
    exact ⟨us, s, rfl, hs, textOf_spells hs⟩

macro "lets" : tactic => `(tactic|
  repeat' (first
    | exact Lets.nil
    | exact Lets.value
    | exact Lets.ids
    | exact Lets.pairs
    | refine Lets.one ?_
    | refine Lets.opt ?_ rfl
    | refine Lets.opt ?_ (Or.inl rfl)))

theorem executionModes_lets {e : UInt32 → ReadError} : Lets [selects executionModeOperands e] [.choice executionModes] := by
  refine .choice ?_ ?_
  · unfold executionModes
    repeat' (first
      | exact fun _ h => absurd h List.not_mem_nil
      | refine List.forall_mem_cons.mpr ⟨⟨_, rfl, by lets⟩, ?_⟩)
  · intro n h
    by_cases hn : n < 32
    · have : ∀ n, n < 32 → (executionModeOperands n).isSome = true → ∃ p ∈ executionModes, p.1 = n := by decide +kernel
      exact this n hn h
    · have : executionModeOperands n = none := by
        unfold executionModeOperands
        split <;> first | omega | exact if_neg (by omega)
      rw [this] at h
      cases h

theorem decorations_lets {e : UInt32 → ReadError} : Lets [selects decorationOperands e] [.choice decorations] := by
  refine .choice ?_ ?_
  · unfold decorations
    repeat' (first
      | exact fun _ h => absurd h List.not_mem_nil
      | refine List.forall_mem_cons.mpr ⟨⟨_, rfl, by lets⟩, ?_⟩)
  · intro n h
    by_cases hn : n < 45
    · have : ∀ n, n < 45 → (decorationOperands n).isSome = true → ∃ p ∈ decorations, p.1 = n := by decide +kernel
      exact this n hn h
    · have : decorationOperands n = none := by
        unfold decorationOperands
        split <;> first | omega | exact if_neg (by omega)
      rw [this] at h
      cases h

theorem grammar_lets : ∀ p ∈ grammar, ∃ cs, operandsOf p.1 = some cs ∧ Lets cs p.2 := by
  unfold grammar binary
  repeat' (first
    | exact fun _ h => absurd h List.not_mem_nil
    | refine List.forall_mem_cons.mpr ⟨⟨_, rfl, by lets; try first | exact executionModes_lets | exact decorations_lets⟩, ?_⟩)

theorem grammar_small : ∀ n, n < 400 → (operandsOf n).isSome = true → n ∈ grammar.map Prod.fst := by
  decide +kernel

theorem operandsOf_grammar {n : Nat} {cs : List Check} (h : operandsOf n = some cs) :
    ∃ items, (n, items) ∈ grammar ∧ Lets cs items := by
  by_cases hn : n < 400
  · obtain ⟨p, hp, rfl⟩ := List.mem_map.mp (grammar_small n hn (by rw [h]; rfl))
    obtain ⟨cs', hc, hl⟩ := grammar_lets p hp
    rw [h] at hc
    cases hc
    exact ⟨p.2, hp, hl⟩
  · rw [operandsOf_large n (by omega)] at h
    cases h

theorem checkInst_grammar {known : List (ExtInstSet X)} {imports imports' : Imports X} {head : UInt32} {ops : List UInt32}
    (h1 : head.toNat % 65536 ≠ 11) (h2 : head.toNat % 65536 ≠ 12) : checkInst known imports head ops = .ok imports' ↔
      imports' = imports ∧ ∃ items, (head.toNat % 65536, items) ∈ grammar ∧ Fit crate items ops := by
  simp only [checkInst]
  rw [if_neg h1, if_neg h2]
  cases ho : operandsOf (head.toNat % 65536) with
  | none =>
    dsimp only
    refine ⟨fun h => ?_, ?_⟩
    · split at h <;> cases h
    · rintro ⟨_, items, hm, _⟩
      obtain ⟨cs, hc, _⟩ := grammar_lets _ hm
      rw [ho] at hc
      cases hc
  | some cs =>
    dsimp only
    have hl : (asVerdict (inTurn cs ops) >>= atEnd imports) = .ok imports' ↔
        imports' = imports ∧ inTurn cs ops = .ok [] := by
      cases inTurn cs ops with
      | error e => exact ⟨fun h => (by cases h), fun h => by cases h.2⟩
      | ok rest =>
        cases rest with
        | nil => exact ⟨fun h => by cases h; exact ⟨rfl, rfl⟩, fun h => by rw [h.1]; rfl⟩
        | cons r rest => exact ⟨fun h => (by cases h), fun h => by cases h.2⟩
    rw [hl]
    refine and_congr_right fun _ => ?_
    constructor
    · intro h
      obtain ⟨items, hm, hlet⟩ := operandsOf_grammar ho
      exact ⟨items, hm, (hlet ops).mp h⟩
    · rintro ⟨items, hm, hf⟩
      obtain ⟨cs', hc, hlet⟩ := grammar_lets _ hm
      rw [ho] at hc
      cases hc
      exact (hlet ops).mpr hf

theorem checkInst_import {known : List (ExtInstSet X)} {imports imports' : Imports X} {head : UInt32} {ops : List UInt32}
    (h1 : head.toNat % 65536 = 11) : checkInst known imports head ops = .ok imports' ↔
      ∃ id us name set, ops = id :: us ∧ SpellsWith (fun _ => True) name us ∧
        known.find? (fun s => s.name == name) = some set ∧ (∀ p ∈ imports, p.1 ≠ id) ∧ imports' = (id, set) :: imports := by
  simp only [checkInst, checkImport]
  rw [if_pos h1]
  cases ops with
  | nil =>
    refine ⟨fun h => (by cases h), ?_⟩
    rintro ⟨_, _, _, _, h, _⟩
    cases h
  | cons id ws =>
    have hin : inTurn [anyWord, text] (id :: ws) = text ws := by
      show (text ws >>= fun r => .ok r) = _
      cases text ws <;> rfl
    rw [hin]
    simp only [List.headD_cons, List.drop_succ_cons, List.drop_zero]
    have hany : (imports.any fun p => p.1 == id) = true ↔ ¬ ∀ p ∈ imports, p.1 ≠ id := by
      simp
    constructor
    · intro h
      cases ht : text ws with
      | error e => rw [ht] at h; cases h
      | ok rest =>
        obtain ⟨us, s, hu, hs, hx⟩ := text_iff.mp ht
        rw [ht, hx] at h
        simp only [asVerdict, Except.bind, bind] at h
        cases hf : known.find? (fun t => t.name == s) with
        | none => rw [hf] at h; cases h
        | some set =>
          rw [hf] at h
          dsimp only at h
          by_cases ha : (imports.any fun p => p.1 == id) = true
          · erw [if_pos ha] at h; cases h
          · erw [if_neg ha] at h
            cases rest with
            | cons r rest => cases h
            | nil =>
              cases h
              rw [List.append_nil] at hu
              subst hu
              exact ⟨id, ws, s, set, rfl, hs, hf, Classical.byContradiction fun hc => ha (hany.mpr hc), rfl⟩
    · rintro ⟨id', us, name, set, hops, hs, hf, hi, rfl⟩
      simp only [List.cons.injEq] at hops
      obtain ⟨rfl, rfl⟩ := hops
      have hx := textOf_spells (rest := []) hs
      rw [List.append_nil] at hx
      have ht : text ws = .ok [] := text_iff.mpr ⟨ws, name, by simp, hs, hx⟩
      rw [ht, hx]
      simp only [asVerdict, Except.bind, bind]
      rw [hf]
      dsimp only
      erw [if_neg fun ha => hany.mp ha hi]
      rfl

/-- Looking up an id finds the one import that has it. -/
def Sound (imports : Imports X) : Prop := ∀ id set, imports.lookup id = some set ↔ (id, set) ∈ imports

theorem Sound.nil : Sound (X := X) [] := fun _ _ => ⟨fun h => (by cases h), fun h => by cases h⟩

theorem Sound.cons {imports : Imports X} {id : UInt32} {set : ExtInstSet X} (h : Sound imports)
    (hi : ∀ p ∈ imports, p.1 ≠ id) : Sound ((id, set) :: imports) := by
  intro id' set'
  rw [List.lookup_cons, List.mem_cons]
  by_cases he : id' = id
  · subst he
    simp only [beq_self_eq_true, Option.some.injEq, Prod.mk.injEq, true_and]
    exact ⟨fun h => .inl h.symm, fun h' => h'.elim (·.symm) fun hm => absurd rfl (hi _ hm)⟩
  · have : (id' == id) = false := by rw [beq_eq_false_iff_ne]; exact he
    simp only [this, h id' set', Prod.mk.injEq, he, false_and, false_or]

theorem checkInst_ext {known : List (ExtInstSet X)} {imports imports' : Imports X} {head : UInt32} {ops : List UInt32}
    (hs : Sound imports) (h2 : head.toNat % 65536 = 12) : checkInst known imports head ops = .ok imports' ↔
      imports' = imports ∧ ∃ type result id number args set inst, ops = type :: result :: id :: number :: args ∧
        (id, set) ∈ imports ∧ set.readInstruction number args = .ok ([], inst) := by
  simp only [checkInst, h2]
  rw [if_neg (by decide), if_pos trivial]
  match ops with
  | [] | [_] | [_, _] | [_, _, _] =>
    refine ⟨fun h => (by cases h), ?_⟩
    rintro ⟨_, _, _, _, _, _, _, _, h, _⟩
    cases h
  | type :: result :: id :: number :: args =>
    simp only [checkExtInst]
    constructor
    · intro h
      cases hl : imports.lookup id with
      | none => rw [hl] at h; cases h
      | some set =>
        rw [hl] at h
        dsimp only at h
        cases hr : set.readInstruction number args with
        | error e => rw [hr] at h; cases h
        | ok q =>
          obtain ⟨rest, inst⟩ := q
          rw [hr] at h
          cases rest with
          | cons r rest => cases h
          | nil =>
            cases h
            exact ⟨rfl, type, result, id, number, args, set, inst, rfl, (hs _ _).mp hl, hr⟩
    · rintro ⟨rfl, _, _, _, _, _, set, inst, hops, hm, hr⟩
      cases hops
      rw [(hs _ _).mpr hm]
      dsimp only
      rw [hr]
      rfl

/-- One instruction of a body, by the reference -/
theorem body_step {known : List (ExtInstSet X)} {imports : Imports X} {head : UInt32} {ops : List UInt32}
    {insts : List (UInt32 × List UInt32)} (hs : Sound imports) : Body byCrate known imports ((head, ops) :: insts) ↔
      ops.length = head.toNat / 65536 - 1 ∧
        ∃ imports', checkInst known imports head ops = .ok imports' ∧ Body byCrate known imports' insts := by
  rw [Body]
  have hc : (head.toNat / 65536 = ops.length + 1 ∨ byCrate.zero ∧ head.toNat / 65536 = 0 ∧ ops = []) ↔
      ops.length = head.toNat / 65536 - 1 := by
    constructor
    · rintro (h | ⟨_, h, rfl⟩)
      · omega
      · simp [h]
    · intro h
      by_cases h0 : head.toNat / 65536 = 0
      · exact .inr ⟨trivial, h0, List.length_eq_zero_iff.mp (by omega)⟩
      · exact .inl (by omega)
  rw [hc]
  refine and_congr_right fun _ => ?_
  by_cases h1 : head.toNat % 65536 = 11
  · rw [if_pos h1]
    simp only [checkInst_import h1]
    constructor
    · rintro ⟨id, us, name, set, h, hsp, hf, hi, hb⟩
      exact ⟨_, ⟨id, us, name, set, h, hsp, hf, hi, rfl⟩, hb⟩
    · rintro ⟨_, ⟨id, us, name, set, h, hsp, hf, hi, rfl⟩, hb⟩
      exact ⟨id, us, name, set, h, hsp, hf, hi, hb⟩
  · rw [if_neg h1]
    by_cases h2 : head.toNat % 65536 = 12
    · rw [if_pos h2]
      simp only [checkInst_ext hs h2]
      constructor
      · rintro ⟨h, hb⟩
        exact ⟨imports, ⟨rfl, h⟩, hb⟩
      · rintro ⟨_, ⟨rfl, h⟩, hb⟩
        exact ⟨h, hb⟩
    · rw [if_neg h2]
      simp only [checkInst_grammar h1 h2]
      constructor
      · rintro ⟨h, hb⟩
        exact ⟨imports, ⟨rfl, h⟩, hb⟩
      · rintro ⟨_, ⟨rfl, h⟩, hb⟩
        exact ⟨h, hb⟩

theorem checkInst_sound {known : List (ExtInstSet X)} {imports imports' : Imports X} {head : UInt32} {ops : List UInt32}
    (hs : Sound imports) (h : checkInst known imports head ops = .ok imports') : Sound imports' := by
  by_cases h1 : head.toNat % 65536 = 11
  · obtain ⟨id, us, name, set, _, _, _, hi, rfl⟩ := (checkInst_import h1).mp h
    exact hs.cons hi
  · by_cases h2 : head.toNat % 65536 = 12
    · rw [((checkInst_ext hs h2).mp h).1]; exact hs
    · rw [((checkInst_grammar h1 h2).mp h).1]; exact hs

theorem checkBody_step {known : List (ExtInstSet X)} {imports : Imports X} {head : UInt32} {ops ws : List UInt32}
    (hl : ops.length = head.toNat / 65536 - 1) : checkBody known [] imports (head :: ops ++ ws) =
      (checkInst known imports head ops >>= fun imports' => checkBody known [] imports' ws) := by
  rw [List.cons_append, checkBody]
  simp only [← hl]
  rw [if_neg (by rw [List.length_append]; omega), List.take_left' rfl, List.drop_left' rfl]

theorem checkBody_body (known : List (ExtInstSet X)) (n : Nat) : ∀ (ws : List UInt32) (imports : Imports X),
    ws.length ≤ n → Sound imports →
      (checkBody known [] imports ws = .ok () ↔ ∃ insts, ws = wordsOf insts ∧ Body byCrate known imports insts) := by
  induction n with
  | zero =>
    intro ws imports hn _
    have : ws = [] := List.length_eq_zero_iff.mp (by omega)
    subst this
    rw [checkBody]
    exact ⟨fun _ => ⟨[], rfl, trivial⟩, fun _ => rfl⟩
  | succ n ih =>
    intro ws imports hn hs
    cases ws with
    | nil =>
      rw [checkBody]
      exact ⟨fun _ => ⟨[], rfl, trivial⟩, fun _ => rfl⟩
    | cons head ws =>
      constructor
      · intro h
        by_cases hl : ws.length < head.toNat / 65536 - 1
        · rw [checkBody] at h
          simp only [if_pos hl] at h
          cases h
        · have hlen : (ws.take (head.toNat / 65536 - 1)).length = head.toNat / 65536 - 1 := by
            rw [List.length_take]; omega
          have hsplit : head :: ws = head :: ws.take (head.toNat / 65536 - 1) ++ ws.drop (head.toNat / 65536 - 1) := by
            rw [List.cons_append, List.take_append_drop]
          rw [hsplit, checkBody_step hlen] at h
          cases hi : checkInst known imports head (ws.take (head.toNat / 65536 - 1)) with
          | error e => rw [hi] at h; cases h
          | ok imports' =>
            rw [hi] at h
            obtain ⟨insts, hw, hb⟩ := (ih (ws.drop (head.toNat / 65536 - 1)) imports'
              (by rw [List.length_drop]; simp at hn; omega) (checkInst_sound hs hi)).mp h
            refine ⟨(head, ws.take (head.toNat / 65536 - 1)) :: insts, ?_, (body_step hs).mpr ⟨hlen, imports', hi, hb⟩⟩
            rw [hsplit, hw]
            rfl
      · rintro ⟨insts, hw, hb⟩
        cases insts with
        | nil => cases hw
        | cons i insts =>
          obtain ⟨head', ops⟩ := i
          obtain ⟨hl, imports', hi, hb'⟩ := (body_step hs).mp hb
          have hw' : head :: ws = head' :: ops ++ wordsOf insts := hw
          rw [hw', checkBody_step hl, hi]
          refine (ih (wordsOf insts) imports' ?_ (checkInst_sound hs hi)).mpr ⟨insts, rfl, hb'⟩
          have := congrArg List.length hw'
          simp only [List.length_cons, List.cons_append, List.length_append] at this hn
          omega

theorem checkBody_left {known : List (ExtInstSet X)} {t : List UInt8} (n : Nat) : ∀ (ws : List UInt32) (imports : Imports X),
    ws.length ≤ n → checkBody known t imports ws = .ok () → t = [] := by
  have hnil (imports : Imports X) : checkBody known t imports [] = .ok () → t = [] := by
    rw [checkBody]
    cases t with
    | nil => exact fun _ => rfl
    | cons b t => exact fun h => by cases h
  induction n with
  | zero =>
    intro ws imports hn h
    have : ws = [] := List.length_eq_zero_iff.mp (by omega)
    subst this
    exact hnil _ h
  | succ n ih =>
    intro ws imports hn h
    cases ws with
    | nil => exact hnil _ h
    | cons head ws =>
      rw [checkBody] at h
      by_cases hl : ws.length < head.toNat / 65536 - 1
      · rw [if_pos hl, tooShort_eq] at h; cases h
      · rw [if_neg hl] at h
        cases hi : checkInst known imports head (ws.take (head.toNat / 65536 - 1)) with
        | error e => rw [hi] at h; cases h
        | ok imports' =>
          rw [hi] at h
          exact ih _ imports' (by rw [List.length_drop]; simp at hn; omega) h

theorem checkVersion_iff {w : UInt32} : checkVersion w = .ok () ↔ byCrate.version w := by
  simp only [checkVersion, byCrate]
  split
  · exact ⟨fun _ => by assumption, fun _ => rfl⟩
  · exact ⟨fun h => (by cases h), fun h => by contradiction⟩

theorem checkModule_iff {known : List (ExtInstSet X)} {t : List UInt8} {ws : List UInt32} :
    checkModule known t ws = .ok () ↔ t = [] ∧ ∃ insts, Conforms byCrate known (0x07230203 :: ws) insts := by
  simp only [Conforms, List.cons.injEq, true_and]
  match ws with
  | [] =>
    refine ⟨fun h => ?_, ?_⟩
    · rw [checkModule, tooShort_eq] at h; cases h
    · rintro ⟨_, _, _, _, _, h, _⟩
      cases h
  | [ver] | [ver, _] | [ver, _, _] =>
    refine ⟨fun h => ?_, ?_⟩
    · simp only [checkModule, tooShort_eq] at h
      cases hv : checkVersion ver <;> rw [hv] at h <;> cases h
    · rintro ⟨_, _, _, _, _, h, _⟩
      cases h
  | ver :: gen :: bound :: schema :: ws =>
    simp only [checkModule]
    constructor
    · intro h
      cases hv : checkVersion ver with
      | error e => rw [hv] at h; cases h
      | ok u =>
        rw [hv] at h
        have h' : (if schema = 0 then checkBody known t [] ws else refuse .UnknownReservedSchema) = .ok () := h
        by_cases hz : schema = 0
        · rw [if_pos hz] at h'
          have ht := checkBody_left _ ws [] (Nat.le_refl _) h'
          subst ht
          obtain ⟨insts, hw, hb⟩ := (checkBody_body known _ ws [] (Nat.le_refl _) .nil).mp h'
          exact ⟨rfl, insts, ver, gen, bound, by rw [hz, hw], checkVersion_iff.mp hv, hb⟩
        · rw [if_neg hz] at h'
          cases h'
    · rintro ⟨rfl, insts, version, generator, bound', hw, hv, hb⟩
      simp only [List.cons.injEq] at hw
      obtain ⟨rfl, rfl, rfl, rfl, rfl⟩ := hw
      rw [checkVersion_iff.mpr hv]
      exact (checkBody_body known _ _ [] (Nat.le_refl _) .nil).mpr ⟨insts, rfl, hb⟩

theorem isOk_map {E α β : Type} {x : Except E α} {f : α → β} {b : β} (h : x.map f = .ok b) : ∃ a, x = .ok a := by
  cases x with
  | error e => cases h
  | ok a => exact ⟨a, rfl⟩

theorem readModule_conforms (known : List (ExtInstSet X)) (bytes : List UInt8) : (∃ m, readModule bytes known = .ok m) ↔
    ∃ le words insts, bytes = bytesOf le words ∧ Conforms byCrate known words insts := by
  constructor
  · rintro ⟨m, hm⟩
    rcases readModule_cases known bytes with ⟨t, ws, ht, hd, hr⟩ | ⟨_, hr⟩ | ⟨_, hr⟩
    · have hk : checkModule known t ws = .ok () := by rw [← headerW_checked, ← hr, hm]; rfl
      obtain ⟨rfl, insts, hc⟩ := checkModule_iff.mp hk
      rcases hd with hd | hd
      · exact ⟨true, _, insts, by rw [hd, List.append_nil, bytesOf_true], hc⟩
      · exact ⟨false, _, insts, by rw [hd, List.append_nil, bytesOf_false], hc⟩
    · rw [hm] at hr; cases hr
    · rw [hm] at hr; cases hr
  · rintro ⟨le, words, insts, rfl, hc⟩
    have hc' := hc
    obtain ⟨v, g, b, hw, _, _⟩ := hc
    rw [hw] at hc'
    have hk := (checkModule_iff (known := known) (t := [])).mpr ⟨rfl, insts, hc'⟩
    have hr := readModule_bytesOf (known := known) (t := []) (ws := v :: g :: b :: 0 :: wordsOf insts) (by simp) le
    rw [List.append_nil] at hr
    rw [hw, hr]
    exact isOk_map (f := fun _ => ()) (by rw [headerW_checked, hk])

/-! ### What conforms to the standard -/

/-- The kinds in an item -/
def Item.kinds : Item → List Kind
  | .one k | .opt k | .many k => [k]
  | .choice table => table.flatMap Prod.snd

theorem allOf_mono {M N : Meaning} {ks : List Kind} (h : ∀ k ∈ ks, ∀ ws, M k ws → N k ws) {ws : List UInt32}
    (hf : allOf M ks ws) : allOf N ks ws := by
  induction ks generalizing ws with
  | nil => exact hf
  | cons k ks ih =>
    obtain ⟨us, vs, rfl, hk, hr⟩ := hf
    exact ⟨us, vs, rfl, h k (List.mem_cons_self ..) _ hk, ih (fun k' hk' => h k' (List.mem_cons_of_mem _ hk')) hr⟩

theorem fit_mono {M N : Meaning} {items : List Item} (h : ∀ k ∈ items.flatMap Item.kinds, ∀ ws, M k ws → N k ws)
    {ws : List UInt32} (hf : Fit M items ws) : Fit N items ws := by
  induction items generalizing ws with
  | nil => exact hf
  | cons item items ih =>
    have ih' := @ih fun k hk => h k (by rw [List.flatMap_cons]; exact List.mem_append_right _ hk)
    have h' : ∀ k ∈ item.kinds, ∀ ws, M k ws → N k ws :=
      fun k hk => h k (by rw [List.flatMap_cons]; exact List.mem_append_left _ hk)
    cases item with
    | one k =>
      obtain ⟨us, vs, rfl, hk, hr⟩ := hf
      exact ⟨us, vs, rfl, h' k (by simp [Item.kinds]) _ hk, ih' hr⟩
    | opt k =>
      rcases hf with rfl | ⟨us, vs, rfl, hk, hr⟩
      · exact .inl rfl
      · exact .inr ⟨us, vs, rfl, h' k (by simp [Item.kinds]) _ hk, ih' hr⟩
    | many k =>
      obtain ⟨us, vs, rfl, ⟨parts, hp, hk⟩, hr⟩ := hf
      exact ⟨us, vs, rfl, ⟨parts, hp, fun p hm => h' k (by simp [Item.kinds]) _ (hk p hm)⟩, ih' hr⟩
    | choice table =>
      obtain ⟨w, ks, us, vs, hm, rfl, ha, hr⟩ := hf
      exact ⟨w, ks, us, vs, hm, rfl,
        allOf_mono (fun k hk => h' k (List.mem_flatMap.mpr ⟨_, hm, hk⟩)) ha, ih' hr⟩

theorem spells_mono {ok : UInt8 → Prop} {s : String} {us : List UInt32} (h : SpellsWith ok s us) :
    SpellsWith (fun _ => True) s us := by
  obtain ⟨pad, h1, h2, h3, _⟩ := h
  exact ⟨pad, h1, h2, h3, fun _ _ => trivial⟩

/-- Apart from memory accesses, the crate takes what the standard allows. -/
theorem crate_of_standard {k : Kind} (hk : k ≠ .memoryAccess) {ws : List UInt32} (h : standard k ws) : crate k ws := by
  cases k
  case memoryAccess => exact absurd rfl hk
  case value => exact trivial
  case string => exact h.imp fun s hs => spells_mono hs
  case sourceLanguage => exact h.imp fun w hw => hw.1
  case functionControl => exact h.imp fun w hw => hw.1
  case fastMath => exact h.imp fun w hw => ⟨hw.1, by have := hw.2; omega⟩
  case selectionControl => exact h.imp fun w hw => ⟨hw.1, by have := hw.2; omega⟩
  case loopControl =>
    obtain ⟨w, rfl, hw⟩ := h
    have hb : ¬ w.toNat.testBit 3 = true := by
      rw [Nat.testBit_lt_two_pow (by omega)]
      exact Bool.false_ne_true
    exact ⟨w, by omega, by rw [if_neg hb]⟩
  all_goals exact h

theorem grammar_memory : ∀ p ∈ grammar, p.1 ≠ 61 → p.1 ≠ 62 → Kind.memoryAccess ∉ p.2.flatMap Item.kinds := by
  decide +kernel

theorem grammar_load : ∀ p ∈ grammar, p.1 = 61 → p.2 = [.one .id, .one .id, .one .id, .opt .memoryAccess] := by
  unfold grammar
  repeat' (first
    | exact fun _ h => absurd h List.not_mem_nil
    | refine List.forall_mem_cons.mpr ⟨fun _ => rfl, ?_⟩
    | refine List.forall_mem_cons.mpr ⟨fun h => absurd h (by decide), ?_⟩)

theorem grammar_store : ∀ p ∈ grammar, p.1 = 62 → p.2 = [.one .id, .one .id, .opt .memoryAccess] := by
  unfold grammar
  repeat' (first
    | exact fun _ h => absurd h List.not_mem_nil
    | refine List.forall_mem_cons.mpr ⟨fun _ => rfl, ?_⟩
    | refine List.forall_mem_cons.mpr ⟨fun h => absurd h (by decide), ?_⟩)

theorem memory_crate {us : List UInt32} (h : standard .memoryAccess us) :
    ∃ w : UInt32, w.toNat < 8 ∧ ((w.toNat.testBit 1 = true ∧ ∃ a, us = [w, a]) ∨
      (¬ w.toNat.testBit 1 = true ∧ us = [w] ∧ crate .memoryAccess us)) := by
  obtain ⟨w, hw, hu⟩ := h
  refine ⟨w, hw, ?_⟩
  by_cases hb : w.toNat.testBit 1 = true
  · rw [if_pos hb] at hu
    exact .inl ⟨hb, hu⟩
  · rw [if_neg hb] at hu
    exact .inr ⟨hb, hu, w, hu, by omega⟩

theorem memoryAccess_ok {w : UInt32} {rest : List UInt32} (h : w.toNat < 8) :
    memoryAccess (w :: rest) = .ok rest := by
  refine (Realises.iff (k := .memoryAccess) _ _).mpr ⟨[w], rfl, w, rfl, by omega⟩

theorem checkInst_load {known : List (ExtInstSet X)} {imports : Imports X} {head : UInt32} {a b c w x : UInt32}
    (h : head.toNat % 65536 = 61) (hw : w.toNat < 8) :
    checkInst known imports head [a, b, c, w, x] = refuse .InstructionHadExcessData := by
  simp only [checkInst, h]
  rw [if_neg (by decide), if_neg (by decide)]
  show (asVerdict (memoryAccess [w, x] >>= inTurn []) >>= atEnd imports) = _
  rw [memoryAccess_ok hw]
  rfl

theorem checkInst_store {known : List (ExtInstSet X)} {imports : Imports X} {head : UInt32} {a b w x : UInt32}
    (h : head.toNat % 65536 = 62) (hw : w.toNat < 8) :
    checkInst known imports head [a, b, w, x] = refuse .InstructionHadExcessData := by
  simp only [checkInst, h]
  rw [if_neg (by decide), if_neg (by decide)]
  show (asVerdict (memoryAccess [w, x] >>= inTurn []) >>= atEnd imports) = _
  rw [memoryAccess_ok hw]
  rfl

/-- An instruction by the standard: the crate takes it, or refuses it for the alignment. -/
theorem fit_standard {known : List (ExtInstSet X)} {imports : Imports X} {head : UInt32} {ops : List UInt32}
    {items : List Item} (hm : (head.toNat % 65536, items) ∈ grammar) (hf : Fit standard items ops) :
    (Aligned (head.toNat % 65536) ops → checkInst known imports head ops = refuse .InstructionHadExcessData) ∧
      (¬ Aligned (head.toNat % 65536) ops → Fit crate items ops) := by
  by_cases h1 : head.toNat % 65536 = 61
  · have hi := grammar_load _ hm h1
    dsimp only at hi
    subst hi
    obtain ⟨_, _, rfl, ⟨a, rfl⟩, _, _, rfl, ⟨b, rfl⟩, _, us, rfl, ⟨c, rfl⟩, hr⟩ := hf
    rcases hr with rfl | ⟨us, vs, rfl, hk, hv⟩
    · refine ⟨?_, fun _ => ⟨_, _, rfl, ⟨a, rfl⟩, _, _, rfl, ⟨b, rfl⟩, _, _, rfl, ⟨c, rfl⟩, .inl rfl⟩⟩
      rintro ⟨w, hw, _⟩
      rw [h1] at hw
      cases hw
    · cases hv
      obtain ⟨w, hw, ⟨hb, x, rfl⟩ | ⟨hb, rfl, hk'⟩⟩ := memory_crate hk
      · refine ⟨fun _ => checkInst_load h1 hw, fun hn => absurd ⟨w, ?_, .inl h1, hb⟩ hn⟩
        rw [h1]; rfl
      · refine ⟨?_, fun _ => ⟨_, _, rfl, ⟨a, rfl⟩, _, _, rfl, ⟨b, rfl⟩, _, _, rfl, ⟨c, rfl⟩, .inr ⟨[w], [], rfl, hk', rfl⟩⟩⟩
        rintro ⟨w', hw', _, hb'⟩
        rw [h1] at hw'
        cases hw'
        exact absurd hb' hb
  · by_cases h2 : head.toNat % 65536 = 62
    · have hi := grammar_store _ hm h2
      dsimp only at hi
      subst hi
      obtain ⟨_, _, rfl, ⟨a, rfl⟩, _, us, rfl, ⟨b, rfl⟩, hr⟩ := hf
      rcases hr with rfl | ⟨us, vs, rfl, hk, hv⟩
      · refine ⟨?_, fun _ => ⟨_, _, rfl, ⟨a, rfl⟩, _, _, rfl, ⟨b, rfl⟩, .inl rfl⟩⟩
        rintro ⟨w, hw, _⟩
        rw [h2] at hw
        cases hw
      · cases hv
        obtain ⟨w, hw, ⟨hb, x, rfl⟩ | ⟨hb, rfl, hk'⟩⟩ := memory_crate hk
        · refine ⟨fun _ => checkInst_store h2 hw, fun hn => absurd ⟨w, ?_, .inr h2, hb⟩ hn⟩
          rw [h2]; rfl
        · refine ⟨?_, fun _ => ⟨_, _, rfl, ⟨a, rfl⟩, _, _, rfl, ⟨b, rfl⟩, .inr ⟨[w], [], rfl, hk', rfl⟩⟩⟩
          rintro ⟨w', hw', _, hb'⟩
          rw [h2] at hw'
          cases hw'
          exact absurd hb' hb
    · refine ⟨fun ⟨_, _, h, _⟩ => (h.elim h1 h2).elim, fun _ => ?_⟩
      have hno := grammar_memory _ hm h1 h2
      exact fit_mono (fun k hk ws => crate_of_standard fun he => hno (he ▸ hk)) hf

theorem step_standard {known : List (ExtInstSet X)} {imports : Imports X} {head : UInt32} {ops : List UInt32}
    {insts : List (UInt32 × List UInt32)} (hs : Sound imports) (h : Body byStandard known imports ((head, ops) :: insts)) :
    ops.length = head.toNat / 65536 - 1 ∧
      (Aligned (head.toNat % 65536) ops → checkInst known imports head ops = refuse .InstructionHadExcessData) ∧
      (¬ Aligned (head.toNat % 65536) ops →
        ∃ imports', checkInst known imports head ops = .ok imports' ∧ Body byStandard known imports' insts) := by
  rw [Body] at h
  obtain ⟨hl, h⟩ := h
  refine ⟨by rcases hl with hl | ⟨hl, _⟩ <;> first | omega | exact hl.elim, ?_⟩
  by_cases h1 : head.toNat % 65536 = 11
  · rw [if_pos h1] at h
    obtain ⟨id, us, name, set, ho, hsp, hf, hi, hb⟩ := h
    refine ⟨fun ⟨_, _, ha, _⟩ => by omega, fun _ => ⟨_, (checkInst_import h1).mpr ⟨id, us, name, set, ho,
      spells_mono hsp, hf, hi, rfl⟩, hb⟩⟩
  · rw [if_neg h1] at h
    by_cases h2 : head.toNat % 65536 = 12
    · rw [if_pos h2] at h
      exact ⟨fun ⟨_, _, ha, _⟩ => by omega, fun _ => ⟨_, (checkInst_ext hs h2).mpr ⟨rfl, h.1⟩, h.2⟩⟩
    · rw [if_neg h2] at h
      obtain ⟨⟨items, hm, hf⟩, hb⟩ := h
      have := fit_standard (known := known) (imports := imports) hm hf
      exact ⟨this.1, fun hn => ⟨_, (checkInst_grammar h1 h2).mpr ⟨rfl, items, hm, this.2 hn⟩, hb⟩⟩

theorem body_standard {known : List (ExtInstSet X)} {insts : List (UInt32 × List UInt32)} {imports : Imports X}
    (hs : Sound imports) (h : Body byStandard known imports insts) :
    ((∃ i ∈ insts, Aligned (i.1.toNat % 65536) i.2) →
      checkBody known [] imports (wordsOf insts) = refuse .InstructionHadExcessData) ∧
    ((∀ i ∈ insts, ¬ Aligned (i.1.toNat % 65536) i.2) → checkBody known [] imports (wordsOf insts) = .ok ()) := by
  induction insts generalizing imports with
  | nil =>
    refine ⟨fun ⟨_, hi, _⟩ => (by cases hi), fun _ => ?_⟩
    show checkBody known [] imports [] = _
    rw [checkBody]
    rfl
  | cons i insts ih =>
    obtain ⟨head, ops⟩ := i
    obtain ⟨hl, ha, hn⟩ := step_standard hs h
    have hw : wordsOf ((head, ops) :: insts) = head :: ops ++ wordsOf insts := rfl
    rw [hw, checkBody_step hl]
    by_cases hal : Aligned (head.toNat % 65536) ops
    · rw [ha hal]
      exact ⟨fun _ => rfl, fun h => absurd hal (h _ (List.mem_cons_self ..))⟩
    · obtain ⟨imports', hc, hb⟩ := hn hal
      rw [hc]
      have := ih (checkInst_sound hs hc) hb
      refine ⟨fun ⟨i, hi, hx⟩ => ?_, fun h => this.2 fun i hi => h i (List.mem_cons_of_mem _ hi)⟩
      rcases List.mem_cons.mp hi with rfl | hi
      · exact absurd hx hal
      · exact this.1 ⟨i, hi, hx⟩

theorem readModule_standard {known : List (ExtInstSet X)} {words : List UInt32} {insts : List (UInt32 × List UInt32)}
    (h : Conforms byStandard known words insts) (le : Bool) :
    ((∃ i ∈ insts, Aligned (i.1.toNat % 65536) i.2) →
      readModule (bytesOf le words) known = .error (.err .InstructionHadExcessData)) ∧
    ((∀ i ∈ insts, ¬ Aligned (i.1.toNat % 65536) i.2) → ∃ m, readModule (bytesOf le words) known = .ok m) := by
  obtain ⟨v, g, b, rfl, hv, hb⟩ := h
  have hr := readModule_bytesOf (known := known) (t := []) (ws := v :: g :: b :: 0 :: wordsOf insts) (by simp) le
  rw [List.append_nil] at hr
  have hk := headerW_checked known [] (v :: g :: b :: 0 :: wordsOf insts)
  have hvv : checkVersion v = .ok () := checkVersion_iff.mpr (by
    have : v = 0x00010000 := hv
    subst this
    exact ⟨by decide, by decide, by decide, by decide⟩)
  have hm : checkModule known [] (v :: g :: b :: 0 :: wordsOf insts) = checkBody known [] [] (wordsOf insts) := by
    simp only [checkModule, hvv]
    rfl
  rw [hm, ← hr] at hk
  obtain ⟨h1, h2⟩ := body_standard .nil hb
  refine ⟨fun ha => ?_, fun hn => ?_⟩
  · rw [h1 ha] at hk
    cases hx : readModule (bytesOf le (0x07230203 :: v :: g :: b :: 0 :: wordsOf insts)) known with
    | ok m => rw [hx] at hk; cases hk
    | error e => rw [hx] at hk; cases hk; rfl
  · rw [h2 hn] at hk
    exact isOk_map hk

theorem body_same {known : List (ExtInstSet X)} {insts : List (UInt32 × List UInt32)} {imports : Imports X}
    (hs : Sound imports) (h : Body byStandard known imports insts)
    (ha : ∀ i ∈ insts, ¬ Aligned (i.1.toNat % 65536) i.2) : Body byCrate known imports insts := by
  induction insts generalizing imports with
  | nil => exact trivial
  | cons i insts ih =>
    obtain ⟨head, ops⟩ := i
    obtain ⟨hl, _, hn⟩ := step_standard hs h
    obtain ⟨imports', hc, hb⟩ := hn (ha _ (List.mem_cons_self ..))
    exact (body_step hs).mpr ⟨hl, imports', hc,
      ih (checkInst_sound hs hc) hb fun i hi => ha i (List.mem_cons_of_mem _ hi)⟩

theorem body_rest {rules : Rules} {known : List (ExtInstSet X)} {head : UInt32} {ops : List UInt32}
    {insts : List (UInt32 × List UInt32)} {imports : Imports X} (h : Body rules known imports ((head, ops) :: insts)) :
    ops.length = head.toNat / 65536 - 1 ∧ ∃ imports', Body rules known imports' insts := by
  rw [Body] at h
  obtain ⟨hl, h⟩ := h
  refine ⟨?_, ?_⟩
  · rcases hl with hl | ⟨_, hl, rfl⟩
    · omega
    · simp [hl]
  · split at h
    · obtain ⟨id, us, name, set, _, _, _, _, hb⟩ := h
      exact ⟨_, hb⟩
    · split at h
      · exact ⟨_, h.2⟩
      · exact ⟨_, h.2⟩

theorem body_unique {r r' : Rules} {known known' : List (ExtInstSet X)} {insts insts' : List (UInt32 × List UInt32)}
    {imports imports' : Imports X} (h : Body r known imports insts) (h' : Body r' known' imports' insts')
    (hw : wordsOf insts = wordsOf insts') : insts = insts' := by
  induction insts generalizing imports imports' insts' with
  | nil =>
    cases insts' with
    | nil => rfl
    | cons i insts' => cases hw
  | cons i insts ih =>
    obtain ⟨head, ops⟩ := i
    cases insts' with
    | nil => cases hw
    | cons i' insts' =>
      obtain ⟨head', ops'⟩ := i'
      have hw' : head :: (ops ++ wordsOf insts) = head' :: (ops' ++ wordsOf insts') := hw
      simp only [List.cons.injEq] at hw'
      obtain ⟨rfl, hw'⟩ := hw'
      obtain ⟨hl, j, hb⟩ := body_rest h
      obtain ⟨hl', j', hb'⟩ := body_rest h'
      obtain ⟨rfl, hw''⟩ := List.append_inj hw' (by rw [hl, hl'])
      rw [ih hb hb' hw'']

end Magma.Standard
