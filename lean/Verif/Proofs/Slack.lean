import Verif.Proofs.Serialise
import Verif.Spec.Slack
/-! Lemmas: what the reader does not look at. -/

namespace Magma.Slacks
open Spec
variable {X : Type}

/-! ### Strings -/

/-- `SpellsString` for the bytes of a string -/
def Spelt (bs : List UInt8) (u : List UInt32) : Prop :=
  ∃ pad : List UInt8, u.flatMap wordBytes = bs ++ 0 :: pad ∧ pad.length ≤ 3 ∧ 0 ∉ bs

theorem wordBytes_packs (w : UInt32) : ∃ a b c d, wordBytes w = [a, b, c, d] ∧ w = packWord a b c d := by
  refine ⟨_, _, _, _, rfl, ?_⟩
  apply wordBytes_inj
  rw [wordBytes_packWord]
  rfl

theorem upToNul_pack (a b c d : UInt8) : upToNul (packWord a b c d) =
    if a = 0 then 0 else if b = 0 then packWord a 0 0 0 else if c = 0 then packWord a b 0 0 else packWord a b c d := by
  have ha := a.toNat_lt
  have hb := b.toNat_lt
  have hc := c.toNat_lt
  have hd := d.toNat_lt
  have e : (packWord a b c d).toNat = a.toNat + b.toNat * 256 + c.toNat * 65536 + d.toNat * 16777216 := by
    rw [packWord, UInt32.toNat_ofNat', Nat.mod_eq_of_lt (by omega)]
  have z (x : UInt8) : x = 0 ↔ x.toNat = 0 := by rw [← UInt8.toNat_inj]; rfl
  rw [upToNul, e]
  by_cases h1 : a = 0
  · rw [if_pos h1, if_pos (by rw [z] at h1; omega)]
  · rw [if_neg h1, if_neg (by rw [z] at h1; omega)]
    by_cases h2 : b = 0
    · rw [if_pos h2, if_pos (by rw [z] at h2; omega), packWord]
      congr 1
      show _ = a.toNat + 0 * 256 + 0 * 65536 + 0 * 16777216
      omega
    · rw [if_neg h2, if_neg (by rw [z] at h2; omega)]
      by_cases h3 : c = 0
      · rw [if_pos h3, if_pos (by rw [z] at h3; omega), packWord]
        congr 1
        show _ = a.toNat + b.toNat * 256 + 0 * 65536 + 0 * 16777216
        omega
      · rw [if_neg h3, if_neg (by rw [z] at h3; omega)]

theorem spelt_nil (bs : List UInt8) : ¬ Spelt bs [] := by
  rintro ⟨pad, h, -, -⟩
  have := congrArg List.length h
  simp at this

theorem words_nil {u : List UInt32} (h : (u.flatMap wordBytes).length ≤ 3) : u = [] := by
  rw [flatMap_wordBytes_length] at h
  exact List.length_eq_zero_iff.mp (by omega)

/-- The word with the NUL is the last. -/
theorem spelt_cons (bs : List UInt8) (w : UInt32) (u : List UInt32) : Spelt bs (w :: u) ↔
    ((wordBytes w).contains 0 = true ∧ u = [] ∧ bs = (wordBytes w).takeWhile (· != 0)) ∨
    ((wordBytes w).contains 0 = false ∧ ∃ bs', bs = wordBytes w ++ bs' ∧ Spelt bs' u) := by
  obtain ⟨a, b, c, d, hw, -⟩ := wordBytes_packs w
  rw [hw]
  constructor
  · rintro ⟨pad, h, hl, h0⟩
    rw [List.flatMap_cons, hw] at h
    match bs, h, h0 with
    | [], h, h0 =>
      simp only [List.cons_append, List.nil_append, List.cons.injEq] at h
      obtain ⟨rfl, rfl⟩ := h
      simp only [List.length_cons] at hl
      exact .inl ⟨by simp, words_nil (by omega), by simp⟩
    | [x], h, h0 =>
      simp only [List.cons_append, List.nil_append, List.cons.injEq] at h
      obtain ⟨rfl, rfl, rfl⟩ := h
      simp only [List.length_cons] at hl
      have h1 : a ≠ 0 := fun h => h0 (by simp [h])
      exact .inl ⟨by simp, words_nil (by omega), by simp [h1]⟩
    | [x, y], h, h0 =>
      simp only [List.cons_append, List.nil_append, List.cons.injEq] at h
      obtain ⟨rfl, rfl, rfl, rfl⟩ := h
      simp only [List.length_cons] at hl
      have h1 : a ≠ 0 := fun h => h0 (by simp [h])
      have h2 : b ≠ 0 := fun h => h0 (by simp [h])
      exact .inl ⟨by simp, words_nil (by omega), by simp [h1, h2]⟩
    | [x, y, z], h, h0 =>
      simp only [List.cons_append, List.nil_append, List.cons.injEq] at h
      obtain ⟨rfl, rfl, rfl, rfl, rfl⟩ := h
      have h1 : a ≠ 0 := fun h => h0 (by simp [h])
      have h2 : b ≠ 0 := fun h => h0 (by simp [h])
      have h3 : c ≠ 0 := fun h => h0 (by simp [h])
      exact .inl ⟨by simp, words_nil hl, by simp [h1, h2, h3]⟩
    | x :: y :: z :: t :: bs', h, h0 =>
      simp only [List.cons_append, List.nil_append, List.cons.injEq] at h
      obtain ⟨rfl, rfl, rfl, rfl, h⟩ := h
      simp only [List.mem_cons, not_or] at h0
      obtain ⟨h1, h2, h3, h4, h5⟩ := h0
      exact .inr ⟨by simp [h1, h2, h3, h4], bs', rfl, pad, h, hl, h5⟩
  · rintro (⟨h, rfl, rfl⟩ | ⟨h, bs', rfl, pad, h1, h2, h3⟩)
    · show ∃ pad, _
      rw [List.flatMap_cons, hw, List.flatMap_nil, List.append_nil]
      by_cases h1 : a = 0
      · exact ⟨[b, c, d], by simp [h1], by simp, by simp [h1]⟩
      · by_cases h2 : b = 0
        · exact ⟨[c, d], by simp [h1, h2], by simp, by simp [h1, h2, Ne.symm h1]⟩
        · by_cases h3 : c = 0
          · exact ⟨[d], by simp [h1, h2, h3], by simp, by simp [h1, h2, h3, Ne.symm h1, Ne.symm h2]⟩
          · by_cases h4 : d = 0
            · exact ⟨[], by simp [h1, h2, h3, h4], by simp,
                by simp [h1, h2, h3, h4, Ne.symm h1, Ne.symm h2, Ne.symm h3]⟩
            · simp [Ne.symm h1, Ne.symm h2, Ne.symm h3, Ne.symm h4] at h
    · simp only [List.contains_eq_mem, decide_eq_false_iff_not] at h
      refine ⟨pad, ?_, h2, fun h' => ?_⟩
      · rw [List.flatMap_cons, hw, h1, List.append_assoc]
      · exact (List.mem_append.mp h').elim h h3

/-- The words of a string, tidied -/
theorem tidyText_spelt (f : List UInt32 → List UInt32) (r : List UInt32) : ∀ (u : List UInt32) (bs : List UInt8),
    Spelt bs u → tidyText f (u ++ r) = packWords (bs ++ [0]) ++ f r
  | [], bs, h => absurd h (spelt_nil bs)
  | w :: u, bs, h => by
    obtain ⟨a, b, c, d, hw, hp⟩ := wordBytes_packs w
    rw [List.cons_append, tidyText]
    rcases (spelt_cons bs w u).mp h with ⟨h1, rfl, rfl⟩ | ⟨h1, bs', rfl, h2⟩
    · rw [if_pos h1, List.nil_append, hw]
      rw [hw] at h1
      rw [hp, upToNul_pack]
      have z : (0 : UInt32) = packWord 0 0 0 0 := rfl
      by_cases c1 : a = 0
      · simp [c1, packWords, z]
      · by_cases c2 : b = 0
        · simp [c1, c2, packWords]
        · by_cases c3 : c = 0
          · simp [c1, c2, c3, packWords]
          · by_cases c4 : d = 0
            · simp [c1, c2, c3, c4, packWords]
            · simp [Ne.symm c1, Ne.symm c2, Ne.symm c3, Ne.symm c4] at h1
    · rw [if_neg (by rw [h1]; nofun), tidyText_spelt f r u bs' h2, hw, hp]
      rfl

/-- If tidied words start with a string, so do the words. -/
theorem spelt_of_tidyText (f : List UInt32 → List UInt32) (r : List UInt32) : ∀ (ws : List UInt32) (u : List UInt32)
    (bs : List UInt8), Spelt bs u → tidyText f ws = u ++ r → ∃ v ws', ws = v ++ ws' ∧ Spelt bs v ∧ r = f ws'
  | _, [], bs, h, _ => absurd h (spelt_nil bs)
  | [], _ :: _, _, _, h => by cases h
  | w :: ws, x :: u, bs, h, he => by
    rw [tidyText] at he
    by_cases h1 : (wordBytes w).contains 0 = true
    · rw [if_pos h1] at he
      obtain ⟨rfl, he'⟩ := List.cons.inj he
      refine ⟨[w], ws, rfl, ?_⟩
      obtain ⟨a, b, c, d, hw, hp⟩ := wordBytes_packs w
      have hc : (wordBytes (upToNul w)).contains 0 = true ∧
          (wordBytes (upToNul w)).takeWhile (· != 0) = (wordBytes w).takeWhile (· != 0) := by
        rw [hw] at h1 ⊢
        rw [hp, upToNul_pack]
        have z : (0 : UInt32) = packWord 0 0 0 0 := rfl
        by_cases c1 : a = 0
        · simp [c1, z, wordBytes_packWord]
        · by_cases c2 : b = 0
          · simp [c1, c2, wordBytes_packWord]
          · by_cases c3 : c = 0
            · simp [c1, c2, c3, wordBytes_packWord]
            · by_cases c4 : d = 0
              · simp [c1, c2, c3, c4, wordBytes_packWord]
              · simp [Ne.symm c1, Ne.symm c2, Ne.symm c3, Ne.symm c4] at h1
      rcases (spelt_cons bs _ u).mp h with ⟨-, rfl, h3⟩ | ⟨h3, -⟩
      · exact ⟨(spelt_cons bs w []).mpr (.inl ⟨h1, rfl, by rw [h3, hc.2]⟩), he'.symm⟩
      · rw [hc.1] at h3
        cases h3
    · rw [if_neg h1] at he
      obtain ⟨rfl, he'⟩ := List.cons.inj he
      rcases (spelt_cons bs _ u).mp h with ⟨h3, -⟩ | ⟨h3, bs', rfl, h4⟩
      · exact absurd h3 h1
      · obtain ⟨v, ws', rfl, h5, h6⟩ := spelt_of_tidyText f r ws u bs' h4 he'
        exact ⟨w :: v, ws', rfl, (spelt_cons _ w v).mpr (.inr ⟨h3, bs', rfl, h5⟩), h6⟩

theorem tidyText_length (f : List UInt32 → List UInt32) (hf : ∀ ws, (f ws).length = ws.length) :
    ∀ ws, (tidyText f ws).length = ws.length
  | [] => rfl
  | w :: ws => by
    rw [tidyText]
    split
    · rw [List.length_cons, hf, List.length_cons]
    · rw [List.length_cons, tidyText_length f hf ws, List.length_cons]

/-! ### Operands -/

theorem tidy_nil : ∀ sl, tidy sl [] = []
  | [] => rfl
  | .word :: _ => rfl
  | .clear _ :: _ => rfl
  | .text :: _ => rfl

theorem tidy_length : ∀ (sl : List Slack) (ws : List UInt32), (tidy sl ws).length = ws.length
  | [], _ => rfl
  | .word :: _, [] => rfl
  | .clear _ :: _, [] => rfl
  | .word :: sl, _ :: ws => congrArg (· + 1) (tidy_length sl ws)
  | .clear _ :: sl, _ :: ws => congrArg (· + 1) (tidy_length sl ws)
  | .text :: sl, ws => tidyText_length _ (tidy_length sl) ws

/-- Operands are looked at like this. -/
def Suits : List Operand → List Slack → Prop
  | [], _ => True
  | .done :: _, _ => True
  | .never :: _, _ => True
  | .lit _ :: os, [] => Suits os []
  | .lit _ :: os, .word :: sl => Suits os sl
  | .mask i _ :: os, .clear i' :: sl => i = i' ∧ Suits os sl
  | .str _ :: os, .text :: sl => Suits os sl
  | _, _ => False

theorem reads_nil : ∀ (os : List Operand) (rest : List UInt32), Reads os [] rest → encodeOperands os = [] ∧ rest = []
  | [], _, h => ⟨rfl, h.symm⟩
  | .lit _ :: _, _, ⟨_, h, _⟩ => by cases h
  | .mask _ _ :: _, _, ⟨_, _, h, _⟩ => by cases h
  | .str s :: os, _, ⟨u, ws', h, h1, _⟩ => by
    obtain ⟨rfl, -⟩ := List.append_eq_nil_iff.mp h.symm
    exact absurd h1 (spelt_nil _)
  | .done :: os, rest, ⟨_, h⟩ => reads_nil os rest h
  | .never :: _, _, h => by cases h

/-- The canonical words are the tidied ones. -/
theorem encode_tidy : ∀ (os : List Operand) (sl : List Slack) (ws rest : List UInt32), Reads os ws rest → Suits os sl →
    rest = [] ∨ sl = [] → encodeOperands os ++ rest = tidy sl ws
  | [], sl, ws, rest, h, _, hr => by
    rcases hr with rfl | rfl
    · rw [show ws = [] from h, tidy_nil]; rfl
    · exact Eq.symm h
  | .done :: os, sl, _, rest, ⟨rfl, h⟩, _, _ => by
    obtain ⟨h1, rfl⟩ := reads_nil os rest h
    rw [tidy_nil, encodeOperands, h1]
    rfl
  | .lit w :: os, [], _, rest, ⟨ws', rfl, h⟩, hs, hr => congrArg (w :: ·) (encode_tidy os [] ws' rest h hs (.inr rfl))
  | .lit w :: os, .word :: sl, _, rest, ⟨ws', rfl, h⟩, hs, hr =>
    congrArg (w :: ·) (encode_tidy os sl ws' rest h hs (hr.imp_right nofun))
  | .mask i v :: os, .clear i' :: sl, _, rest, ⟨w, ws', rfl, h1, h⟩, ⟨hi, hs⟩, hr => by
    subst hi
    rw [tidy, h1]
    exact congrArg (v :: ·) (encode_tidy os sl ws' rest h hs (hr.imp_right nofun))
  | .str s :: os, .text :: sl, _, rest, ⟨u, ws', rfl, h1, h⟩, hs, hr => by
    rw [tidy, tidyText_spelt _ ws' u (stringBytes s) h1, ← encode_tidy os sl ws' rest h hs (hr.imp_right nofun),
      encodeOperands, stringWords, List.append_assoc]
  | .lit _ :: _, .clear _ :: _, _, _, _, hs, _ => by cases hs
  | .lit _ :: _, .text :: _, _, _, _, hs, _ => by cases hs
  | .mask _ _ :: _, [], _, _, _, hs, _ => by cases hs
  | .mask _ _ :: _, .word :: _, _, _, _, hs, _ => by cases hs
  | .mask _ _ :: _, .text :: _, _, _, _, hs, _ => by cases hs
  | .str _ :: _, [], _, _, _, hs, _ => by cases hs
  | .str _ :: _, .word :: _, _, _, _, hs, _ => by cases hs
  | .str _ :: _, .clear _ :: _, _, _, _, hs, _ => by cases hs
  | .never :: _, _, _, _, h, _, _ => by cases h

/-- If the tidied words are operands, so are the words. -/
theorem reads_of_tidy : ∀ (os : List Operand) (sl : List Slack) (ws : List UInt32), Reads os (tidy sl ws) [] →
    Suits os sl → Reads os ws []
  | os, [], ws, h, _ => h
  | os, sl, [], h, _ => by rw [tidy_nil] at h; exact h
  | [], .word :: sl, w :: ws, h, _ => by cases h
  | [], .clear _ :: sl, w :: ws, h, _ => by cases h
  | [], .text :: sl, w :: ws, h, _ => by
    have := congrArg List.length (show tidy _ _ = [] from h)
    rw [tidy_length] at this
    cases this
  | .done :: os, sl, w :: ws, ⟨h, _⟩, _ => by
    have := congrArg List.length h
    rw [tidy_length] at this
    cases this
  | .lit x :: os, .word :: sl, w :: ws, ⟨ws', h1, h⟩, hs => by
    rw [tidy] at h1
    obtain ⟨rfl, rfl⟩ := List.cons.inj h1
    exact ⟨ws, rfl, reads_of_tidy os sl ws h hs⟩
  | .mask i v :: os, .clear i' :: sl, w :: ws, ⟨x, ws', h1, h2, h⟩, ⟨hi, hs⟩ => by
    subst hi
    rw [tidy] at h1
    obtain ⟨rfl, rfl⟩ := List.cons.inj h1
    refine ⟨w, ws, rfl, ?_, reads_of_tidy os sl ws h hs⟩
    rw [← h2, UInt32.and_assoc, UInt32.and_self]
  | .str s :: os, .text :: sl, w :: ws, ⟨u, ws', h1, h2, h⟩, hs => by
    rw [tidy] at h1
    obtain ⟨v, ws2, h3, h4, rfl⟩ := spelt_of_tidyText _ _ _ u (stringBytes s) h2 h1
    exact ⟨v, ws2, h3, h4, reads_of_tidy os sl ws2 h hs⟩
  | .lit _ :: _, .clear _ :: _, _ :: _, _, hs => by cases hs
  | .lit _ :: _, .text :: _, _ :: _, _, hs => by cases hs
  | .mask _ _ :: _, .word :: _, _ :: _, _, hs => by cases hs
  | .mask _ _ :: _, .text :: _, _ :: _, _, hs => by cases hs
  | .str _ :: _, .word :: _, _ :: _, _, hs => by cases hs
  | .str _ :: _, .clear _ :: _, _ :: _, _, hs => by cases hs
  | .never :: _, _, _, h, _ => by cases h

/-! ### Instructions -/

/-- Words only -/
def Plain : List Operand → Prop
  | [] => True
  | .lit _ :: os => Plain os
  | .done :: os => Plain os
  | .never :: os => Plain os
  | _ => False

theorem plain_append : ∀ {a b : List Operand}, Plain a → Plain b → Plain (a ++ b)
  | [], _, _, hb => hb
  | .lit _ :: a, _, ha, hb => plain_append (a := a) ha hb
  | .done :: a, _, ha, hb => plain_append (a := a) ha hb
  | .never :: a, _, ha, hb => plain_append (a := a) ha hb
  | .mask _ _ :: _, _, ha, _ => False.elim ha
  | .str _ :: _, _, ha, _ => False.elim ha

theorem plain_suits : ∀ {a : List Operand}, Plain a → Suits a []
  | [], _ => trivial
  | .lit _ :: a, h => plain_suits (a := a) h
  | .done :: _, _ => trivial
  | .never :: _, _ => trivial
  | .mask _ _ :: _, h => False.elim h
  | .str _ :: _, h => False.elim h

class PlainEnc (α : Type) [Encode α] : Prop where
  plain : ∀ a : α, Plain (enc a)

instance : PlainEnc UInt32 := ⟨fun _ => trivial⟩
instance : PlainEnc OpId := ⟨fun _ => trivial⟩
instance : PlainEnc ResultId := ⟨fun _ => trivial⟩
instance : PlainEnc SourceVersion := ⟨fun _ => trivial⟩
instance : PlainEnc MemberIndex := ⟨fun _ => trivial⟩
instance : PlainEnc BuiltIn := ⟨fun _ => trivial⟩
instance : PlainEnc FunctionParameterAttribute := ⟨fun _ => trivial⟩
instance : PlainEnc FpRoundingMode := ⟨fun _ => trivial⟩
instance : PlainEnc LinkageType := ⟨fun _ => trivial⟩
instance : PlainEnc AddressingModel := ⟨fun _ => trivial⟩
instance : PlainEnc MemoryModel := ⟨fun _ => trivial⟩
instance : PlainEnc ExecutionModel := ⟨fun _ => trivial⟩
instance : PlainEnc Capability := ⟨fun _ => trivial⟩
instance : PlainEnc Signedness := ⟨fun _ => trivial⟩
instance : PlainEnc StorageClass := ⟨fun _ => trivial⟩
instance : PlainEnc Dim := ⟨fun _ => trivial⟩
instance : PlainEnc DepthStatus := ⟨fun _ => trivial⟩
instance : PlainEnc Arrayed := ⟨fun _ => trivial⟩
instance : PlainEnc MS := ⟨fun _ => trivial⟩
instance : PlainEnc SampledStatus := ⟨fun _ => trivial⟩
instance : PlainEnc ImageFormat := ⟨fun _ => trivial⟩
instance : PlainEnc AccessQualifier := ⟨fun _ => trivial⟩
instance : PlainEnc BranchWeights := ⟨fun _ => trivial⟩
instance : PlainEnc PhiArg := ⟨fun _ => trivial⟩
instance : PlainEnc SourceLanguage := ⟨fun l => by
  cases l with
  | Other n =>
    show Plain (if n ≤ 4 then [.never] else [.lit n])
    split <;> trivial
  | _ => trivial⟩
instance : PlainEnc ExecutionMode := ⟨fun m => by cases m <;> trivial⟩
instance {α : Type} [Encode α] [PlainEnc α] : PlainEnc (Option α) :=
  ⟨fun | some a => PlainEnc.plain a
       | none => trivial⟩
instance {α : Type} [Encode α] [PlainEnc α] : PlainEnc (List α) := ⟨fun l => by
  refine plain_append ?_ trivial
  induction l with
  | nil => trivial
  | cons a l ih => exact plain_append (PlainEnc.plain a) ih⟩

/-- Words, then the rest -/
theorem suits_plain : ∀ {a b : List Operand} {sl : List Slack}, Plain a → Suits b sl →
    Suits (a ++ b) (List.replicate a.length .word ++ sl)
  | [], _, _, _, hb => hb
  | .lit _ :: a, _, _, ha, hb => suits_plain (a := a) ha hb
  | .done :: _, _, _, _, _ => trivial
  | .never :: _, _, _, _, _ => trivial
  | .mask _ _ :: _, _, _, ha, _ => False.elim ha
  | .str _ :: _, _, _, ha, _ => False.elim ha

theorem suits_decoration (d : Decoration) (ws rest : List UInt32) (h : Reads (enc d) ws rest) :
    Suits (enc d) (decorationSlack ws) := by
  have hc : ∃ c os ws', enc d = .lit c :: os ∧ ws = c :: ws' := by
    cases d <;> exact ⟨_, _, h.choose, rfl, h.choose_spec.1⟩
  obtain ⟨c, os, ws', h1, rfl⟩ := hc
  rw [h1]
  cases d <;> (cases h1; trivial)

theorem suits_operands {X : Type} (inst : Core X) (ops rest : List UInt32) (h : Reads (operands inst) ops rest) :
    Suits (operands inst) (slackOf (opcode inst) ops) := by
  cases inst
  case OpDecorate op =>
    obtain ⟨ws, rfl, h⟩ := h
    exact suits_decoration op.decoration ws rest h
  case OpMemberDecorate op =>
    obtain ⟨ws, rfl, ws', rfl, h⟩ := h
    exact suits_decoration op.decoration ws' rest h
  case OpSource op =>
    have hl : (∃ w, enc op.language = [.lit w]) ∨ enc op.language = [.never] := by
      cases op.language with
      | Other n =>
        show (∃ w, (if n ≤ 4 then [Operand.never] else [.lit n]) = [.lit w]) ∨
          (if n ≤ 4 then [Operand.never] else [.lit n]) = [.never]
        split
        · exact .inr rfl
        · exact .inl ⟨_, rfl⟩
      | _ => exact .inl ⟨_, rfl⟩
    have ho : operands (.OpSource op : Core X) = enc op.language ++ enc op.version ++ enc op.file ++ enc op.source := rfl
    rw [ho]
    rcases hl with ⟨w, hl⟩ | hl <;> rw [hl]
    · cases op.file
      · trivial
      · cases op.source <;> trivial
    · trivial
  case OpLoad op => cases hm : op.memory_access <;> simp [operands, enc, hm, opcode, slackOf, Suits]
  case OpStore op => cases hm : op.memory_access <;> simp [operands, enc, hm, opcode, slackOf, Suits]
  case OpLoopMerge op => cases hm : op.loop_control.dependency_length <;> simp [operands, enc, hm, opcode, slackOf, Suits]
  case OpEntryPoint op => exact plain_suits (PlainEnc.plain op.interface)
  all_goals first
    | trivial
    | exact ⟨rfl, trivial⟩
    | exact plain_suits (PlainEnc.plain _)

/-- What tells how the words are looked at stays as it is. -/
theorem slackOf_tidy (code : Nat) (ops : List UInt32) : slackOf code (tidy (slackOf code ops) ops) = slackOf code ops := by
  by_cases h1 : code = 71
  · subst h1
    match ops with
    | [] => rfl
    | [_] => rfl
    | a :: d :: ws =>
      simp only [slackOf, List.drop_succ_cons, List.drop_zero, decorationSlack]
      by_cases h2 : d = 40
      · simp [h2, tidy]
      · by_cases h3 : d = 41
        · simp [h3, tidy]
        · simp [h2, h3, tidy]
  · by_cases h2 : code = 72
    · subst h2
      match ops with
      | [] => rfl
      | [_] => rfl
      | [_, _] => rfl
      | a :: b :: d :: ws =>
        simp only [slackOf, List.drop_succ_cons, List.drop_zero, decorationSlack]
        by_cases h2 : d = 40
        · simp [h2, tidy]
        · by_cases h3 : d = 41
          · simp [h3, tidy]
          · simp [h2, h3, tidy]
    · unfold slackOf
      split <;> first | rfl | contradiction

theorem slackOf_extInst (ops : List UInt32) : slackOf 12 ops = [] := rfl

theorem tidyHead_of {op n : Nat} {head : UInt32} (h : IsHead op (n + 1) head) :
    tidyHead head = UInt32.ofNat ((n + 1) * 65536 + op) ∧ head.toNat / 65536 - 1 = n ∧ head.toNat % 65536 = op := by
  obtain ⟨wc, h1, h2, h3⟩ := h
  have := head.toNat_lt
  have hd : head.toNat / 65536 = wc := by omega
  refine ⟨?_, by omega, by omega⟩
  rw [tidyHead]
  split
  · rw [show head.toNat + 65536 = (n + 1) * 65536 + op by omega]
  · rw [show (n + 1) * 65536 + op = head.toNat by omega, UInt32.ofNat_toNat]

theorem tidyHead_toNat (head : UInt32) : (tidyHead head).toNat =
    (head.toNat / 65536 - 1 + 1) * 65536 + head.toNat % 65536 := by
  have := head.toNat_lt
  rw [tidyHead]
  split
  · rw [UInt32.toNat_ofNat', Nat.mod_eq_of_lt (by omega)]
    omega
  · omega

theorem isHead_of_tidyHead {op n : Nat} {head : UInt32} (h : IsHead op (n + 1) (tidyHead head)) :
    IsHead op (n + 1) head ∧ head.toNat / 65536 - 1 = n ∧ head.toNat % 65536 = op := by
  obtain ⟨wc, h1, h2, h3⟩ := h
  rw [tidyHead_toNat] at h1
  have := head.toNat_lt
  refine ⟨⟨head.toNat / 65536, by omega, h2, by omega⟩, by omega, by omega⟩

theorem tidyBody_cons (head : UInt32) (ws : List UInt32) : tidyBody (head :: ws) =
    tidyHead head :: (tidy (slackOf (head.toNat % 65536) (ws.take (head.toNat / 65536 - 1)))
      (ws.take (head.toNat / 65536 - 1)) ++ tidyBody (ws.drop (head.toNat / 65536 - 1))) := by
  rw [tidyBody]

theorem tidyBody_length (ws : List UInt32) : (tidyBody ws).length = ws.length := by
  match ws with
  | [] => rw [tidyBody]
  | head :: ws =>
    rw [tidyBody_cons, List.length_cons, List.length_append, tidy_length, tidyBody_length (ws.drop _),
      ← List.length_append, List.take_append_drop, List.length_cons]
  termination_by ws.length
  decreasing_by simp; omega

/-- The words of one instruction, tidied -/
theorem encodeInst_tidy {X : Type} {encX : X → UInt32 × List UInt32} {known : List (ExtInstSet X)}
    (henc : ∀ s ∈ known, Recalls encX s) {before : List (Core X)} {inst : Core X} {u : List UInt32}
    (h : SpellsInst known before inst u) (ws : List UInt32) :
    tidyBody (u ++ ws) = encodeInst encX inst ++ tidyBody ws := by
  obtain ⟨-, head, ops, rfl, h2, h3⟩ := h
  obtain ⟨e1, e2, e3⟩ := tidyHead_of h2
  have key : opWordsOf encX inst = tidy (slackOf (opcode inst) ops) ops := by
    rcases core_cases inst with ⟨op, rfl⟩ | ⟨op, rfl⟩ | ⟨hn1, hn2⟩
    · have := encode_tidy _ _ ops [] h3.1 (suits_operands _ ops [] h3.1) (.inl rfl)
      exact this
    · obtain ⟨n, args, importer, name, s, h3, h4, h5, h8, h9⟩ := h3
      have := encode_tidy _ _ ops _ h3 (suits_operands _ ops _ h3) (.inr rfl)
      rw [← this]
      show _ ++ (encX op.instruction).1 :: (encX op.instruction).2 = _
      rw [henc s (mem_setNamed h8) _ _ _ h9]
    · rw [SpellsOperands_plain hn1 hn2] at h3
      have := encode_tidy _ _ ops [] h3 (suits_operands _ ops [] h3) (.inl rfl)
      rw [← this]
      cases inst <;> first | rfl | exact absurd rfl (hn2 _)
  rw [List.cons_append, tidyBody_cons, e1, e2, e3, List.take_left, List.drop_left, encodeInst_eq, key, tidy_length]
  rfl

/-- The words of the instructions, tidied -/
theorem encodeBody_tidy {X : Type} {encX : X → UInt32 × List UInt32} {known : List (ExtInstSet X)}
    (henc : ∀ s ∈ known, Recalls encX s) : ∀ (before insts : List (Core X)) (ws : List UInt32),
    SpellsBody known before insts ws → tidyBody ws = insts.flatMap (encodeInst encX)
  | _, [], _, h => by rw [show _ = _ from h, tidyBody]; rfl
  | before, inst :: insts, _, ⟨u, ws', rfl, h1, h2⟩ => by
    rw [encodeInst_tidy henc h1, encodeBody_tidy henc _ insts ws' h2]
    rfl

theorem SpellsOperands_of_tidy {X : Type} {known : List (ExtInstSet X)} {before : List (Core X)} {inst : Core X}
    {ops : List UInt32} (h : SpellsOperands known before inst (tidy (slackOf (opcode inst) ops) ops)) :
    SpellsOperands known before inst ops := by
  have key : Reads (operands inst) (tidy (slackOf (opcode inst) ops) ops) [] → Reads (operands inst) ops [] := by
    intro h
    have := suits_operands _ _ _ h
    rw [slackOf_tidy] at this
    exact reads_of_tidy _ _ _ h this
  rcases core_cases inst with ⟨op, rfl⟩ | ⟨op, rfl⟩ | ⟨hn1, hn2⟩
  · exact ⟨key h.1, h.2⟩
  · exact h
  · rw [SpellsOperands_plain hn1 hn2] at h ⊢
    exact key h

/-- If the tidied words are instructions, so are the words. -/
theorem SpellsBody_of_tidy {X : Type} {known : List (ExtInstSet X)} : ∀ (before insts : List (Core X)) (ws : List UInt32),
    SpellsBody known before insts (tidyBody ws) → SpellsBody known before insts ws
  | _, [], ws, h => List.length_eq_zero_iff.mp ((tidyBody_length ws).symm.trans (congrArg List.length h))
  | before, inst :: insts, [], ⟨u, ws', h, ⟨_, head, ops, h1, _⟩, _⟩ => by
    rw [tidyBody, h1] at h
    cases h
  | before, inst :: insts, head :: ws, ⟨u, ws', h, ⟨h1, head', ops, hu, h2, h3⟩, h4⟩ => by
    subst hu
    rw [tidyBody_cons, List.cons_append] at h
    obtain ⟨rfl, h'⟩ := List.cons.inj h
    obtain ⟨e1, e2, e3⟩ := isHead_of_tidyHead h2
    rw [e2, e3] at h'
    have hl := congrArg List.length h'
    simp only [List.length_append, tidyBody_length, tidy_length, List.length_take, List.length_drop] at hl
    have hle : ops.length ≤ ws.length := by omega
    have ht : (ws.take ops.length).length = ops.length := by rw [List.length_take]; omega
    obtain ⟨h5, h6⟩ := List.append_inj h' (by rw [tidy_length, ht])
    refine ⟨head :: ws.take ops.length, ws.drop ops.length, ?_, ⟨h1, head, _, rfl, ?_, ?_⟩, ?_⟩
    · rw [List.cons_append, List.take_append_drop]
    · rw [ht]
      exact e1
    · rw [← h5] at h3
      exact SpellsOperands_of_tidy h3
    · rw [← h6] at h4
      exact SpellsBody_of_tidy _ insts _ h4

theorem tidyVersion_iff (w : UInt32) : tidyVersion w = 0x00010000 ↔ IsVersionWord w := by
  have := w.toNat_lt
  rw [tidyVersion, IsVersionWord, ← UInt32.toNat_inj, UInt32.toNat_ofNat',
    Nat.mod_eq_of_lt (by omega)]
  show _ = 65536 ↔ _
  omega

end Magma.Slacks
