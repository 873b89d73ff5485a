import Verif.Proofs.Utf8
import Verif.Proofs.Serialise
import Verif.Props.Operands
/-! C83: which bytes are accepted as a string, by the table of the Unicode standard. -/

namespace Magma.Props
open Spec

/-- C83: the bytes of a string, as all other properties use them, are its characters by the table. -/
theorem C83_bytes (s : String) (bs : List UInt8) :
    stringBytes s = bs ↔ Utf8 bs (s.toList.map Char.toNat) := stringBytes_iff

/-- C83: a string with a terminator is accepted exactly if the bytes before the terminator are well-formed
by the table of the Unicode standard, and then its characters are those the table assigns to them. -/
theorem C83_accepted {ws : List UInt32} {k : Nat} (h : IsFirstNul (ws.flatMap wordBytes) k)
    (rest : List UInt32) (s : String) :
    (MemoryBlockRead.read ws : R (Block × String)) = .ok (rest, s) ↔
      rest = ws.drop (k / 4 + 1) ∧ Utf8 ((ws.flatMap wordBytes).take k) (s.toList.map Char.toNat) := by
  rw [← stringBytes_iff]
  obtain ⟨h1, h2⟩ := C08_string h
  constructor
  · intro hr
    by_cases hs : ∃ s', stringBytes s' = (ws.flatMap wordBytes).take k
    · obtain ⟨s', hs'⟩ := hs
      rw [h1 s' hs'] at hr
      injection hr with hr
      injection hr with ha hb
      subst hb
      exact ⟨ha.symm, hs'⟩
    · rw [h2 fun s' hs' => hs ⟨s', hs'⟩] at hr
      cases hr
  · rintro ⟨rfl, hb⟩
    exact h1 s hb

/-- C83: it is rejected, and as an invalid string, exactly if the table has no reading of the bytes. -/
theorem C83_rejected {ws : List UInt32} {k : Nat} (h : IsFirstNul (ws.flatMap wordBytes) k) :
    (MemoryBlockRead.read ws : R (Block × String)) = .error (.err .InvalidString) ↔
      ¬ ∃ cs, Utf8 ((ws.flatMap wordBytes).take k) cs := by
  rw [← exists_string_iff]
  obtain ⟨h1, h2⟩ := C08_string h
  constructor
  · rintro hr ⟨s, hs⟩
    rw [h1 s hs] at hr
    cases hr
  · intro hn
    exact h2 fun s hs => hn ⟨s, hs⟩

/-- C83: the table has at most one reading of given bytes. -/
theorem C83_unique {bs : List UInt8} {cs cs' : List Nat} (h : Utf8 bs cs) (h' : Utf8 bs cs') : cs = cs' :=
  utf8_unique h h'

/-- C83: every list of Unicode scalar values other than NUL can be written as a string that is read as these
characters, whatever words follow it. -/
theorem C83_all (cs : List Nat) (hs : ∀ c ∈ cs, IsScalar c) (h0 : 0 ∉ cs) :
    ∃ (ws : List UInt32) (s : String), s.toList.map Char.toNat = cs ∧
      ∀ rest, (MemoryBlockRead.read (ws ++ rest) : R (Block × String)) = .ok (rest, s) := by
  obtain ⟨l, hl⟩ := exists_chars cs hs
  have hl' : (String.ofList l).toList.map Char.toNat = cs := by rw [String.toList_ofList, hl]
  have hz : 0 ∉ stringBytes (String.ofList l) := fun h =>
    h0 (hl' ▸ zero_of_utf8 (stringBytes_iff.mp rfl) h)
  exact ⟨stringWords (String.ofList l), String.ofList l, hl', fun rest =>
    (Lawful.iff _ _ _).mpr ⟨_, rest, rfl, stringWords_spells hz, rfl⟩⟩

example : ∃ (ws : List UInt32) (s : String), s.toList.map Char.toNat = [0xE9, 0x20AC, 0x1F600] ∧
    ∀ rest, (MemoryBlockRead.read (ws ++ rest) : R (Block × String)) = .ok (rest, s) :=
  C83_all _ (by simp [IsScalar]) (by decide)

theorem readBind_err {α β : Type} {x : R α} {f : α → R β} {e : ReadError} (h : x = .error (.err e)) :
    (x >>= f) = .error (.err e) := by
  rw [h]; rfl

/-- C83: a module with an instruction whose string is not well-formed is rejected as having an invalid
string, whatever follows. -/
theorem C83_module {X : Type} {known : List (ExtInstSet X)} {before : List (Core X)}
    {head : UInt32} {ops rest : List UInt32} {tail bytes : List UInt8} {k n j : Nat}
    (h : Continues known before (head :: (ops ++ rest)) tail bytes)
    (hk : (k, n) ∈ stringOps) (hh : IsHead k (ops.length + 1) head) (hn : n ≤ ops.length)
    (hj : IsFirstNul ((ops.drop n).flatMap wordBytes) j)
    (hu : ¬ ∃ cs, Utf8 (((ops.drop n).flatMap wordBytes).take j) cs) :
    readModule bytes known = .error (.err .InvalidString) := by
  have hz := (C83_rejected hj).mpr hu
  refine Continues_error h (isHead_opWords hh).1.symm ?_
  intro b _
  have hk2 := (isHead_opWords hh).2
  simp only [stringOps, List.mem_cons, Prod.mk.injEq, List.not_mem_nil, or_false] at hk
  rcases hk with ⟨rfl, rfl⟩ | ⟨rfl, rfl⟩ | ⟨rfl, rfl⟩ | ⟨rfl, rfl⟩ | ⟨rfl, rfl⟩ | ⟨rfl, rfl⟩ | ⟨rfl, rfl⟩
  · rw [decode_eq hk2 (f := liftOp OpSourceContinued.read .OpSourceContinued) (by rfl)]
    exact readBind_err (readBind_err (readBind_err hz))
  · rw [decode_eq hk2 (f := liftOp OpSourceExtension.read .OpSourceExtension) (by rfl)]
    exact readBind_err (readBind_err (readBind_err hz))
  · match ops with
    | a :: ops =>
      rw [decode_eq hk2 (f := liftOp OpName.read .OpName) (by rfl)]
      have hid : (MemoryBlockRead.read (a :: ops) : R (Block × OpId)) = .ok (ops, ⟨a⟩) := rfl
      rw [List.drop_succ_cons, List.drop_zero] at hz
      simp only [liftOp, OpName.read, hid, ok_bind, hz]
      rfl
  · match ops with
    | a :: c :: ops =>
      rw [decode_eq hk2 (f := liftOp OpMemberName.read .OpMemberName) (by rfl)]
      have hid : (MemoryBlockRead.read (a :: c :: ops) : R (Block × OpId)) = .ok (c :: ops, ⟨a⟩) := rfl
      have hid' : (MemoryBlockRead.read (c :: ops) : R (Block × MemberIndex)) = .ok (ops, ⟨c⟩) := rfl
      rw [List.drop_succ_cons, List.drop_succ_cons, List.drop_zero] at hz
      simp only [liftOp, OpMemberName.read, hid, hid', ok_bind, hz]
      rfl
    | [_] => simp at hn
  · match ops with
    | a :: ops =>
      rw [decode_eq hk2 (f := liftOp OpString.read .OpString) (by rfl)]
      have hid : (MemoryBlockRead.read (a :: ops) : R (Block × ResultId)) = .ok (ops, ⟨a⟩) := rfl
      rw [List.drop_succ_cons, List.drop_zero] at hz
      simp only [liftOp, OpString.read, hid, ok_bind, hz]
      rfl
  · rw [decode_eq hk2 (f := liftOp OpExtension.read .OpExtension) (by rfl)]
    exact readBind_err (readBind_err (readBind_err hz))
  · match ops with
    | a :: ops =>
      rw [decode_eq hk2 (f := OpExtInstImport.readCore) (by rfl)]
      have hid : (MemoryBlockRead.read (a :: ops) : R (Block × ResultId)) = .ok (ops, ⟨a⟩) := rfl
      rw [List.drop_succ_cons, List.drop_zero] at hz
      simp only [OpExtInstImport.readCore, hid, ok_bind, hz]
      rfl

/-- No reading: the first bytes are in no row of the table. -/
theorem not_utf8 {bs : List UInt8} (h : bs ≠ [])
    (hr : ∀ n ∈ [1, 2, 3, 4], ∀ row ∈ utf8Table, ¬ InRow (bs.take n) row) : ¬ ∃ cs, Utf8 bs cs := by
  rintro ⟨cs, hu⟩
  generalize hbs : bs = bs' at hu
  cases hu with
  | nil => exact h hbs
  | @cons a rest row cs h1 h2 h3 =>
    have : a.length ∈ [1, 2, 3, 4] := by
      simp only [utf8Table, List.mem_cons, List.not_mem_nil, or_false] at h1
      rcases h1 with rfl | rfl | rfl | rfl | rfl | rfl | rfl | rfl | rfl <;>
      rcases a with _ | ⟨a, _ | ⟨b, _ | ⟨c, _ | ⟨d, _ | ⟨e, bs⟩⟩⟩⟩⟩ <;>
      simp [InRow] at h2 <;> simp
    refine hr _ this row h1 ?_
    rw [hbs, List.take_append_of_le_length (Nat.le_refl _), List.take_length]
    exact h2

/-- "é€😀": two, three and four bytes -/
example : Utf8 [0xC3, 0xA9, 0xE2, 0x82, 0xAC, 0xF0, 0x9F, 0x98, 0x80] [0xE9, 0x20AC, 0x1F600] :=
  .cons (bs := [0xC3, 0xA9]) (row := [(0xC2, 0xDF), (0x80, 0xBF)]) (by decide) (by decide) <|
  .cons (bs := [0xE2, 0x82, 0xAC]) (row := [(0xE1, 0xEC), (0x80, 0xBF), (0x80, 0xBF)]) (by decide) (by decide) <|
  .cons (bs := [0xF0, 0x9F, 0x98, 0x80]) (row := [(0xF0, 0xF0), (0x90, 0xBF), (0x80, 0xBF), (0x80, 0xBF)])
    (by decide) (by decide) .nil

/-- An overlong slash, a surrogate, a number too large and a byte missing -/
example : (¬ ∃ cs, Utf8 [0xC0, 0xAF] cs) ∧ (¬ ∃ cs, Utf8 [0xED, 0xA0, 0x80] cs) ∧
    (¬ ∃ cs, Utf8 [0xF4, 0x90, 0x80, 0x80] cs) ∧ ¬ ∃ cs, Utf8 [0xE2, 0x82] cs :=
  ⟨not_utf8 (by decide) (by decide), not_utf8 (by decide) (by decide), not_utf8 (by decide) (by decide),
    not_utf8 (by decide) (by decide)⟩

/-- `OpName %7` with the surrogate as name -/
example : readModule (X := Empty) (Samples.header ++ bytesOf true [0x00030005, 7, 0x0080A0ED]) [] =
    .error (.err .InvalidString) :=
  C83_module (ops := [7, 0x0080A0ED]) (rest := []) (k := 5) (n := 1) (j := 3) (continues_header _ _)
    (by simp [stringOps]) ⟨3, rfl, by decide, .inl rfl⟩ (by simp) ⟨rfl, by decide⟩
    (not_utf8 (by decide) (by decide))

/-- The euro sign, and the word after it -/
example : (MemoryBlockRead.read [0x00AC82E2, 7] : R (Block × String)) = .ok ([7], "€") :=
  (C83_accepted (k := 3) ⟨rfl, by decide⟩ _ _).mpr ⟨rfl,
    .cons (bs := [0xE2, 0x82, 0xAC]) (row := [(0xE1, 0xEC), (0x80, 0xBF), (0x80, 0xBF)]) (by decide) (by decide)
      .nil⟩

example {cs : List Nat} (h : Utf8 [0xC3, 0xA9] cs) (h' : Utf8 [0xC3, 0xA9] [0xE9]) : cs = [0xE9] := C83_unique h h'

end Magma.Props
