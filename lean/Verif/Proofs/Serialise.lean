import Verif.Proofs.ModuleBytes
/-! Lemmas: the canonical serialisation. -/

namespace Magma
open Spec

theorem packWord_eq (a b c d : UInt8) : packWord a b c d = leWord a b c d := by
  apply UInt32.toNat_inj.mp
  rw [leWord_toNat, packWord, UInt32.toNat_ofNat']
  have := a.toNat_lt
  have := b.toNat_lt
  have := c.toNat_lt
  have := d.toNat_lt
  omega

theorem wordBytes_packWord (a b c d : UInt8) : wordBytes (packWord a b c d) = [a, b, c, d] := by
  rw [packWord_eq, wordBytes_leWord]

theorem packWords_bytes (l : List UInt8) :
    ∃ pad, (packWords l).flatMap wordBytes = l ++ pad ∧ pad.length ≤ 3 := by
  fun_induction packWords l with
  | case1 => exact ⟨[], rfl, by simp⟩
  | case2 a => exact ⟨[0, 0, 0], by simp [wordBytes_packWord], by simp⟩
  | case3 a b => exact ⟨[0, 0], by simp [wordBytes_packWord], by simp⟩
  | case4 a b c => exact ⟨[0], by simp [wordBytes_packWord], by simp⟩
  | case5 a b c d r ih =>
    obtain ⟨pad, h, hl⟩ := ih
    exact ⟨pad, by simp [wordBytes_packWord, h], hl⟩

theorem stringWords_spells {s : String} (h : 0 ∉ stringBytes s) : SpellsString s (stringWords s) := by
  obtain ⟨pad, h1, h2⟩ := packWords_bytes (stringBytes s ++ [0])
  exact ⟨pad, by rw [stringWords, h1]; simp, h2, h⟩

theorem SpellsString_length {s : String} {u : List UInt32} (h : SpellsString s u) :
    4 * u.length = (stringBytes s).length + 1 + (3 - (stringBytes s).length % 4) := by
  obtain ⟨pad, h1, h2, -⟩ := h
  have := congrArg List.length h1
  rw [flatMap_wordBytes_length] at this
  simp at this
  omega

theorem SpellsString_length_eq {s : String} {u : List UInt32} (h : SpellsString s u) :
    u.length = (stringWords s).length := by
  have h1 := SpellsString_length h
  have h2 := SpellsString_length (stringWords_spells h.choose_spec.2.2)
  omega

theorem Reads_encode {os : List Operand} : ∀ {rest : List UInt32}, Expressible os →
    (.done ∈ os → rest = []) → Reads os (encodeOperands os ++ rest) rest := by
  induction os with
  | nil => intro rest _ _; rfl
  | cons o os ih =>
    intro rest h hd
    have hd' : Operand.done ∈ os → rest = [] := fun h => hd (List.mem_cons_of_mem _ h)
    cases o with
    | lit w => exact ⟨_, rfl, ih h hd'⟩
    | mask i v => exact ⟨v, _, rfl, h.1, ih h.2 hd'⟩
    | str s =>
      refine ⟨stringWords s, _, ?_, stringWords_spells h.1, ih h.2 hd'⟩
      simp [encodeOperands]
    | done =>
      have := hd (List.mem_cons_self ..)
      subst this
      refine ⟨?_, ih h.2 hd'⟩
      simp [encodeOperands, h.1]
    | never => exact h.elim

/-- What can be read is expressible, and the canonical words are as many. -/
theorem Reads_expressible {os : List Operand} : ∀ {ws rest : List UInt32}, Reads os ws rest →
    Expressible os ∧ ws.length = (encodeOperands os).length + rest.length ∧
      (.done ∈ os → rest = []) := by
  induction os with
  | nil => rintro ws rest rfl; simp [Expressible, encodeOperands]
  | cons o os ih =>
    intro ws rest h
    cases o with
    | lit w =>
      obtain ⟨ws', rfl, h⟩ := h
      obtain ⟨h1, h2, h3⟩ := ih h
      exact ⟨h1, by simp [encodeOperands, h2]; omega, by simpa using h3⟩
    | mask i v =>
      obtain ⟨w, ws', rfl, hv, h⟩ := h
      obtain ⟨h1, h2, h3⟩ := ih h
      refine ⟨⟨?_, h1⟩, by simp [encodeOperands, h2]; omega, by simpa using h3⟩
      rw [← hv, UInt32.and_assoc, UInt32.and_self]
    | str s =>
      obtain ⟨u, ws', rfl, hs, h⟩ := h
      obtain ⟨h1, h2, h3⟩ := ih h
      refine ⟨⟨hs.choose_spec.2.2, h1⟩, ?_, by simpa using h3⟩
      have := SpellsString_length_eq hs
      simp [encodeOperands, h2]
      omega
    | done =>
      obtain ⟨rfl, h⟩ := h
      obtain ⟨h1, h2, h3⟩ := ih h
      simp only [List.length_nil] at h2
      have h4 : encodeOperands os = [] := List.length_eq_zero_iff.mp (by omega)
      have h5 : rest = [] := List.length_eq_zero_iff.mp (by omega)
      exact ⟨⟨h4, h1⟩, by simp [encodeOperands, h4, h5], fun _ => h5⟩
    | never => exact h.elim

theorem opcode_lt {X : Type} (inst : Core X) : opcode inst < 65536 := by
  cases inst <;> simp [opcode]

/-- The words of an instruction after the head -/
def opWordsOf {X : Type} (encX : X → UInt32 × List UInt32) (inst : Core X) : List UInt32 :=
  encodeOperands (operands inst) ++
    match inst with
    | .OpExtInst op => (encX op.instruction).1 :: (encX op.instruction).2
    | _ => []

theorem encodeInst_eq {X : Type} (encX : X → UInt32 × List UInt32) (inst : Core X) :
    encodeInst encX inst = UInt32.ofNat (((opWordsOf encX inst).length + 1) * 65536 + opcode inst) ::
      opWordsOf encX inst := rfl

theorem encodeInst_head {X : Type} {encX : X → UInt32 × List UInt32} {inst : Core X}
    (h : (encodeInst encX inst).length < 65536) :
    IsHead (opcode inst) ((opWordsOf encX inst).length + 1)
      (UInt32.ofNat (((opWordsOf encX inst).length + 1) * 65536 + opcode inst)) := by
  rw [encodeInst_eq] at h
  simp only [List.length_cons] at h
  have := opcode_lt inst
  refine ⟨_, ?_, this, .inl rfl⟩
  rw [UInt32.toNat_ofNat', Nat.mod_eq_of_lt]
  omega

theorem serialise_inst {X : Type} {encX : X → UInt32 × List UInt32} {known : List (ExtInstSet X)}
    {before : List (Core X)} {inst : Core X} (h : SerialisableInst encX known before inst) :
    SpellsInst known before inst (encodeInst encX inst) := by
  obtain ⟨h1, h2, h3, h4⟩ := h
  refine ⟨h1, _, _, encodeInst_eq encX inst, encodeInst_head h3, ?_⟩
  rcases core_cases inst with ⟨op, rfl⟩ | ⟨op, rfl⟩ | ⟨hn1, hn2⟩
  · refine ⟨?_, h4⟩
    exact Reads_encode h2 (fun _ => rfl)
  · obtain ⟨importer, name, s, h5, h6, h7, h8⟩ := h4
    refine ⟨_, _, importer, name, s, ?_, h5, h6, h7, h8⟩
    refine Reads_encode h2 ?_
    simp [operands, enc]
  · rw [SpellsOperands_plain hn1 hn2]
    have : opWordsOf encX inst = encodeOperands (operands inst) ++ [] := by
      cases inst <;> first | rfl | exact absurd rfl (hn2 _)
    rw [this]
    exact Reads_encode h2 (fun _ => rfl)

theorem serialise_body {X : Type} {encX : X → UInt32 × List UInt32} {known : List (ExtInstSet X)}
    {insts : List (Core X)} : ∀ {pre : List (Core X)},
    (∀ before inst after, insts = before ++ inst :: after →
      SerialisableInst encX known (pre ++ before) inst) →
    SpellsBody known pre insts (insts.flatMap (encodeInst encX)) := by
  induction insts with
  | nil => intro pre _; rfl
  | cons i insts ih =>
    intro pre h
    refine ⟨_, _, rfl, serialise_inst (by simpa using h [] i insts rfl), ih ?_⟩
    rintro before inst after rfl
    simpa using h (i :: before) inst after rfl

theorem serialise_module {X : Type} {encX : X → UInt32 × List UInt32} {known : List (ExtInstSet X)}
    {m : RawModule X} (h : Serialisable encX known m) (le : Bool) :
    SpellsModule known m (encodeModule encX le m) := by
  obtain ⟨h1, h2, h3⟩ := h
  refine ⟨encodeWords encX m, ⟨0x00010000, _, _, rfl, ?_, h1, ⟨?_, h2⟩,
    serialise_body (by simpa using h3)⟩, ?_⟩
  · simp [IsVersionWord]
  · rw [UInt32.toNat_ofNat', Nat.mod_eq_of_lt]
    have := (toolCode m.generator.tool).toNat_lt
    have := m.generator.version.toNat_lt
    omega
  · cases le
    · right; rfl
    · left; rfl

theorem mem_setNamed {X : Type} {known : List (ExtInstSet X)} {name : String} {s : ExtInstSet X}
    (h : setNamed known name = some s) : s ∈ known := List.mem_of_find?_eq_some h

theorem IsHead_lt {op n : Nat} {head : UInt32} (h : IsHead op n head) : n < 65536 := by
  obtain ⟨wc, h1, h2, h3⟩ := h
  have := head.toNat_lt
  omega

theorem serialisable_inst {X : Type} {encX : X → UInt32 × List UInt32} {known : List (ExtInstSet X)}
    (henc : ∀ s ∈ known, EncodesSet encX s) {before : List (Core X)} {inst : Core X}
    {ws : List UInt32} (h : SpellsInst known before inst ws) :
    SerialisableInst encX known before inst := by
  obtain ⟨h1, head, ops, rfl, h2, h3⟩ := h
  have hlt := IsHead_lt h2
  rcases core_cases inst with ⟨op, rfl⟩ | ⟨op, rfl⟩ | ⟨hn1, hn2⟩
  · obtain ⟨h3, h4⟩ := h3
    obtain ⟨h5, h6, h7⟩ := Reads_expressible h3
    refine ⟨h1, h5, ?_, h4⟩
    rw [encodeInst_eq]
    simp [opWordsOf] at h6 ⊢
    omega
  · obtain ⟨n, args, importer, name, s, h3, h4, h5, h8, h9⟩ := h3
    obtain ⟨h10, h11, h12⟩ := Reads_expressible h3
    obtain ⟨h13, h14⟩ := henc s (mem_setNamed h8) _ _ _ h9
    refine ⟨h1, h10, ?_, importer, name, s, h4, h5, h8, h13⟩
    rw [encodeInst_eq]
    simp [opWordsOf] at h11 ⊢
    omega
  · rw [SpellsOperands_plain hn1 hn2] at h3
    obtain ⟨h5, h6, h7⟩ := Reads_expressible h3
    refine ⟨h1, h5, ?_, ?_⟩
    · rw [encodeInst_eq]
      have : opWordsOf encX inst = encodeOperands (operands inst) ++ [] := by
        cases inst <;> first | rfl | exact absurd rfl (hn2 _)
      rw [this]
      simp at h6 ⊢
      omega
    · cases inst <;> first | trivial | exact absurd rfl (hn2 _) | exact absurd rfl (hn1 _)

theorem encodeInst_length_le {X : Type} {encX : X → UInt32 × List UInt32}
    {known : List (ExtInstSet X)} (henc : ∀ s ∈ known, EncodesSet encX s) {before : List (Core X)}
    {inst : Core X} {ws : List UInt32} (h : SpellsInst known before inst ws) :
    (encodeInst encX inst).length ≤ ws.length := by
  obtain ⟨h1, head, ops, rfl, h2, h3⟩ := h
  rcases core_cases inst with ⟨op, rfl⟩ | ⟨op, rfl⟩ | ⟨hn1, hn2⟩
  · obtain ⟨h3, h4⟩ := h3
    obtain ⟨h5, h6, h7⟩ := Reads_expressible h3
    rw [encodeInst_eq]
    simp [opWordsOf] at h6 ⊢
    omega
  · obtain ⟨n, args, importer, name, s, h3, h4, h5, h8, h9⟩ := h3
    obtain ⟨h10, h11, h12⟩ := Reads_expressible h3
    obtain ⟨h13, h14⟩ := henc s (mem_setNamed h8) _ _ _ h9
    rw [encodeInst_eq]
    simp [opWordsOf] at h11 ⊢
    omega
  · rw [SpellsOperands_plain hn1 hn2] at h3
    obtain ⟨h5, h6, h7⟩ := Reads_expressible h3
    rw [encodeInst_eq]
    have : opWordsOf encX inst = encodeOperands (operands inst) ++ [] := by
      cases inst <;> first | rfl | exact absurd rfl (hn2 _)
    rw [this]
    simp at h6 ⊢
    omega

theorem encodeBody_length_le {X : Type} {encX : X → UInt32 × List UInt32}
    {known : List (ExtInstSet X)} (henc : ∀ s ∈ known, EncodesSet encX s) {insts : List (Core X)} :
    ∀ {pre : List (Core X)} {ws : List UInt32}, SpellsBody known pre insts ws →
      (insts.flatMap (encodeInst encX)).length ≤ ws.length := by
  induction insts with
  | nil => intro pre ws _; simp
  | cons i insts ih =>
    rintro pre ws ⟨u, ws', rfl, h1, h2⟩
    have h3 := encodeInst_length_le henc h1
    have h4 := ih h2
    simp only [List.flatMap_cons, List.length_append]
    omega

theorem bytesOf_inj {le : Bool} {v : List UInt32} : ∀ {w : List UInt32},
    bytesOf le v = bytesOf le w → v = w := by
  induction v with
  | nil =>
    intro w h
    have := congrArg List.length h
    simp only [bytesOf_length, List.length_nil] at this
    exact (List.length_eq_zero_iff.mp (by omega)).symm
  | cons a v ih =>
    intro w h
    cases w with
    | nil =>
      have := congrArg List.length h
      simp only [bytesOf_length, List.length_nil, List.length_cons] at this
      omega
    | cons b w =>
      have hc (c : UInt32) (u : List UInt32) : bytesOf le (c :: u) =
          (if le then wordBytes c else (wordBytes c).reverse) ++ bytesOf le u := rfl
      rw [hc, hc] at h
      obtain ⟨h1, h2⟩ := List.append_inj h (by cases le <;> rfl)
      rw [ih h2]
      congr 1
      cases le
      · exact wordBytes_inj (List.reverse_inj.mp h1)
      · exact wordBytes_inj h1

theorem serialisable_body {X : Type} {encX : X → UInt32 × List UInt32} {known : List (ExtInstSet X)}
    (henc : ∀ s ∈ known, EncodesSet encX s) {insts : List (Core X)} : ∀ {pre : List (Core X)}
    {ws : List UInt32}, SpellsBody known pre insts ws →
    ∀ before inst after, insts = before ++ inst :: after →
      SerialisableInst encX known (pre ++ before) inst := by
  induction insts with
  | nil => intro pre ws _ before inst after h; simp at h
  | cons i insts ih =>
    rintro pre ws ⟨u, ws', rfl, h1, h2⟩ before inst after h
    cases before with
    | nil =>
      simp at h
      obtain ⟨rfl, rfl⟩ := h
      simpa using serialisable_inst henc h1
    | cons b before =>
      simp at h
      obtain ⟨rfl, rfl⟩ := h
      simpa using ih h2 before inst after rfl

theorem serialisable_of_spells {X : Type} {encX : X → UInt32 × List UInt32}
    {known : List (ExtInstSet X)} (henc : ∀ s ∈ known, EncodesSet encX s) {m : RawModule X}
    {bytes : List UInt8} (h : SpellsModule known m bytes) : Serialisable encX known m := by
  obtain ⟨ws, ⟨ver, gen, body, rfl, h1, h2, h3, h4⟩, hd⟩ := h
  exact ⟨h2, h3.2, by simpa using serialisable_body henc h4⟩

end Magma
