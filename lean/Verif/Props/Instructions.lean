import Verif.Proofs.OpKinds
import Verif.Proofs.GlslLaws
import Verif.Props.Samples
/-! Properties of single instructions inside a module: C07, C13-C16.

`Continues known before ws tail bytes` says that `bytes` is a valid header, then valid
instructions `before`, then the words `ws` and `tail` (less than a word). -/

namespace Magma.Props
open Spec

/-- The number of operand words that a head word announces -/
def operandCount (head : UInt32) : Nat := head.toNat / 65536 - 1

/-- C07: a word inside the instruction that is not an operand is an error. (`done` stands for the
end of an optional or variadic operand: there, further words would be operands.) -/
theorem C07_excess {X : Type} {known : List (ExtInstSet X)} {before : List (Core X)}
    {inst : Core X} {head : UInt32} {ops extra rest : List UInt32} {tail bytes : List UInt8}
    (h : Continues known before (head :: (ops ++ extra ++ rest)) tail bytes)
    (hs : supported inst = true) (hh : IsHead (opcode inst) ((ops ++ extra).length + 1) head)
    (ho : SpellsOperands known before inst ops) (hx : ∀ op, inst ≠ .OpExtInst op)
    (hd : .done ∉ operands inst) (he : extra ≠ []) :
    readModule bytes known = .error (.err .InstructionHadExcessData) := by
  refine Continues_error h (isHead_opWords hh).1.symm ?_
  intro b hinv
  obtain ⟨b', ho⟩ := (OpsRel_iff hinv inst ops).mpr ho
  exact decode_excess hs (isHead_opWords hh).2 hx hd ho he

/-- C07: the same for an extended instruction: words that its set leaves over are an error. -/
theorem C07_excess_ext {X : Type} {known : List (ExtInstSet X)} {before : List (Core X)}
    {op : OpExtInst X} {head number : UInt32} {ops args left rest : List UInt32}
    {tail bytes : List UInt8} {importer : Core X} {name : String} {s : ExtInstSet X}
    (h : Continues known before (head :: (ops ++ rest)) tail bytes)
    (hh : IsHead 12 (ops.length + 1) head)
    (hr : ops = op.result_type.val :: op.result_id.val :: op.set.val :: number :: args)
    (hi : importer ∈ before) (hn : importName op.set.val importer = some name)
    (hset : setNamed known name = some s)
    (hx : s.readInstruction number args = .ok (left, op.instruction)) (hl : left ≠ []) :
    readModule bytes known = .error (.err .InstructionHadExcessData) := by
  refine Continues_error h (isHead_opWords hh).1.symm ?_
  intro b hinv
  obtain ⟨f, -, h1, h2, -⟩ := decode_entry (X := X) (inst := .OpExtInst op) rfl (isHead_opWords hh).2
  have hb := (hinv.some_iff op.set.val s).mpr ⟨importer, name, hi, hn, hset⟩
  rw [h1, h2 known b ops left b ⟨number, args, s, ?_, hb, hx, rfl⟩, ok_bind]
  · cases left with
    | nil => exact absurd rfl hl
    | cons _ _ => rfl
  · subst hr
    exact ⟨_, rfl, _, rfl, _, rfl, rfl⟩

/-- C07: cutting off operand words of an instruction with mandatory operands only is an error. -/
theorem C07_missing {X : Type} {known : List (ExtInstSet X)} {before : List (Core X)}
    {inst : Core X} {head : UInt32} {ops lost rest : List UInt32} {tail bytes : List UInt8}
    (h : Continues known before (head :: (ops ++ rest)) tail bytes)
    (hs : supported inst = true) (hh : IsHead (opcode inst) (ops.length + 1) head)
    (ho : SpellsOperands known before inst (ops ++ lost)) (hx : ∀ op, inst ≠ .OpExtInst op)
    (hd : ∀ inst' : Core X, opcode inst' = opcode inst → .done ∉ operands inst')
    (hl : lost ≠ []) :
    readModule bytes known = .error (.err .UnexpectedEndOfInstruction) := by
  refine Continues_error h (isHead_opWords hh).1.symm ?_
  intro b hinv
  obtain ⟨b', ho⟩ := (OpsRel_iff hinv inst _).mpr ho
  refine decode_missing_fixed hs (isHead_opWords hh).2 hx hd ho (List.prefix_append ops lost) ?_
  intro hq
  simp at hq
  exact hl hq

/-- C07: for every instruction: cutting off operand words is an error, or leaves the words of
another instruction with the same opcode. -/
theorem C07_missing_any {X : Type} {known : List (ExtInstSet X)} {before : List (Core X)}
    {inst : Core X} {head : UInt32} {ops lost rest : List UInt32} {tail bytes : List UInt8}
    (h : Continues known before (head :: (ops ++ rest)) tail bytes)
    (hs : supported inst = true) (hh : IsHead (opcode inst) (ops.length + 1) head)
    (ho : SpellsOperands known before inst (ops ++ lost)) (hx : ∀ op, inst ≠ .OpExtInst op) :
    readModule bytes known = .error (.err .UnexpectedEndOfInstruction) ∨
      ∃ inst' : Core X, opcode inst' = opcode inst ∧ SpellsOperands known before inst' ops := by
  obtain ⟨b, hinv, hb⟩ := Continues_read h
  obtain ⟨b', ho⟩ := (OpsRel_iff hinv inst _).mpr ho
  obtain ⟨hl, hk⟩ := isHead_opWords hh
  rcases decode_missing hs hk hx ho (List.prefix_append ops lost) with hd | ⟨i, b2, hd⟩
  · left
    apply hb
    rw [bodyW_cons (by simp; omega)]
    have : (ops ++ rest).take (opWords head) = ops := by simp [hl]
    rw [this, hd]
    rfl
  · right
    obtain ⟨h1, h2, h3⟩ := decode_iff.mp hd
    exact ⟨i, by rw [h2, hk], (OpsRel_iff hinv i ops).mp ⟨b2, h3⟩⟩

/-- A valid header and nothing else, for the examples -/
theorem continues_header (X : Type) (ws : List UInt32) :
    Continues (X := X) [] [] ws [] (Samples.header ++ bytesOf true ws) :=
  ⟨true, 0x00010000, 0x00080001, 20, [], by simp [IsVersionWord], rfl, by simp, by
    rw [List.append_nil, List.nil_append]
    rfl⟩

/-- `OpTypeVoid %2` with a word too many -/
example : readModule (X := Empty) (Samples.header ++ bytesOf true [0x00030013, 2, 0, 0x0002FFFF]) [] =
    .error (.err .InstructionHadExcessData) :=
  C07_excess (ops := [2]) (extra := [0]) (rest := [0x0002FFFF]) (inst := .OpTypeVoid ⟨⟨2⟩⟩)
    (continues_header _ _) rfl ⟨3, rfl, by decide, .inl rfl⟩ ⟨_, rfl, rfl⟩ (by simp)
    (by simp [operands, enc]) (by simp)

/-- `OpTypeVoid` without its result id -/
example : readModule (X := Empty) (Samples.header ++ bytesOf true [0x00010013, 2]) [] =
    .error (.err .UnexpectedEndOfInstruction) :=
  C07_missing (ops := []) (lost := [2]) (rest := [2]) (inst := .OpTypeVoid ⟨⟨2⟩⟩)
    (continues_header _ _) rfl ⟨1, rfl, by decide, .inl rfl⟩ ⟨_, rfl, rfl⟩ (by simp)
    (by intro i hi; cases i <;> simp_all [operands, enc, opcode]) (by simp)

/-- `OpExtInst .. Sin` with one operand too many -/
example : readModule (Samples.header ++ Samples.importWords ++
    bytesOf true [0x0007000C, 2, 9, 1, 13, 7, 7]) Samples.sets =
    .error (.err .InstructionHadExcessData) := by
  refine C07_excess_ext (before := [.OpExtInstImport ⟨⟨1⟩, "GLSL.std.450"⟩]) (left := [7])
    (op := ⟨⟨2⟩, ⟨9⟩, ⟨1⟩, .Sin ⟨⟨7⟩⟩⟩) (rest := []) (tail := [])
    (ops := [2, 9, 1, 13, 7, 7]) (number := 13) (args := [7, 7]) (head := 0x0007000C)
    (importer := .OpExtInstImport ⟨⟨1⟩, "GLSL.std.450"⟩) (name := "GLSL.std.450") (s := Glsl.instSet)
    ?_ ⟨7, rfl, by decide, .inl rfl⟩ rfl (by simp) rfl rfl rfl (by simp)
  refine ⟨true, 0x00010000, 0x00080001, 20, [0x0006000B, 1, 0x4C534C47, 0x6474732E, 0x3035342E, 0],
    by simp [IsVersionWord], ?_, by simp, rfl⟩
  refine ⟨[0x0006000B, 1, 0x4C534C47, 0x6474732E, 0x3035342E, 0], [], rfl,
    ⟨rfl, 0x0006000B, [1, 0x4C534C47, 0x6474732E, 0x3035342E, 0], rfl,
      ⟨6, rfl, by decide, .inl rfl⟩, ⟨[0x4C534C47, 0x6474732E, 0x3035342E, 0], rfl,
        [0x4C534C47, 0x6474732E, 0x3035342E, 0], [], rfl, ⟨[0, 0, 0], by rfl, by simp, ?_⟩, rfl⟩,
      ?_, by simp⟩, rfl⟩
  · decide
  · simp [setNamed, Samples.sets, Glsl.instSet, Glsl.setName]

/-- C13: a listed opcode gives the name of the standard. -/
theorem C13_unimplemented {X : Type} {known : List (ExtInstSet X)} {before : List (Core X)}
    {head : UInt32} {ops rest : List UInt32} {tail bytes : List UInt8} {name : String}
    (h : Continues known before (head :: (ops ++ rest)) tail bytes)
    (hl : ops.length = operandCount head)
    (hn : unimplementedOpcodes.lookup (head.toNat % 65536) = some name) :
    readModule bytes known = .error (.err (.UnimplementedOp name)) := by
  refine Continues_error h hl fun b _ => decode_unimplemented ?_
  have := opKinds_lookup X (head.toNat % 65536)
  simp only [specKind, hn] at this
  cases hx : (opTable X).lookup (head.toNat % 65536) with
  | none => rw [hx] at this; cases this
  | some en =>
    rw [hx] at this
    cases en with
    | read f => cases this
    | unimplemented n => cases this; rfl

/-- C13: an opcode that is in neither list is unknown. -/
theorem C13_unknown {X : Type} {known : List (ExtInstSet X)} {before : List (Core X)}
    {head : UInt32} {ops rest : List UInt32} {tail bytes : List UInt8}
    (h : Continues known before (head :: (ops ++ rest)) tail bytes)
    (hl : ops.length = operandCount head)
    (hn : unimplementedOpcodes.lookup (head.toNat % 65536) = none)
    (hs : head.toNat % 65536 ∉ supportedOpcodes) :
    readModule bytes known = .error (.err (.UnknownOp (UInt16.ofNat (head.toNat % 65536))
      (UInt16.ofNat (head.toNat / 65536)))) := by
  refine Continues_error h hl fun b _ => decode_unknown ?_
  have := opKinds_lookup X (head.toNat % 65536)
  have hc : supportedOpcodes.contains (head.toNat % 65536) = false := by simpa using hs
  simp only [specKind, hn, hc, Bool.false_eq_true, ite_false] at this
  simpa using this

/-- The sets of the caller do not themselves report errors of the stream, the header or the
opcode. -/
def OnlyOperandErrors {X : Type} (s : ExtInstSet X) : Prop :=
  ∀ n ws e, s.readInstruction n ws = .error (.err e) →
    match e with
    | .UnexpectedEndOfStream | .UnexpectedStreamAlignment | .BadMagic | .UnknownVersionBytes ..
    | .UnknownVersion _ | .UnknownReservedSchema | .UnknownOp .. | .UnimplementedOp _
    | .WrongWordCountForOp => False
    | _ => True

theorem OnlyOperandErrors.inner {X : Type} {s : ExtInstSet X} (h : OnlyOperandErrors s)
    (n : UInt32) (ws : Block) : Inner (s.readInstruction n ws) := by
  intro e he
  have := h n ws e he
  cases e <;> first | rfl | exact this.elim

theorem onlyOperandErrors_glsl : OnlyOperandErrors Glsl.instSet := by
  intro n ws e he
  have := Glsl.readInst_inner n ws e he
  cases e <;> trivial

/-- C13: the two errors are given only for such opcodes: whenever `read_module` reports an
unimplemented opcode, the module has, after valid instructions, a complete instruction with a listed
opcode of that name. -/
theorem C13_unimplemented_only {X : Type} {known : List (ExtInstSet X)}
    (hk : ∀ s ∈ known, OnlyOperandErrors s) {bytes : List UInt8} {name : String}
    (h : readModule bytes known = .error (.err (.UnimplementedOp name))) :
    ∃ before head ops rest tail, Continues known before (head :: (ops ++ rest)) tail bytes ∧
      ops.length = operandCount head ∧
      unimplementedOpcodes.lookup (head.toNat % 65536) = some name := by
  rcases readModule_error h with ⟨x, hx, hh⟩ | he | ⟨before, head, ops, rest, tail, b, hc, hl, -, hb, hd⟩
  · cases hx; cases hh
  · rcases he with he | he <;> cases he
  · refine ⟨before, head, ops, rest, tail, hc, hl, ?_⟩
    have hs := opKinds_lookup X (head.toNat % 65536)
    rcases decode_inner (fun p hp => (hk _ (hb p hp)).inner) hd with ⟨_, he⟩ | ⟨n, hx, he⟩ | he
    · cases he
    · cases he
      rw [hx] at hs
      simp only [specKind] at hs
      split at hs
      · rename_i n' hn'
        cases hs
        exact hn'
      · split at hs <;> cases hs
    · cases he

/-- C13: the same for unknown opcodes. -/
theorem C13_unknown_only {X : Type} {known : List (ExtInstSet X)}
    (hk : ∀ s ∈ known, OnlyOperandErrors s) {bytes : List UInt8} {op wc : UInt16}
    (h : readModule bytes known = .error (.err (.UnknownOp op wc))) :
    ∃ before head ops rest tail, Continues known before (head :: (ops ++ rest)) tail bytes ∧
      ops.length = operandCount head ∧ head.toNat = wc.toNat * 65536 + op.toNat ∧
      unimplementedOpcodes.lookup op.toNat = none ∧ op.toNat ∉ supportedOpcodes := by
  rcases readModule_error h with ⟨x, hx, hh⟩ | he | ⟨before, head, ops, rest, tail, b, hc, hl, -, hb, hd⟩
  · cases hx; cases hh
  · rcases he with he | he <;> cases he
  · refine ⟨before, head, ops, rest, tail, hc, hl, ?_⟩
    have hs := opKinds_lookup X (head.toNat % 65536)
    rcases decode_inner (fun p hp => (hk _ (hb p hp)).inner) hd with ⟨hx, he⟩ | ⟨n, hx, he⟩ | he
    · cases he
      have := head.toNat_lt
      have e1 : (UInt16.ofNat (head.toNat % 65536)).toNat = head.toNat % 65536 := by
        rw [UInt16.toNat_ofNat']; omega
      have e2 : (UInt16.ofNat (head.toNat / 65536)).toNat = head.toNat / 65536 := by
        rw [UInt16.toNat_ofNat']; omega
      rw [e1, e2]
      refine ⟨by omega, ?_⟩
      rw [hx] at hs
      simp only [specKind] at hs
      split at hs
      · cases hs
      · rename_i hn
        refine ⟨hn, ?_⟩
        split at hs
        · cases hs
        · rename_i hc; simpa using hc
    · cases he
    · cases he

/-- The instructions of an accepted module, one by one -/
theorem accepted_inst {X : Type} {known : List (ExtInstSet X)} {bytes : List UInt8}
    {m : RawModule X} (h : readModule bytes known = .ok m) {pre post : List (Core X)} {i : Core X}
    (hm : m.instructions = pre ++ i :: post) :
    ∃ le u w v, bytes = bytesOf le (u ++ w ++ v) ∧ SpellsInst known pre i w := by
  obtain ⟨ws, ⟨ver, gen, body, rfl, h1, h2, h3, h4⟩, hd⟩ := (readModule_iff _ _ _).mp h
  rw [hm, SpellsBody_append] at h4
  obtain ⟨u, v, rfl, -, w, v', rfl, h5, -⟩ := h4
  refine ⟨decide (bytes = bytesOf true (0x07230203 :: ver :: gen :: m.bound :: 0 :: (u ++ (w ++ v')))),
    0x07230203 :: ver :: gen :: m.bound :: 0 :: u, w, v', ?_, by simpa using h5⟩
  by_cases hb : bytes = bytesOf true (0x07230203 :: ver :: gen :: m.bound :: 0 :: (u ++ (w ++ v')))
  · simp only [hb, decide_true]
    simp
  · simp only [hb, decide_false]
    rcases hd with hd | hd
    · exact absurd hd hb
    · simpa [bytesOf] using hd

/-- C13: an accepted module has only instructions with supported opcodes, and never one of the five
kinds that the code has no reader for. -/
theorem C13_supported {X : Type} {known : List (ExtInstSet X)} {bytes : List UInt8}
    {m : RawModule X} (h : readModule bytes known = .ok m) (i : Core X) (hi : i ∈ m.instructions) :
    opcode i ∈ supportedOpcodes ∧ (∀ op, i ≠ .OpTypeEvent op) ∧ (∀ op, i ≠ .OpTypeDeviceEvent op) ∧
      (∀ op, i ≠ .OpTypeQueue op) ∧ (∀ op, i ≠ .OpTypePipe op) ∧
      ∀ op, i ≠ .OpTypeForwardPointer op := by
  obtain ⟨pre, post, hm⟩ := List.append_of_mem hi
  obtain ⟨_, _, _, _, _, hs, -⟩ := accepted_inst h hm
  cases i <;> first
    | (simp [opcode, supportedOpcodes]; done)
    | cases hs

/-- C13: what is read after the instructions `pre` of an accepted module has the opcode of the next
head word. -/
theorem C13_named {X : Type} {known : List (ExtInstSet X)} {bytes : List UInt8}
    {m : RawModule X} (h : readModule bytes known = .ok m) {pre post : List (Core X)} {i : Core X}
    (hm : m.instructions = pre ++ i :: post) :
    ∃ head ops rest, Continues known pre (head :: (ops ++ rest)) [] bytes ∧
      ops.length = operandCount head ∧ head.toNat % 65536 = opcode i := by
  obtain ⟨ws, ⟨ver, gen, body, rfl, h1, h2, h3, h4⟩, hd⟩ := (readModule_iff _ _ _).mp h
  rw [hm, SpellsBody_append] at h4
  obtain ⟨u, v, rfl, hu, w, v', rfl, ⟨-, head, ops, rfl, ⟨wc, hw, ho, hc⟩, -⟩, -⟩ := h4
  refine ⟨head, ops, v', ?_, by unfold operandCount; omega, by omega⟩
  rcases hd with hd | hd
  · exact ⟨true, ver, gen, m.bound, u, h1, hu, by simp, by simpa [bytesOf] using hd⟩
  · exact ⟨false, ver, gen, m.bound, u, h1, hu, by simp, by simpa [bytesOf] using hd⟩

example : readModule (X := Empty) (Samples.header ++ bytesOf true [0x00020008, 2, 7]) [] =
    .error (.err (.UnimplementedOp "OpLine")) :=
  C13_unimplemented (ops := [2]) (rest := [7]) (continues_header _ _) rfl rfl
example : readModule (X := Empty) (Samples.header ++ bytesOf true [0x0002FFFE, 2, 7]) [] =
    .error (.err (.UnknownOp 65534 2)) :=
  C13_unknown (ops := [2]) (rest := [7]) (continues_header _ _) rfl rfl (by decide)

/-- C14: the imports of an accepted module have different ids. -/
theorem C14_imports_distinct {X : Type} {known : List (ExtInstSet X)} {bytes : List UInt8}
    {m : RawModule X} (h : readModule bytes known = .ok m) {a b : OpExtInstImport}
    {pre mid post : List (Core X)}
    (hm : m.instructions = pre ++ .OpExtInstImport a :: (mid ++ .OpExtInstImport b :: post)) :
    a.result_id ≠ b.result_id := by
  intro hab
  obtain ⟨_, _, _, _, _, -, _, _, -, -, -, -, hn⟩ :=
    accepted_inst (pre := pre ++ .OpExtInstImport a :: mid) (i := .OpExtInstImport b) (post := post)
      h (by rw [hm]; simp)
  have := hn (.OpExtInstImport a) (by simp)
  simp [importName, hab] at this

/-- C14: a second import under the same id is rejected with that id, whatever follows the
operands. -/
theorem C14_duplicate {X : Type} {known : List (ExtInstSet X)} {before : List (Core X)}
    {a b : OpExtInstImport} {head : UInt32} {ops u extra rest : List UInt32} {tail bytes : List UInt8}
    (h : Continues known before (head :: (ops ++ rest)) tail bytes)
    (hh : IsHead 11 (ops.length + 1) head)
    (ho : ops = b.result_id.val :: (u ++ extra)) (hu : SpellsString b.name u)
    (hn : ∃ s ∈ known, s.name = b.name)
    (ha : .OpExtInstImport a ∈ before) (hab : a.result_id = b.result_id) :
    readModule bytes known = .error (.err (.DuplicateResultId b.result_id)) := by
  refine Continues_error h (isHead_opWords hh).1.symm ?_
  intro bd hinv
  have hf : (opTable X).lookup 11 = some (.read OpExtInstImport.readCore) := by rfl
  rw [decode_eq (isHead_opWords hh).2 hf, readImport_eq]
  have hr : readImport ops = .ok (extra, b) :=
    ((readImport_law X).iff _ _ _).mpr (by subst ho; exact ⟨_, rfl, u, extra, rfl, hu, rfl⟩)
  rw [hr, ok_bind]
  dsimp only [bindImport]
  obtain ⟨s, hs, hsn⟩ := hn
  cases hfind : known.find? (fun s => s.name == b.name) with
  | none =>
    have := List.find?_eq_none.mp hfind s hs
    simp [hsn] at this
  | some s =>
    have : bd.lookup b.result_id.val ≠ none := by
      rw [Ne, hinv.none_iff]
      intro hall
      have := hall _ ha
      simp [importName, hab] at this
    obtain ⟨s', hs'⟩ := Option.ne_none_iff_exists'.mp this
    simp only [BoundSets.insert, BoundSets.get, hs']
    rfl

/-- C16: an import of a name that no known set has is rejected with that name. -/
theorem C16_unknown_set {X : Type} {known : List (ExtInstSet X)} {before : List (Core X)}
    {b : OpExtInstImport} {head : UInt32} {ops u extra rest : List UInt32} {tail bytes : List UInt8}
    (h : Continues known before (head :: (ops ++ rest)) tail bytes)
    (hh : IsHead 11 (ops.length + 1) head)
    (ho : ops = b.result_id.val :: (u ++ extra)) (hu : SpellsString b.name u)
    (hn : ∀ s ∈ known, s.name ≠ b.name) :
    readModule bytes known = .error (.err (.UnknownInstSet b.name)) := by
  refine Continues_error h (isHead_opWords hh).1.symm ?_
  intro bd hinv
  have hf : (opTable X).lookup 11 = some (.read OpExtInstImport.readCore) := by rfl
  rw [decode_eq (isHead_opWords hh).2 hf, readImport_eq]
  have hr : readImport ops = .ok (extra, b) :=
    ((readImport_law X).iff _ _ _).mpr (by subst ho; exact ⟨_, rfl, u, extra, rfl, hu, rfl⟩)
  rw [hr, ok_bind]
  dsimp only [bindImport]
  have : known.find? (fun s => s.name == b.name) = none := by
    rw [List.find?_eq_none]
    intro s hs
    simpa using hn s hs
  rw [this]
  rfl

/-- C15: an extended instruction comes after the import of its set, and is what the first known set
of the imported name makes of the number and the words in the input. -/
theorem C15_decoded_by_set {X : Type} {known : List (ExtInstSet X)} {bytes : List UInt8}
    {m : RawModule X} (h : readModule bytes known = .ok m) {op : OpExtInst X}
    {pre post : List (Core X)} (hm : m.instructions = pre ++ .OpExtInst op :: post) :
    ∃ imp s number args le head, .OpExtInstImport imp ∈ pre ∧ imp.result_id.val = op.set.val ∧
      known.find? (fun s => s.name == imp.name) = some s ∧
      s.readInstruction number args = .ok ([], op.instruction) ∧
      bytesOf le (head :: op.result_type.val :: op.result_id.val :: op.set.val :: number :: args)
        <:+: bytes := by
  obtain ⟨le, u, w, v, rfl, hs, head, ops, rfl, hh, number, args, importer, name, s, hr, h1, h2, h3, h4⟩ :=
    accepted_inst h hm
  cases importer with
  | OpExtInstImport imp =>
    simp only [importName] at h2
    split at h2
    · rename_i hid
      cases h2
      refine ⟨imp, s, number, args, le, head, h1, hid, h3, h4, ?_⟩
      obtain ⟨_, rfl, _, rfl, _, rfl, rfl⟩ := hr
      rw [bytesOf_append, bytesOf_append]
      exact ⟨bytesOf le u, bytesOf le v, rfl⟩
    · cases h2
  | _ => cases h2

/-- C15: an extended instruction of a set that was not imported is rejected with the id of the
set. -/
theorem C15_not_imported {X : Type} {known : List (ExtInstSet X)} {before : List (Core X)}
    {head rt id set number : UInt32} {args rest : List UInt32} {tail bytes : List UInt8}
    (h : Continues known before (head :: (rt :: id :: set :: number :: args ++ rest)) tail bytes)
    (hh : IsHead 12 (args.length + 5) head)
    (hn : ∀ imp, .OpExtInstImport imp ∈ before → imp.result_id.val ≠ set) :
    readModule bytes known = .error (.err (.UnknownInstSetId ⟨set⟩)) := by
  refine Continues_error (ops := rt :: id :: set :: number :: args) h (isHead_opWords hh).1.symm ?_
  intro bd hinv
  have hf : (opTable X).lookup 12 = some (.read OpExtInst.readCore) := by rfl
  have hb : bd.lookup set = none := by
    rw [hinv.none_iff]
    intro i hi
    cases i with
    | OpExtInstImport imp => simp [importName, hn imp hi]
    | _ => rfl
  rw [decode_eq (isHead_opWords hh).2 hf]
  simp only [OpExtInst.readCore, MemoryBlockRead.read, Block.readWord, BoundSets.get, bind,
    Except.bind, pure, Except.pure, hb]

/-- C16: sets added at the end of the list do not change the module. -/
theorem C16_more_sets {X : Type} {known : List (ExtInstSet X)} {bytes : List UInt8}
    {m : RawModule X} (h : readModule bytes known = .ok m) (more : List (ExtInstSet X)) :
    readModule bytes (known ++ more) = .ok m := by
  rw [readModule_iff] at h ⊢
  obtain ⟨ws, ⟨ver, gen, body, rfl, h1, h2, h3, h4⟩, hd⟩ := h
  refine ⟨_, ⟨ver, gen, body, rfl, h1, h2, h3, ?_⟩, hd⟩
  have hset {name : String} {s : ExtInstSet X} (h : setNamed known name = some s) :
      setNamed (known ++ more) name = some s := by
    simp only [setNamed, List.find?_append] at h ⊢
    simp [h]
  have hinst {before : List (Core X)} {i : Core X} {w : List UInt32} (h : SpellsInst known before i w) :
      SpellsInst (known ++ more) before i w := by
    obtain ⟨h1, head, ops, rfl, h2, h3⟩ := h
    refine ⟨h1, head, ops, rfl, h2, ?_⟩
    rcases core_cases i with ⟨op, rfl⟩ | ⟨op, rfl⟩ | ⟨n1, n2⟩
    · obtain ⟨e1, e2, e3⟩ := h3
      obtain ⟨s, hs⟩ := Option.ne_none_iff_exists'.mp e2
      exact ⟨e1, by rw [hset hs]; simp, e3⟩
    · obtain ⟨n, args, imp, name, s, e1, e2, e3, e4, e5⟩ := h3
      exact ⟨n, args, imp, name, s, e1, e2, e3, hset e4, e5⟩
    · rw [SpellsOperands_plain n1 n2] at h3 ⊢
      exact h3
  have hbody : ∀ (insts before : List (Core X)) (w : List UInt32), SpellsBody known before insts w →
      SpellsBody (known ++ more) before insts w := by
    intro insts
    induction insts with
    | nil => intro before w h; exact h
    | cons i insts ih =>
      rintro before w ⟨u, v, rfl, e1, e2⟩
      exact ⟨u, v, rfl, hinst e1, ih _ _ e2⟩
  exact hbody _ _ _ h4

example : ∃ imp s number args le head,
    .OpExtInstImport imp ∈ Samples.raw.instructions.take 3 ∧ imp.result_id.val = 1 ∧
      Samples.sets.find? (fun s => s.name == imp.name) = some s ∧
      s.readInstruction number args = .ok ([], Glsl.Inst.Sin ⟨⟨7⟩⟩) ∧
      bytesOf le (head :: 2 :: 9 :: 1 :: number :: args) <:+: Samples.bytes :=
  C15_decoded_by_set (op := ⟨⟨2⟩, ⟨9⟩, ⟨1⟩, .Sin ⟨⟨7⟩⟩⟩) (post := []) Samples.read_bytes rfl

example : readModule (X := Glsl.Inst) (Samples.header ++ bytesOf true [0x0006000C, 2, 9, 1, 13, 7]) [] =
    .error (.err (.UnknownInstSetId ⟨1⟩)) :=
  C15_not_imported (args := [7]) (rest := []) (continues_header _ _) ⟨6, rfl, by decide, .inl rfl⟩
    (by simp)

example : readModule (Samples.header ++ Samples.importWords ++ Samples.importWords) Samples.sets =
    .error (.err (.DuplicateResultId ⟨1⟩)) := by rfl
example : readModule (X := Empty) (Samples.header ++ Samples.importWords) [] =
    .error (.err (.UnknownInstSet "GLSL.std.450")) := by rfl

example : readModule Samples.bytes (Samples.sets ++ [⟨"x", fun _ _ => .error .diverge⟩]) =
    .ok Samples.raw := C16_more_sets Samples.read_bytes _

/-! The other theorems applied -/

/-- `OpTypePointer` with its storage class but without its type -/
example := C07_missing_any (X := Empty) (known := []) (head := 0x00030020) (ops := [4, 7]) (lost := [6]) (rest := [])
  (inst := .OpTypePointer ⟨⟨4⟩, .Function, ⟨6⟩⟩) (continues_header _ _) rfl ⟨3, rfl, by decide, .inl rfl⟩
  ⟨_, rfl, _, rfl, _, rfl, rfl⟩ nofun
example := C13_unimplemented_only (X := Empty) (known := []) (fun _ h => nomatch h)
  (bytes := Samples.header ++ bytesOf true [0x00020008, 2, 7]) (name := "OpLine") (by rfl)
example := C13_unknown_only (X := Empty) (known := []) (fun _ h => nomatch h)
  (bytes := Samples.header ++ bytesOf true [0x0002FFFE, 2, 7]) (op := 65534) (wc := 2) (by rfl)
example := C13_supported Samples.read_bytes (.OpTypeVoid ⟨⟨2⟩⟩) (by simp [Samples.raw])
/-- Two imports of the same set -/
example : (⟨1⟩ : ResultId) ≠ ⟨2⟩ :=
  C14_imports_distinct (known := Samples.sets) (a := ⟨⟨1⟩, "GLSL.std.450"⟩) (b := ⟨⟨2⟩, "GLSL.std.450"⟩)
    (bytes := Samples.header ++ Samples.importWords ++ Samples.voidWords.set 0 19 ++
      [11, 0, 6, 0, 2, 0, 0, 0, 71, 76, 83, 76, 46, 115, 116, 100, 46, 52, 53, 48, 0, 0, 0, 0])
    (m := { Samples.raw with instructions := [.OpExtInstImport ⟨⟨1⟩, "GLSL.std.450"⟩, .OpTypeVoid ⟨⟨2⟩⟩,
      .OpExtInstImport ⟨⟨2⟩, "GLSL.std.450"⟩] })
    (pre := []) (mid := [.OpTypeVoid ⟨⟨2⟩⟩]) (post := []) (by rfl) rfl
example : readModule (X := Empty) (Samples.header ++
    bytesOf true [0x0006000B, 1, 0x4C534C47, 0x6474732E, 0x3035342E, 0, 7]) [] =
    .error (.err (.UnknownInstSet "GLSL.std.450")) :=
  C16_unknown_set (b := ⟨⟨1⟩, "GLSL.std.450"⟩) (u := [0x4C534C47, 0x6474732E, 0x3035342E, 0]) (extra := [])
    (head := 0x0006000B) (ops := [1, 0x4C534C47, 0x6474732E, 0x3035342E, 0]) (rest := [7]) (continues_header _ _)
    ⟨6, rfl, by decide, .inl rfl⟩ rfl ⟨[0, 0, 0], by decide +kernel, by decide, by decide +kernel⟩ nofun

end Magma.Props
