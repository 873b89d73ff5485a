import Verif.Proofs.Listing
import Verif.Proofs.ReferenceModule
import Verif.Proofs.Disassembly
/-! Lemmas: the disassembly of a module against the reference. -/

namespace Magma
open Spec
variable {X : Type}

/-- The names of the sets -/
def setNames (bound : BoundSets X) : List (UInt32 × String) := bound.map fun p => (p.1, p.2.name)

/-- What is known after an instruction: its line, the names of the imports, and that they are known -/
structure InstListed [Display X] (ext : ExtText) (known : List (ExtInstSet X)) (bound bound' : BoundSets X) (code : Nat)
    (ws : List UInt32) (c : Core X) : Prop where
  line : Display.fmt c = instLine ext (setNames bound) code ws
  imports : setNames bound' = importsAfter (setNames bound) code ws
  known : ∀ q ∈ bound', q.2 ∈ known

/-- The entry of the table prints as the reference. -/
def EntryLists [Display X] (p : Nat × OpEntry X) : Prop :=
  ∀ f, p.2 = .read f → ∀ ext known (bound : BoundSets X) ws c bound', ShowsSets ext known → (∀ q ∈ bound, q.2 ∈ known) →
    decodeEntry f ws known bound = .ok (c, bound') → InstListed ext known bound bound' p.1 ws c

theorem EntryLists.unimplemented [Display X] {k : Nat} {n : String} : EntryLists (X := X) (k, .unimplemented n) := by
  rintro f hf
  cases hf

theorem decodeEntry_ok {f : CoreReader X} {ws : Block} {known : List (ExtInstSet X)} {bound bound' : BoundSets X} {c : Core X}
    (h : decodeEntry f ws known bound = .ok (c, bound')) : f ws known bound = .ok (([], c), bound') := by
  unfold decodeEntry at h
  obtain ⟨⟨⟨r, d⟩, b⟩, h1, h2⟩ := bind_ok.mp h
  cases r with
  | nil => cases h2; exact h1
  | cons _ _ => cases h2

theorem EntryLists.lift [Display X] {α : Type} [Display α] {k : Nat} {read : Block → R (Block × α)} {mk : α → Core X}
    [OpLists read k] (h1 : k ≠ 11) (h2 : k ≠ 12) (hm : ∀ a, Core.fmt (mk a) = Display.fmt a) :
    EntryLists (k, .read (liftOp read mk)) := by
  rintro f hf ext known bound ws c bound' hx hb h
  cases hf
  obtain ⟨⟨r, a⟩, hr, hk⟩ := bind_ok.mp (decodeEntry_ok h)
  cases hk
  refine ⟨?_, ?_, hb⟩
  · show Core.fmt (mk a) = _
    rw [instLine, if_neg h2, hm]
    exact OpLists.lists ws _ a hr
  · rw [importsAfter, if_neg h1]

instance : OpLists readImport 11 := by listed readImport

theorem readImport_words {ws rest : Block} {op : OpExtInstImport} (h : readImport ws = .ok (rest, op)) :
    ws.headD 0 = op.result_id.val ∧ textOf (ws.drop 1) = some op.name := by
  cases ws with
  | nil => cases h
  | cons w ws =>
    obtain ⟨⟨r, s⟩, hs, hk⟩ := bind_ok.mp (show (MemoryBlockRead.read ws >>= fun p : Block × String =>
      (pure (p.1, { result_id := ⟨w⟩, name := p.2 }) : R (Block × OpExtInstImport))) = .ok (rest, op) from h)
    cases hk
    exact ⟨rfl, (readString_ok hs).2⟩

theorem EntryLists.import [Display X] : EntryLists (X := X) (11, .read OpExtInstImport.readCore) := by
  rintro f hf ext known bound ws c bound' hx hb h
  cases hf
  have h := decodeEntry_ok h
  rw [readImport_eq] at h
  obtain ⟨⟨r, op⟩, hr, hk⟩ := bind_ok.mp h
  dsimp only [bindImport] at hk
  cases hf : known.find? (fun s => s.name == op.name) with
  | none => rw [hf] at hk; cases hk
  | some s =>
    rw [hf] at hk
    simp only [BoundSets.insert] at hk
    cases hl : bound.get ⟨op.result_id.val⟩ with
    | some _ => rw [hl] at hk; cases hk
    | none =>
      rw [hl] at hk
      cases hk
      obtain ⟨h1, h2⟩ := readImport_words hr
      refine ⟨?_, ?_, ?_⟩
      · show Display.fmt op = _
        rw [instLine, if_neg (show ¬ 11 = 12 by decide)]
        exact OpLists.lists ws _ op hr
      · dsimp only
        rw [importsAfter, if_pos rfl, h1, h2]
        have : s.name = op.name := by simpa using List.find?_some hf
        simp only [setNames, List.map_cons, this, Option.getD_some]
      · intro q hq
        cases hq with
        | head => exact List.mem_of_find?_eq_some hf
        | tail _ hq => exact hb q hq

theorem lookup_setNames {bound : BoundSets X} {id : UInt32} {s : ExtInstSet X} (h : List.lookup id bound = some s) :
    (setNames bound).lookup id = some s.name := by
  induction bound with
  | nil => cases h
  | cons q bound ih =>
    rw [List.lookup_cons] at h
    simp only [setNames, List.map_cons, List.lookup_cons]
    cases hq : id == q.1 with
    | true => rw [hq] at h; cases h; rfl
    | false => rw [hq] at h; exact ih h

theorem EntryLists.extInst [Display X] : EntryLists (X := X) (12, .read OpExtInst.readCore) := by
  rintro f hf ext known bound ws c bound' hx hb h
  cases hf
  have h := decodeEntry_ok h
  match ws with
  | [] => cases h
  | [_] => cases h
  | [_, _] => cases h
  | [_, _, _] => cases h
  | t :: r :: id :: n :: args =>
    have h : (match bound.get ⟨id⟩ with
      | some s => do
        let (block, extinst) ← s.readInstruction n args
        return ((block, .OpExtInst { result_type := ⟨t⟩, result_id := ⟨r⟩, set := ⟨id⟩, instruction := extinst }), bound)
      | none => fail (.UnknownInstSetId ⟨id⟩) : R ((Block × Core X) × BoundSets X)) = .ok (([], c), bound') := h
    cases hl : bound.get ⟨id⟩ with
    | none => rw [hl] at h; cases h
    | some s =>
      rw [hl] at h
      obtain ⟨⟨rest, x⟩, hr, hk⟩ := bind_ok.mp h
      cases hk
      have hl : List.lookup id bound = some s := hl
      have hs := hb _ (mem_of_lookup hl)
      have hn := lookup_setNames hl
      refine ⟨?_, ?_, hb⟩
      · show fmtResult ⟨r⟩ ++ "OpExtInst".toList ++ (" ".toList ++ Display.fmt (OpId.mk t)) ++
          (" ".toList ++ Display.fmt (OpId.mk id)) ++ (" ".toList ++ Display.fmt x) = _
        rw [instLine, if_pos rfl, extLine, hn, hx s hs n args x hr, leftColumn_some, ← idText_eq, ← idText_eq]
        have hm : mnemonic 12 = "OpExtInst".toList := by rfl
        rw [hm]
        show _ = _ ++ inLine ([idText t] ++ ([idText id] ++ [ext s.name n args]))
        rw [inLine_append, inLine_append, inLine_one, inLine_one, inLine_one]
        simp only [List.append_assoc]
      · rw [importsAfter, if_neg (show ¬ 12 = 11 by decide)]

theorem opTable_lists [Display X] : ∀ p ∈ opTable X, EntryLists p := by
  unfold opTable
  repeat' (first
    | exact fun _ h => absurd h List.not_mem_nil
    | refine List.forall_mem_cons.mpr ⟨EntryLists.unimplemented, ?_⟩
    | refine List.forall_mem_cons.mpr ⟨EntryLists.lift (by decide) (by decide) (fun _ => rfl), ?_⟩
    | refine List.forall_mem_cons.mpr ⟨EntryLists.import, ?_⟩
    | refine List.forall_mem_cons.mpr ⟨EntryLists.extInst, ?_⟩)

theorem decode_lists [Display X] {ext : ExtText} {known : List (ExtInstSet X)} {bound bound' : BoundSets X} {head : UInt32}
    {ops : List UInt32} {c : Core X} (hx : ShowsSets ext known) (hb : ∀ q ∈ bound, q.2 ∈ known)
    (h : decode head ops known bound = .ok (c, bound')) :
    InstListed ext known bound bound' (head.toNat % 65536) ops c := by
  rw [decode, opcode_word] at h
  cases he : (opTable X).lookup (head.toNat % 65536) with
  | none => rw [he] at h; cases h
  | some e =>
    rw [he] at h
    cases e with
    | unimplemented name => cases h
    | read f => exact opTable_lists _ (mem_of_lookup he) f rfl ext known bound ops c bound' hx hb h

theorem bodyW_lists [Display X] {ext : ExtText} {known : List (ExtInstSet X)} (hx : ShowsSets ext known) (t : List UInt8)
    (n : Nat) : ∀ (ws : List UInt32) (bound : BoundSets X) (l : List (Core X)), ws.length ≤ n → (∀ q ∈ bound, q.2 ∈ known) →
    bodyW known bound t ws = .ok l → l.map Display.fmt = bodyLines ext (setNames bound) ws := by
  induction n with
  | zero =>
    intro ws bound l hn hb h
    have : ws = [] := List.length_eq_zero_iff.mp (by omega)
    subst this
    rw [bodyW_nil] at h
    rw [bodyLines]
    cases t with
    | nil => cases h; rfl
    | cons _ _ => cases h
  | succ n ih =>
    intro ws bound l hn hb h
    cases ws with
    | nil =>
      rw [bodyW_nil] at h
      rw [bodyLines]
      cases t with
      | nil => cases h; rfl
      | cons _ _ => cases h
    | cons head ws =>
      by_cases hl : ws.length < opWords head
      · rw [bodyW_short hl] at h; cases h
      · rw [bodyW_cons (by omega)] at h
        obtain ⟨⟨c, bound'⟩, hd, h⟩ := bind_ok.mp h
        obtain ⟨l', hr, h⟩ := bind_ok.mp h
        cases h
        have hi := decode_lists hx hb hd
        have := ih _ _ _ (by rw [List.length_drop]; simp at hn; omega) hi.known hr
        rw [bodyLines]
        show Display.fmt c :: _ = _
        rw [hi.line, this, hi.imports]
        rfl

theorem generator_line (gen : UInt32) : (generatorName (generatorOf gen).tool).toList =
      ((generatorNames.lookup (gen.toNat / 65536)).getD "Unknown").toList ∧
    (generatorOf gen).version.toNat = gen.toNat % 65536 := by
  obtain ⟨h, ho⟩ := generatorOf_iff.mp (rfl : generatorOf gen = _)
  have hv := (generatorOf gen).version.toNat_lt
  have hq : gen.toNat / 65536 = (toolCode (generatorOf gen).tool).toNat := by omega
  refine ⟨?_, by omega⟩
  rw [hq]
  cases ht : (generatorOf gen).tool with
  | Other n =>
    have := ho n ht
    have hl : ∀ p ∈ generatorNames, p.1 < 12 := by decide
    have : generatorNames.lookup n.toNat = none := by
      rw [List.lookup_eq_none_iff]
      intro p hp
      have := hl p hp
      have hn : 12 ≤ n.toNat := UInt16.le_iff_toNat_le.mp ‹12 ≤ n›
      rw [bne_iff_ne]
      omega
    show "Unknown".toList = ((generatorNames.lookup n.toNat).getD "Unknown").toList
    rw [this]
    rfl
  | _ => rfl

theorem headerW_lists [Display X] {ext : ExtText} {known : List (ExtInstSet X)} (hx : ShowsSets ext known) {t : List UInt8}
    {ws : List UInt32} {m : RawModule X} (h : headerW known t ws = .ok m) :
    headerLines m ++ m.instructions.map Display.fmt = moduleLines ext ws := by
  match ws with
  | [] => cases h
  | [ver] | [ver, _] | [ver, _, _] =>
    obtain ⟨_, _, h⟩ := bind_ok.mp h
    cases h
  | ver :: gen :: bound :: zero :: ws =>
    obtain ⟨v, hv, h⟩ := bind_ok.mp h
    have hv' : v = ⟨1, 0⟩ := (readVersion_iff.mp hv).2
    by_cases hz : zero = 0
    · rw [if_neg (by simp [hz])] at h
      obtain ⟨l, hl, h⟩ := bind_ok.mp h
      cases h
      have := bodyW_lists hx t _ ws [] l (Nat.le_refl _) (fun _ h => absurd h List.not_mem_nil) hl
      obtain ⟨h1, h2⟩ := generator_line gen
      subst hv'
      simp only [headerLines, moduleLines, h1, h2, this]
      rfl
    · rw [if_pos hz] at h
      cases h

theorem readModule_moduleLines [Display X] {ext : ExtText} {known : List (ExtInstSet X)} (hx : ShowsSets ext known)
    {bytes : List UInt8} {m : RawModule X} (h : readModule bytes known = .ok m) :
    headerLines m ++ m.instructions.map Display.fmt =
      moduleLines ext (wordsOf (bytes.head? = some 0x03) (bytes.drop 4)).1 := by
  rw [readModule_words] at h
  have hshort (t : List UInt8) (ht : t.length < 4)
      (h : moduleW known (chunk true t).2 (chunk true t).1 (chunk false t).1 = .ok m) : False := by
    rw [chunk_short ht, chunk_short ht] at h
    cases h
  match bytes with
  | [] | [_] | [_, _] | [_, _, _] => exact (hshort _ (by simp) h).elim
  | a :: b :: c :: d :: rest =>
    simp only [chunk, moduleW, List.tail_cons] at h
    have hmagic (w x y z : UInt8) : streamWord true a b c d = leWord w x y z ↔ [a, b, c, d] = [w, x, y, z] := by
      rw [← orderedBytes_streamWord true a b c d, ← orderedBytes_streamWord true w x y z]
      show leWord _ _ _ _ = leWord _ _ _ _ ↔ wordBytes (leWord _ _ _ _) = wordBytes (leWord _ _ _ _)
      exact ⟨fun h => by rw [h], fun h => wordBytes_inj h⟩
    have hm : SPIRV_MAGIC_NUMBER = leWord 3 2 0x23 7 := by decide
    have hm' : SPIRV_MAGIC_NUMBER_OTHER_ENDIAN = leWord 7 0x23 2 3 := by decide
    rw [hm, hm'] at h
    simp only [hmagic] at h
    by_cases h1 : [a, b, c, d] = [3, 2, 0x23, 7]
    · rw [if_pos h1] at h
      cases h1
      rw [wordsOf_chunk]
      exact headerW_lists hx h
    · rw [if_neg h1] at h
      by_cases h2 : [a, b, c, d] = [7, 0x23, 2, 3]
      · rw [if_pos h2] at h
        cases h2
        rw [wordsOf_chunk]
        exact headerW_lists hx h
      · rw [if_neg h2] at h
        cases h

theorem readModule_lists [Display X] {ext : ExtText} {known : List (ExtInstSet X)} (hx : ShowsSets ext known)
    {bytes : List UInt8} {m : RawModule X} (h : readModule bytes known = .ok m) : m.fmt = disassembly ext bytes := by
  rw [fmt_eq_unlines, readModule_moduleLines hx h]
  rfl

end Magma
