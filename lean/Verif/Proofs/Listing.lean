import Verif.Spec.Listing
import Verif.Proofs.Reference
import Verif.Props.Names
/-! Lemmas: the printers of operands and instructions against the table of the reference. -/

namespace Magma
open Spec
variable {X : Type}

theorem inLine_append (a b : List Text) : inLine (a ++ b) = inLine a ++ inLine b := List.flatMap_append

/-- What was read is printed as the reference prints the words it was read from, after `pre`. -/
def Lists {α : Type} (ss : List Shown) (pre : Text) (read : Block → R (Block × α)) (txt : α → Text) : Prop :=
  ∀ ws rest a, read ws = .ok (rest, a) → pre ++ inLine (eachOf ss ws).1 = txt a ∧ (eachOf ss ws).2 = rest

/-- A type of operands and how it is printed -/
class ShowRead (α : Type) [MemoryBlockRead α] [FormatArg α] (s : outParam Shown) : Prop where
  shows : ∀ ws rest (a : α), MemoryBlockRead.read ws = (.ok (rest, a) : R (Block × α)) →
    inLine (s ws).1 = FormatArg.formatArg a ∧ (s ws).2 = rest

theorem Lists.pure {α : Type} {a : α} {pre : Text} {txt : α → Text} (h : pre = txt a) :
    Lists [] pre (fun block => (Pure.pure (block, a) : R (Block × α))) txt := by
  intro ws rest b hb
  cases hb
  exact ⟨(List.append_nil _).trans h, rfl⟩

theorem Lists.step {α β : Type} {s : Shown} {ss : List Shown} {pre : Text} {read : Block → R (Block × β)}
    {k : Block × β → R (Block × α)} {txt : α → Text} {f : β → Text}
    (hr : ∀ ws rest a, read ws = .ok (rest, a) → inLine (s ws).1 = f a ∧ (s ws).2 = rest)
    (h : ∀ b, Lists ss (pre ++ f b) (fun block => k (block, b)) txt) :
    Lists (s :: ss) pre (fun block => read block >>= k) txt := by
  intro ws rest a ha
  obtain ⟨⟨mid, b⟩, hb, hk⟩ := bind_ok.mp ha
  obtain ⟨h1, h2⟩ := hr _ _ _ hb
  obtain ⟨h3, h4⟩ := h b mid rest a hk
  simp only [eachOf, inLine_append, h1, h2, ← List.append_assoc]
  exact ⟨h3, h4⟩

theorem Lists.bind {α β : Type} [MemoryBlockRead β] [FormatArg β] {s : Shown} [ShowRead β s] {ss : List Shown}
    {pre : Text} {k : Block × β → R (Block × α)} {txt : α → Text}
    (h : ∀ b, Lists ss (pre ++ FormatArg.formatArg b) (fun block => k (block, b)) txt) :
    Lists (s :: ss) pre (fun block => MemoryBlockRead.read block >>= k) txt :=
  .step ShowRead.shows h

/-! ### Operands -/

theorem inLine_one (t : Text) : inLine [t] = " ".toList ++ t := by
  show ' ' :: t ++ [] = ' ' :: t
  rw [List.append_nil]

/-- A word -/
theorem showRead_word {α : Type} [MemoryBlockRead α] [Display α] (f : UInt32 → Text)
    (h : ∀ w ws rest (a : α), MemoryBlockRead.read (w :: ws) = (.ok (rest, a) : R (Block × α)) →
      f w = Display.fmt a ∧ rest = ws)
    (hn : ∀ rest (a : α), MemoryBlockRead.read [] ≠ (.ok (rest, a) : R (Block × α))) (ws rest : Block) (a : α)
    (ha : MemoryBlockRead.read ws = (.ok (rest, a) : R (Block × α))) :
    inLine (shownWord f ws).1 = " ".toList ++ Display.fmt a ∧ (shownWord f ws).2 = rest := by
  cases ws with
  | nil => exact absurd ha (hn _ _)
  | cons w ws =>
    obtain ⟨h1, rfl⟩ := h _ _ _ _ ha
    simp only [shownWord, inLine_one, h1, and_self]

theorem idText_eq (w : UInt32) : idText w = Display.fmt (OpId.mk w) := by
  show '%' :: decimal w.toNat = '%' :: fmtNat w.toNat
  rw [decimal_eq]

theorem numberText_eq (w : UInt32) : numberText w = Display.fmt w := decimal_eq _

instance : ShowRead OpId anId :=
  ⟨showRead_word idText (fun w _ _ _ h => by cases h; exact ⟨idText_eq w, rfl⟩) (fun _ _ h => by cases h)⟩
instance : ShowRead UInt32 aNumber :=
  ⟨showRead_word numberText (fun w _ _ _ h => by cases h; exact ⟨numberText_eq w, rfl⟩) (fun _ _ h => by cases h)⟩
instance : ShowRead SourceVersion aNumber :=
  ⟨showRead_word numberText (fun w _ _ _ h => by cases h; exact ⟨numberText_eq w, rfl⟩) (fun _ _ h => by cases h)⟩
instance : ShowRead MemberIndex aNumber :=
  ⟨showRead_word numberText (fun w _ _ _ h => by cases h; exact ⟨numberText_eq w, rfl⟩) (fun _ _ h => by cases h)⟩

/-- A table of names -/
theorem showRead_enum {α : Type} [MemoryBlockRead α] [Display α] {names : Table} {table : List (UInt32 × α)}
    {e : UInt32 → ReadError}
    (hread : ∀ ws : Block, (MemoryBlockRead.read ws : R (Block × α)) = readEnum table e ws)
    (hn : ∀ p ∈ table, (names.lookup p.1).map String.toList = some (Display.fmt p.2)) : ∀ (ws rest : Block) (a : α),
    MemoryBlockRead.read ws = (.ok (rest, a) : R (Block × α)) →
    inLine (aName names ws).1 = " ".toList ++ Display.fmt a ∧ (aName names ws).2 = rest := by
  refine showRead_word _ ?_ ?_
  · intro w ws rest a h
    rw [hread, readEnum_word] at h
    dsimp only at h
    cases hl : table.lookup w with
    | none => rw [hl] at h; cases h
    | some b =>
      rw [hl] at h
      cases h
      have := hn _ (mem_of_lookup hl)
      dsimp only at this
      refine ⟨?_, rfl⟩
      unfold nameText
      cases hk : names.lookup w with
      | none => rw [hk] at this; cases this
      | some name => rw [hk] at this; exact Option.some.inj this
  · intro rest a h
    rw [hread, readEnum_word] at h
    cases h

instance : ShowRead AddressingModel (aName addressingModelNames) :=
  ⟨showRead_enum (table := AddressingModel.table) (fun _ => rfl) (by decide +kernel)⟩
instance : ShowRead MemoryModel (aName memoryModelNames) :=
  ⟨showRead_enum (table := MemoryModel.table) (fun _ => rfl) (by decide +kernel)⟩
instance : ShowRead ExecutionModel (aName printedExecutionModels) :=
  ⟨showRead_enum (table := ExecutionModel.table) (fun _ => rfl) (by decide +kernel)⟩
instance : ShowRead Capability (aName capabilityNames) :=
  ⟨showRead_enum (table := Capability.table) (fun _ => rfl) (by decide +kernel)⟩
instance : ShowRead Signedness (aName signednessNames) :=
  ⟨showRead_enum (table := Signedness.table) (fun _ => rfl) (by decide +kernel)⟩
instance : ShowRead Dim (aName dimNames) :=
  ⟨showRead_enum (table := Dim.table) (fun _ => rfl) (by decide +kernel)⟩
instance : ShowRead DepthStatus (aName depthStatusNames) :=
  ⟨showRead_enum (table := DepthStatus.table) (fun _ => rfl) (by decide +kernel)⟩
instance : ShowRead Arrayed (aName arrayedNames) :=
  ⟨showRead_enum (table := Arrayed.table) (fun _ => rfl) (by decide +kernel)⟩
instance : ShowRead MS (aName mSNames) :=
  ⟨showRead_enum (table := MS.table) (fun _ => rfl) (by decide +kernel)⟩
instance : ShowRead SampledStatus (aName sampledStatusNames) :=
  ⟨showRead_enum (table := SampledStatus.table) (fun _ => rfl) (by decide +kernel)⟩
instance : ShowRead ImageFormat (aName imageFormatNames) :=
  ⟨showRead_enum (table := ImageFormat.table) (fun _ => rfl) (by decide +kernel)⟩
instance : ShowRead AccessQualifier (aName accessQualifierNames) :=
  ⟨showRead_enum (table := AccessQualifier.table) (fun _ => rfl) (by decide +kernel)⟩
instance : ShowRead StorageClass (aName storageClassNames) :=
  ⟨showRead_enum (table := StorageClass.table) (fun _ => rfl) (by decide +kernel)⟩
instance : ShowRead BuiltIn (aName printedBuiltIns) :=
  ⟨showRead_enum (table := BuiltIn.table) (fun _ => rfl) (by decide +kernel)⟩
instance : ShowRead FunctionParameterAttribute (aName functionParameterAttributeNames) :=
  ⟨showRead_enum (table := FunctionParameterAttribute.table) (fun _ => rfl) (by decide +kernel)⟩
instance : ShowRead FpRoundingMode (aName fpRoundingModeNames) :=
  ⟨showRead_enum (table := FpRoundingMode.table) (fun _ => rfl) (by decide +kernel)⟩
instance : ShowRead LinkageType (aName linkageTypeNames) :=
  ⟨showRead_enum (table := LinkageType.table) (fun _ => rfl) (by decide +kernel)⟩

instance : ShowRead SourceLanguage (aName sourceLanguageNames) := ⟨by
  refine showRead_word _ ?_ (fun _ _ h => by cases h)
  intro w ws rest a h
  have hn : ∀ p ∈ SourceLanguage.table, (sourceLanguageNames.lookup p.1).map String.toList = some (Display.fmt p.2) := by
    decide +kernel
  have hk : ∀ p ∈ sourceLanguageNames, SourceLanguage.table.lookup p.1 ≠ none := by decide
  cases hl : SourceLanguage.table.lookup w with
  | some l =>
    simp only [MemoryBlockRead.read, Block.readWord, ok_bind, hl] at h
    cases h
    refine ⟨?_, rfl⟩
    have := hn _ (mem_of_lookup hl)
    dsimp only at this
    unfold nameText
    cases hk : sourceLanguageNames.lookup w with
    | none => rw [hk] at this; cases this
    | some name => rw [hk] at this; exact Option.some.inj this
  | none =>
    simp only [MemoryBlockRead.read, Block.readWord, ok_bind, hl] at h
    cases h
    refine ⟨?_, rfl⟩
    unfold nameText
    cases hs : sourceLanguageNames.lookup w with
    | some name => exact absurd hl (hk _ (mem_of_lookup hs))
    | none =>
      dsimp only
      rw [decimal_eq]
      rfl⟩

theorem read_word_rest {α : Type} [MemoryBlockRead α] {c : Check} [CheckRead α c] {ok : UInt32 → Bool} {e : UInt32 → ReadError}
    (hc : c = wordWith ok e) {w : UInt32} {ws rest : Block} {a : α}
    (h : MemoryBlockRead.read (w :: ws) = (.ok (rest, a) : R (Block × α))) : rest = ws := by
  have := CheckRead.check (α := α) (w :: ws)
  rw [h, hc] at this
  simp only [wordWith] at this
  split at this <;> cases this
  rfl

instance : ShowRead MemoryAccess (aMask memoryAccessBits) :=
  ⟨showRead_word _ (fun _ _ _ _ h => ⟨(Props.C46_memory_access h).symm, read_word_rest rfl h⟩) (fun _ _ h => by cases h)⟩
instance : ShowRead SelectionControl (aMask selectionControlBits) :=
  ⟨showRead_word _ (fun _ _ _ _ h => ⟨(Props.C46_selection_control h).symm, read_word_rest rfl h⟩) (fun _ _ h => by cases h)⟩
instance : ShowRead FpFastMathMode (aMask fastMathBits) :=
  ⟨showRead_word _ (fun _ _ _ _ h => ⟨(Props.C46_fast_math h).symm, read_word_rest rfl h⟩) (fun _ _ h => by cases h)⟩
instance : ShowRead FunctionControl (aMask functionControlBits) :=
  ⟨showRead_word _ (fun _ _ _ _ h => ⟨(Props.C46_function_control h).symm, by cases h; rfl⟩) (fun _ _ h => by cases h)⟩

instance : ShowRead LoopControl aLoopControl := ⟨fun ws rest a h => by
  cases ws with
  | nil => cases h
  | cons w ws =>
    show _ = " ".toList ++ Display.fmt a ∧ _
    have hc := CheckRead.check (α := LoopControl) (w :: ws)
    rw [h] at hc
    rcases Props.C46_loop_control h with ⟨hb, ht⟩ | ⟨n, rfl, hb, ht⟩
    · have hb : w.toNat.testBit 3 = false := hb
      simp only [aLoopControl, hb, Bool.false_eq_true, ite_false, inLine_one]
      refine ⟨by rw [ht]; rfl, ?_⟩
      simp only [loopControl, maskBelow, wordWith, List.headD_cons, hb] at hc
      by_cases hw : w.toNat % 65536 < 2 ^ 4
      · simp only [hw] at hc
        exact (Except.ok.inj hc).symm
      · simp only [hw] at hc
        cases hc
    · have hb : w.toNat.testBit 3 = true := hb
      have e : aLoopControl (w :: n :: rest) = ([(flagText (namesOf loopControlBits 0 w.toNat.testBit ++
          ["DependencyLength(" ++ toString n.toNat ++ ")"])).toList], rest) := if_pos hb
      rw [e]
      refine ⟨?_, rfl⟩
      rw [inLine_one]
      exact congrArg (" ".toList ++ ·) ht.symm⟩

instance : ShowRead BranchWeights (eachOf [aNumber, aNumber]) := ⟨fun ws rest a h => by
  match ws with
  | [] => cases h
  | [_] => cases h
  | v :: w :: ws =>
    cases h
    refine ⟨?_, rfl⟩
    show inLine ([numberText v] ++ ([numberText w] ++ [])) = " ".toList ++ (Display.fmt v ++ " ".toList ++ Display.fmt w)
    rw [inLine_append, List.append_nil, inLine_one, inLine_one, numberText_eq, numberText_eq]
    simp only [List.append_assoc]⟩

instance {α : Type} [MemoryBlockRead α] [DisplayArg α] {s : Shown} [ShowRead α s] : ShowRead (Option α) (ifAny s) :=
  ⟨fun ws rest a h => by
  cases ws with
  | nil => cases h; exact ⟨rfl, rfl⟩
  | cons w ws =>
    have h : ((MemoryBlockRead.read (w :: ws) : R (Block × α)) >>= fun q => Pure.pure (q.1, some q.2)) = .ok (rest, a) := h
    obtain ⟨⟨r, b⟩, hb, hk⟩ := bind_ok.mp h
    cases hk
    exact ShowRead.shows (α := α) _ _ _ hb⟩

theorem readVecLoop_list {α : Type} [MemoryBlockRead α] (f : UInt32 → α)
    (h : ∀ w (ws : Block), (MemoryBlockRead.read (w :: ws) : R (Block × α)) = .ok (ws, f w)) (fuel : Nat) :
    ∀ (ws : Block) (items : List α), ws.length < fuel →
      readVecLoop fuel ws items = .ok ([], items.reverse ++ ws.map f) := by
  induction fuel with
  | zero => intro ws items hf; omega
  | succ fuel ih =>
    intro ws items hf
    cases ws with
    | nil => simp [readVecLoop, Block.remaining]
    | cons w ws =>
      simp only [readVecLoop]
      rw [if_pos (by simp [Block.remaining]), h]
      show readVecLoop fuel ws _ = _
      rw [ih ws _ (by simp at hf; omega)]
      simp

theorem inLine_map {α : Type} [Display α] (f : UInt32 → α) (g : UInt32 → Text) (h : ∀ w, g w = Display.fmt (f w)) :
    ∀ ws : List UInt32, inLine (ws.map g) = (ws.map f).flatMap (fun e => " ".toList ++ Display.fmt e)
  | [] => rfl
  | w :: ws => by
    rw [List.map_cons, List.map_cons, List.flatMap_cons, ← inLine_map f g h ws, ← h]
    rfl

instance : ShowRead (List OpId) theIds := ⟨fun ws rest a h => by
  have := readVecLoop_list (fun w => OpId.mk w) (fun _ _ => rfl) (ws.length + 1) ws [] (Nat.lt_succ_self _)
  have h' := h.symm.trans this
  cases h'
  exact ⟨inLine_map _ _ idText_eq ws, rfl⟩⟩

instance : ShowRead (List UInt32) theNumbers := ⟨fun ws rest a h => by
  have := readVecLoop_list (fun w => w) (fun _ _ => rfl) (ws.length + 1) ws [] (Nat.lt_succ_self _)
  have h' := h.symm.trans this
  cases h'
  exact ⟨inLine_map _ _ numberText_eq ws, rfl⟩⟩

theorem readVecLoop_pairs_list (fuel : Nat) : ∀ (ws rest : Block) (items a : List PhiArg),
    readVecLoop fuel ws items = .ok (rest, a) → rest = [] ∧ ∃ more, a = items.reverse ++ more ∧
      inLine (ws.map idText) = more.flatMap (fun e => " ".toList ++ Display.fmt e) := by
  induction fuel with
  | zero => intro ws rest items a h; cases h
  | succ fuel ih =>
    intro ws rest items a h
    match ws with
    | [] => cases h; exact ⟨rfl, [], by simp, rfl⟩
    | [_] => cases h
    | v :: p :: ws =>
      obtain ⟨hr, more, hm, ht⟩ := ih ws rest (⟨⟨v⟩, ⟨p⟩⟩ :: items) a h
      refine ⟨hr, ⟨⟨v⟩, ⟨p⟩⟩ :: more, by rw [hm]; simp, ?_⟩
      rw [List.flatMap_cons, ← ht, List.map_cons, List.map_cons, idText_eq, idText_eq]
      show ' ' :: _ ++ (' ' :: _ ++ _) = " ".toList ++ (Display.fmt (OpId.mk v) ++ " ".toList ++ Display.fmt (OpId.mk p)) ++ _
      simp only [List.append_assoc]
      rfl

instance : ShowRead (List PhiArg) theIds := ⟨fun ws rest a h => by
  obtain ⟨rfl, more, rfl, ht⟩ := readVecLoop_pairs_list (ws.length + 1) ws rest [] a h
  exact ⟨ht, rfl⟩⟩

theorem readString_ok {ws rest : Block} {s : String} (h : MemoryBlockRead.read ws = (.ok (rest, s) : R (Block × String))) :
    afterText ws = some rest ∧ textOf ws = some s := by
  rw [readString_eq] at h
  cases ha : afterText ws with
  | none => rw [ha] at h; cases h
  | some r =>
    rw [ha] at h
    dsimp only at h
    cases ht : textOf ws with
    | none => rw [ht] at h; cases h
    | some t => rw [ht] at h; cases h; exact ⟨rfl, rfl⟩

instance : ShowRead String aString := ⟨fun ws rest a h => by
  obtain ⟨h1, h2⟩ := readString_ok h
  simp only [aString, h1, h2, Option.getD_some, inLine_one, and_true]
  rfl⟩

/-! ### Names with operands -/

/-- The arm of a `match` prints the name of its number, and then its operands. -/
def ArmLists {α : Type} [Display α] (names : Table) (ops : Nat → List Shown)
    (p : UInt32 × (Block → R (Block × α))) : Prop :=
  Lists (ops p.1.toNat) (nameText names p.1) p.2 Display.fmt

theorem shows_handler {α : Type} [Display α] {table : List (UInt32 × (Block → R (Block × α)))} {names : Table}
    {ops : Nat → List Shown} {e : UInt32 → ReadError} (h : ∀ p ∈ table, ArmLists names ops p) (ws rest : Block) (a : α)
    (ha : readHandler table e ws = .ok (rest, a)) :
    inLine (withOperands names ops ws).1 = " ".toList ++ Display.fmt a ∧ (withOperands names ops ws).2 = rest := by
  cases ws with
  | nil => cases ha
  | cons w ws =>
    have ha : (match table.lookup w with
      | some h => h ws
      | none => fail (e w) : R (Block × α)) = .ok (rest, a) := ha
    cases hl : table.lookup w with
    | none => rw [hl] at ha; cases ha
    | some f =>
      rw [hl] at ha
      obtain ⟨h1, h2⟩ := h _ (mem_of_lookup hl) _ _ _ ha
      dsimp only at h1 h2
      refine ⟨?_, h2⟩
      rw [← h1]
      rfl

theorem Lists.unit {α : Type} [Display α] {a : α} {name : Text} (h : name = Display.fmt a) :
    Lists [] name (readUnit a) Display.fmt := Lists.pure h

theorem Lists.one {α β : Type} [Display α] [MemoryBlockRead β] [Display β] {s : Shown} [ShowRead β s] {f : β → α}
    {name t : Text} (ht : t = name ++ " ".toList) (h : ∀ b, Display.fmt (f b) = t ++ Display.fmt b) :
    Lists [s] name (read1 f) Display.fmt := by
  unfold read1
  refine Lists.step (f := fun b => " ".toList ++ Display.fmt b) (ShowRead.shows (α := β)) fun b => ?_
  refine Lists.pure ?_
  rw [h, ht, List.append_assoc]

theorem Lists.three {α : Type} [Display α] {f : UInt32 → UInt32 → UInt32 → α} {name t : Text}
    (ht : t = name ++ " ".toList)
    (h : ∀ a b c, Display.fmt (f a b c) =
      t ++ Display.fmt a ++ " ".toList ++ Display.fmt b ++ " ".toList ++ Display.fmt c) :
    Lists [aNumber, aNumber, aNumber] name (read3 f) Display.fmt := by
  unfold read3
  refine Lists.bind fun a => Lists.bind fun b => Lists.bind fun c => Lists.pure ?_
  rw [h, ht]
  show name ++ (" ".toList ++ Display.fmt a) ++ (" ".toList ++ Display.fmt b) ++ (" ".toList ++ Display.fmt c) = _
  simp only [List.append_assoc]

theorem Lists.linkage {name t : Text} (ht : t = name ++ " ".toList)
    (h : ∀ a b, Display.fmt (Decoration.LinkageAttributes a b) = t ++ Display.fmt a ++ " ".toList ++ Display.fmt b) :
    Lists [bareString, aName linkageTypeNames] name (read2 Decoration.LinkageAttributes) Display.fmt := by
  unfold read2
  refine Lists.step (f := fun s => " ".toList ++ Display.fmt s) ?_ fun s => Lists.bind fun b => Lists.pure ?_
  · intro ws rest a h
    obtain ⟨h1, h2⟩ := readString_ok h
    simp only [bareString, h1, h2, Option.getD_some, inLine_one, and_true]
    rfl
  · rw [h, ht]
    show name ++ (" ".toList ++ Display.fmt s) ++ (" ".toList ++ Display.fmt b) = _
    simp only [List.append_assoc]

macro "shown_arms" : tactic => `(tactic| (
  repeat' (first
    | exact fun _ h => absurd h List.not_mem_nil
    | refine List.forall_mem_cons.mpr ⟨Lists.unit (by decide +kernel), ?_⟩
    | refine List.forall_mem_cons.mpr ⟨Lists.one (by decide +kernel) (fun _ => rfl), ?_⟩
    | refine List.forall_mem_cons.mpr ⟨Lists.linkage (by decide +kernel) (fun _ _ => rfl), ?_⟩
    | refine List.forall_mem_cons.mpr ⟨Lists.three (by decide +kernel) (fun _ _ _ => rfl), ?_⟩)))

instance : ShowRead ExecutionMode (withOperands printedExecutionModes shownModeOperands) := ⟨by
  refine shows_handler (table := executionModeHandlers) ?_
  unfold executionModeHandlers
  shown_arms⟩

instance : ShowRead Decoration (withOperands printedDecorations shownDecorationOperands) := ⟨by
  refine shows_handler (table := decorationHandlers) ?_
  unfold decorationHandlers
  shown_arms⟩

/-! ### Instructions -/

/-- The instruction is printed as the line of the reference. -/
class OpLists {α : Type} [Display α] (read : Block → R (Block × α)) (k : Nat) : Prop where
  lists : ∀ ws rest a, read ws = .ok (rest, a) → Display.fmt a = lineOf k ws

theorem OpLists.plain {α : Type} [Display α] {read : Block → R (Block × α)} {k : Nat} {ss : List Shown} {name : Text}
    (hs : shownOperands k = (.plain, ss)) (hn : mnemonic k = name)
    (h : Lists ss (fmtNoResult ++ name) read Display.fmt) : OpLists read k := ⟨fun ws rest a ha => by
  rw [← (h ws rest a ha).1]
  simp only [lineOf, hs, hn]
  rfl⟩

theorem OpLists.result {α : Type} [Display α] {kk : Block × ResultId → R (Block × α)} {k : Nat} {ss : List Shown}
    {name : Text} (hs : shownOperands k = (.result, ss)) (hn : mnemonic k = name)
    (h : ∀ r, Lists ss (fmtResult r ++ name) (fun block => kk (block, r)) Display.fmt) :
    OpLists (fun block => MemoryBlockRead.read block >>= kk) k := ⟨fun ws rest a ha => by
  cases ws with
  | nil => cases ha
  | cons r ws =>
    have ha : kk (ws, ⟨r⟩) = .ok (rest, a) := ha
    rw [← (h ⟨r⟩ ws rest a ha).1, leftColumn_some]
    simp only [lineOf, hs, hn]⟩

theorem OpLists.typed {α : Type} [Display α] {kk : Block × OpId → Block × ResultId → R (Block × α)} {k : Nat}
    {ss : List Shown} {name : Text} (hs : shownOperands k = (.typed, ss)) (hn : mnemonic k = name)
    (h : ∀ b t r, Lists ss (fmtResult r ++ name ++ FormatArg.formatArg t) (fun block => kk (b, t) (block, r)) Display.fmt) :
    OpLists (fun block => MemoryBlockRead.read block >>= fun p => MemoryBlockRead.read p.1 >>= kk p) k :=
  ⟨fun ws rest a ha => by
  match ws with
  | [] => cases ha
  | [_] => cases ha
  | t :: r :: ws =>
    have ha : kk (r :: ws, ⟨t⟩) (ws, ⟨r⟩) = .ok (rest, a) := ha
    rw [← (h _ ⟨t⟩ ⟨r⟩ ws rest a ha).1, leftColumn_some]
    simp only [lineOf, hs, hn]
    show _ = _ ++ (inLine ([idText t] ++ _))
    rw [inLine_append, inLine_one, idText_eq]
    simp only [List.append_assoc]
    rfl⟩

macro "listed" r:ident : tactic => `(tactic| (
  first
    | exact OpLists.plain rfl (by rfl) (by
        unfold $r:ident
        repeat' (first
          | exact Lists.pure rfl
          | refine Lists.bind (fun _ => ?_)))
    | exact OpLists.result rfl (by rfl) (fun _ => by
        repeat' (first
          | exact Lists.pure rfl
          | refine Lists.bind (fun _ => ?_)))
    | exact OpLists.typed rfl (by rfl) (fun _ _ _ => by
        repeat' (first
          | exact Lists.pure rfl
          | refine Lists.bind (fun _ => ?_)))))

instance : OpLists OpNop.read 0 := by listed OpNop.read
instance : OpLists OpUndef.read 1 := by listed OpUndef.read
instance : OpLists OpSourceContinued.read 2 := by listed OpSourceContinued.read
instance : OpLists OpSource.read 3 := by listed OpSource.read
instance : OpLists OpSourceExtension.read 4 := by listed OpSourceExtension.read
instance : OpLists OpName.read 5 := by listed OpName.read
instance : OpLists OpMemberName.read 6 := by listed OpMemberName.read
instance : OpLists OpString.read 7 := by listed OpString.read
instance : OpLists OpExtension.read 10 := by listed OpExtension.read
instance : OpLists OpMemoryModel.read 14 := by listed OpMemoryModel.read
instance : OpLists OpEntryPoint.read 15 := by listed OpEntryPoint.read
instance : OpLists OpExecutionMode.read 16 := by listed OpExecutionMode.read
instance : OpLists OpCapability.read 17 := by listed OpCapability.read
instance : OpLists OpTypeVoid.read 19 := by listed OpTypeVoid.read
instance : OpLists OpTypeBool.read 20 := by listed OpTypeBool.read
instance : OpLists OpTypeInt.read 21 := by listed OpTypeInt.read
instance : OpLists OpTypeFloat.read 22 := by listed OpTypeFloat.read
instance : OpLists OpTypeVector.read 23 := by listed OpTypeVector.read
instance : OpLists OpTypeMatrix.read 24 := by listed OpTypeMatrix.read
instance : OpLists OpTypeImage.read 25 := by listed OpTypeImage.read
instance : OpLists OpTypeSampler.read 26 := by listed OpTypeSampler.read
instance : OpLists OpTypeSampledImage.read 27 := by listed OpTypeSampledImage.read
instance : OpLists OpTypeArray.read 28 := by listed OpTypeArray.read
instance : OpLists OpTypeRuntimeArray.read 29 := by listed OpTypeRuntimeArray.read
instance : OpLists OpTypeStruct.read 30 := by listed OpTypeStruct.read
instance : OpLists OpTypeOpaque.read 31 := by listed OpTypeOpaque.read
instance : OpLists OpTypePointer.read 32 := by listed OpTypePointer.read
instance : OpLists OpTypeFunction.read 33 := by listed OpTypeFunction.read
instance : OpLists OpConstant.read 43 := by listed OpConstant.read
instance : OpLists OpConstantComposite.read 44 := by listed OpConstantComposite.read
instance : OpLists OpFunction.read 54 := by listed OpFunction.read
instance : OpLists OpFunctionParameter.read 55 := by listed OpFunctionParameter.read
instance : OpLists OpFunctionEnd.read 56 := by listed OpFunctionEnd.read
instance : OpLists OpVariable.read 59 := by listed OpVariable.read
instance : OpLists OpLoad.read 61 := by listed OpLoad.read
instance : OpLists OpStore.read 62 := by listed OpStore.read
instance : OpLists OpAccessChain.read 65 := by listed OpAccessChain.read
instance : OpLists OpDecorate.read 71 := by listed OpDecorate.read
instance : OpLists OpMemberDecorate.read 72 := by listed OpMemberDecorate.read
instance : OpLists OpConvertUToF.read 112 := by listed OpConvertUToF.read
instance : OpLists OpBitcast.read 124 := by listed OpBitcast.read
instance : OpLists OpIAdd.read 128 := by listed OpIAdd.read
instance : OpLists OpFAdd.read 129 := by listed OpFAdd.read
instance : OpLists OpISub.read 130 := by listed OpISub.read
instance : OpLists OpFSub.read 131 := by listed OpFSub.read
instance : OpLists OpIMul.read 132 := by listed OpIMul.read
instance : OpLists OpFMul.read 133 := by listed OpFMul.read
instance : OpLists OpUDiv.read 134 := by listed OpUDiv.read
instance : OpLists OpSDiv.read 135 := by listed OpSDiv.read
instance : OpLists OpFDiv.read 136 := by listed OpFDiv.read
instance : OpLists OpUMod.read 137 := by listed OpUMod.read
instance : OpLists OpSRem.read 138 := by listed OpSRem.read
instance : OpLists OpSMod.read 139 := by listed OpSMod.read
instance : OpLists OpFRem.read 140 := by listed OpFRem.read
instance : OpLists OpFMod.read 141 := by listed OpFMod.read
instance : OpLists OpIAddCarry.read 149 := by listed OpIAddCarry.read
instance : OpLists OpISubBorrow.read 150 := by listed OpISubBorrow.read
instance : OpLists OpUMulExtended.read 151 := by listed OpUMulExtended.read
instance : OpLists OpSMulExtended.read 152 := by listed OpSMulExtended.read
instance : OpLists OpIEqual.read 170 := by listed OpIEqual.read
instance : OpLists OpINotEqual.read 171 := by listed OpINotEqual.read
instance : OpLists OpUGreaterThan.read 172 := by listed OpUGreaterThan.read
instance : OpLists OpSGreaterThan.read 173 := by listed OpSGreaterThan.read
instance : OpLists OpUGreaterThanEqual.read 174 := by listed OpUGreaterThanEqual.read
instance : OpLists OpSGreaterThanEqual.read 175 := by listed OpSGreaterThanEqual.read
instance : OpLists OpULessThan.read 176 := by listed OpULessThan.read
instance : OpLists OpSLessThan.read 177 := by listed OpSLessThan.read
instance : OpLists OpULessThanEqual.read 178 := by listed OpULessThanEqual.read
instance : OpLists OpSLessThanEqual.read 179 := by listed OpSLessThanEqual.read
instance : OpLists OpFOrdEqual.read 180 := by listed OpFOrdEqual.read
instance : OpLists OpFUnordEqual.read 181 := by listed OpFUnordEqual.read
instance : OpLists OpFOrdNotEqual.read 182 := by listed OpFOrdNotEqual.read
instance : OpLists OpFUnordNotEqual.read 183 := by listed OpFUnordNotEqual.read
instance : OpLists OpFOrdLessThan.read 184 := by listed OpFOrdLessThan.read
instance : OpLists OpFUnordLessThan.read 185 := by listed OpFUnordLessThan.read
instance : OpLists OpFOrdGreaterThan.read 186 := by listed OpFOrdGreaterThan.read
instance : OpLists OpFUnordGreaterThan.read 187 := by listed OpFUnordGreaterThan.read
instance : OpLists OpFOrdLessThanEqual.read 188 := by listed OpFOrdLessThanEqual.read
instance : OpLists OpFUnordLessThanEqual.read 189 := by listed OpFUnordLessThanEqual.read
instance : OpLists OpFOrdGreaterThanEqual.read 190 := by listed OpFOrdGreaterThanEqual.read
instance : OpLists OpFUnordGreaterThanEqual.read 191 := by listed OpFUnordGreaterThanEqual.read
instance : OpLists OpBitwiseOr.read 197 := by listed OpBitwiseOr.read
instance : OpLists OpBitwiseXor.read 198 := by listed OpBitwiseXor.read
instance : OpLists OpBitwiseAnd.read 199 := by listed OpBitwiseAnd.read
instance : OpLists OpPhi.read 245 := by listed OpPhi.read
instance : OpLists OpLoopMerge.read 246 := by listed OpLoopMerge.read
instance : OpLists OpSelectionMerge.read 247 := by listed OpSelectionMerge.read
instance : OpLists OpLabel.read 248 := by listed OpLabel.read
instance : OpLists OpBranch.read 249 := by listed OpBranch.read
instance : OpLists OpBranchConditional.read 250 := by listed OpBranchConditional.read
instance : OpLists OpReturn.read 253 := by listed OpReturn.read

end Magma
