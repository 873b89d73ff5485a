import re
src=open('/verif/lean/Verif/Proofs/TextOps.lean').read()
head='''import Verif.Proofs.Disassembly
/-! Instructions without strings have no quotes in their text, and it does not end as that of a linkage decoration. The
cases at the end are written by tools/gen_quotes.py. -/

namespace Magma.Quotes

/-- The text does not end in a kind of linkage. -/
def Unlinked (t : Text) : Prop := ∀ (l : LinkageType) (u : Text), t ≠ u ++ ' ' :: Display.fmt l

/-- No quote in it, and no kind of linkage at its end -/
def Tame (t : Text) : Prop := '"' ∉ t ∧ Unlinked t

theorem linkage_space (l : LinkageType) : ' ' ∉ Display.fmt l := by cases l <;> decide

theorem linkage_last (l : LinkageType) : ∃ u, Display.fmt l = u ++ ['t'] := by
  cases l
  · exact ⟨"Expor".toList, rfl⟩
  · exact ⟨"Impor".toList, rfl⟩

/-- What comes before the last word does not matter. -/
theorem unlinked_word {t w : Text} (h : Unlinked (' ' :: w)) : Unlinked (t ++ ' ' :: w) := by
  intro l u e
  rcases List.append_eq_append_iff.mp e with ⟨x, -, e'⟩ | ⟨x, -, e'⟩
  · exact h l x e'
  · cases x with
    | nil => exact h l [] e'.symm
    | cons c x =>
      have := (List.cons.inj e').2
      exact linkage_space l (by rw [this]; exact List.mem_append_right _ List.mem_cons_self)

/-- A text that ends in another character than kinds of linkage do -/
theorem unlinked_last {t v : Text} {c : Char} (e : t = v ++ [c]) (h : c ≠ 't') : Unlinked t := by
  intro l u e'
  obtain ⟨w, hw⟩ := linkage_last l
  rw [e, hw, show u ++ ' ' :: (w ++ ['t']) = (u ++ ' ' :: w) ++ ['t'] by simp] at e'
  exact h (List.cons.inj (List.append_inj' e' rfl).2).1

/-- A word without quotes that is not a kind of linkage -/
def okWord (w : Text) : Bool :=
  !w.contains '"' && !(" Export".toList.isSuffixOf (' ' :: w)) && !(" Import".toList.isSuffixOf (' ' :: w))

theorem okWord_tame {w : Text} (h : okWord w = true) : Tame (' ' :: w) := by
  simp only [okWord, Bool.and_eq_true, Bool.not_eq_true', List.contains_eq_mem, decide_eq_false_iff_not] at h
  obtain ⟨⟨h1, h2⟩, h3⟩ := h
  refine ⟨fun hm => (List.mem_cons.mp hm).elim (by decide) h1, fun l u e => ?_⟩
  have key (x : Text) (hx : ' ' :: w = u ++ x) (hf : x.isSuffixOf (' ' :: w) = false) : False := by
    have : x.isSuffixOf (' ' :: w) = true := List.isSuffixOf_iff_suffix.mpr ⟨u, hx.symm⟩
    rw [hf] at this
    cases this
  cases l
  · exact key _ e h2
  · exact key _ e h3

/-- A printed argument that has no quotes and is not a kind of linkage -/
class TameWord (α : Type) [DisplayArg α] : Prop where
  tame : ∀ a : α, Tame (' ' :: DisplayArg.displayArg a)

/-- Arguments that have no quotes and do not end in a kind of linkage -/
class TameArg (α : Type) [FormatArg α] : Prop where
  quote : ∀ a : α, '"' ∉ (FormatArg.formatArg a : Text)
  last : ∀ (a : α) {t : Text}, Unlinked t → Unlinked (t ++ FormatArg.formatArg a)

instance {α : Type} [DisplayArg α] [TameWord α] : TameArg α where
  quote a := (TameWord.tame a).1
  last a _ _ := unlinked_word (TameWord.tame a).2

instance {α : Type} [DisplayArg α] [TameWord α] : TameArg (Option α) where
  quote a := by
    cases a with
    | none => exact (by decide : '"' ∉ ([] : Text))
    | some a => exact (TameWord.tame a).1
  last a t h := by
    cases a with
    | none => exact (List.append_nil t).symm ▸ h
    | some a => exact unlinked_word (TameWord.tame a).2

instance {α : Type} [DisplayArg α] [TameWord α] : TameArg (List α) where
  quote a := by
    induction a with
    | nil => exact (by decide : '"' ∉ ([] : Text))
    | cons a as ih =>
      rw [formatArg_cons]
      exact fun hm => (List.mem_append.mp hm).elim (TameWord.tame a).1 ih
  last a t h := by
    induction a generalizing t with
    | nil => exact (List.append_nil t).symm ▸ h
    | cons a as ih =>
      rw [formatArg_cons, ← List.append_assoc]
      exact ih _ (unlinked_word (TameWord.tame a).2)

theorem tame_append {α : Type} [FormatArg α] [TameArg α] {s : Text} (hs : Tame s) (a : α) :
    Tame (s ++ FormatArg.formatArg a) :=
  ⟨fun hm => (List.mem_append.mp hm).elim hs.1 (TameArg.quote a), TameArg.last a hs.2⟩

/-- The left column and the name of an instruction -/
theorem tame_name {s n : Text} (hs : ∃ t, s = t ++ [' '] ∧ '"' ∉ t) (hn : okWord n = true) : Tame (s ++ n) := by
  obtain ⟨t, rfl, ht⟩ := hs
  have h := okWord_tame hn
  rw [List.append_assoc]
  exact ⟨fun hm => (List.mem_append.mp hm).elim ht h.1, unlinked_word h.2⟩

theorem noResult_left : ∃ t, fmtNoResult = t ++ [' '] ∧ '"' ∉ t :=
  ⟨List.replicate 14 ' ', rfl, by decide⟩

/-! ### Operands -/

theorem digits_quote (n : Nat) : '"' ∉ fmtNat n := fun h => digit_ne (fmtNat_digit h) (by decide) rfl

theorem digits_last (n : Nat) : ∃ u c, fmtNat n = u ++ [c] ∧ c.isDigit = true := by
  rcases List.eq_nil_or_concat (fmtNat n) with h | ⟨u, c, h⟩
  · obtain ⟨c, cs, h', -⟩ := fmtNat_head n
    rw [h] at h'
    cases h'
  · rw [List.concat_eq_append] at h
    exact ⟨u, c, h, fmtNat_digit (n := n) (by rw [h]; simp)⟩

/-- A text that ends in a number -/
theorem tame_number {s : Text} (hs : '"' ∉ s) (n : Nat) : Tame (s ++ fmtNat n) := by
  obtain ⟨u, c, h, hc⟩ := digits_last n
  refine ⟨fun hm => (List.mem_append.mp hm).elim hs (digits_quote n), ?_⟩
  exact unlinked_last (v := s ++ u) (c := c) (by rw [h, List.append_assoc]) (digit_ne hc (by decide))

theorem result_left (r : ResultId) : ∃ t, fmtResult r = t ++ [' '] ∧ '"' ∉ t := by
  refine ⟨padLeft 12 (Display.fmt (OpId.mk r.val)) ++ " =".toList, ?_, ?_⟩
  · rw [List.append_assoc]
    rfl
  · intro h
    simp only [padLeft, List.mem_append] at h
    rcases h with (h | h) | h
    · exact absurd (List.eq_of_mem_replicate h) (by decide)
    · have h : '"' ∈ '%' :: fmtNat r.val.toNat := h
      exact (List.mem_cons.mp h).elim (by decide) (digits_quote _)
    · exact absurd h (by decide)

'''
types=[]
tt=open('/verif/lean/Verif/Proofs/TextTypes.lean').read()
enums=re.findall(r'instance : Token (\w+) := Token\.enum',tt)
body=''
for e in enums:
    if e=='LinkageType': continue
    body+=f'instance : TameWord {e} := ⟨fun a => by cases a <;> exact okWord_tame (by decide +kernel)⟩\n'
disp=open('/verif/lean/Verif/Model/Types.lean').read()
for e,n in (('FpFastMathMode',5),('MemoryAccess',3),('FunctionControl',4),('SelectionControl',2)):
    vs=['a','b','c','d','e'][:n]
    body+=f'''instance : TameWord {e} := ⟨fun x => by
  obtain ⟨{", ".join(vs)}⟩ := x
  {" <;> ".join("cases "+v for v in vs)} <;> exact okWord_tame (by decide +kernel)⟩
'''

body+='''
theorem tame_u32 {s : Text} (hs : '"' ∉ s) (n : UInt32) : Tame (s ++ Display.fmt n) := tame_number hs n.toNat

theorem tame_id {s : Text} (hs : '"' ∉ s) (i : OpId) : Tame (s ++ Display.fmt i) := by
  show Tame (s ++ ('%' :: fmtNat i.val.toNat))
  rw [show s ++ '%' :: fmtNat i.val.toNat = (s ++ ['%']) ++ fmtNat i.val.toNat by simp]
  exact tame_number (fun hm => (List.mem_append.mp hm).elim hs (by decide)) _

theorem quote_append {s t : Text} (hs : '"' ∉ s) (ht : '"' ∉ t) : '"' ∉ s ++ t :=
  fun hm => (List.mem_append.mp hm).elim hs ht

theorem quote_u32 (n : UInt32) : '"' ∉ Display.fmt n := digits_quote n.toNat

theorem quote_id (i : OpId) : '"' ∉ Display.fmt i := (tame_id (s := []) (by decide) i).1

instance : TameWord UInt32 := ⟨fun n => tame_u32 (s := [' ']) (by decide) n⟩
instance : TameWord OpId := ⟨fun i => tame_id (s := [' ']) (by decide) i⟩
instance : TameWord SourceVersion := ⟨fun n => tame_u32 (s := [' ']) (by decide) n.val⟩
instance : TameWord MemberIndex := ⟨fun n => tame_u32 (s := [' ']) (by decide) n.val⟩
instance : TameWord PhiArg := ⟨fun a => tame_id (s := ' ' :: (Display.fmt a.«variable» ++ " ".toList))
  (quote_append (s := [' ']) (by decide) (quote_append (quote_id _) (by decide))) a.parent⟩
instance : TameWord BranchWeights := ⟨fun a => tame_u32 (s := ' ' :: (Display.fmt a.true_weight ++ " ".toList))
  (quote_append (s := [' ']) (by decide) (quote_append (quote_u32 _) (by decide))) a.false_weight⟩

/-- A number in parentheses -/
theorem tame_paren {s : Text} (hs : '"' ∉ s) (n : UInt32) : Tame (s ++ Display.fmt n ++ ")".toList) :=
  ⟨quote_append (quote_append hs (quote_u32 n)) (by decide), unlinked_last rfl (by decide)⟩

instance : TameWord SourceLanguage := ⟨fun a => by
  cases a with
  | Other n => exact tame_paren (s := " Unknown(".toList) (by decide) n
  | _ => exact okWord_tame (by decide +kernel)⟩

instance : TameWord LoopControl := ⟨fun a => by
  obtain ⟨u, d, i, l⟩ := a
  cases l with
  | none => cases u <;> cases d <;> cases i <;> exact okWord_tame (by decide +kernel)
  | some n =>
    cases u <;> cases d <;> cases i
LOOPS⟩

/-- A word and an operand -/
theorem tame_operand {α : Type} [Display α] [TameWord α] {s t : Text} (e : s = t ++ [' ']) (hs : '"' ∉ t) (a : α) :
    Tame (s ++ Display.fmt a) := by
  subst e
  have h := TameWord.tame a
  rw [List.append_assoc]
  exact ⟨fun hm => (List.mem_append.mp hm).elim hs h.1, unlinked_word h.2⟩

'''
loops=''
import itertools
for u in (0,1):
    for d in (0,1):
        for i in (0,1):
            w=[x for x,b in (('Unroll',u),('DontUnroll',d),('DependencyInfinite',i)) if b]
            loops+='    · exact tame_paren (s := " %sDependencyLength(".toList) (by decide) n\n'%''.join(x+' | ' for x in w)
body=body.replace('LOOPS',loops.rstrip('\n'))
def variants(name):
    D=open('/verif/lean/Verif/Model/Display.lean').read()
    m=re.search(r'instance : Display %s where\n  fmt x := match x with\n((?:    \|.*\n)+)'%name,D)
    return m.group(1)
def cases(name,skip=()):
    out=''
    for l in variants(name).splitlines():
        m=re.match(r'    \| \.(\w+)((?: \w+)*) => (.*)$',l)
        c,vs,rhs=m.group(1),m.group(2).split(),m.group(3)
        if c in skip: out+=skip[c]; continue
        if not vs: out+=f'  | {c} => exact okWord_tame (w := {rhs}) (by decide +kernel)\n'
        elif len(vs)==1:
            w=re.match(r'"(\w+) "\.toList \+\+ Display\.fmt \w+$',rhs).group(1)
            out+=f'  | {c} x => exact tame_operand (s := " {w} ".toList) (t := " {w}".toList) rfl (by decide) x\n'
        else:
            w=re.match(r'"(\w+) "',rhs).group(1)
            out+=f'''  | {c} x y z =>
    exact tame_u32 (s := " {w} ".toList ++ Display.fmt x ++ " ".toList ++ Display.fmt y ++ " ".toList)
      (quote_append (quote_append (quote_append (quote_append (by decide) (quote_u32 x)) (by decide)) (quote_u32 y))
        (by decide)) z
'''
    return out
body+='theorem tame_mode (m : ExecutionMode) : Tame (\' \' :: Display.fmt m) := by\n  cases m with\n'+cases('ExecutionMode')
body+='''
theorem tame_decoration (d : Decoration) (h : ∀ s l, d ≠ .LinkageAttributes s l) : Tame (' ' :: Display.fmt d) := by
  cases d with
'''+cases('Decoration',{'LinkageAttributes':'  | LinkageAttributes s l => exact absurd rfl (h s l)\n'})
body+='''
instance : TameArg ExecutionMode where
  quote a := (tame_mode a).1
  last a _ _ := unlinked_word (tame_mode a).2

/-! ### Instructions -/

'''
ops=[]
for m in re.finditer(r'theorem (Op\w+)\.fmt_plain \(op : \w+\) : ∀ c ∈ Display\.fmt op, Plain c :=\n  (.*)\n',src):
    n,t=m.groups()
    t=t.replace('plain_append fmtNoResult_plain (by decide)','tame_name noResult_left (by decide +kernel)').replace('plain_append (fmtResult_plain _) (by decide)','tame_name (result_left _) (by decide +kernel)')
    t=t.replace('plain_append','tame_append'); t=re.sub(r'\(PlainArg\.plain (op\.\S+?)\)',r'\1',t)
    ops.append(n)
    body+=f'theorem tame_{n} (op : {n}) : Tame (Display.fmt op) :=\n  {t}\n\n'
core=open('/verif/lean/Verif/Model/Op.lean').read()
allops=re.findall(r'theorem fmt_inj_(Op\w+)',open('/verif/lean/Verif/Proofs/TextCore.lean').read())
rest=[o for o in allops if o not in ops]
print(len(allops),rest)

body+='''theorem tame_decorate (op : OpDecorate) (h : ∀ s l, op.decoration ≠ .LinkageAttributes s l) : Tame (Display.fmt op) := by
  have h' := tame_append (tame_name noResult_left (by decide +kernel) : Tame (fmtNoResult ++ "OpDecorate".toList)) op.target
  have hd := tame_decoration _ h
  exact ⟨quote_append h'.1 hd.1, unlinked_word hd.2⟩

theorem tame_memberDecorate (op : OpMemberDecorate) (h : ∀ s l, op.decoration ≠ .LinkageAttributes s l) :
    Tame (Display.fmt op) := by
  have h' := tame_append (tame_append (tame_name noResult_left (by decide +kernel) :
    Tame (fmtNoResult ++ "OpMemberDecorate".toList)) op.structure_type) op.member
  have hd := tame_decoration _ h
  exact ⟨quote_append h'.1 hd.1, unlinked_word hd.2⟩

theorem tame_source (op : OpSource) (h : op.source = none) : Tame (Display.fmt op) := by
  obtain ⟨language, version, file, source⟩ := op
  cases h
  have h' := tame_append (tame_append (tame_append (tame_name noResult_left (by decide +kernel) :
    Tame (fmtNoResult ++ "OpSource".toList)) language) version) file
  rw [← List.append_nil (_ ++ _ : Text)] at h'
  exact h'

theorem tame_extInst {X : Type} [Display X] (op : OpExtInst X) (h : Tame (' ' :: Display.fmt op.instruction)) :
    Tame (Display.fmt op) := by
  have h' := tame_append (tame_append (tame_name (result_left op.result_id) (by decide +kernel) :
    Tame (fmtResult op.result_id ++ "OpExtInst".toList)) op.result_type) op.set
  exact ⟨quote_append h'.1 h.1, unlinked_word h.2⟩

'''
open('/verif/lean/Verif/Proofs/Quotes.lean','w').write(head+body+'end Magma.Quotes\n')
