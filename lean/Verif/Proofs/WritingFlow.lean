import Verif.Proofs.WritingOps
import Verif.Spec.TextSize
/-! Lemmas: the disassembly and the printers of control flow, piece by piece. -/

namespace Magma
open Spec
variable {σ : Type}

instance : StubbornTo σ ReadError := ⟨fun o e => .shown o e.description⟩

theorem putInstructions_writes {X : Type} [Display X] [DisplayTo σ X] [LawfulTo σ X] (o : Options)
    (insts : List (Core X)) : Writes o (putInstructions insts : PutM σ Unit)
      (insts.flatMap fun inst => Display.fmt inst ++ "\n".toList) := by
  induction insts with
  | nil => exact .done o
  | cons inst insts ih =>
    rw [putInstructions, List.flatMap_cons, List.append_assoc]
    exact .bind (.shown _ _) (.bind (.lit _ _) ih)

theorem RawModule.writes {X : Type} [Display X] [DisplayTo σ X] [LawfulTo σ X] (o : Options) (m : RawModule X) :
    Writes o (fmtTo m : PutM σ Unit) m.fmt := by
  show Writes o (RawModule.putModule m) _
  unfold RawModule.putModule
  have h1 := Writes.lit (σ := σ) o "; SPIR-V\n"
  have h2 := Writes.lit (σ := σ) o "; Version: "
  have h3 := Writes.shown (σ := σ) o m.version.f0
  have h4 := Writes.lit (σ := σ) o "."
  have h5 := Writes.shown (σ := σ) o m.version.f1
  have h6 := Writes.lit (σ := σ) o "\n"
  have h7 := Writes.lit (σ := σ) o "; Generator: "
  have h8 := Writes.padded (σ := σ) o m.generator.tool.genName
  have h9 := Writes.lit (σ := σ) o "; "
  have h10 := Writes.shown (σ := σ) o m.generator.version
  have h11 := Writes.lit (σ := σ) o "; Bound: "
  have h12 := Writes.shown (σ := σ) o m.bound
  have h13 := Writes.lit (σ := σ) o "; Schema: 0\n"
  have h14 := putInstructions_writes (σ := σ) o m.instructions
  have h := h1.bind (h2.bind (h3.bind (h4.bind (h5.bind (h6.bind (h7.bind (h8.bind (h9.bind (h10.bind (h6.bind
    (h11.bind (h12.bind (h6.bind (h13.bind h14))))))))))))))
  refine h.congr ?_
  unfold RawModule.fmt RawModule.fmtHeader
  simp only [List.append_assoc]

instance : StubbornTo σ BlockId := ⟨fun o id => .shown o (OpId.mk id.val)⟩

theorem putIndent_writes (o : Options) (n : Nat) : Writes o (putIndent n : PutM σ Unit) (writeIndent n) := by
  induction n with
  | zero => exact .done o
  | succ n ih => exact .bind (.str _ _) ih

theorem putSelectionHint_writes (o : Options) (hint : SelectionControl) :
    Writes o (putSelectionHint hint : PutM σ Unit) (fmtSelectionHint hint) := by
  unfold putSelectionHint fmtSelectionHint
  split
  · exact (Writes.bind (.lit _ _) (.bind (.shown _ _) (.lit _ _))).congr (by rw [List.append_assoc])
  · exact .done o

theorem putLoopHint_writes (o : Options) (hint : LoopControl) :
    Writes o (putLoopHint hint : PutM σ Unit) (fmtLoopHint hint) := by
  unfold putLoopHint fmtLoopHint
  split
  · exact (Writes.bind (.lit _ _) (.bind (.shown _ _) (.lit _ _))).congr (by rw [List.append_assoc])
  · exact .done o

theorem putWeights_writes (o : Options) (weights : Option BranchWeights) :
    Writes o (putWeights weights : PutM σ Unit) (fmtWeights weights) := by
  unfold putWeights fmtWeights
  cases weights with
  | some w => exact (Writes.bind (.lit _ _) (.bind (.shown _ _) (.lit _ _))).congr (by simp only [List.append_assoc])
  | none => exact .done o

mutual
theorem putChain_writes (o : Options) : ∀ (c : ControlFlowChain) (indent : Nat),
    Writes o (c.putChain indent : PutM σ Unit) (c.fmtIndent indent)
  | .Atom id, indent => by
    rw [ControlFlowChain.putChain, ControlFlowChain.fmtIndent]
    exact (Writes.bind (putIndent_writes _ _) (.bind (.shown _ _) (.lit _ _))).congr (by rw [List.append_assoc])
  | .Block block, indent => by
    rw [ControlFlowChain.putChain, ControlFlowChain.fmtIndent]
    exact putChainAll_writes o block indent
  | .Selection id left right hint weights, indent => by
    rw [ControlFlowChain.putChain, ControlFlowChain.fmtIndent]
    have hr : Writes o (if right.isEmptyBlock = true then pure ()
        else do putIndent indent; lit "} else {\n"; right.putChain (indent + 1) : PutM σ Unit)
        (if right.isEmptyBlock = true then []
         else writeIndent indent ++ "} else {\n".toList ++ right.fmtIndent (indent + 1)) := by
      split
      · exact .done o
      · exact (Writes.bind (putIndent_writes _ _) (.bind (.lit _ _) (putChain_writes o right _))).congr (by
          rw [List.append_assoc])
    refine (Writes.bind (putIndent_writes _ _) (.bind (.lit _ _) (.bind (.shown _ _)
      (.bind (putSelectionHint_writes _ _) (.bind (putWeights_writes _ _) (.bind (.lit _ _)
      (.bind (putChain_writes o left _) (.bind hr (.bind (putIndent_writes _ _) (.lit _ _)))))))))).congr ?_
    simp only [List.append_assoc]
  | .Loop id inner hint weights, indent => by
    rw [ControlFlowChain.putChain, ControlFlowChain.fmtIndent]
    refine (Writes.bind (putIndent_writes _ _) (.bind (.lit _ _) (.bind (.shown _ _)
      (.bind (putLoopHint_writes _ _) (.bind (putWeights_writes _ _) (.bind (.lit _ _)
      (.bind (putChain_writes o inner _) (.bind (putIndent_writes _ _) (.lit _ _))))))))).congr ?_
    simp only [List.append_assoc]
  | .Break, indent => by
    rw [ControlFlowChain.putChain, ControlFlowChain.fmtIndent]
    exact .bind (putIndent_writes _ _) (.lit _ _)
  | .Continue, indent => by
    rw [ControlFlowChain.putChain, ControlFlowChain.fmtIndent]
    exact .bind (putIndent_writes _ _) (.lit _ _)
theorem putChainAll_writes (o : Options) : ∀ (cs : List ControlFlowChain) (indent : Nat),
    Writes o (ControlFlowChain.putChainAll cs indent : PutM σ Unit) (ControlFlowChain.fmtIndentAll cs indent)
  | [], indent => by
    rw [ControlFlowChain.putChainAll, ControlFlowChain.fmtIndentAll]
    exact .done o
  | c :: cs, indent => by
    rw [ControlFlowChain.putChainAll, ControlFlowChain.fmtIndentAll]
    exact .bind (putChain_writes o c indent) (putChainAll_writes o cs indent)
end

instance : StubbornTo σ ControlFlowChain := ⟨fun o c => putChain_writes o c 0⟩

/-- With these options the printer hands over pieces, and then ends as the one that builds the text does: they are
the pieces of its text, or there is the same panic. -/
def EndsAs (o : Options) (p : PutM σ Unit) (r : P Text) : Prop :=
  ∃ (pieces : List Text) (then_ : Except Stop Unit), (∀ w s, p w o s = ended then_ (handOver w pieces s)) ∧
    match r with
    | .ok t => then_ = .ok () ∧ pieces.flatten = t
    | .error e => ∃ m, e = .panic m ∧ then_ = .error (.panic m)

theorem Writes.ends {o : Options} {p : PutM σ Unit} {t : Text} (h : Writes o p t) : EndsAs o p (.ok t) := by
  obtain ⟨a, e, h⟩ := h
  exact ⟨a, .ok (), h, rfl, e⟩

theorem EndsAs.congr {o : Options} {p : PutM σ Unit} {r r' : P Text} (h : EndsAs o p r) (e : r = r') : EndsAs o p r' :=
  e ▸ h

theorem EndsAs.writes {o : Options} {p : PutM σ Unit} {t : Text} (h : EndsAs o p (.ok t)) : Writes o p t := by
  obtain ⟨a, _, h, rfl, e⟩ := h
  exact ⟨a, e, h⟩

theorem EndsAs.go {o : Options} {p q : PutM σ Unit} {t : Text} {r : P Text} (hp : Writes o p t) (hq : EndsAs o q r) :
    EndsAs o (p >>= fun _ => q) (r.map (t ++ ·)) := by
  obtain ⟨a, rfl, ha⟩ := hp
  obtain ⟨b, then_, hb, hr⟩ := hq
  refine ⟨a ++ b, then_, fun w s => ?_, ?_⟩
  · rw [handOver_append]
    show PutM.next p (fun _ => q) w o s = _
    rw [PutM.next, ha]
    cases h : handOver w a s with
    | mk ok s' =>
      cases ok with
      | true => exact hb w s'
      | false => rfl
  · cases r with
    | ok u => exact ⟨hr.1, by rw [List.flatten_append, hr.2]⟩
    | error e => exact hr

theorem EndsAs.stop {o : Options} {p q : PutM σ Unit} {e : Fault Empty} (hp : EndsAs o p (.error e)) :
    EndsAs o (p >>= fun _ => q) (.error e) := by
  obtain ⟨a, _, ha, m, he, rfl⟩ := hp
  refine ⟨a, .error (.panic m), fun w s => ?_, m, he, rfl⟩
  show PutM.next p (fun _ => q) w o s = _
  rw [PutM.next, ha]
  cases h : handOver w a s with
  | mk ok s' => cases ok <;> rfl

theorem searchPrintedBlock_run {X : Type} (id : BlockId) (w : Writer σ) (o : Options) (s : σ) :
    ∀ (blocks : List (BasicBlock X)) (found : Option (BasicBlock X)),
    (∃ b, findPrintedBlock id blocks found = .ok b ∧ searchPrintedBlock id blocks found w o s = (.ok b, s)) ∨
    (∃ m, findPrintedBlock id blocks found = .error (.panic m) ∧
      searchPrintedBlock id blocks found w o s = (.error (.panic m), s)) := by
  intro blocks
  induction blocks with
  | nil => intro found; exact .inl ⟨found, rfl, rfl⟩
  | cons b blocks ih =>
    intro found
    unfold findPrintedBlock searchPrintedBlock
    by_cases hb : b.label.result_id.val = id.val
    · rw [if_pos hb, if_pos hb]
      cases found with
      | none => exact ih (some b)
      | some _ => exact .inr ⟨_, rfl, rfl⟩
    · rw [if_neg hb, if_neg hb]
      exact ih found

theorem findPrintedBlock_total {X : Type} (id : BlockId) (blocks : List (BasicBlock X)) (found : Option (BasicBlock X)) :
    (∃ b, findPrintedBlock id blocks found = .ok b) ∨ (∃ m, findPrintedBlock id blocks found = .error (.panic m)) := by
  rcases searchPrintedBlock_run (σ := Unit) id (fun _ s => (true, s)) {} () blocks found with ⟨b, h, _⟩ | ⟨m, h, _⟩
  · exact .inl ⟨b, h⟩
  · exact .inr ⟨m, h⟩

variable {X : Type} [Display X] [DisplayTo σ X] [LawfulTo σ X]

theorem putCode_writes (o : Options) (indent : Nat) (code : List (GroupCode X)) :
    Writes o (putCode indent code : PutM σ Unit)
      (code.flatMap fun c => writeIndent indent ++ ">>> ".toList ++ c.fmt ++ "\n".toList) := by
  induction code with
  | nil => exact .done o
  | cons c code ih =>
    rw [putCode, List.flatMap_cons]
    refine (Writes.bind (putIndent_writes _ _) (.bind (.lit _ _) (.bind (.arg (GroupCode.writes c))
      (.bind (.lit _ _) ih)))).congr ?_
    simp only [List.append_assoc]

theorem putBlock_ends (o : Options) (f : FunctionDefinition X) (indent : Nat) (id : BlockId) :
    EndsAs o (putBlock f indent id : PutM σ Unit) (fmtBlockIndent f indent id) := by
  cases hf : findPrintedBlock id f.blocks none with
  | error e =>
    have hs : ∃ m, e = .panic m ∧ ∀ (w : Writer σ) s, searchPrintedBlock id f.blocks none w o s = (.error (.panic m), s) := by
      cases e with
      | panic m =>
        refine ⟨m, rfl, fun w s => ?_⟩
        rcases searchPrintedBlock_run id w o s f.blocks none with ⟨b, h, _⟩ | ⟨m', h, h'⟩
        · rw [hf] at h; cases h
        · rw [hf] at h; cases h; exact h'
      | err e => cases e
      | diverge =>
        exfalso
        have := findPrintedBlock_total id f.blocks none
        rw [hf] at this
        rcases this with ⟨_, h⟩ | ⟨_, h⟩ <;> cases h
    obtain ⟨m, rfl, hs⟩ := hs
    refine ⟨[], .error (.panic m), fun w s => ?_, ?_⟩
    · rw [putBlock]
      show PutM.next _ _ w o s = _
      rw [PutM.next, hs]
      rfl
    · rw [fmtBlockIndent, hf]
      exact ⟨m, rfl, rfl⟩
  | ok found =>
    have hs : ∀ (w : Writer σ) s, searchPrintedBlock id f.blocks none w o s = (.ok found, s) := by
      intro w s
      rcases searchPrintedBlock_run id w o s f.blocks none with ⟨b, h, h'⟩ | ⟨m', h, h'⟩
      · rw [hf] at h; cases h; exact h'
      · rw [hf] at h; cases h
    cases found with
    | none =>
      refine ⟨[], .error (.panic "Basic block with given id does not exist"), fun w s => ?_, ?_⟩
      · rw [putBlock]
        show PutM.next _ _ w o s = _
        rw [PutM.next, hs]
        rfl
      · rw [fmtBlockIndent, hf]
        exact ⟨_, rfl, rfl⟩
    | some block =>
      have hw : Writes o (do
          putIndent indent
          lit "> Begin "; arg (fmtTo id.val); lit "\n"
          putCode indent block.code
          putIndent indent
          lit ">>> "; arg (fmtTo block.branch); lit "\n"
          putIndent indent
          lit "> End "; arg (fmtTo id.val); lit "\n" : PutM σ Unit)
          (writeIndent indent ++ "> Begin ".toList ++ Display.fmt id.val ++ "\n".toList ++
            block.code.flatMap (fun code_op =>
              writeIndent indent ++ ">>> ".toList ++ code_op.fmt ++ "\n".toList) ++
            writeIndent indent ++ ">>> ".toList ++ block.branch.fmt ++ "\n".toList ++
            writeIndent indent ++ "> End ".toList ++ Display.fmt id.val ++ "\n".toList) := by
        refine (Writes.bind (putIndent_writes _ _) (.bind (.lit _ _) (.bind (.shown _ _) (.bind (.lit _ _)
          (.bind (putCode_writes _ _ _) (.bind (putIndent_writes _ _) (.bind (.lit _ _)
          (.bind (.arg (GroupBranch.writes block.branch)) (.bind (.lit _ _) (.bind (putIndent_writes _ _)
          (.bind (.lit _ _) (.bind (.shown _ _) (.lit _ _))))))))))))).congr ?_
        simp only [List.append_assoc]
      obtain ⟨a, e, h⟩ := hw
      refine ⟨a, .ok (), fun w s => ?_, ?_⟩
      · rw [putBlock]
        show PutM.next _ _ w o s = _
        rw [PutM.next, hs]
        exact h w s
      · rw [fmtBlockIndent, hf]
        exact ⟨rfl, e⟩

mutual
theorem putFunctionIndent_ends (o : Options) (f : FunctionDefinition X) : ∀ (c : ControlFlowChain) (indent : Nat),
    EndsAs o (putFunctionIndent f c indent : PutM σ Unit) (fmtFunctionIndent f c indent)
  | .Atom id, indent => by
    rw [putFunctionIndent, fmtFunctionIndent]
    exact putBlock_ends o f indent id
  | .Block block, indent => by
    rw [putFunctionIndent, fmtFunctionIndent]
    exact putFunctionIndentAll_ends o f block indent
  | .Selection id left right hint weights, indent => by
    rw [putFunctionIndent, fmtFunctionIndent]
    have hb := putBlock_ends (σ := σ) o f indent id
    have hl := putFunctionIndent_ends o f left (indent + 1)
    have hr := putFunctionIndent_ends o f right (indent + 1)
    cases eb : fmtBlockIndent f indent id with
    | error e => rw [eb] at hb; exact hb.stop
    | ok b =>
      rw [eb] at hb
      have hb := hb.writes
      have pre := fun {q : PutM σ Unit} {r : P Text} (h : EndsAs o q r) => EndsAs.go hb (EndsAs.go (putSelectionHint_writes o hint)
        (EndsAs.go (putWeights_writes o weights) (EndsAs.go (putIndent_writes o indent) (EndsAs.go (.lit o "{\n") h))))
      cases el : fmtFunctionIndent f left (indent + 1) with
      | error e => rw [el] at hl; exact pre hl.stop
      | ok l =>
        rw [el] at hl
        have hl := hl.writes
        by_cases hemp : right.isEmptyBlock = true
        · simp only [hemp, if_true]
          refine (pre (EndsAs.go hl (EndsAs.go (.done o) ((putIndent_writes o indent).bind (.lit o "}\n")).ends))).congr ?_
          show Except.ok _ = Except.ok _
          simp only [List.append_assoc, List.nil_append]
        · simp only [hemp]
          cases er : fmtFunctionIndent f right (indent + 1) with
          | error e =>
            rw [er] at hr
            exact pre (EndsAs.go hl (EndsAs.stop (EndsAs.go (putIndent_writes o indent) (EndsAs.go (.lit o "} else {\n") hr))))
          | ok r =>
            rw [er] at hr
            have hr := hr.writes
            refine (pre (EndsAs.go hl (EndsAs.go ((putIndent_writes o indent).bind (.bind (.lit o "} else {\n") hr))
              ((putIndent_writes o indent).bind (.lit o "}\n")).ends))).congr ?_
            show Except.ok _ = Except.ok _
            simp only [List.append_assoc]
  | .Loop id inner hint weights, indent => by
    rw [putFunctionIndent, fmtFunctionIndent]
    have hb := putBlock_ends (σ := σ) o f indent id
    have hi := putFunctionIndent_ends o f inner (indent + 1)
    cases eb : fmtBlockIndent f indent id with
    | error e => rw [eb] at hb; exact hb.stop
    | ok b =>
      rw [eb] at hb
      have hb := hb.writes
      have pre := fun {q : PutM σ Unit} {r : P Text} (h : EndsAs o q r) => EndsAs.go hb (EndsAs.go (putLoopHint_writes o hint)
        (EndsAs.go (putWeights_writes o weights) (EndsAs.go (putIndent_writes o indent) (EndsAs.go (.lit o "{\n") h))))
      cases ei : fmtFunctionIndent f inner (indent + 1) with
      | error e => rw [ei] at hi; exact pre hi.stop
      | ok i =>
        rw [ei] at hi
        have hi := hi.writes
        refine (pre (EndsAs.go hi ((putIndent_writes o indent).bind (.lit o "}\n")).ends)).congr ?_
        show Except.ok _ = Except.ok _
        simp only [List.append_assoc]
  | .Break, indent => by
    rw [putFunctionIndent, fmtFunctionIndent]
    exact (Writes.bind (putIndent_writes _ _) (.lit _ _)).ends
  | .Continue, indent => by
    rw [putFunctionIndent, fmtFunctionIndent]
    exact (Writes.bind (putIndent_writes _ _) (.lit _ _)).ends
theorem putFunctionIndentAll_ends (o : Options) (f : FunctionDefinition X) : ∀ (cs : List ControlFlowChain) (indent : Nat),
    EndsAs o (putFunctionIndentAll f cs indent : PutM σ Unit) (fmtFunctionIndentAll f cs indent)
  | [], indent => by
    rw [putFunctionIndentAll, fmtFunctionIndentAll]
    exact (Writes.done o).ends
  | c :: cs, indent => by
    rw [putFunctionIndentAll, fmtFunctionIndentAll]
    have ha := putFunctionIndent_ends o f c indent
    have hb := putFunctionIndentAll_ends o f cs indent
    cases ea : fmtFunctionIndent f c indent with
    | error e => rw [ea] at ha; exact ha.stop
    | ok a =>
      rw [ea] at ha
      refine (EndsAs.go ha.writes hb).congr ?_
      cases fmtFunctionIndentAll f cs indent <;> rfl
end

/-! ### A buffer of limited size -/

theorem utf8_append (a b : Text) : utf8 (a ++ b) = utf8 a ++ utf8 b := by
  simp [utf8, stringBytes, String.ofList_append, String.toByteArray_append]

theorem utf8_length (t : Text) : (utf8 t).length = textSize t := by
  rw [utf8, stringBytes, Array.length_toList]
  rfl

theorem handOver_buffer (pieces : List Text) : ∀ (bytes : List UInt8) (free : Nat),
    handOver buffer pieces (bytes, free) =
      (decide ((utf8 pieces.flatten).length ≤ free),
        (bytes ++ (utf8 pieces.flatten).take free, free - (utf8 pieces.flatten).length)) := by
  induction pieces with
  | nil =>
    intro bytes free
    have h : utf8 ([] : List Text).flatten = [] := rfl
    rw [handOver, h, List.take_nil, List.append_nil, List.length_nil, decide_eq_true (Nat.zero_le _), Nat.sub_zero]
  | cons t ts ih =>
    intro bytes free
    rw [List.flatten_cons, utf8_append, List.length_append, List.take_append, handOver]
    by_cases h : (utf8 t).length ≤ free
    · have hb : buffer t (bytes, free) = (true, (bytes ++ (utf8 t).take free, free - (utf8 t).length)) := by
        rw [buffer, decide_eq_true h]
      rw [hb]
      show handOver buffer ts _ = _
      rw [ih, List.append_assoc, Nat.sub_sub]
      congr 1
      exact decide_eq_decide.mpr ⟨fun h' => by omega, fun h' => by omega⟩
    · have hb : buffer t (bytes, free) = (false, (bytes ++ (utf8 t).take free, free - (utf8 t).length)) := by
        rw [buffer, decide_eq_false h]
      rw [hb]
      show (false, _) = _
      have h0 : free - (utf8 t).length = 0 := by omega
      rw [decide_eq_false (by omega), h0, List.take_zero, List.append_nil, Nat.sub_add_eq, h0, Nat.zero_sub]

end Magma
