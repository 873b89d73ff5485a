import Verif.Spec.Scope
import Verif.Proofs.Course
import Verif.Proofs.NaturalGraph
import Verif.Props.DeadCode
/-! Lemmas: values that are given before they are used. -/

namespace Magma.Scope
open Spec Standard
variable {W X : Type} {blocks : List (BasicBlock Glsl.Inst)}

/-! ### What is needed, and ways -/

theorem branch_goto {blocks : List (BasicBlock X)} {id : BlockId} {b : BasicBlock X} {op : OpBranch}
    (hb : blockOf blocks id = some b) (ho : b.branch = .OpBranch op) : Branch blocks id.val op.target_label.val := by
  obtain ⟨hm, hl⟩ := Standard.blockOf_mem hb
  refine ⟨b, hm, hl, ?_⟩
  obtain ⟨_, _, merge, branch⟩ := b
  cases ho
  rcases merge with _ | ⟨m | m⟩ <;> simp [endOf, targets]

theorem branch_choose {blocks : List (BasicBlock X)} {id : BlockId} {b : BasicBlock X} {op : OpBranchConditional}
    (hb : blockOf blocks id = some b) (ho : b.branch = .OpBranchConditional op) (d : Bool) :
    Branch blocks id.val (if d then op.true_label.val else op.false_label.val) := by
  obtain ⟨hm, hl⟩ := Standard.blockOf_mem hb
  refine ⟨b, hm, hl, ?_⟩
  obtain ⟨_, _, merge, branch⟩ := b
  cases ho
  rcases merge with _ | ⟨m | m⟩ <;> cases d <;> simp [endOf, targets]

theorem branch_cases {b : BasicBlock X} {t : UInt32} (h : t ∈ targets (endOf b)) :
    (∃ op, b.branch = .OpBranch op ∧ t = op.target_label.val) ∨
      ∃ op, ∃ d : Bool, b.branch = .OpBranchConditional op ∧ t = if d then op.true_label.val else op.false_label.val := by
  obtain ⟨_, _, merge, branch⟩ := b
  simp only [endOf] at h
  cases branch with
  | OpReturn op => simp [targets] at h
  | OpBranch op =>
    refine .inl ⟨op, rfl, ?_⟩
    rcases merge with _ | ⟨m | m⟩ <;> simpa [targets] using h
  | OpBranchConditional op =>
    have : t = op.true_label.val ∨ t = op.false_label.val := by
      rcases merge with _ | ⟨m | m⟩ <;> simpa [targets] using h
    rcases this with rfl | rfl
    · exact .inr ⟨op, true, rfl, rfl⟩
    · exact .inr ⟨op, false, rfl, rfl⟩

/-- A value is needed exactly if there is a way to a block that reads it on which it is not written. -/
theorem needed_iff {V : Type} {blocks : List (BasicBlock X)} (hn : (blocks.map labelId).Nodup) {U : Usage V}
    (hU : ∀ id v, U.reads id v = true → ∃ b, blockOf blocks id = some b) (u : BlockId) (v : V) :
    Needed blocks U (fun _ => false) u v ↔ ∃ way, ∃ b ∈ blocks, Course blocks u.val (way ++ [labelId b]) ∧
      (∀ x ∈ way, U.writes ⟨x⟩ v = false) ∧ U.reads ⟨labelId b⟩ v = true := by
  constructor
  · intro h
    induction h with
    | @reads id v h =>
      obtain ⟨b, hb⟩ := hU _ _ h
      obtain ⟨hm, hl⟩ := Standard.blockOf_mem hb
      refine ⟨[], b, hm, hl ▸ .stop hm, fun _ e => (by cases e), ?_⟩
      rw [hl]
      exact h
    | ret _ _ _ h => cases h
    | goto hw hb ho _ ih =>
      obtain ⟨way, b, hm, hc, hx, hr⟩ := ih
      refine ⟨_ :: way, b, hm, .step (branch_goto hb ho) hc, ?_, hr⟩
      intro x hx'
      rcases List.mem_cons.mp hx' with rfl | hx'
      · exact hw
      · exact hx x hx'
    | choose d hw hb ho _ ih =>
      obtain ⟨way, b, hm, hc, hx, hr⟩ := ih
      refine ⟨_ :: way, b, hm, .step (branch_choose hb ho d) hc, ?_, hr⟩
      intro x hx'
      rcases List.mem_cons.mp hx' with rfl | hx'
      · exact hw
      · exact hx x hx'
  · rintro ⟨way, b, hm, hc, hx, hr⟩
    obtain ⟨u⟩ := u
    induction way generalizing u with
    | nil =>
      obtain ⟨_, h⟩ := Course.head hc
      rw [List.nil_append, List.cons.injEq] at h
      exact (show labelId b = u from h.1) ▸ .reads hr
    | cons w way ih =>
      generalize hl : w :: way ++ [labelId b] = l at hc
      cases hc with
      | stop _ =>
        simp at hl
      | @step _ t _ hbr hc =>
        rw [List.cons_append, List.cons.injEq] at hl
        obtain ⟨rfl, rfl⟩ := hl
        have hN := ih (fun x h => hx x (List.mem_cons_of_mem _ h)) t hc
        obtain ⟨c, hcm, rfl, ht⟩ := hbr
        have hw := hx _ (List.mem_cons_self ..)
        rcases branch_cases ht with ⟨op, ho, rfl⟩ | ⟨op, d, ho, rfl⟩
        · exact .goto hw (Standard.blockOf_label hn hcm) ho hN
        · exact .choose d hw (Standard.blockOf_label hn hcm) ho hN

/-! ### What blocks read -/

theorem given_append (c d : List (GroupCode Glsl.Inst)) : given (c ++ d) = given c ++ given d :=
  List.filterMap_append

theorem mem_given {code : List (GroupCode Glsl.Inst)} {v : UInt32} :
    v ∈ given code ↔ ∃ i ∈ code, resultId (codeInst i) = some v := List.mem_filterMap

theorem given_one {i : GroupCode Glsl.Inst} {v : UInt32} : v ∈ given [i] ↔ resultId (codeInst i) = some v := by
  rw [mem_given]
  simp

theorem handsOn_iff {b : BasicBlock Glsl.Inst} {v : UInt32} : handsOn blocks b v = true ↔
    ∃ t ∈ targets (endOf b), ∃ c, blockOf blocks ⟨t⟩ = some c ∧ ∃ op, .OpPhi op ∈ c.code ∧
      ∃ a ∈ op.variables, a.parent.val = labelId b ∧ a.variable.val = v := by
  have hp : ∀ c : BasicBlock Glsl.Inst, phiUses c (labelId b) v = true ↔ ∃ op, .OpPhi op ∈ c.code ∧
      ∃ a ∈ op.variables, a.parent.val = labelId b ∧ a.variable.val = v := by
    intro c
    rw [phiUses, List.any_eq_true]
    constructor
    · rintro ⟨i, hi, h⟩
      split at h
      · rename_i op
        obtain ⟨a, ha, h⟩ := List.any_eq_true.mp h
        rw [Bool.and_eq_true, beq_iff_eq, beq_iff_eq] at h
        exact ⟨op, hi, a, ha, h.1, h.2⟩
      · cases h
    · rintro ⟨op, ho, a, ha, h1, h2⟩
      refine ⟨_, ho, ?_⟩
      simp only [List.any_eq_true, Bool.and_eq_true, beq_iff_eq]
      exact ⟨a, ha, h1, h2⟩
  rw [handsOn, List.any_eq_true]
  refine exists_congr fun t => and_congr_right fun _ => ?_
  cases blockOf blocks ⟨t⟩ with
  | none => simp
  | some c => simp only [hp, Option.some.injEq, exists_eq_left']

theorem condition_iff {b : BasicBlock Glsl.Inst} {v : UInt32} : scopeAccess.condition b v = true ↔
    ∃ op, b.branch = .OpBranchConditional op ∧ op.condition.val = v := by
  rw [Access.condition]
  cases b.branch <;> simp [scopeAccess, eq_comm]

theorem reads_iff (hn : (blocks.map labelId).Nodup) {b : BasicBlock Glsl.Inst} (hb : b ∈ blocks) (v : UInt32) :
    (scopeUsage blocks).reads ⟨labelId b⟩ v = true ↔
      (∃ before i rest, b.code = before ++ i :: rest ∧ v ∈ valuesUsed i ∧ v ∉ given before) ∨
      (v ∉ given b.code ∧ ((∃ op, b.branch = .OpBranchConditional op ∧ op.condition.val = v) ∨
        ∃ t ∈ targets (endOf b), ∃ c, blockOf blocks ⟨t⟩ = some c ∧ ∃ op, .OpPhi op ∈ c.code ∧
          ∃ a ∈ op.variables, a.parent.val = labelId b ∧ a.variable.val = v)) := by
  have hw : ∀ code : List (GroupCode Glsl.Inst), (∀ j ∈ code, v ∉ scopeAccess.writes j) ↔ v ∉ given code := by
    intro code
    rw [mem_given]
    simp [scopeAccess]
  simp only [scopeUsage, Standard.blockOf_label hn hb]
  rw [Props.C114_reads]
  simp only [hw, Bool.or_eq_true, condition_iff, handsOn_iff]
  rfl

theorem writes_iff (hn : (blocks.map labelId).Nodup) {v : UInt32} {way : List UInt32} :
    (∀ x ∈ way, (scopeUsage blocks).writes ⟨x⟩ v = false) ↔ ¬ GivenOn blocks way v := by
  constructor
  · rintro h ⟨b, hb, hw, hg⟩
    have := h _ hw
    simp [scopeUsage, Standard.blockOf_label hn hb, hg] at this
  · intro h x hx
    simp only [scopeUsage]
    cases hb : blockOf blocks ⟨x⟩ with
    | none => rfl
    | some b =>
      obtain ⟨hm, hl⟩ := Standard.blockOf_mem hb
      simp only [decide_eq_false_iff_not]
      exact fun hg => h ⟨b, hm, hl ▸ hx, hg⟩

theorem needed_scope (hn : (blocks.map labelId).Nodup) (u : BlockId) (v : UInt32) :
    Needed blocks (scopeUsage blocks) (fun _ => false) u v ↔ ∃ way, ∃ b ∈ blocks, Course blocks u.val (way ++ [labelId b]) ∧
      ¬ GivenOn blocks way v ∧ (scopeUsage blocks).reads ⟨labelId b⟩ v = true := by
  rw [needed_iff hn]
  · simp only [writes_iff hn]
  · intro id v h
    simp only [scopeUsage] at h
    split at h
    · cases h
    · rename_i b hb
      exact ⟨b, hb⟩

theorem branch_last {blocks : List (BasicBlock X)} {first p x : UInt32} {way : List UInt32}
    (h : Course blocks first (way ++ [p] ++ [x])) : Course blocks first (way ++ [p]) ∧ Branch blocks p x := by
  rw [List.append_assoc] at h
  obtain ⟨h1, h2⟩ := Course.split h
  refine ⟨h1, ?_⟩
  cases h2 with
  | step hb h =>
    obtain ⟨_, e⟩ := Course.head h
    cases e
    exact hb

theorem extend {blocks : List (BasicBlock X)} {first p : UInt32} {way : List UInt32} {b : BasicBlock X}
    (h : Course blocks first (way ++ [p])) (hb : b ∈ blocks) (hp : Branch blocks p (labelId b)) :
    Course blocks first (way ++ [p] ++ [labelId b]) := by
  simpa using Course.join h (.step hp (.stop hb))

/-! ### Executions -/

/-- The values known on a way and in some code are the same in both. -/
def Agree (blocks : List (BasicBlock Glsl.Inst)) (way : List UInt32) (code : List (GroupCode Glsl.Inst))
    (st st' : Option UInt32 → W) : Prop :=
  st none = st' none ∧ ∀ v, (LocalTo blocks v → v ∈ given code ∨ GivenOn blocks way v) → st (some v) = st' (some v)

theorem agree_run (D : Denotation W) {last : Option UInt32} {way : List UInt32} {before : List (GroupCode Glsl.Inst)}
    {i : GroupCode Glsl.Inst} {st st' : Option UInt32 → W} (ha : Agree blocks way before st st')
    (hu : ∀ v ∈ valuesAt last i, LocalTo blocks v → v ∈ given before ∨ GivenOn blocks way v) :
    Agree blocks way (before ++ [i]) (D.chosen.run last i st) (D.chosen.run last i st') := by
  have he : (valuesAt last i).map (fun o => st (some o)) = (valuesAt last i).map fun o => st' (some o) :=
    List.map_congr_left fun o ho => ha.2 o (hu o ho)
  constructor
  · simp only [Denotation.chosen]
    rw [he, ha.1]
  · intro v hv
    simp only [Denotation.chosen]
    by_cases hr : resultId (codeInst i) = some v
    · rw [if_pos hr, if_pos hr, he, ha.1]
    · rw [if_neg hr, if_neg hr]
      refine ha.2 v fun hl => ?_
      rcases hv hl with h | h
      · rw [given_append, List.mem_append, given_one] at h
        exact .inl (h.resolve_right hr)
      · exact .inr h

theorem agree_fold (D : Denotation W) {last : Option UInt32} {way : List UInt32} :
    ∀ (code before : List (GroupCode Glsl.Inst)) (st st' : Option UInt32 → W), Agree blocks way before st st' →
    (∀ pre i post, code = pre ++ i :: post → ∀ v ∈ valuesAt last i, LocalTo blocks v →
      v ∈ given (before ++ pre) ∨ GivenOn blocks way v) →
    Agree blocks way (before ++ code) (code.foldl (fun s i => D.chosen.run last i s) st)
      (code.foldl (fun s i => D.chosen.run last i s) st')
  | [], before, st, st', ha, _ => by simpa using ha
  | i :: code, before, st, st', ha, hu => by
    have h1 := agree_run D ha (last := last) (i := i) (by simpa using hu [] i code rfl)
    have h2 := agree_fold D code (before ++ [i]) _ _ h1 (fun pre j post he v hv hl => by
      have := hu (i :: pre) j post (by rw [he]; rfl) v hv hl
      simpa using this)
    simpa using h2

variable {first : UInt32} (hn : (blocks.map labelId).Nodup) (hs : Scoped blocks first)
include hn hs

theorem agree_enter (D : Denotation W) {b : BasicBlock Glsl.Inst} (hb : b ∈ blocks) {way : List UInt32}
    (hc : Course blocks first (way ++ [labelId b])) {c c' : Config (Option UInt32 → W)} (hl : c.last = way.getLast?)
    (hl' : c'.last = c.last) (ha : Agree blocks way [] c.state c'.state) :
    Agree blocks (way ++ [labelId b]) [] (D.chosen.enter b c).state (D.chosen.enter b c').state := by
  have hf := agree_fold D (last := c.last) b.code [] c.state c'.state ha (by
    intro pre i post he v hv hloc
    rw [List.nil_append]
    by_cases hp : ∃ op, i = .OpPhi op
    · obtain ⟨op, rfl⟩ := hp
      right
      simp only [valuesAt, List.mem_map, List.mem_filter] at hv
      obtain ⟨a, ⟨ham, hpar⟩, rfl⟩ := hv
      have hpar := eq_of_beq hpar
      rw [hl] at hpar
      obtain ⟨way', rfl⟩ := List.getLast?_eq_some_iff.mp hpar
      exact hs.phi way' _ b hb hc op (he ▸ List.mem_append_right _ (List.mem_cons_self ..)) a ham rfl hloc
    · refine hs.code way b hb hc pre i post he v ?_ hloc
      cases i <;> first | exact hv | exact absurd ⟨_, rfl⟩ hp)
  rw [List.nil_append] at hf
  have he : (D.chosen.enter b c').state = b.code.foldl (fun s i => D.chosen.run c.last i s) c'.state := by
    rw [Machine.enter, hl']
  rw [he]
  refine ⟨hf.1, fun v hv => hf.2 v fun hloc => ?_⟩
  rcases hv hloc with h | ⟨d, hdm, hw, hg⟩
  · cases h
  · rcases List.mem_append.mp hw with hw | hw
    · exact .inr ⟨d, hdm, hw, hg⟩
    · have := Standard.blockOf_label hn hdm
      rw [List.mem_singleton.mp hw, Standard.blockOf_label hn hb] at this
      cases this
      exact .inl hg

/-- Executions from values that are the same where they are known stay so. -/
theorem agree_machine (D : Denotation W) : ∀ (n : Nat) (u : BlockId) (way : List UInt32)
    (c c' : Config (Option UInt32 → W)), (∀ b, blockOf blocks u = some b → Course blocks first (way ++ [u.val])) →
    c.last = way.getLast? → c'.last = c.last → Agree blocks way [] c.state c'.state →
    (runMachine D.chosen blocks n u c).1 = (runMachine D.chosen blocks n u c').1 ∧
    (runMachine D.chosen blocks n u c).2.2 = (runMachine D.chosen blocks n u c').2.2 ∧
    (runMachine D.chosen blocks n u c).2.1.last = (runMachine D.chosen blocks n u c').2.1.last ∧
    Agree blocks (way ++ (runMachine D.chosen blocks n u c).1.map (·.val)) []
      (runMachine D.chosen blocks n u c).2.1.state (runMachine D.chosen blocks n u c').2.1.state
  | 0, u, way, c, c', _, _, hl', ha => by
    simp only [runMachine, List.map_nil, List.append_nil]
    exact ⟨trivial, trivial, hl'.symm, ha⟩
  | n + 1, u, way, c, c', hc, hl, hl', ha => by
    cases hb : blockOf blocks u with
    | none =>
      simp only [runMachine, hb, List.map_nil, List.append_nil]
      exact ⟨trivial, trivial, hl'.symm, ha⟩
    | some b =>
      obtain ⟨hm, hu⟩ := Standard.blockOf_mem hb
      have hco := hc b hb
      rw [← hu] at hco
      have he := agree_enter hn hs D hm hco hl hl' ha
      have hlast : (D.chosen.enter b c).last = (way ++ [labelId b]).getLast? := by simp [Machine.enter]
      have hlast' : (D.chosen.enter b c').last = (D.chosen.enter b c).last := rfl
      have next : ∀ t, Branch blocks u.val t → ∀ e, blockOf blocks ⟨t⟩ = some e →
          Course blocks first (way ++ [labelId b] ++ [t]) := by
        intro t ht e hte
        obtain ⟨hem, hel⟩ := Standard.blockOf_mem hte
        have : Course blocks (labelId b) [labelId b, t] := .step (hu ▸ ht) (by
          have := Course.stop hem
          rwa [hel] at this)
        simpa using Course.join hco this
      simp only [runMachine, hb]
      cases ho : b.branch with
      | OpReturn op =>
        refine ⟨rfl, rfl, rfl, ?_⟩
        simp only [List.map_cons, List.map_nil, ← hu]
        exact he
      | OpBranch op =>
        obtain ⟨h1, h2, h3, h4⟩ := agree_machine D n ⟨op.target_label.val⟩ _ _ _ (next _ (branch_goto hb ho)) hlast hlast' he
        refine ⟨congrArg (u :: ·) h1, h2, h3, ?_⟩
        simpa [← hu] using h4
      | OpBranchConditional op =>
        have hcond : D.chosen.holds op.condition (D.chosen.enter b c).state =
            D.chosen.holds op.condition (D.chosen.enter b c').state := by
          show D.truth _ = D.truth _
          rw [he.2 op.condition.val fun hloc => .inr (hs.condition way b hm hco op ho hloc)]
        simp only [← hcond]
        obtain ⟨h1, h2, h3, h4⟩ := agree_machine D n _ _ _ _ (next _ (branch_choose hb ho
          (D.chosen.holds op.condition (D.chosen.enter b c).state))) hlast hlast' he
        refine ⟨congrArg (u :: ·) h1, h2, h3, ?_⟩
        simpa [← hu] using h4

end Magma.Scope
