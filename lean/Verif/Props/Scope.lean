import Verif.Proofs.Scope
import Verif.Props.Dominators
import Verif.Props.Values
/-! C116: whether values are given before they are used, as the standard demands, is read off the recovered control flow. -/

namespace Magma.Props
open Spec Standard Scope
variable {W : Type}

/-! ### C116 -/

/-- C116: one pass over the recovered control flow tells whether on every way along the branches all results of
instructions are given before they are used. -/
theorem C116_check {f : FunctionDefinition Glsl.Inst} {fuel : Nat} {chain : ControlFlowChain}
    (h : findControlFlow fuel f = .ok chain) {first : BasicBlock Glsl.Inst} {more : List (BasicBlock Glsl.Inst)}
    (hb : f.blocks = first :: more) : checkScope f.blocks chain = true ↔ Scoped f.blocks (labelId first) := by
  have hn := labels_distinct h
  have hc : checkScope f.blocks chain = true ↔
      ∀ v, LocalTo f.blocks v → ¬ Needed f.blocks (scopeUsage f.blocks) (fun _ => false) ⟨labelId first⟩ v := by
    simp only [checkScope, List.all_eq_true, Bool.not_eq_true', ← C113_start h hb _ _ (fun _ => false) (fun _ => false),
      Bool.not_eq_true]
    exact ⟨fun hh v ⟨b, hb, hv⟩ => hh b hb v hv, fun hh b hb v hv => hh v ⟨b, hb, hv⟩⟩
  rw [hc]
  simp only [needed_scope hn]
  constructor
  · intro hh
    refine ⟨?_, ?_, ?_⟩
    · intro way b hbm hco before i after he v hv hl
      by_contra hno
      rw [not_or] at hno
      exact hh v hl ⟨way, b, hbm, hco, hno.2, (reads_iff hn hbm v).mpr (.inl ⟨before, i, after, he, hv, hno.1⟩)⟩
    · intro way b hbm hco op ho hl
      by_contra hno
      refine hh _ hl ⟨way, b, hbm, hco, fun ⟨d, hd, hw, hg⟩ => hno ⟨d, hd, List.mem_append_left _ hw, hg⟩,
        (reads_iff hn hbm _).mpr (.inr ⟨fun hg => hno ⟨b, hbm, by simp, hg⟩, .inl ⟨op, ho, rfl⟩⟩)⟩
    · rintro way parent b hbm hco op ho a ha rfl hl
      by_contra hno
      obtain ⟨hco', p, hp, hpl, ht⟩ := branch_last hco
      rw [← hpl] at hco' hno
      refine hh _ hl ⟨way, p, hp, hco', fun ⟨d, hd, hw, hg⟩ => hno ⟨d, hd, List.mem_append_left _ hw, hg⟩,
        (reads_iff hn hp _).mpr (.inr ⟨fun hg => hno ⟨p, hp, by simp, hg⟩, .inr ⟨_, ht, b, Standard.blockOf_label hn hbm,
          op, ho, a, ha, hpl.symm, rfl⟩⟩)⟩
  · rintro hs v hl ⟨way, b, hbm, hco, hno, hr⟩
    rcases (reads_iff hn hbm v).mp hr with ⟨before, i, rest, he, hv, hg⟩ | ⟨hg, ⟨op, ho, rfl⟩ | ⟨t, ht, c, hc, op, ho, a, ha, hp, rfl⟩⟩
    · exact (hs.code way b hbm hco before i rest he v hv hl).elim hg hno
    · obtain ⟨d, hd, hw, hdg⟩ := hs.condition way b hbm hco op ho hl
      rcases List.mem_append.mp hw with hw | hw
      · exact hno ⟨d, hd, hw, hdg⟩
      · have := Standard.blockOf_label hn hd
        rw [List.mem_singleton.mp hw, Standard.blockOf_label hn hbm] at this
        cases this
        exact hg hdg
    · obtain ⟨hcm, hcl⟩ := Standard.blockOf_mem hc
      obtain ⟨d, hd, hw, hdg⟩ := hs.phi way _ c hcm (extend hco hcm ⟨b, hbm, rfl, hcl ▸ ht⟩) op ho a ha hp hl
      rcases List.mem_append.mp hw with hw | hw
      · exact hno ⟨d, hd, hw, hdg⟩
      · have := Standard.blockOf_label hn hd
        rw [List.mem_singleton.mp hw, Standard.blockOf_label hn hbm] at this
        cases this
        exact hg hdg

/-- C116: if no value is the result of two instructions, this is the rule of the standard: definitions dominate uses. -/
theorem C116_dominated {f : FunctionDefinition Glsl.Inst} {fuel : Nat} {chain : ControlFlowChain}
    (h : findControlFlow fuel f = .ok chain) {first : BasicBlock Glsl.Inst} {more : List (BasicBlock Glsl.Inst)}
    (hb : f.blocks = first :: more) (hg : (f.blocks.flatMap fun b => given b.code).Nodup) :
    checkScope f.blocks chain = true ↔ Dominated f.blocks (labelId first) := by
  rw [C116_check h hb]
  have hn := labels_distinct h
  have once : ∀ d ∈ f.blocks, ∀ e ∈ f.blocks, ∀ v, v ∈ given d.code → v ∈ given e.code → d = e := by
    intro d hd e he v hvd hve
    by_contra hne
    have : Std.Symm (Function.onFun List.Disjoint fun b : BasicBlock Glsl.Inst => given b.code) :=
      ⟨fun _ _ h => List.Disjoint.symm h⟩
    exact (List.nodup_flatMap.mp hg).2.forall hd he hne hvd hve
  have on : ∀ d ∈ f.blocks, ∀ v, v ∈ given d.code → ∀ way, GivenOn f.blocks way v → labelId d ∈ way := by
    rintro d hd v hv way ⟨e, he, hw, hve⟩
    rwa [once d hd e he v hv hve]
  have same : ∀ d ∈ f.blocks, ∀ e ∈ f.blocks, labelId d = labelId e → d = e := by
    intro d hd e he hl
    have := Standard.blockOf_label hn hd
    rw [hl, Standard.blockOf_label hn he] at this
    cases this
    rfl
  constructor
  · intro hs
    refine ⟨?_, ?_, ?_⟩
    · intro d hd v hv b hbm before i after he hu
      by_cases hbe : v ∈ given before
      · exact .inl hbe
      · exact .inr fun way hco => on d hd v hv way
          ((hs.code way b hbm hco before i after he v hu ⟨d, hd, hv⟩).resolve_left hbe)
    · rintro d hd v hv b hbm op ho rfl
      by_cases hdb : d = b
      · exact .inl hdb
      · refine .inr fun way hco => ?_
        have := on d hd _ hv _ (hs.condition way b hbm hco op ho ⟨d, hd, hv⟩)
        rcases List.mem_append.mp this with hw | hw
        · exact hw
        · exact absurd (same d hd b hbm (List.mem_singleton.mp hw)) hdb
    · rintro d hd v hv b hbm op ho a ha rfl p hp hpl hbr
      by_cases hdp : d = p
      · exact .inl hdp
      · refine .inr fun way hco => ?_
        have := on d hd _ hv _ (hs.phi way _ b hbm (extend hco hbm hbr) op ho a ha hpl.symm ⟨d, hd, hv⟩)
        rcases List.mem_append.mp this with hw | hw
        · exact hw
        · exact absurd (same d hd p hp (List.mem_singleton.mp hw)) hdp
  · intro hs
    refine ⟨?_, ?_, ?_⟩
    · rintro way b hbm hco before i after he v hu ⟨d, hd, hv⟩
      rcases hs.code d hd v hv b hbm before i after he hu with h | h
      · exact .inl h
      · exact .inr ⟨d, hd, h way hco, hv⟩
    · rintro way b hbm hco op ho ⟨d, hd, hv⟩
      rcases hs.condition d hd _ hv b hbm op ho rfl with rfl | h
      · exact ⟨d, hd, by simp, hv⟩
      · exact ⟨d, hd, List.mem_append_left _ (h way hco), hv⟩
    · rintro way parent b hbm hco op ho a ha rfl ⟨d, hd, hv⟩
      obtain ⟨hco', hbr⟩ := branch_last hco
      obtain ⟨p, hp, hpl, ht⟩ := hbr
      rcases hs.phi d hd _ hv b hbm op ho a ha rfl p hp hpl ⟨p, hp, rfl, ht⟩ with rfl | h
      · exact ⟨d, hd, by simp [hpl], hv⟩
      · exact ⟨d, hd, List.mem_append_left _ (h way (hpl ▸ hco')), hv⟩

/-- C116: then no execution depends on what the results of instructions were before the function: from values that differ
in those only, the same blocks are visited, with the same outcome, and memory and all values given on the way are the same. -/
theorem C116_executions {f : FunctionDefinition Glsl.Inst} {fuel : Nat} {chain : ControlFlowChain}
    (h : findControlFlow fuel f = .ok chain) {first : BasicBlock Glsl.Inst} {more : List (BasicBlock Glsl.Inst)}
    (hb : f.blocks = first :: more) (hs : checkScope f.blocks chain = true) (D : Denotation W) (n : Nat)
    (st st' : Option UInt32 → W) (hm : st none = st' none)
    (hst : ∀ v, ¬ LocalTo f.blocks v → st (some v) = st' (some v)) :
    let r := runMachine D.chosen f.blocks n ⟨labelId first⟩ ⟨none, st⟩
    let r' := runMachine D.chosen f.blocks n ⟨labelId first⟩ ⟨none, st'⟩
    r.1 = r'.1 ∧ r.2.2 = r'.2.2 ∧ r.2.1.last = r'.2.1.last ∧ r.2.1.state none = r'.2.1.state none ∧
      ∀ v, (LocalTo f.blocks v → GivenOn f.blocks (r.1.map (·.val)) v) → r.2.1.state (some v) = r'.2.1.state (some v) := by
  have hs := (C116_check h hb).mp hs
  obtain ⟨h1, h2, h3, h4, h5⟩ := agree_machine (labels_distinct h) hs D n ⟨labelId first⟩ [] ⟨none, st⟩ ⟨none, st'⟩
    (fun b hb => by
      obtain ⟨hm, hl⟩ := Standard.blockOf_mem hb
      have := Course.stop hm
      rwa [hl] at this) rfl rfl
    ⟨hm, fun v hv => hst v fun hl => by
      rcases hv hl with h | ⟨_, _, h, _⟩ <;> cases h⟩
  exact ⟨h1, h2, h3, h4, fun v hv => h5 v fun hl => .inr (by simpa using hv hl)⟩

/-! ### Examples -/

/-- A block -/
def codeBlock (label : UInt32) (merge : Option GroupMerge) (branch : GroupBranch) (code : List (GroupCode Glsl.Inst)) :
    BasicBlock Glsl.Inst := { label := ⟨⟨label⟩⟩, merge, branch, code }

/-- A loop that counts from 3 to 4 in steps of 5: 6 is 3 at first, and then the sum 8. After the loop `last` is stored. -/
def phiLoop (last : UInt32) : FunctionDefinition Glsl.Inst where
  function := ⟨⟨2⟩, ⟨12⟩, ⟨false, false, false, false⟩, ⟨3⟩⟩
  parameters := []
  blocks := [codeBlock 10 none (.OpBranch ⟨⟨11⟩⟩) [],
    codeBlock 11 (some (.OpLoopMerge ⟨⟨14⟩, ⟨13⟩, ⟨false, false, false, none⟩⟩)) (.OpBranch ⟨⟨12⟩⟩)
      [.OpPhi ⟨⟨2⟩, ⟨6⟩, [⟨⟨3⟩, ⟨10⟩⟩, ⟨⟨8⟩, ⟨13⟩⟩]⟩],
    codeBlock 12 none (.OpBranchConditional ⟨⟨7⟩, ⟨13⟩, ⟨14⟩, none⟩) [.OpSLessThan ⟨⟨1⟩, ⟨7⟩, ⟨6⟩, ⟨4⟩⟩],
    codeBlock 13 none (.OpBranch ⟨⟨11⟩⟩) [.OpIAdd ⟨⟨2⟩, ⟨8⟩, ⟨6⟩, ⟨5⟩⟩],
    codeBlock 14 none (.OpReturn {}) [.OpStore ⟨⟨9⟩, ⟨last⟩, none⟩]]

theorem phiLoop_found (last : UInt32) : findControlFlow 9 (phiLoop last) = .ok countingChain := by rfl

/-- Storing the counter is fine: it comes before on every way. -/
theorem phiLoop_scoped : Scoped (phiLoop 6).blocks 10 := (C116_check (phiLoop_found 6) rfl).mp (by rfl)
example : Dominated (phiLoop 6).blocks 10 := (C116_dominated (phiLoop_found 6) rfl (by decide)).mp (by rfl)
/-- The sum is not there when the loop ends at once. -/
example : checkScope (phiLoop 8).blocks countingChain = false := by rfl
/-- Whatever 6, 7 and 8 are before, the function does the same. -/
example (D : Denotation W) (st : Option UInt32 → W) (x y z : W) (n : Nat) :
    (runMachine D.chosen (phiLoop 6).blocks n ⟨10⟩ ⟨none, st⟩).2.1.state none =
      (runMachine D.chosen (phiLoop 6).blocks n ⟨10⟩
        ⟨none, fun v => if v = some 6 then x else if v = some 7 then y else if v = some 8 then z else st v⟩).2.1.state none := by
  refine (C116_executions (phiLoop_found 6) rfl (by rfl) D n _ _ (by simp) fun v hv => ?_).2.2.2.1
  have h6 : v ≠ 6 := by
    rintro rfl
    exact hv (by rw [LocalTo]; decide)
  have h7 : v ≠ 7 := by
    rintro rfl
    exact hv (by rw [LocalTo]; decide)
  have h8 : v ≠ 8 := by
    rintro rfl
    exact hv (by rw [LocalTo]; decide)
  simp [h6, h7, h8]

/-- C116: the code does not look at this: control flow is recovered for functions where a value is used on a way on which
it was not given. -/
theorem C116_unchecked : ∃ (f : FunctionDefinition Glsl.Inst) (fuel : Nat) (chain : ControlFlowChain)
    (first : BasicBlock Glsl.Inst) (more : List (BasicBlock Glsl.Inst)), findControlFlow fuel f = .ok chain ∧
    f.blocks = first :: more ∧ (f.blocks.flatMap fun b => given b.code).Nodup ∧ ¬ Scoped f.blocks (labelId first) ∧
    ¬ Dominated f.blocks (labelId first) := by
  have hd : ((phiLoop 8).blocks.flatMap fun b => given b.code).Nodup := by decide
  have hc : ¬ checkScope (phiLoop 8).blocks countingChain = true := by decide
  exact ⟨phiLoop 8, 9, countingChain, _, _, phiLoop_found 8, rfl, hd, (C116_check (phiLoop_found 8) rfl).not.mp hc,
    (C116_dominated (phiLoop_found 8) rfl hd).not.mp hc⟩

end Magma.Props
