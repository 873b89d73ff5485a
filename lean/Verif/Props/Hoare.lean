import Verif.Proofs.Hoare
import Verif.Props.WordMeaning
/-! C100: proofs about the recovered control flow are proofs about the function. -/

namespace Magma.Props
open Spec
variable {X S : Type}

theorem run_not_stuck {f : FunctionDefinition X} {fuel : Nat} {chain : ControlFlowChain}
    (h : findControlFlow fuel f = .ok chain) (M : Machine X S) (n : Nat) (c : Config S) :
    (runChain M f.blocks chain n c).2.2 ≠ .stuck := by
  obtain ⟨first, more, hb, hn⟩ := C27_never_stuck h
  obtain ⟨ds, -, -, hr⟩ := machine_run M f.blocks n ⟨labelId first⟩ c
  rw [C92_meaning h hb, hr]
  exact hn ds

/-- C100: for every meaning of the instructions, there is a proof by the rules about the recovered control flow that
certain conditions hold after each visit of a block and another one when it ends exactly if they do so in every
execution of the function that starts where a third condition holds. -/
theorem C100_proves {f : FunctionDefinition X} {fuel : Nat} {chain : ControlFlowChain}
    (h : findControlFlow fuel f = .ok chain) {first : BasicBlock X} {more : List (BasicBlock X)}
    (hb : f.blocks = first :: more) (M : Machine X S) (always : BlockId → Assertion S) (pre post : Assertion S) :
    Proves M f.blocks always pre chain post (fun _ => False) (fun _ => False) ↔
      ∀ c, pre c → ∀ n trace c' o, runMachine M f.blocks n ⟨labelId first⟩ c = (trace, c', o) →
        (o = .returned → post c') ∧ ∀ t id, trace = t ++ [id] → always id c' := by
  rw [Hoare.proves_iff (run_not_stuck h M)]
  simp only [C92_meaning h hb]

/-- C100: and there is a proof by the rules that it ends, and that a condition holds then, exactly if every execution of
the function that starts where another condition holds returns and the condition holds then. -/
theorem C100_ends {f : FunctionDefinition X} {fuel : Nat} {chain : ControlFlowChain}
    (h : findControlFlow fuel f = .ok chain) {first : BasicBlock X} {more : List (BasicBlock X)}
    (hb : f.blocks = first :: more) (M : Machine X S) (pre post : Assertion S) :
    ProvesEnd M f.blocks pre chain post (fun _ => False) (fun _ => False) ↔
      ∀ c, pre c → ∃ n trace c', runMachine M f.blocks n ⟨labelId first⟩ c = (trace, c', .returned) ∧ post c' := by
  rw [Hoare.provesEnd_iff (run_not_stuck h M)]
  simp only [C92_meaning h hb]

/-- C100 for binaries: the proofs are about executions of the words of the function. -/
theorem C100_words {known : List (ExtInstSet X)} {bytes : List UInt8} {raw : RawModule X} {m : LogicalModule X}
    {d : FunctionDefinition X} {fuel : Nat} {chain : ControlFlowChain}
    (hr : readModule bytes known = .ok raw) (hv : validate raw = .ok m) (hd : d ∈ m.function_definitions)
    (hf : findControlFlow fuel d = .ok chain) :
    ∃ le before ws after, bytes = bytesOf le (before ++ ws ++ after) ∧
      (∃ insts, SpellsBody known insts (definitionInsts d) ws) ∧
      ∀ (S : Type) (W : WordMeaning S) (M : Machine X S), SameMeaning known raw.instructions W M →
        ∀ (always : BlockId → Assertion S) (pre post : Assertion S),
          (Proves M d.blocks always pre chain post (fun _ => False) (fun _ => False) ↔
            ∀ c, pre c → ∀ n trace c' o, W.runWords ws n c = some (trace, c', o) →
              (o = .returned → post c') ∧ ∀ t id, trace = t ++ [id] → always id c') ∧
          (ProvesEnd M d.blocks pre chain post (fun _ => False) (fun _ => False) ↔
            ∀ c, pre c → ∃ n trace c', W.runWords ws n c = some (trace, c', .returned) ∧ post c') := by
  obtain ⟨le, before, ws, after, hb, hs, hw⟩ := C93_words hr hv hd hf
  refine ⟨le, before, ws, after, hb, hs, fun S W M hm always pre post => ⟨?_, ?_⟩⟩
  · rw [Hoare.proves_iff (run_not_stuck hf M)]
    simp only [hw S W M hm, Option.some.injEq]
  · rw [Hoare.provesEnd_iff (run_not_stuck hf M)]
    simp only [hw S W M hm, Option.some.injEq]

/-- What is found for `counting` -/
def countingChain : ControlFlowChain := .Block [.Atom ⟨10⟩,
  .Loop ⟨11⟩ (.Selection ⟨12⟩ (.Block [.Atom ⟨13⟩]) .Break ⟨false, false⟩ none) ⟨false, false, false, none⟩ none, .Atom ⟨14⟩]

/-- A proof by the rules that `counting` counts to three and never further: the number is at most three before each round. -/
theorem counting_proof : Proves adding counting (fun _ c => c.state ≤ 3) (fun c => c.state ≤ 3) countingChain
    (fun c => c.state = 3) (fun _ => False) (fun _ => False) := by
  refine .cons (between := fun c => c.state ≤ 3) (.atom fun c hc => ⟨hc, hc⟩)
    (.cons (between := fun c => c.state = 3) ?_ (.cons (between := fun c => c.state = 3) (.atom fun c hc => ⟨?_, hc⟩) (.nil fun c hc => hc)))
  · refine .loop (invariant := fun c => c.state ≤ 3) (between := fun c => c.state ≤ 3) (fun c hc => hc) (fun c hc => ⟨hc, hc⟩) ?_
    refine .selection (between := fun c => c.state ≤ 3) (fun c hc => ⟨hc, hc⟩)
      (.cons (between := fun c => c.state ≤ 3) (.atom ?_) (.nil fun c hc => hc)) (.breaks ?_)
    · rintro ⟨last, n⟩ ⟨-, hd⟩
      have hd : (true && decide (n < 3)) = true := hd
      have hd : n < 3 := by simpa using hd
      exact ⟨hd, hd⟩
    · rintro ⟨last, n⟩ ⟨hn, hd⟩
      have hd : (true && decide (n < 3)) = false := hd
      have hd : ¬ n < 3 := by simpa using hd
      have hn : n ≤ 3 := hn
      show n = 3
      omega
  · show c.state ≤ 3
    exact Nat.le_of_eq hc

/-- A proof by the rules that it ends: the number that goes down is what is missing to three. -/
theorem counting_ends : ProvesEnd adding counting (fun c => c.state ≤ 3) countingChain
    (fun c => c.state = 3) (fun _ => False) (fun _ => False) := by
  refine .cons (between := fun c => c.state ≤ 3) (.atom fun c hc => hc)
    (.cons (between := fun c => c.state = 3) ?_ (.cons (between := fun c => c.state = 3) (.atom fun c hc => hc) (.nil fun c hc => hc)))
  refine .loop (invariant := fun k c => c.state + k = 3) (between := fun k c => c.state + k = 3)
    (fun c hc => ⟨3 - c.state, Nat.add_sub_cancel' hc⟩) (fun k c hc => hc) fun k => ?_
  refine .selection (between := fun c => c.state + k = 3) (fun c hc => hc)
    (.cons (between := fun c => c.state + k = 4 ∧ 0 < k) (.atom ?_) (.nil ?_)) (.breaks ?_)
  · rintro ⟨last, n⟩ ⟨hn, hd⟩
    have hd : (true && decide (n < 3)) = true := hd
    have hd : n < 3 := by simpa using hd
    have hn : n + k = 3 := hn
    show n + 1 + k = 4 ∧ 0 < k
    omega
  · rintro ⟨last, n⟩ ⟨hn, hk⟩
    exact ⟨k - 1, by omega, by show n + (k - 1) = 3; have hn : n + k = 4 := hn; omega⟩
  · rintro ⟨last, n⟩ ⟨hn, hd⟩
    have hd : (true && decide (n < 3)) = false := hd
    have hd : ¬ n < 3 := by simpa using hd
    have hn : n + k = 3 := hn
    show n = 3
    omega

theorem counting_found : findControlFlow 9 (functionOf counting) = .ok countingChain := by rfl

/-- So it is so for the blocks themselves, for every start. -/
example (last : Option UInt32) (k : Nat) (hk : k ≤ 3) :
    (∃ n trace c', runMachine adding counting n ⟨10⟩ ⟨last, k⟩ = (trace, c', .returned) ∧ c'.state = 3) ∧
    ∀ n, (runMachine adding counting (n + 1) ⟨10⟩ ⟨last, k⟩).2.1.state ≤ 3 := by
  refine ⟨(C100_ends counting_found rfl adding _ _).mp counting_ends ⟨last, k⟩ hk, fun n => ?_⟩
  have h := (C100_proves counting_found rfl adding _ _ _).mp counting_proof ⟨last, k⟩ hk (n + 1) _ _ _ rfl
  have ht : (runMachine adding counting (n + 1) ⟨10⟩ ⟨last, k⟩).1 ≠ [] := fun h => by cases h
  rcases List.eq_nil_or_concat (runMachine adding counting (n + 1) ⟨10⟩ ⟨last, k⟩).1 with e | ⟨t, id, e⟩
  · exact absurd e ht
  · exact h.2 t id (by rw [← List.concat_eq_append]; exact e)

/-- And what is not so of the blocks has no proof. -/
example : ¬ Proves adding counting (fun _ _ => True) (fun c => c.state ≤ 3) countingChain
    (fun c => c.state = 2) (fun _ => False) (fun _ => False) := by
  intro h
  have h := (C100_proves counting_found rfl adding _ _ _).mp h ⟨none, 1⟩ (by decide) 20 _ _ _ rfl
  exact absurd (h.1 rfl) (by decide)

end Magma.Props
