import Verif.Props.Settle
import Verif.Props.Hoare
/-! C124: conditional branches of which it is proved where they go. -/

namespace Magma.Props
open Spec
variable {X S : Type}

/-- C124: that the executions go as is known is exactly what there is a proof of by the rules about the recovered control
flow. -/
theorem C124_provable {known : UInt32 → Option Bool} {f : FunctionDefinition X} {fuel : Nat} {chain : ControlFlowChain}
    (h : findControlFlow fuel f = .ok chain) {first : BasicBlock X} {more : List (BasicBlock X)}
    (hb : f.blocks = first :: more) (M : Machine X S) (pre : Assertion S) :
    (∀ c, pre c → M.Heeds f.blocks known ⟨labelId first⟩ c) ↔
      Proves M f.blocks (fun x c => ∀ d, known x.val = some d →
        (∃ b op, blockOf f.blocks x = some b ∧ b.branch = .OpBranchConditional op) → M.decides f.blocks x c = d)
        pre chain (fun _ => True) (fun _ => False) (fun _ => False) := by
  rw [C100_proves h hb]
  constructor
  · rintro hh c hc n trace c' o hr
    refine ⟨fun _ => trivial, ?_⟩
    rintro t id rfl d hk he
    exact hh c hc n t id c' o d hr hk he
  · intro hh c hc n trace x c' o d hr hk he
    exact (hh c hc n _ c' o hr).2 trace x rfl d hk he

/-- C124: so the branches of which there is a proof where they go can be replaced: where the first condition of the proof
holds, the function with plain branches computes the same, and control flow with one arm for each of the selections is
recovered from it. -/
theorem C124_proved {known : UInt32 → Option Bool} {f : FunctionDefinition X} {fuel : Nat} {chain : ControlFlowChain}
    (h : findControlFlow fuel f = .ok chain) {first : BasicBlock X} {more : List (BasicBlock X)}
    (hb : f.blocks = first :: more)
    (hx : ∀ y inner hint w, PartOf (.Selection y inner .Break hint w) chain → known y.val ≠ some false)
    {M : Machine X S} {always : BlockId → Assertion S} {pre post : Assertion S}
    (hp : Proves M f.blocks always pre chain post (fun _ => False) (fun _ => False))
    (hk : ∀ x c d, always x c → known x.val = some d → M.decides f.blocks x c = d) :
    (∃ fuel', findControlFlow fuel' (settleFunction known f) = .ok (settle known chain)) ∧
    ∀ c, pre c → ∀ n, runMachine M (settleFunction known f).blocks n ⟨labelId first⟩ c =
      runMachine M f.blocks n ⟨labelId first⟩ c := by
  refine ⟨C124_flow h hx, fun c hc => C124_computes M f ?_⟩
  intro n trace x c' o d hr hd _
  exact hk x c' d (((C100_proves h hb M always pre post).mp hp c hc n _ c' o hr).2 trace x rfl) hd

/-! ### Example -/

/-- The loop that counts to three, and then something that is done if there are less -/
def countingThen : List (BasicBlock Empty) :=
  counting.take 4 ++
  [ emptyBlock 14 (some (.OpSelectionMerge ⟨⟨16⟩, ⟨false, false⟩⟩)) (.OpBranchConditional ⟨⟨7⟩, ⟨15⟩, ⟨16⟩, none⟩),
    emptyBlock 15 none (.OpBranch ⟨⟨16⟩⟩), emptyBlock 16 none (.OpReturn {}) ]

def countingThenChain (last : List ControlFlowChain) : ControlFlowChain :=
  .Block ([.Atom ⟨10⟩, .Loop ⟨11⟩ (.Selection ⟨12⟩ (.Block [.Atom ⟨13⟩]) .Break ⟨false, false⟩ none)
    ⟨false, false, false, none⟩ none] ++ last)

theorem countingThen_found : findControlFlow 12 (functionOf countingThen) = .ok (countingThenChain
    [.Selection ⟨14⟩ (.Block [.Atom ⟨15⟩]) (.Block []) ⟨false, false⟩ none, .Atom ⟨16⟩]) := by rfl

/-- It is proved with an invariant for the loop that there are not less after it. -/
theorem countingThen_proof : Proves adding countingThen
    (fun x c => x = ⟨14⟩ → adding.decides countingThen x c = false) (fun c => c.state ≤ 3)
    (countingThenChain [.Selection ⟨14⟩ (.Block [.Atom ⟨15⟩]) (.Block []) ⟨false, false⟩ none, .Atom ⟨16⟩])
    (fun _ => True) (fun _ => False) (fun _ => False) := by
  refine .cons (between := fun c => c.state ≤ 3) (.atom fun c hc => ⟨nofun, hc⟩)
    (.cons (between := fun c => c.state = 3) ?_ (.cons (between := fun _ => True) ?_
      (.cons (between := fun _ => True) (.atom fun c hc => ⟨nofun, hc⟩) (.nil fun c hc => hc))))
  · refine .loop (invariant := fun c => c.state ≤ 3) (between := fun c => c.state ≤ 3) (fun c hc => hc)
      (fun c hc => ⟨nofun, hc⟩) ?_
    refine .selection (between := fun c => c.state ≤ 3) (fun c hc => ⟨nofun, hc⟩)
      (.cons (between := fun c => c.state ≤ 3) (.atom ?_) (.nil fun c hc => hc)) (.breaks ?_)
    · rintro ⟨last, n⟩ ⟨-, hd⟩
      have hd : (true && decide (n < 3)) = true := hd
      have hd : n < 3 := by simpa using hd
      exact ⟨nofun, hd⟩
    · rintro ⟨last, n⟩ ⟨hn, hd⟩
      have hd : (true && decide (n < 3)) = false := hd
      have hd : ¬ n < 3 := by simpa using hd
      have hn : n ≤ 3 := hn
      show n = 3
      omega
  · refine .selection (between := fun _ => True) ?_ (.cons (between := fun _ => True) (.atom fun c hc => ⟨nofun, trivial⟩)
      (.nil fun c hc => hc)) (.nil fun c hc => trivial)
    rintro ⟨last, n⟩ hc
    cases (show n = 3 from hc)
    exact ⟨fun _ => rfl, trivial⟩

/-- So that is gone, and the condition of the loop stays. -/
example : (∃ fuel, findControlFlow fuel (settleFunction (fun x => if x = 14 then some false else none)
      (functionOf countingThen)) = .ok (countingThenChain [.Atom ⟨14⟩, .Atom ⟨16⟩])) ∧
    ∀ c : Config Nat, c.state ≤ 3 → ∀ n, runMachine adding (settleFunction (fun x => if x = 14 then some false else none)
      (functionOf countingThen)).blocks n ⟨10⟩ c = runMachine adding countingThen n ⟨10⟩ c := by
  refine C124_proved (known := fun x => if x = 14 then some false else none) countingThen_found rfl ?_ countingThen_proof ?_
  · intro y inner hint w hp
    unfold countingThenChain at hp
    repeat' first | cases ‹_ ∈ _ :: _› | cases ‹_ ∈ []› | cases ‹PartOf _ _›
    decide
  · rintro ⟨x⟩ c d ha hd
    simp only at hd
    split at hd
    · rename_i hx
      cases hd
      cases hx
      exact ha rfl
    · cases hd

end Magma.Props
