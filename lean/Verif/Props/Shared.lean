import Verif.Proofs.Shared
import Verif.Props.Uniform
/-! C120: the values that all invocations of a shader share are computed from the recovered control flow. -/

namespace Magma.Props
open Spec Lockstep
variable {V W X : Type}

/-! ### C120 -/

/-- C120: whatever the control flow, the set that is computed passes the check, is a part of what is shared at the start, and
every set that passes the check and is shared at the start is a part of it. -/
theorem C120_largest [DecidableEq V] (A : Access X V) (asks : GroupCode X → Bool) (chain : ControlFlowChain)
    (blocks : List (BasicBlock X)) (start : V → Bool) :
    A.uniform asks (A.shared asks chain blocks start) chain blocks = true ∧
    (∀ v, A.shared asks chain blocks start v = true → start v = true) ∧
    ∀ same : V → Bool, (∀ v, same v = true → start v = true) → A.uniform asks same chain blocks = true →
      ∀ v, same v = true → A.shared asks chain blocks start v = true :=
  ⟨settle_settles _ (fun _ _ h => spoilt_written h) _ _ List.countP_le_length,
    fun v => settle_least _ _ v, fun _ hs hu => settle_largest hu _ _ hs⟩

/-- C120: what is never written stays shared. -/
theorem C120_unwritten [DecidableEq V] (A : Access X V) (asks : GroupCode X → Bool) (chain : ControlFlowChain)
    (blocks : List (BasicBlock X)) (start : V → Bool) {v : V} (hv : start v = true)
    (hw : ∀ b ∈ blocks, ∀ i ∈ b.code, v ∉ A.writes i) : A.shared asks chain blocks start v = true := by
  have hno : ∀ same, v ∉ A.spoilt asks same chain blocks := by
    intro same hm
    obtain ⟨b, hb, hx⟩ := List.mem_flatMap.mp (spoilt_written hm)
    obtain ⟨i, hi, hx⟩ := List.mem_flatMap.mp hx
    exact hw b hb i hi hx
  have : ∀ n (same : V → Bool), same v = true → A.settle asks chain blocks n same v = true := by
    intro n
    induction n with
    | zero => exact fun _ h => h
    | succ n ih =>
      intro same h
      rw [Access.settle]
      exact ih _ (by simp [h, hno same])
  exact this _ _ hv

/-- C120: if more is shared at the start, more is shared. -/
theorem C120_monotone [DecidableEq V] (A : Access X V) (asks : GroupCode X → Bool) (chain : ControlFlowChain)
    (blocks : List (BasicBlock X)) {start start' : V → Bool} (h : ∀ v, start v = true → start' v = true) (v : V)
    (hv : A.shared asks chain blocks start v = true) : A.shared asks chain blocks start' v = true :=
  (C120_largest A asks chain blocks start').2.2 _
    (fun u hu => h u ((C120_largest A asks chain blocks start).2.1 u hu)) (C120_largest A asks chain blocks start).1 v hv

/-- C120: executions of a function that agree on `start` at the start, and return, agree on what is computed, and visit the
blocks outside the ones that may be visited apart in the same order. -/
theorem C120_shared [DecidableEq V] {f : FunctionDefinition X} {fuel : Nat} {chain : ControlFlowChain}
    (h : findControlFlow fuel f = .ok chain) {first : BasicBlock X} {more : List (BasicBlock X)}
    (hb : f.blocks = first :: more) {A : Access X V} {M : Machine X (V → W)} (hA : A.Right M) {asks : GroupCode X → Bool}
    (hL : M.AsksLast asks) (start : V → Bool) {n n' : Nat} {c c' d d' : Config (V → W)} {t t' : List BlockId}
    (hl : c.last = c'.last) (hs : ∀ v, start v = true → c.state v = c'.state v)
    (hr : runMachine M f.blocks n ⟨labelId first⟩ c = (t, d, .returned))
    (hr' : runMachine M f.blocks n' ⟨labelId first⟩ c' = (t', d', .returned)) :
    visitsBut (A.apartIn (A.shared asks chain f.blocks start) chain f.blocks) t =
      visitsBut (A.apartIn (A.shared asks chain f.blocks start) chain f.blocks) t' ∧
      ∀ v, A.shared asks chain f.blocks start v = true → d.state v = d'.state v := by
  obtain ⟨h1, h2, -⟩ := C120_largest A asks chain f.blocks start
  exact C119_uniform h hb hA hL h1 hl (fun v hv => hs v (h2 v hv)) hr hr'

/-! ### Examples -/

/-- Everything but memory and 4 is shared at the start: then 7 is not (block 13 is visited apart), but the loop counter is. -/
example : [1, 2, 3, 4, 5, 6, 7, 8].filter (fun id => valueAccess.shared asksLast roundsChain roundsBlocks
    (fun v => v != none && v != some 4) (some id)) = [1, 2, 3, 5, 6, 8] := by decide +kernel
/-- If 3 is not shared, where the loop counts from, the counter is not, and one invocation may leave the loop before
another. -/
example : [1, 2, 3, 4, 5, 6, 7, 8].filter (fun id => valueAccess.shared asksLast roundsChain roundsBlocks
    (fun v => v != none && v != some 3) (some id)) = [1, 2, 4, 6] := by decide +kernel
/-- The `OpPhi` after the selection -/
example : ∃ chain, findControlFlow 9 (shader joinBlocks) = .ok chain ∧
    [2, 3, 4, 5].filter (fun id => valueAccess.shared asksLast chain joinBlocks (fun v => v != none && v != some 4) (some id)) =
      [2, 3] := ⟨_, rfl, by decide +kernel⟩

end Magma.Props
