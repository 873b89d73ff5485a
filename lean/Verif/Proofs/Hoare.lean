import Verif.Spec.Hoare
/-! Proofs about structured programs: the rules are sound, and they are enough. -/

namespace Magma.Hoare
open Spec
variable {X S : Type} {M : Machine X S} {blocks : List (BasicBlock X)}

/-- The chain ends this way after `u` visits. -/
inductive Goes (M : Machine X S) (blocks : List (BasicBlock X)) :
    ControlFlowChain → Config S → Nat → Signal → Config S → Prop
  | atom {id c} : Goes M blocks (.Atom id) c 1 .next (M.arrive blocks id c)
  | nil {c} : Goes M blocks (.Block []) c 0 .next c
  | cons {chain chains c u c1 v s c2} (h1 : Goes M blocks chain c u .next c1) (h2 : Goes M blocks (.Block chains) c1 v s c2) :
    Goes M blocks (.Block (chain :: chains)) c (u + v) s c2
  | stop {chain chains c u s c1} (h1 : Goes M blocks chain c u s c1) (hs : s ≠ .next) :
    Goes M blocks (.Block (chain :: chains)) c u s c1
  | left {id l r hint w c u s c'} (hd : M.decides blocks id (M.arrive blocks id c) = true)
    (h : Goes M blocks l (M.arrive blocks id c) u s c') : Goes M blocks (.Selection id l r hint w) c (u + 1) s c'
  | right {id l r hint w c u s c'} (hd : M.decides blocks id (M.arrive blocks id c) = false)
    (h : Goes M blocks r (M.arrive blocks id c) u s c') : Goes M blocks (.Selection id l r hint w) c (u + 1) s c'
  | again {id inner hint w c u s c1 v s' c2} (h1 : Goes M blocks inner (M.arrive blocks id c) u s c1)
    (hs : s = .next ∨ s = .continues) (h2 : Goes M blocks (.Loop id inner hint w) c1 v s' c2) :
    Goes M blocks (.Loop id inner hint w) c (u + 1 + v) s' c2
  | leave {id inner hint w c u c1} (h1 : Goes M blocks inner (M.arrive blocks id c) u .breaks c1) :
    Goes M blocks (.Loop id inner hint w) c (u + 1) .next c1
  | breaks {c} : Goes M blocks .Break c 0 .breaks c
  | continues {c} : Goes M blocks .Continue c 0 .continues c

/-- The chain visits a block and is then in this configuration. -/
inductive Reaches (M : Machine X S) (blocks : List (BasicBlock X)) :
    ControlFlowChain → Config S → BlockId → Config S → Prop
  | atom {id c} : Reaches M blocks (.Atom id) c id (M.arrive blocks id c)
  | first {chain chains c id c'} (h : Reaches M blocks chain c id c') : Reaches M blocks (.Block (chain :: chains)) c id c'
  | later {chain chains c u c1 id c'} (h1 : Goes M blocks chain c u .next c1) (h2 : Reaches M blocks (.Block chains) c1 id c') :
    Reaches M blocks (.Block (chain :: chains)) c id c'
  | header {id l r hint w c} : Reaches M blocks (.Selection id l r hint w) c id (M.arrive blocks id c)
  | left {id l r hint w c id' c'} (hd : M.decides blocks id (M.arrive blocks id c) = true)
    (h : Reaches M blocks l (M.arrive blocks id c) id' c') : Reaches M blocks (.Selection id l r hint w) c id' c'
  | right {id l r hint w c id' c'} (hd : M.decides blocks id (M.arrive blocks id c) = false)
    (h : Reaches M blocks r (M.arrive blocks id c) id' c') : Reaches M blocks (.Selection id l r hint w) c id' c'
  | start {id inner hint w c} : Reaches M blocks (.Loop id inner hint w) c id (M.arrive blocks id c)
  | inside {id inner hint w c id' c'} (h : Reaches M blocks inner (M.arrive blocks id c) id' c') :
    Reaches M blocks (.Loop id inner hint w) c id' c'
  | again {id inner hint w c u s c1 id' c'} (h1 : Goes M blocks inner (M.arrive blocks id c) u s c1)
    (hs : s = .next ∨ s = .continues) (h2 : Reaches M blocks (.Loop id inner hint w) c1 id' c') :
    Reaches M blocks (.Loop id inner hint w) c id' c'

/-- What an effect says about a chain -/
structure Says (M : Machine X S) (blocks : List (BasicBlock X)) (chain : ControlFlowChain) (n : Nat) (c : Config S)
    (e : Effect.On S) : Prop where
  goes : e.signal ≠ .running → ∃ u, n = u + e.rest ∧ Goes M blocks chain c u e.signal e.config
  reaches : ∀ t id, e.trace = t ++ [id] → Reaches M blocks chain c id e.config
  stays : e.trace = [] → e.config = c
  visits : n = e.trace.length + e.rest

theorem snoc_cases {α : Type} {x y t : List α} {a : α} (h : x ++ y = t ++ [a]) :
    (y = [] ∧ x = t ++ [a]) ∨ ∃ t', y = t' ++ [a] := by
  rcases List.eq_nil_or_concat y with rfl | ⟨t', b, rfl⟩
  · exact .inl ⟨rfl, by simpa using h⟩
  · rw [List.concat_eq_append, ← List.append_assoc] at h
    have := (List.append_inj' h rfl).2
    cases this
    exact .inr ⟨t', List.concat_eq_append⟩

theorem cons_snoc {α : Type} {x t : List α} {a b : α} (h : b :: x = t ++ [a]) :
    (x = [] ∧ a = b) ∨ ∃ t', x = t' ++ [a] := by
  rcases snoc_cases (x := [b]) h with ⟨rfl, h⟩ | h
  · exact .inl ⟨rfl, by cases t with
      | nil => cases h; rfl
      | cons d t => cases t <;> cases h⟩
  · exact .inr h

section
variable {id : BlockId} {inner : ControlFlowChain} {hint : LoopControl} {w : Option BranchWeights}

/-- A visit before -/
abbrev before (id : BlockId) (e : Effect.On S) : Effect.On S := ⟨id :: e.trace, e.signal, e.rest, e.config⟩

/-- One round -/
abbrev round (M : Machine X S) (blocks : List (BasicBlock X)) (id : BlockId) (inner : ControlFlowChain) (n : Nat)
    (c : Config S) : Effect.On S :=
  (M.visit blocks id n c).andThen (fun n c => execOn M blocks inner n c)

theorem says_loop (hi : ∀ n c, Says M blocks inner n c (execOn M blocks inner n c)) :
    ∀ (k n : Nat) (c : Config S), n < k →
      Says M blocks (.Loop id inner hint w) n c (repeatOn (round M blocks id inner) k n c)
  | 0, _, _, h => absurd h (Nat.not_lt_zero _)
  | k + 1, 0, c, _ => ⟨fun h => absurd rfl h, (fun t id h => by cases t <;> cases h), fun _ => rfl, rfl⟩
  | k + 1, n + 1, c, hk => by
    have h := hi n (M.arrive blocks id c)
    rw [repeatOn, show round M blocks id inner (n + 1) c =
      before id (execOn M blocks inner n (M.arrive blocks id c)) from rfl]
    generalize execOn M blocks inner n (M.arrive blocks id c) = e at h
    obtain ⟨tr, sig, rest, c1⟩ := e
    have more (hs : sig = .next ∨ sig = .continues) : Says M blocks (.Loop id inner hint w) (n + 1) c
        (let e' := repeatOn (round M blocks id inner) k rest c1;
          ⟨id :: tr ++ e'.trace, e'.signal, e'.rest, e'.config⟩) := by
      obtain ⟨u, hu, hg⟩ := h.goes (by rcases hs with rfl | rfl <;> exact fun h => by cases h)
      have hu : n = u + rest := hu
      have h' := says_loop hi k rest c1 (by omega)
      dsimp only
      generalize repeatOn (round M blocks id inner) k rest c1 = e' at h'
      obtain ⟨tr', sig', rest', c2⟩ := e'
      have h3 : n = tr.length + rest := h.visits
      have h4 : rest = tr'.length + rest' := h'.visits
      refine ⟨fun hr => ?_, fun t id' ht => ?_, (fun ht => by cases ht), by simp only [List.length_append, List.length_cons]; omega⟩
      · obtain ⟨v, hv, hg'⟩ := h'.goes hr
        have hv : rest = v + rest' := hv
        exact ⟨u + 1 + v, by dsimp only; omega, .again hg hs hg'⟩
      · rcases snoc_cases ht with ⟨hn, ht⟩ | ⟨t', ht⟩
        · have hc : c2 = c1 := h'.stays hn
          show Reaches _ _ _ _ _ c2
          rw [hc]
          rcases cons_snoc ht with ⟨hn, rfl⟩ | ⟨t', ht⟩
          · have : c1 = M.arrive blocks id' c := h.stays hn
            rw [this]
            exact .start
          · exact .inside (h.reaches t' id' ht)
        · exact .again hg hs (h'.reaches t' id' ht)
    have inside (t : List BlockId) (id' : BlockId) (ht : id :: tr = t ++ [id']) :
        Reaches M blocks (.Loop id inner hint w) c id' c1 := by
      rcases cons_snoc ht with ⟨hn, rfl⟩ | ⟨t', ht⟩
      · have : c1 = M.arrive blocks id' c := h.stays hn
        rw [this]
        exact .start
      · exact .inside (h.reaches t' id' ht)
    have h3 : n = tr.length + rest := h.visits
    cases sig with
    | next => exact more (.inl rfl)
    | continues => exact more (.inr rfl)
    | breaks =>
      obtain ⟨u, hu, hg⟩ := h.goes nofun
      have hu : n = u + rest := hu
      exact ⟨fun _ => ⟨u + 1, by dsimp only; omega, .leave hg⟩, inside, (fun ht => by cases ht), by
        simp only [List.length_cons]; omega⟩
    | running => exact ⟨fun h => absurd rfl h, inside, (fun ht => by cases ht), by simp only [List.length_cons]; omega⟩

end

mutual
theorem says : ∀ (chain : ControlFlowChain) (n : Nat) (c : Config S), Says M blocks chain n c (execOn M blocks chain n c)
  | .Atom id, 0, c => ⟨fun h => absurd rfl h, (fun t id h => by cases t <;> cases h), fun _ => rfl, (Nat.zero_add _).symm⟩
  | .Atom id, n + 1, c => by
    refine ⟨fun _ => ⟨1, Nat.add_comm _ _, .atom⟩, fun t id' h => ?_, (fun h => by cases h), Nat.add_comm _ _⟩
    rcases cons_snoc (x := []) h with ⟨-, rfl⟩ | ⟨t', h⟩
    · exact .atom
    · cases t' <;> cases h
  | .Block chains, n, c => by rw [execOn]; exact says_all chains n c
  | .Selection id l r hint w, 0, c => ⟨fun h => absurd rfl h, (fun t id h => by cases t <;> cases h), fun _ => rfl, (Nat.zero_add _).symm⟩
  | .Selection id l r hint w, n + 1, c => by
    have hl := says l n (M.arrive blocks id c)
    have hr := says r n (M.arrive blocks id c)
    rw [execOn]
    show Says _ _ _ _ _ (before id (if M.decides blocks id (M.arrive blocks id c) = true
      then execOn M blocks l n (M.arrive blocks id c) else execOn M blocks r n (M.arrive blocks id c)))
    cases hd : M.decides blocks id (M.arrive blocks id c) with
    | true =>
      rw [if_pos rfl]
      generalize execOn M blocks l n (M.arrive blocks id c) = e at hl
      have h3 := hl.visits
      refine ⟨fun h => ?_, fun t id' ht => ?_, (fun ht => by cases ht), by simp only [List.length_cons]; omega⟩
      · obtain ⟨u, hu, hg⟩ := hl.goes h
        exact ⟨u + 1, by dsimp only; omega, .left hd hg⟩
      · rcases cons_snoc ht with ⟨hn, rfl⟩ | ⟨t', ht⟩
        · dsimp only
          rw [hl.stays hn]
          exact .header
        · exact .left hd (hl.reaches t' id' ht)
    | false =>
      rw [if_neg Bool.false_ne_true]
      generalize execOn M blocks r n (M.arrive blocks id c) = e at hr
      have h3 := hr.visits
      refine ⟨fun h => ?_, fun t id' ht => ?_, (fun ht => by cases ht), by simp only [List.length_cons]; omega⟩
      · obtain ⟨u, hu, hg⟩ := hr.goes h
        exact ⟨u + 1, by dsimp only; omega, .right hd hg⟩
      · rcases cons_snoc ht with ⟨hn, rfl⟩ | ⟨t', ht⟩
        · dsimp only
          rw [hr.stays hn]
          exact .header
        · exact .right hd (hr.reaches t' id' ht)
  | .Loop id inner hint w, n, c => by
    have hi := says inner
    rw [execOn]
    exact says_loop hi (n + 1) n c (Nat.lt_succ_self n)
  | .Break, n, c => ⟨fun _ => ⟨0, (Nat.zero_add n).symm, .breaks⟩, (fun t id h => by cases t <;> cases h), fun _ => rfl, (Nat.zero_add _).symm⟩
  | .Continue, n, c => ⟨fun _ => ⟨0, (Nat.zero_add n).symm, .continues⟩, (fun t id h => by cases t <;> cases h), fun _ => rfl, (Nat.zero_add _).symm⟩
theorem says_all : ∀ (chains : List ControlFlowChain) (n : Nat) (c : Config S),
    Says M blocks (.Block chains) n c (execAllOn M blocks chains n c)
  | [], n, c => ⟨fun _ => ⟨0, (Nat.zero_add n).symm, .nil⟩, (fun t id h => by cases t <;> cases h), fun _ => rfl, (Nat.zero_add _).symm⟩
  | chain :: chains, n, c => by
    have h := says chain n c
    have hc := says_all chains
    rw [execAllOn]
    generalize execOn M blocks chain n c = e at h
    obtain ⟨tr, sig, rest, c1⟩ := e
    cases sig with
    | next =>
      show Says _ _ _ _ _ (let e := execAllOn M blocks chains rest c1; ⟨tr ++ e.trace, e.signal, e.rest, e.config⟩)
      have hc := hc rest c1
      obtain ⟨u, hu, hg⟩ := h.goes nofun
      have hu : n = u + rest := hu
      generalize execAllOn M blocks chains rest c1 = e at hc
      obtain ⟨tr', sig', rest', c2⟩ := e
      have h3 : n = tr.length + rest := h.visits
      have h4 : rest = tr'.length + rest' := hc.visits
      refine ⟨fun hr => ?_, fun t id' ht => ?_, fun ht => ?_, by simp only [List.length_append]; omega⟩
      · obtain ⟨v, hv, hg'⟩ := hc.goes hr
        have hv : rest = v + rest' := hv
        exact ⟨u + v, by dsimp only; omega, .cons hg hg'⟩
      · rcases snoc_cases ht with ⟨hn, ht⟩ | ⟨t', ht⟩
        · have hs : c2 = c1 := hc.stays hn
          show Reaches _ _ _ _ _ c2
          rw [hs]
          exact .first (h.reaches t id' ht)
        · exact .later hg (hc.reaches t' id' ht)
      · have ht := List.append_eq_nil_iff.mp ht
        have h1 : c2 = c1 := hc.stays ht.2
        have h2 : c1 = c := h.stays ht.1
        exact h1.trans h2
    | breaks =>
      obtain ⟨u, hu, hg⟩ := h.goes nofun
      exact ⟨fun _ => ⟨u, hu, .stop hg nofun⟩, fun t id' ht => .first (h.reaches t id' ht), h.stays, h.visits⟩
    | continues =>
      obtain ⟨u, hu, hg⟩ := h.goes nofun
      exact ⟨fun _ => ⟨u, hu, .stop hg nofun⟩, fun t id' ht => .first (h.reaches t id' ht), h.stays, h.visits⟩
    | running => exact ⟨fun h => absurd rfl h, fun t id' ht => .first (h.reaches t id' ht), h.stays, h.visits⟩
end


/-- More rounds than visits make no difference. -/
theorem rounds_same (id : BlockId) (inner : ControlFlowChain) : ∀ (k k' n : Nat) (c : Config S), n < k → n < k' →
    repeatOn (round M blocks id inner) k n c = repeatOn (round M blocks id inner) k' n c
  | 0, _, _, _, h, _ => absurd h (Nat.not_lt_zero _)
  | _, 0, _, _, _, h => absurd h (Nat.not_lt_zero _)
  | k + 1, k' + 1, 0, c, _, _ => rfl
  | k + 1, k' + 1, n + 1, c, hk, hk' => by
    have h := says (M := M) (blocks := blocks) inner n (M.arrive blocks id c)
    rw [repeatOn, repeatOn, show round M blocks id inner (n + 1) c =
      before id (execOn M blocks inner n (M.arrive blocks id c)) from rfl]
    generalize execOn M blocks inner n (M.arrive blocks id c) = e at h
    obtain ⟨tr, sig, rest, c1⟩ := e
    cases sig with
    | next =>
      obtain ⟨u, hu, -⟩ := h.goes nofun
      have hu : n = u + rest := hu
      dsimp only
      rw [rounds_same id inner k k' rest c1 (by omega) (by omega)]
    | continues =>
      obtain ⟨u, hu, -⟩ := h.goes nofun
      have hu : n = u + rest := hu
      dsimp only
      rw [rounds_same id inner k k' rest c1 (by omega) (by omega)]
    | breaks => rfl
    | running => rfl

theorem exec_loop {id : BlockId} {inner : ControlFlowChain} {hint : LoopControl} {w : Option BranchWeights} (n : Nat)
    (c : Config S) : execOn M blocks (.Loop id inner hint w) n c = repeatOn (round M blocks id inner) (n + 1) n c := by
  rw [execOn]

theorem exec_of_goes {chain : ControlFlowChain} {c : Config S} {u : Nat} {s : Signal} {c' : Config S}
    (h : Goes M blocks chain c u s c') : ∀ m, ∃ t, execOn M blocks chain (u + m) c = ⟨t, s, m, c'⟩ := by
  induction h with
  | atom => intro m; rw [Nat.add_comm]; exact ⟨_, rfl⟩
  | nil => intro m; rw [Nat.zero_add]; exact ⟨_, rfl⟩
  | @cons chain chains c u c1 v s c2 h1 h2 ih1 ih2 =>
    intro m
    obtain ⟨t, ht⟩ := ih1 (v + m)
    obtain ⟨t', ht'⟩ := ih2 m
    rw [execOn] at ht'
    rw [execOn, execAllOn, Nat.add_assoc, ht]
    show ∃ t0, (⟨t ++ (execAllOn M blocks chains (v + m) c1).trace, (execAllOn M blocks chains (v + m) c1).signal,
      (execAllOn M blocks chains (v + m) c1).rest, (execAllOn M blocks chains (v + m) c1).config⟩ : Effect.On S) = _
    rw [ht']
    exact ⟨_, rfl⟩
  | @stop chain chains c u s c1 h1 hs ih =>
    intro m
    obtain ⟨t, ht⟩ := ih m
    rw [execOn, execAllOn, ht]
    cases s with
    | next => exact absurd rfl hs
    | _ => exact ⟨_, rfl⟩
  | @left id l r hint w c u s c' hd h ih =>
    intro m
    obtain ⟨t, ht⟩ := ih m
    rw [execOn, show u + 1 + m = u + m + 1 by omega]
    show ∃ t0, before id (if M.decides blocks id (M.arrive blocks id c) = true
      then execOn M blocks l (u + m) (M.arrive blocks id c) else execOn M blocks r (u + m) (M.arrive blocks id c)) = _
    rw [if_pos hd, ht]
    exact ⟨_, rfl⟩
  | @right id l r hint w c u s c' hd h ih =>
    intro m
    obtain ⟨t, ht⟩ := ih m
    rw [execOn, show u + 1 + m = u + m + 1 by omega]
    show ∃ t0, before id (if M.decides blocks id (M.arrive blocks id c) = true
      then execOn M blocks l (u + m) (M.arrive blocks id c) else execOn M blocks r (u + m) (M.arrive blocks id c)) = _
    rw [hd, if_neg Bool.false_ne_true, ht]
    exact ⟨_, rfl⟩
  | @again id inner hint w c u s c1 v s' c2 h1 hs h2 ih1 ih2 =>
    intro m
    obtain ⟨t, ht⟩ := ih1 (v + m)
    obtain ⟨t', ht'⟩ := ih2 m
    rw [exec_loop] at ht'
    rw [exec_loop, show u + 1 + v + m = u + (v + m) + 1 by omega, repeatOn, show round M blocks id inner (u + (v + m) + 1) c =
      before id (execOn M blocks inner (u + (v + m)) (M.arrive blocks id c)) from rfl, ht]
    have e : repeatOn (round M blocks id inner) (u + (v + m) + 1) (v + m) c1 = ⟨t', s', m, c2⟩ := by
      rw [← ht']
      exact rounds_same id inner _ _ _ _ (by omega) (by omega)
    rcases hs with rfl | rfl
    · dsimp only
      rw [e]
      exact ⟨_, rfl⟩
    · dsimp only
      rw [e]
      exact ⟨_, rfl⟩
  | @leave id inner hint w c u c1 h1 ih =>
    intro m
    obtain ⟨t, ht⟩ := ih m
    rw [exec_loop, show u + 1 + m = u + m + 1 by omega, repeatOn, show round M blocks id inner (u + m + 1) c =
      before id (execOn M blocks inner (u + m) (M.arrive blocks id c)) from rfl, ht]
    exact ⟨_, rfl⟩
  | breaks => intro m; rw [Nat.zero_add]; exact ⟨_, rfl⟩
  | continues => intro m; rw [Nat.zero_add]; exact ⟨_, rfl⟩

/-- Without visits nothing happens. -/
theorem exec_zero (chain : ControlFlowChain) (c : Config S) : ∃ s, execOn M blocks chain 0 c = ⟨[], s, 0, c⟩ := by
  have hs := says (M := M) (blocks := blocks) chain 0 c
  have hv := hs.visits
  have h1 : (execOn M blocks chain 0 c).rest = 0 := by omega
  have h2 : (execOn M blocks chain 0 c).trace = [] := List.eq_nil_of_length_eq_zero (by omega)
  refine ⟨(execOn M blocks chain 0 c).signal, ?_⟩
  have h3 := hs.stays h2
  clear hs hv
  generalize execOn M blocks chain 0 c = e at *
  obtain ⟨tr, s, rest, c'⟩ := e
  cases h1; cases h2; cases h3
  rfl


theorem never_running {chain : ControlFlowChain} {c : Config S} {u : Nat} {s : Signal} {c' : Config S}
    (h : Goes M blocks chain c u s c') : s ≠ .running := by
  induction h with
  | cons _ _ _ ih => exact ih
  | stop _ _ ih => exact ih
  | left _ _ ih => exact ih
  | right _ _ ih => exact ih
  | again _ _ _ _ ih => exact ih
  | _ => exact nofun

theorem exec_of_reaches {chain : ControlFlowChain} {c : Config S} {id : BlockId} {c' : Config S}
    (h : Reaches M blocks chain c id c') : ∃ n t s, execOn M blocks chain n c = ⟨t ++ [id], s, 0, c'⟩ := by
  induction h with
  | atom => exact ⟨1, [], .next, rfl⟩
  | @first chain chains c id c' h ih =>
    obtain ⟨n, t, s, ht⟩ := ih
    cases s with
    | next =>
      obtain ⟨s', hs'⟩ := exec_zero (M := M) (blocks := blocks) (.Block chains) c'
      rw [execOn] at hs'
      refine ⟨n, t, s', ?_⟩
      rw [execOn, execAllOn, ht]
      show (⟨t ++ [id] ++ (execAllOn M blocks chains 0 c').trace, (execAllOn M blocks chains 0 c').signal,
        (execAllOn M blocks chains 0 c').rest, (execAllOn M blocks chains 0 c').config⟩ : Effect.On S) = _
      rw [hs', List.append_nil]
    | breaks => exact ⟨n, t, .breaks, by rw [execOn, execAllOn, ht]; rfl⟩
    | continues => exact ⟨n, t, .continues, by rw [execOn, execAllOn, ht]; rfl⟩
    | running => exact ⟨n, t, .running, by rw [execOn, execAllOn, ht]; rfl⟩
  | @later chain chains c u c1 id c' h1 h2 ih =>
    obtain ⟨n, t, s, ht⟩ := ih
    obtain ⟨t', ht'⟩ := exec_of_goes h1 n
    rw [execOn] at ht
    refine ⟨u + n, t' ++ t, s, ?_⟩
    rw [execOn, execAllOn, ht']
    show (⟨t' ++ (execAllOn M blocks chains n c1).trace, (execAllOn M blocks chains n c1).signal,
      (execAllOn M blocks chains n c1).rest, (execAllOn M blocks chains n c1).config⟩ : Effect.On S) = _
    rw [ht, List.append_assoc]
  | @header id l r hint w c =>
    obtain ⟨s, hs⟩ := exec_zero (M := M) (blocks := blocks) (if M.decides blocks id (M.arrive blocks id c) = true
      then l else r) (M.arrive blocks id c)
    refine ⟨1, [], s, ?_⟩
    rw [execOn]
    show before id (if M.decides blocks id (M.arrive blocks id c) = true
      then execOn M blocks l 0 (M.arrive blocks id c) else execOn M blocks r 0 (M.arrive blocks id c)) = _
    split at hs <;> rename_i hd
    · rw [if_pos hd, hs]; rfl
    · rw [if_neg hd, hs]; rfl
  | @left id l r hint w c id' c' hd h ih =>
    obtain ⟨n, t, s, ht⟩ := ih
    refine ⟨n + 1, id :: t, s, ?_⟩
    rw [execOn]
    show before id (if M.decides blocks id (M.arrive blocks id c) = true
      then execOn M blocks l n (M.arrive blocks id c) else execOn M blocks r n (M.arrive blocks id c)) = _
    rw [if_pos hd, ht]
    rfl
  | @right id l r hint w c id' c' hd h ih =>
    obtain ⟨n, t, s, ht⟩ := ih
    refine ⟨n + 1, id :: t, s, ?_⟩
    rw [execOn]
    show before id (if M.decides blocks id (M.arrive blocks id c) = true
      then execOn M blocks l n (M.arrive blocks id c) else execOn M blocks r n (M.arrive blocks id c)) = _
    rw [hd, if_neg Bool.false_ne_true, ht]
    rfl
  | @start id inner hint w c =>
    obtain ⟨s, hs⟩ := exec_zero (M := M) (blocks := blocks) inner (M.arrive blocks id c)
    have e : round M blocks id inner 1 c = ⟨[id], s, 0, M.arrive blocks id c⟩ := by
      show before id (execOn M blocks inner 0 (M.arrive blocks id c)) = _
      rw [hs]
    cases s with
    | next => exact ⟨1, [], .running, by rw [exec_loop, repeatOn, e]; rfl⟩
    | continues => exact ⟨1, [], .running, by rw [exec_loop, repeatOn, e]; rfl⟩
    | breaks => exact ⟨1, [], .next, by rw [exec_loop, repeatOn, e]; rfl⟩
    | running => exact ⟨1, [], .running, by rw [exec_loop, repeatOn, e]; rfl⟩
  | @inside id inner hint w c id' c' h ih =>
    obtain ⟨n, t, s, ht⟩ := ih
    have e : round M blocks id inner (n + 1) c = ⟨id :: t ++ [id'], s, 0, c'⟩ := by
      show before id (execOn M blocks inner n (M.arrive blocks id c)) = _
      rw [ht]
      rfl
    cases s with
    | next => exact ⟨n + 1, id :: t, .running, by rw [exec_loop, repeatOn, e]; cases n <;> simp [repeatOn, round, Machine.visit, Effect.On.andThen]⟩
    | continues => exact ⟨n + 1, id :: t, .running, by rw [exec_loop, repeatOn, e]; cases n <;> simp [repeatOn, round, Machine.visit, Effect.On.andThen]⟩
    | breaks => exact ⟨n + 1, id :: t, .next, by rw [exec_loop, repeatOn, e]⟩
    | running => exact ⟨n + 1, id :: t, .running, by rw [exec_loop, repeatOn, e]⟩
  | @again id inner hint w c u s c1 id' c' h1 hs h2 ih =>
    obtain ⟨n, t, s', ht⟩ := ih
    obtain ⟨t', ht'⟩ := exec_of_goes h1 n
    have e : round M blocks id inner (u + n + 1) c = ⟨id :: t', s, n, c1⟩ := by
      show before id (execOn M blocks inner (u + n) (M.arrive blocks id c)) = _
      rw [ht']
    have e' : repeatOn (round M blocks id inner) (u + n + 1) n c1 = ⟨t ++ [id'], s', 0, c'⟩ := by
      rw [← ht, exec_loop]
      exact rounds_same id inner _ _ _ _ (by omega) (by omega)
    refine ⟨u + n + 1, id :: t' ++ t, s', ?_⟩
    rw [exec_loop, repeatOn, e]
    rcases hs with rfl | rfl
    · dsimp only
      rw [e', List.append_assoc]
    · dsimp only
      rw [e', List.append_assoc]

/-- The condition for a way to end -/
def Ends (post onBreak onContinue : Assertion S) : Signal → Assertion S
  | .next => post
  | .breaks => onBreak
  | .continues => onContinue
  | .running => fun _ => False

/-- What there can be a proof of -/
structure Holds (M : Machine X S) (blocks : List (BasicBlock X)) (always : BlockId → Assertion S) (chain : ControlFlowChain)
    (post onBreak onContinue : Assertion S) (c : Config S) : Prop where
  reaches : ∀ id c', Reaches M blocks chain c id c' → always id c'
  goes : ∀ u s c', Goes M blocks chain c u s c' → Ends post onBreak onContinue s c'

variable {always : BlockId → Assertion S}

theorem sound {pre post onBreak onContinue : Assertion S} {chain : ControlFlowChain}
    (h : Proves M blocks always pre chain post onBreak onContinue) :
    ∀ c, pre c → Holds M blocks always chain post onBreak onContinue c := by
  induction h with
  | atom visit =>
    intro c hc
    exact ⟨fun id c' h => by cases h; exact (visit c hc).1, fun u s c' h => by cases h; exact (visit c hc).2⟩
  | nil stay =>
    intro c hc
    exact ⟨(fun id c' h => by cases h), fun u s c' h => by cases h; exact stay c hc⟩
  | cons first others ih1 ih2 =>
    intro c hc
    have h1 := ih1 c hc
    refine ⟨fun id c' h => ?_, fun u s c' h => ?_⟩
    · cases h with
      | first h => exact h1.reaches id c' h
      | later hg h => exact (ih2 _ (h1.goes _ _ _ hg)).reaches id c' h
    · cases h with
      | cons hg h => exact (ih2 _ (h1.goes _ _ _ hg)).goes _ _ _ h
      | stop hg hs =>
        have := h1.goes _ _ _ hg
        cases s with
        | next => exact absurd rfl hs
        | _ => exact this
  | selection visit left right ih1 ih2 =>
    intro c hc
    obtain ⟨ha, hb⟩ := visit c hc
    refine ⟨fun id c' h => ?_, fun u s c' h => ?_⟩
    · cases h with
      | header => exact ha
      | left hd h => exact (ih1 _ ⟨hb, hd⟩).reaches id c' h
      | right hd h => exact (ih2 _ ⟨hb, hd⟩).reaches id c' h
    · cases h with
      | left hd h => exact (ih1 _ ⟨hb, hd⟩).goes _ _ _ h
      | right hd h => exact (ih2 _ ⟨hb, hd⟩).goes _ _ _ h
  | @loop id inner hint w pre post onBreak onContinue invariant between start visit body ih =>
    have hr : ∀ chain c id' c', Reaches M blocks chain c id' c' → chain = .Loop id inner hint w → invariant c →
        always id' c' := by
      intro chain c id' c' h
      induction h with
      | start => rintro ⟨⟩ hi; exact (visit _ hi).1
      | inside h _ => rintro ⟨⟩ hi; exact (ih _ (visit _ hi).2).reaches _ _ h
      | again h1 hs h2 ih2 =>
        rintro ⟨⟩ hi
        have := (ih _ (visit _ hi).2).goes _ _ _ h1
        rcases hs with rfl | rfl <;> exact ih2 rfl this
      | _ => exact nofun
    have hg : ∀ chain c u s c', Goes M blocks chain c u s c' → chain = .Loop id inner hint w → invariant c →
        Ends post onBreak onContinue s c' := by
      intro chain c u s c' h
      induction h with
      | again h1 hs h2 _ ih2 =>
        rintro ⟨⟩ hi
        have := (ih _ (visit _ hi).2).goes _ _ _ h1
        rcases hs with rfl | rfl <;> exact ih2 rfl this
      | leave h1 _ => rintro ⟨⟩ hi; exact (ih _ (visit _ hi).2).goes _ _ _ h1
      | _ => exact nofun
    exact fun c hc => ⟨fun id c' h => hr _ _ _ _ h rfl (start c hc), fun u s c' h => hg _ _ _ _ _ h rfl (start c hc)⟩
  | breaks leave =>
    intro c hc
    exact ⟨(fun id c' h => by cases h), fun u s c' h => by cases h; exact leave c hc⟩
  | continues again =>
    intro c hc
    exact ⟨(fun id c' h => by cases h), fun u s c' h => by cases h; exact again c hc⟩

mutual
theorem complete : ∀ (chain : ControlFlowChain) {pre post onBreak onContinue : Assertion S},
    (∀ c, pre c → Holds M blocks always chain post onBreak onContinue c) →
    Proves M blocks always pre chain post onBreak onContinue
  | .Atom id, _, _, _, _, h => .atom fun c hc => ⟨(h c hc).reaches _ _ .atom, (h c hc).goes _ _ _ .atom⟩
  | .Block chains, _, _, _, _, h => complete_all chains h
  | .Selection id l r hint w, pre, post, onBreak, onContinue, h => by
    have hl := complete l (pre := fun c => (∃ c0, pre c0 ∧ c = M.arrive blocks id c0) ∧ M.decides blocks id c = true)
      (post := post) (onBreak := onBreak) (onContinue := onContinue) (by
        rintro _ ⟨⟨c0, hc, rfl⟩, hd⟩
        exact ⟨fun id' c' hr => (h c0 hc).reaches _ _ (.left hd hr), fun u s c' hg => (h c0 hc).goes _ _ _ (.left hd hg)⟩)
    have hr := complete r (pre := fun c => (∃ c0, pre c0 ∧ c = M.arrive blocks id c0) ∧ M.decides blocks id c = false)
      (post := post) (onBreak := onBreak) (onContinue := onContinue) (by
        rintro _ ⟨⟨c0, hc, rfl⟩, hd⟩
        exact ⟨fun id' c' hr => (h c0 hc).reaches _ _ (.right hd hr), fun u s c' hg => (h c0 hc).goes _ _ _ (.right hd hg)⟩)
    exact .selection (fun c hc => ⟨(h c hc).reaches _ _ .header, c, hc, rfl⟩) hl hr
  | .Loop id inner hint w, pre, post, onBreak, onContinue, h => by
    have hi := complete inner
      (pre := fun c => ∃ c0, Holds M blocks always (.Loop id inner hint w) post onBreak onContinue c0 ∧ c = M.arrive blocks id c0)
      (post := Holds M blocks always (.Loop id inner hint w) post onBreak onContinue) (onBreak := post)
      (onContinue := Holds M blocks always (.Loop id inner hint w) post onBreak onContinue) (by
        rintro _ ⟨c0, hc, rfl⟩
        refine ⟨fun id' c' hr => hc.reaches _ _ (.inside hr), fun u s c' hg => ?_⟩
        have more (hs : s = .next ∨ s = .continues) : Holds M blocks always (.Loop id inner hint w) post onBreak onContinue c' :=
          ⟨fun id' c'' hr => hc.reaches _ _ (.again hg hs hr), fun u s c'' hg' => hc.goes _ _ _ (.again hg hs hg')⟩
        cases s with
        | next => exact more (.inl rfl)
        | continues => exact more (.inr rfl)
        | breaks => exact hc.goes _ _ _ (.leave hg)
        | running => exact absurd rfl (never_running hg))
    exact .loop h (fun c hc => ⟨hc.reaches _ _ .start, c, hc, rfl⟩) hi
  | .Break, _, _, _, _, h => .breaks fun c hc => (h c hc).goes _ _ _ .breaks
  | .Continue, _, _, _, _, h => .continues fun c hc => (h c hc).goes _ _ _ .continues
theorem complete_all : ∀ (chains : List ControlFlowChain) {pre post onBreak onContinue : Assertion S},
    (∀ c, pre c → Holds M blocks always (.Block chains) post onBreak onContinue c) →
    Proves M blocks always pre (.Block chains) post onBreak onContinue
  | [], _, _, _, _, h => .nil fun c hc => (h c hc).goes _ _ _ .nil
  | chain :: chains, pre, post, onBreak, onContinue, h => by
    have h1 := complete chain (pre := pre) (post := Holds M blocks always (.Block chains) post onBreak onContinue)
      (onBreak := onBreak) (onContinue := onContinue) (by
        intro c hc
        refine ⟨fun id c' hr => (h c hc).reaches _ _ (.first hr), fun u s c' hg => ?_⟩
        cases s with
        | next =>
          exact ⟨fun id c'' hr => (h c hc).reaches _ _ (.later hg hr), fun v s c'' hg' => (h c hc).goes _ _ _ (.cons hg hg')⟩
        | breaks => exact (h c hc).goes _ _ _ (.stop hg nofun)
        | continues => exact (h c hc).goes _ _ _ (.stop hg nofun)
        | running => exact absurd rfl (never_running hg))
    exact .cons h1 (complete_all chains fun c hc => hc)
end


/-- The chain ends, in one of the ways, as it should. -/
def HoldsEnd (M : Machine X S) (blocks : List (BasicBlock X)) (chain : ControlFlowChain)
    (post onBreak onContinue : Assertion S) (c : Config S) : Prop :=
  ∃ u s c', Goes M blocks chain c u s c' ∧ Ends post onBreak onContinue s c'

theorem sound_end {pre post onBreak onContinue : Assertion S} {chain : ControlFlowChain}
    (h : ProvesEnd M blocks pre chain post onBreak onContinue) :
    ∀ c, pre c → HoldsEnd M blocks chain post onBreak onContinue c := by
  induction h with
  | atom visit => exact fun c hc => ⟨_, _, _, .atom, visit c hc⟩
  | nil stay => exact fun c hc => ⟨_, _, _, .nil, stay c hc⟩
  | cons first others ih1 ih2 =>
    intro c hc
    obtain ⟨u, s, c1, hg, he⟩ := ih1 c hc
    cases s with
    | next =>
      obtain ⟨v, s', c2, hg', he'⟩ := ih2 c1 he
      exact ⟨_, _, _, .cons hg hg', he'⟩
    | breaks => exact ⟨_, _, _, .stop hg nofun, he⟩
    | continues => exact ⟨_, _, _, .stop hg nofun, he⟩
    | running => exact absurd rfl (never_running hg)
  | @selection id l r hint w pre post onBreak onContinue between visit left right ih1 ih2 =>
    intro c hc
    cases hd : M.decides blocks id (M.arrive blocks id c) with
    | true =>
      obtain ⟨u, s, c1, hg, he⟩ := ih1 _ ⟨visit c hc, hd⟩
      exact ⟨_, _, _, .left hd hg, he⟩
    | false =>
      obtain ⟨u, s, c1, hg, he⟩ := ih2 _ ⟨visit c hc, hd⟩
      exact ⟨_, _, _, .right hd hg, he⟩
  | @loop id inner hint w pre post onBreak onContinue invariant between start visit body ih =>
    have hl : ∀ k c, invariant k c → HoldsEnd M blocks (.Loop id inner hint w) post onBreak onContinue c := by
      intro k
      induction k using Nat.strongRecOn with
      | ind k ihk =>
        intro c hc
        obtain ⟨u, s, c1, hg, he⟩ := ih k _ (visit k c hc)
        have more (hs : s = .next ∨ s = .continues) (he : ∃ j, j < k ∧ invariant j c1) :
            HoldsEnd M blocks (.Loop id inner hint w) post onBreak onContinue c := by
          obtain ⟨j, hj, hi⟩ := he
          obtain ⟨v, s', c2, hg', he'⟩ := ihk j hj c1 hi
          exact ⟨_, _, _, .again hg hs hg', he'⟩
        cases s with
        | next => exact more (.inl rfl) he
        | continues => exact more (.inr rfl) he
        | breaks => exact ⟨_, _, _, .leave hg, he⟩
        | running => exact absurd rfl (never_running hg)
    intro c hc
    obtain ⟨k, hk⟩ := start c hc
    exact hl k c hk
  | breaks leave => exact fun c hc => ⟨_, _, _, .breaks, leave c hc⟩
  | continues again => exact fun c hc => ⟨_, _, _, .continues, again c hc⟩

mutual
theorem complete_end : ∀ (chain : ControlFlowChain) {pre post onBreak onContinue : Assertion S},
    (∀ c, pre c → HoldsEnd M blocks chain post onBreak onContinue c) →
    ProvesEnd M blocks pre chain post onBreak onContinue
  | .Atom id, _, _, _, _, h => .atom fun c hc => by
    obtain ⟨u, s, c1, hg, he⟩ := h c hc
    cases hg
    exact he
  | .Block chains, _, _, _, _, h => complete_end_all chains h
  | .Selection id l r hint w, pre, post, onBreak, onContinue, h => by
    have hl := complete_end l (pre := fun c => (∃ c0, pre c0 ∧ c = M.arrive blocks id c0) ∧ M.decides blocks id c = true)
      (post := post) (onBreak := onBreak) (onContinue := onContinue) (by
        rintro _ ⟨⟨c0, hc, rfl⟩, hd⟩
        obtain ⟨u, s, c1, hg, he⟩ := h c0 hc
        cases hg with
        | left _ hg => exact ⟨_, _, _, hg, he⟩
        | right hd' hg => rw [hd] at hd'; cases hd')
    have hr := complete_end r (pre := fun c => (∃ c0, pre c0 ∧ c = M.arrive blocks id c0) ∧ M.decides blocks id c = false)
      (post := post) (onBreak := onBreak) (onContinue := onContinue) (by
        rintro _ ⟨⟨c0, hc, rfl⟩, hd⟩
        obtain ⟨u, s, c1, hg, he⟩ := h c0 hc
        cases hg with
        | left hd' hg => rw [hd] at hd'; cases hd'
        | right _ hg => exact ⟨_, _, _, hg, he⟩)
    exact .selection (fun c hc => ⟨c, hc, rfl⟩) hl hr
  | .Loop id inner hint w, pre, post, onBreak, onContinue, h => by
    have hi (k : Nat) := complete_end inner
      (pre := fun c => ∃ c0, (∃ s c', Goes M blocks (.Loop id inner hint w) c0 k s c' ∧ Ends post onBreak onContinue s c') ∧
        c = M.arrive blocks id c0)
      (post := fun c => ∃ j, j < k ∧
        ∃ s c', Goes M blocks (.Loop id inner hint w) c j s c' ∧ Ends post onBreak onContinue s c')
      (onBreak := post)
      (onContinue := fun c => ∃ j, j < k ∧
        ∃ s c', Goes M blocks (.Loop id inner hint w) c j s c' ∧ Ends post onBreak onContinue s c') (by
        rintro _ ⟨c0, ⟨s, c', hg, he⟩, rfl⟩
        cases hg with
        | again hg hs hg' =>
          rcases hs with rfl | rfl
          · exact ⟨_, _, _, hg, _, by omega, _, _, hg', he⟩
          · exact ⟨_, _, _, hg, _, by omega, _, _, hg', he⟩
        | leave hg => exact ⟨_, _, _, hg, he⟩)
    exact .loop (fun c hc => h c hc) (fun k c hc => ⟨c, hc, rfl⟩) hi
  | .Break, _, _, _, _, h => .breaks fun c hc => by
    obtain ⟨u, s, c1, hg, he⟩ := h c hc
    cases hg
    exact he
  | .Continue, _, _, _, _, h => .continues fun c hc => by
    obtain ⟨u, s, c1, hg, he⟩ := h c hc
    cases hg
    exact he
theorem complete_end_all : ∀ (chains : List ControlFlowChain) {pre post onBreak onContinue : Assertion S},
    (∀ c, pre c → HoldsEnd M blocks (.Block chains) post onBreak onContinue c) →
    ProvesEnd M blocks pre (.Block chains) post onBreak onContinue
  | [], _, _, _, _, h => .nil fun c hc => by
    obtain ⟨u, s, c1, hg, he⟩ := h c hc
    cases hg
    exact he
  | chain :: chains, pre, post, onBreak, onContinue, h => by
    have h1 := complete_end chain (pre := pre) (post := HoldsEnd M blocks (.Block chains) post onBreak onContinue)
      (onBreak := onBreak) (onContinue := onContinue) (by
        intro c hc
        obtain ⟨u, s, c1, hg, he⟩ := h c hc
        cases hg with
        | cons hg hg' => exact ⟨_, _, _, hg, _, _, _, hg', he⟩
        | stop hg hs =>
          cases s with
          | next => exact absurd rfl hs
          | breaks => exact ⟨_, _, _, hg, he⟩
          | continues => exact ⟨_, _, _, hg, he⟩
          | running => exact absurd rfl (never_running hg))
    exact .cons h1 (complete_end_all chains fun c hc => hc)
end


/-- Proofs are about runs, if control does not leave the chain by a break. -/
theorem proves_iff {chain : ControlFlowChain} (hn : ∀ n c, (runChain M blocks chain n c).2.2 ≠ .stuck) {pre post : Assertion S} :
    Proves M blocks always pre chain post (fun _ => False) (fun _ => False) ↔
      ∀ c, pre c → ∀ n trace c' o, runChain M blocks chain n c = (trace, c', o) →
        (o = .returned → post c') ∧ ∀ t id, trace = t ++ [id] → always id c' := by
  constructor
  · intro h c hc n trace c' o hr
    have hs := says (M := M) (blocks := blocks) chain n c
    have hh := sound h c hc
    rw [runChain] at hr
    generalize execOn M blocks chain n c = e at hs hr
    obtain ⟨tr, s, rest, c1⟩ := e
    cases hr
    refine ⟨fun ho => ?_, fun t id ht => hh.reaches _ _ (hs.reaches t id ht)⟩
    cases s with
    | next =>
      obtain ⟨u, -, hg⟩ := hs.goes nofun
      exact hh.goes _ _ _ hg
    | _ => cases ho
  · intro h
    refine complete chain fun c hc => ⟨fun id c' hr => ?_, fun u s c' hg => ?_⟩
    · obtain ⟨n, t, s, e⟩ := exec_of_reaches hr
      exact (h c hc n (t ++ [id]) c' _ (by rw [runChain, e])).2 t id rfl
    · obtain ⟨t, e⟩ := exec_of_goes hg 0
      have hst := hn (u + 0) c
      rw [runChain, e] at hst
      cases s with
      | next => exact (h c hc (u + 0) t c' .returned (by rw [runChain, e])).1 rfl
      | breaks => exact absurd rfl hst
      | continues => exact absurd rfl hst
      | running => exact absurd rfl (never_running hg)

theorem provesEnd_iff {chain : ControlFlowChain} (hn : ∀ n c, (runChain M blocks chain n c).2.2 ≠ .stuck)
    {pre post : Assertion S} :
    ProvesEnd M blocks pre chain post (fun _ => False) (fun _ => False) ↔
      ∀ c, pre c → ∃ n trace c', runChain M blocks chain n c = (trace, c', .returned) ∧ post c' := by
  constructor
  · intro h c hc
    obtain ⟨u, s, c', hg, he⟩ := sound_end h c hc
    obtain ⟨t, e⟩ := exec_of_goes hg 0
    cases s with
    | next => exact ⟨u + 0, t, c', by rw [runChain, e], he⟩
    | breaks => exact absurd he id
    | continues => exact absurd he id
    | running => exact absurd rfl (never_running hg)
  · intro h
    refine complete_end chain fun c hc => ?_
    obtain ⟨n, trace, c', hr, hp⟩ := h c hc
    have hs := says (M := M) (blocks := blocks) chain n c
    have hst := hn n c
    rw [runChain] at hr hst
    generalize execOn M blocks chain n c = e at hs hr hst
    obtain ⟨tr, s, rest, c1⟩ := e
    cases s with
    | next =>
      obtain ⟨u, -, hg⟩ := hs.goes nofun
      cases hr
      exact ⟨u, _, _, hg, hp⟩
    | _ => cases hr

end Magma.Hoare
