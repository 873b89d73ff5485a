import Verif.Proofs.NaturalLoop
/-! Ways along branches and walks of structured programs. -/

namespace Magma.Standard
open Magma.Spec Magma.Canon
variable {X : Type} {blocks : List (BasicBlock X)}

theorem Course.head {u : UInt32} {l : List UInt32} (h : Course blocks u l) : ∃ t, l = u :: t := by
  cases h <;> exact ⟨_, rfl⟩

theorem Course.split {u x : UInt32} {p q : List UInt32} (h : Course blocks u (p ++ x :: q)) :
    Course blocks u (p ++ [x]) ∧ Course blocks x (x :: q) := by
  induction p generalizing u with
  | nil =>
    obtain ⟨t, e⟩ := h.head
    cases e
    refine ⟨?_, h⟩
    cases h with
    | stop hb => exact .stop hb
    | step e _ =>
      obtain ⟨b, hb, rfl, -⟩ := e
      exact .stop hb
  | cons y p ih =>
    generalize hg : y :: p ++ x :: q = l at h
    cases h with
    | stop hb => cases p <;> cases hg
    | step e h =>
      cases hg
      obtain ⟨h1, h2⟩ := ih h
      exact ⟨.step e h1, h2⟩

theorem Course.join {u x : UInt32} {p q : List UInt32} (h : Course blocks u (p ++ [x])) (h' : Course blocks x (x :: q)) :
    Course blocks u (p ++ x :: q) := by
  induction p generalizing u with
  | nil =>
    obtain ⟨t, e⟩ := h.head
    cases e
    exact h'
  | cons y p ih =>
    generalize hg : y :: p ++ [x] = l at h
    cases h with
    | stop hb => cases p <;> cases hg
    | step e h =>
      cases hg
      exact .step e (ih h)

theorem hop_of_branch (hn : (blocks.map labelId).Nodup) {u v : UInt32} (h : Branch blocks u v) :
    Hop (stepOf blocks) ⟨u⟩ ⟨v⟩ := by
  obtain ⟨b, hb, rfl, hv⟩ := h
  have hs : stepOf blocks ⟨labelId b⟩ = some (match b.branch with
    | .OpReturn _ => .stop
    | .OpBranch op => .go ⟨op.target_label.val⟩ ⟨op.target_label.val⟩
    | .OpBranchConditional op => .go ⟨op.true_label.val⟩ ⟨op.false_label.val⟩) := by
    rw [stepOf, blockOf_label hn hb]
    rfl
  unfold endOf at hv
  rcases hbr : b.branch with op | op | op <;> rcases hm : b.merge with _ | m | m <;> rw [hbr, hm] at hv <;>
    rw [hbr] at hs <;> simp only [targets, List.mem_cons, List.not_mem_nil, or_false] at hv
  all_goals first
    | exact hv.elim
    | (subst hv; exact ⟨_, _, hs, .inl rfl⟩)
    | (rcases hv with rfl | rfl
       · exact ⟨_, _, hs, .inl rfl⟩
       · exact ⟨_, _, hs, .inr rfl⟩)

theorem branch_of_hop {u v : BlockId} (h : Hop (stepOf blocks) u v) : Branch blocks u.val v.val := by
  obtain ⟨t, f, hs, hv⟩ := h
  simp only [stepOf, Option.map_eq_some_iff] at hs
  obtain ⟨b, hb, hs⟩ := hs
  obtain ⟨hm, hl⟩ := blockOf_mem hb
  refine ⟨b, hm, hl, ?_⟩
  unfold endOf
  rcases hbr : b.branch with op | op | op <;> rcases hm : b.merge with _ | m | m <;> rw [hbr] at hs <;> cases hs <;>
    rcases hv with rfl | rfl <;> simp [targets]

theorem course_walk (hn : (blocks.map labelId).Nodup) {A : BlockId → Prop} {u x : UInt32} {p : List UInt32}
    (h : Course blocks u (p ++ [x])) (hp : p ≠ []) (ha : ∀ z ∈ p, A ⟨z⟩) : Canon.Walk (stepOf blocks) A ⟨u⟩ ⟨x⟩ := by
  induction p generalizing u with
  | nil => exact absurd rfl hp
  | cons y p ih =>
    obtain ⟨t, e⟩ := h.head
    cases e
    have hu := ha _ List.mem_cons_self
    generalize hg : y :: p ++ [x] = l at h
    cases h with
    | stop hb => cases p <;> cases hg
    | @step _ v _ e h =>
      cases hg
      by_cases hpe : p = []
      · subst hpe
        obtain ⟨t, e'⟩ := h.head
        cases e'
        exact .one hu (hop_of_branch hn e)
      · exact .step hu (hop_of_branch hn e) (ih h hpe fun z hz => ha z (List.mem_cons_of_mem _ hz))

theorem walk_course {A : BlockId → Prop} {x y : BlockId} (w : Canon.Walk (stepOf blocks) A x y)
    (hy : ∃ b ∈ blocks, labelId b = y.val) : ∃ p, Course blocks x.val (p ++ [y.val]) ∧ ∀ z ∈ p, A ⟨z⟩ := by
  induction w with
  | @one x y ha e =>
    obtain ⟨b, hb, hl⟩ := hy
    exact ⟨[x.val], .step (branch_of_hop e) (hl ▸ .stop hb), fun z hz => by cases List.mem_singleton.mp hz; exact ha⟩
  | @step x y z ha e _ ih =>
    obtain ⟨p, hc, hp⟩ := ih hy
    refine ⟨x.val :: p, .step (branch_of_hop e) hc, fun z hz => ?_⟩
    rcases List.mem_cons.mp hz with rfl | hz
    · exact ha
    · exact hp z hz

/-- The last time an element comes -/
theorem last_mem {a : UInt32} {l : List UInt32} (h : a ∈ l) : ∃ p q, l = p ++ a :: q ∧ a ∉ q := by
  induction l with
  | nil => cases h
  | cons b l ih =>
    by_cases hl : a ∈ l
    · obtain ⟨p, q, rfl, hq⟩ := ih hl
      exact ⟨b :: p, q, rfl, hq⟩
    · rcases List.mem_cons.mp h with rfl | h
      · exact ⟨[], l, rfl, hl⟩
      · exact absurd h hl

/-- Two blocks do not each come before the other. -/
theorem before_asymm {first a b : UInt32} (hab : ∀ l, Course blocks first (l ++ [b]) → a ∈ l)
    (hba : ∀ l, Course blocks first (l ++ [a]) → b ∈ l) (ha : Comes blocks first a) : False := by
  have key : ∀ n l, l.length < n → ¬ Course blocks first (l ++ [a]) := by
    intro n
    induction n with
    | zero => exact fun l h => absurd h (Nat.not_lt_zero _)
    | succ n ih =>
      intro l hl hc
      obtain ⟨p, q, rfl⟩ := List.append_of_mem (hba l hc)
      rw [List.append_assoc] at hc
      have h1 := hc.split.1
      obtain ⟨p', q', rfl⟩ := List.append_of_mem (hab p h1)
      rw [List.append_assoc] at h1
      exact ih p' (by simp only [List.length_append, List.length_cons] at hl; omega) h1.split.1
  obtain ⟨l, hl⟩ := ha
  exact key _ l (Nat.lt_succ_self _) hl

/-- A branch back to a block that dominates it closes a cycle, on which every block other than that one can come to the
branch without it. -/
theorem closes {first u a b : UInt32} (h : BranchesBack blocks first u a) (hb : Comes blocks first b)
    {l : List UInt32} (hl : Course blocks b (l ++ [u])) (ha : a ∉ l ++ [u]) :
    ∃ r, Course blocks a (a :: r ++ [a]) ∧ b ∈ r ∧ ∀ y ∈ r, ∃ l, Course blocks y (l ++ [u]) ∧ a ∉ l ++ [u] := by
  obtain ⟨hu, -, hd⟩ := h
  obtain ⟨p, hp⟩ := hb
  obtain ⟨t, ht⟩ := hl.head
  have hj : Course blocks first (p ++ l ++ [u]) := by
    rw [List.append_assoc, ht]
    exact hp.join (ht ▸ hl)
  have hap : a ∈ p := by
    have := hd _ hj
    rw [List.append_assoc, List.mem_append] at this
    exact this.resolve_right ha
  obtain ⟨p1, p2, rfl, hp2⟩ := last_mem hap
  have hab : Course blocks a (a :: (p2 ++ l ++ [u])) := by
    have : p1 ++ a :: p2 ++ l ++ [u] = p1 ++ a :: (p2 ++ l ++ [u]) := by simp
    rw [this] at hj
    exact hj.split.2
  have haa : ∃ x ∈ blocks, labelId x = a := by
    generalize a :: (p2 ++ l ++ [u]) = r at hab
    cases hab with
    | stop hb => exact ⟨_, hb, rfl⟩
    | step e _ =>
      obtain ⟨x, hx, e, -⟩ := e
      exact ⟨x, hx, e⟩
  have hua : Course blocks u (u :: [a]) := by
    obtain ⟨x, hx, rfl⟩ := haa
    exact .step hu (.stop hx)
  have hno : a ∉ p2 ++ l ++ [u] := by
    rw [List.append_assoc, List.mem_append]
    exact fun h => h.elim hp2 ha
  refine ⟨p2 ++ l ++ [u], ?_, ?_, ?_⟩
  · have h1 : Course blocks a ((a :: (p2 ++ l)) ++ [u]) := by simpa using hab
    have := h1.join hua
    simpa using this
  · rw [List.append_assoc, ht]
    simp
  · intro y hy
    obtain ⟨q1, q2, hq⟩ := List.append_of_mem hy
    rw [hq] at hab hno
    have h2 : Course blocks y (y :: q2) := (show Course blocks a ((a :: q1) ++ y :: q2) from hab).split.2
    have : ∃ l, y :: q2 = l ++ [u] := by
      rcases List.eq_nil_or_concat q2 with rfl | ⟨q3, z, rfl⟩
      · rw [← List.concat_eq_append, ← List.concat_eq_append] at hq
        exact ⟨[], by rw [List.concat_inj.mp hq |>.2]; rfl⟩
      · refine ⟨y :: q3, ?_⟩
        have hq' : (p2 ++ l).concat u = (q1 ++ y :: q3).concat z := by simpa using hq
        rw [(List.concat_inj.mp hq').2]
        simp
    obtain ⟨l', hl'⟩ := this
    refine ⟨l', hl' ▸ h2, ?_⟩
    rw [← hl']
    exact fun h => hno (List.mem_append_right _ h)

end Magma.Standard

namespace Magma.Spec

mutual
/-- What is inside of a loop is guarded by its start. -/
theorem guards_of_within {a b : BlockId} : ∀ {chain : ControlFlowChain}, WithinLoop a.val b.val chain →
    b = a ∨ Guards a b chain
  | .Atom _, h => h.elim
  | .Break, h => h.elim
  | .Continue, h => h.elim
  | .Block chains, h => guards_of_withinAny (chains := chains) h
  | .Selection _ left right _ _, h => by
    rcases h with h | h
    · exact (guards_of_within h).imp id fun h => .inr (.inl h)
    · exact (guards_of_within h).imp id fun h => .inr (.inr h)
  | .Loop id inner _ _, h => by
    obtain ⟨a⟩ := a
    obtain ⟨b⟩ := b
    obtain ⟨id⟩ := id
    rcases h with ⟨h, h' | h'⟩ | h
    · exact .inl (congrArg BlockId.mk h')
    · exact .inr (.inl ⟨congrArg BlockId.mk h, h'⟩)
    · exact (guards_of_within h).imp _root_.id fun h => .inr h
/-- The same for chains one after the other -/
theorem guards_of_withinAny {a b : BlockId} : ∀ {chains : List ControlFlowChain}, WithinLoopAny a.val b.val chains →
    b = a ∨ GuardsAny a b chains
  | [], h => h.elim
  | chain :: chains, h => by
    rcases h with h | h
    · exact (guards_of_within h).imp id fun h => .inr (.inl h)
    · exact (guards_of_withinAny h).imp id fun h => .inr (.inr h)
end

end Magma.Spec
