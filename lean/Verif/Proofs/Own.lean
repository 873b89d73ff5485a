import Verif.Proofs.Replace
/-! Lemmas: the header and the merge block of a construct are not inside of it. -/

namespace Magma.Own
open Spec Spec.Program Excerpt
variable {ends : BlockId → Option BlockEnd}

theorem entry_mem {s : Program} {k : Option BlockId} {z : BlockId} (h : s.entry k = some z) : s = .done ∨ z ∈ s.ids := by
  cases s with
  | done => exact .inl rfl
  | _ => cases h; exact .inr List.mem_cons_self

/-- Two programs that start at the same block: the one comes to where the other ends. -/
theorem reach_entry {p : Program} : ∀ {lp lp' : Option (BlockId × BlockId)} {j : BlockId} {k : Option BlockId}
    {avoid : List BlockId} {p' : Program}, Spelt ends lp (some j) p → p.Nested avoid (some j) → Spelt ends lp' k p' →
    (∀ z, k = some z → z ∈ avoid) → p.entry (some j) = p'.entry k →
    ∃ q, Spelt ends lp' k q ∧ q.entry k = some j ∧ q.ids.length ≤ p'.ids.length := by
  induction p with
  | done => exact fun _ _ hs' _ he => ⟨_, hs', he.symm, Nat.le_refl _⟩
  | ret id => exact fun hs => nomatch hs.1
  | atom id rest ih =>
    rintro lp lp' j k avoid p' ⟨⟨t, h1, h2⟩, h3⟩ hn hs' hk he
    cases p' with
    | done => exact absurd (hk _ he.symm) hn.1
    | atom id' rest' =>
      cases he
      obtain ⟨⟨t', e1, e2⟩, e3⟩ := hs'
      rw [h1] at e1
      cases e1
      obtain ⟨q, q1, q2, q3⟩ := ih h3 hn.2 e3 hk (h2.trans e2.symm)
      exact ⟨q, q1, q2, Nat.le_succ_of_le q3⟩
    | ret id' => cases he; have e := hs'.2; rw [h1] at e; cases e
    | sel id' => cases he; obtain ⟨_, _, _, e, -⟩ := hs'; rw [h1] at e; cases e
    | loop id' => cases he; obtain ⟨_, _, e, -⟩ := hs'; rw [h1] at e; cases e
    | exit id' => cases he; obtain ⟨_, _, _, _, _, _, e, -⟩ := hs'; rw [h1] at e; cases e
  | exit id brk w rest ih =>
    rintro lp lp' j k avoid p' ⟨_, _, t, f, _, _, h1, _, h2, h3⟩ hn hs' hk he
    cases p' with
    | done => exact absurd (hk _ he.symm) hn.1
    | exit id' brk' w' rest' =>
      cases he
      obtain ⟨_, _, _, _, _, _, e1, _, e2, e3⟩ := hs'
      rw [h1] at e1
      cases e1
      obtain ⟨q, q1, q2, q3⟩ := ih h3 hn.2 e3 hk (h2.trans e2.symm)
      exact ⟨q, q1, q2, Nat.le_succ_of_le q3⟩
    | ret id' => cases he; have e := hs'.2; rw [h1] at e; cases e
    | sel id' => cases he; obtain ⟨_, _, _, e, -⟩ := hs'; rw [h1] at e; cases e
    | loop id' => cases he; obtain ⟨_, _, e, -⟩ := hs'; rw [h1] at e; cases e
    | atom id' => cases he; obtain ⟨⟨_, e, -⟩, -⟩ := hs'; rw [h1] at e; cases e
  | loop id body hint rest ihb ih =>
    rintro lp lp' j k avoid p' ⟨t, m, h1, h2, _, _, h3⟩ hn hs' hk he
    cases p' with
    | done => exact absurd (hk _ he.symm) hn.1
    | loop id' body' hint' rest' =>
      cases he
      obtain ⟨_, _, e1, e2, _, _, e3⟩ := hs'
      rw [h1] at e1
      cases e1
      obtain ⟨q, q1, q2, q3⟩ := ih h3 hn.2.2 e3 hk (h2.trans e2.symm)
      refine ⟨q, q1, q2, ?_⟩
      simp only [ids, List.length_cons, List.length_append]
      omega
    | ret id' => cases he; have e := hs'.2; rw [h1] at e; cases e
    | sel id' => cases he; obtain ⟨_, _, _, e, -⟩ := hs'; rw [h1] at e; cases e
    | exit id' => cases he; obtain ⟨_, _, _, _, _, _, e, -⟩ := hs'; rw [h1] at e; cases e
    | atom id' => cases he; obtain ⟨⟨_, e, -⟩, -⟩ := hs'; rw [h1] at e; cases e
  | sel id left right hint w rest ihl ihr ih =>
    rintro lp lp' j k avoid p' ⟨t, f, m, h1, h2, _, _, _, _, h3⟩ hn hs' hk he
    cases p' with
    | done => exact absurd (hk _ he.symm) hn.1
    | sel id' left' right' hint' w' rest' =>
      cases he
      obtain ⟨_, _, _, e1, e2, _, _, _, _, e3⟩ := hs'
      rw [h1] at e1
      cases e1
      obtain ⟨q, q1, q2, q3⟩ := ih h3 hn.2.2.2 e3 hk (h2.trans e2.symm)
      refine ⟨q, q1, q2, ?_⟩
      simp only [ids, List.length_cons, List.length_append]
      omega
    | ret id' => cases he; have e := hs'.2; rw [h1] at e; cases e
    | loop id' => cases he; obtain ⟨_, _, e, -⟩ := hs'; rw [h1] at e; cases e
    | exit id' => cases he; obtain ⟨_, _, _, _, _, _, e, -⟩ := hs'; rw [h1] at e; cases e
    | atom id' => cases he; obtain ⟨⟨_, e, -⟩, -⟩ := hs'; rw [h1] at e; cases e

/-- A program that starts at a block that is somewhere in a program comes to where that one ends. -/
theorem reach {p : Program} : ∀ {lp lp' : Option (BlockId × BlockId)} {j x : BlockId} {k : Option BlockId}
    {avoid : List BlockId} {p' : Program}, Spelt ends lp (some j) p → p.Nested avoid (some j) → Spelt ends lp' k p' →
    (∀ z, k = some z → z ∈ avoid) → x ∈ p.ids → p'.entry k = some x →
    ∃ q, Spelt ends lp' k q ∧ q.entry k = some j ∧ q.ids.length ≤ p'.ids.length := by
  induction p with
  | done => exact fun _ _ _ _ h => nomatch h
  | ret id => exact fun hs => nomatch hs.1
  | atom id rest ih =>
    intro lp lp' j x k avoid p' hs hn hs' hk hx he
    rcases List.mem_cons.mp hx with rfl | hx
    · exact reach_entry hs hn hs' hk he.symm
    · exact ih hs.2 hn.2 hs' hk hx he
  | exit id brk w rest ih =>
    intro lp lp' j x k avoid p' hs hn hs' hk hx he
    rcases List.mem_cons.mp hx with rfl | hx
    · exact reach_entry hs hn hs' hk he.symm
    · obtain ⟨_, _, _, _, _, _, _, _, _, h6⟩ := hs
      exact ih h6 hn.2 hs' hk hx he
  | loop id body hint rest ihb ih =>
    intro lp lp' j x k avoid p' hs hn hs' hk hx he
    simp only [ids, List.mem_cons, List.mem_append] at hx
    rcases hx with rfl | hx | hx
    · exact reach_entry hs hn hs' hk he.symm
    · obtain ⟨t, m, h1, h2, h3, h4, h5⟩ := hs
      obtain ⟨q, q1, q2, q3⟩ := ihb h4 hn.2.1 hs' (fun z hz => List.mem_cons_of_mem _ (hk z hz)) hx he
      cases q with
      | done => exact absurd (hk _ q2) hn.1
      | loop id' body' hint' rest' =>
        cases q2
        obtain ⟨_, _, e1, e2, _, _, e3⟩ := q1
        rw [h1] at e1
        cases e1
        obtain ⟨q, r1, r2, r3⟩ := reach_entry h5 hn.2.2 e3 hk (h2.trans e2.symm)
        refine ⟨q, r1, r2, ?_⟩
        simp only [ids, List.length_cons, List.length_append] at q3
        omega
      | ret id' => cases q2; have e := q1.2; rw [h1] at e; cases e
      | sel id' => cases q2; obtain ⟨_, _, _, e, -⟩ := q1; rw [h1] at e; cases e
      | exit id' => cases q2; obtain ⟨_, _, _, _, _, _, e, -⟩ := q1; rw [h1] at e; cases e
      | atom id' => cases q2; obtain ⟨⟨_, e, -⟩, -⟩ := q1; rw [h1] at e; cases e
    · obtain ⟨t, m, h1, h2, h3, h4, h5⟩ := hs
      exact ih h5 hn.2.2 hs' hk hx he
  | sel id left right hint w rest ihl ihr ih =>
    intro lp lp' j x k avoid p' hs hn hs' hk hx he
    simp only [ids, List.mem_cons, List.mem_append] at hx
    have hs'' := hs
    have hn'' := hn
    obtain ⟨t, f, m, h1, h2, h3, h4, h5, h6, h7⟩ := hs''
    obtain ⟨n1, n2, n3, n4⟩ := hn''
    rw [h2] at n2 n3
    have hk' : ∀ z, k = some z → z ∈ (some (⟨m⟩ : BlockId)).toList ++ avoid := fun z hz => List.mem_append_right _ (hk z hz)
    rcases hx with rfl | (hx | hx) | hx
    · exact reach_entry hs hn hs' hk he.symm
    · obtain ⟨q, q1, q2, q3⟩ := ihl h5 n2 hs' hk' hx he
      obtain ⟨q', r1, r2, r3⟩ := reach_entry h7 n4 q1 hk (h2.trans q2.symm)
      exact ⟨q', r1, r2, Nat.le_trans r3 q3⟩
    · obtain ⟨q, q1, q2, q3⟩ := ihr h6 n3 hs' hk' hx he
      obtain ⟨q', r1, r2, r3⟩ := reach_entry h7 n4 q1 hk (h2.trans q2.symm)
      exact ⟨q', r1, r2, Nat.le_trans r3 q3⟩
    · exact ih h7 n4 hs' hk hx he

/-- What comes after a loop cannot come to the loop again. -/
theorem no_return {lp : Option (BlockId × BlockId)} {k : Option BlockId} {h : BlockId} {t m : UInt32} {hint : LoopControl}
    (hh : ends h = some (.gotoLoop t m hint)) (hk : k ≠ some h)
    (hr : ∀ p, Spelt ends lp k p → p.entry k = some ⟨m⟩ →
      ∃ q, Spelt ends lp k q ∧ q.entry k = some h ∧ q.ids.length ≤ p.ids.length) :
    ∀ (n : Nat) (p : Program), p.ids.length ≤ n → Spelt ends lp k p → p.entry k = some ⟨m⟩ → False := by
  intro n
  induction n with
  | zero =>
    intro p hn hs he
    obtain ⟨q, q1, q2, q3⟩ := hr p hs he
    rcases entry_mem q2 with rfl | hm
    · exact hk q2
    · have := List.length_pos_of_mem hm
      omega
  | succ n ih =>
    intro p hn hs he
    obtain ⟨q, q1, q2, q3⟩ := hr p hs he
    cases q with
    | done => exact hk q2
    | loop id' body' hint' rest' =>
      cases q2
      obtain ⟨_, _, e1, e2, _, _, e3⟩ := q1
      rw [hh] at e1
      cases e1
      refine ih rest' ?_ e3 e2
      simp only [ids, List.length_cons, List.length_append] at q3
      omega
    | ret id' => cases q2; have e := q1.2; rw [hh] at e; cases e
    | sel id' => cases q2; obtain ⟨_, _, _, e, -⟩ := q1; rw [hh] at e; cases e
    | exit id' => cases q2; obtain ⟨_, _, _, _, _, _, e, -⟩ := q1; rw [hh] at e; cases e
    | atom id' => cases q2; obtain ⟨⟨_, e, -⟩, -⟩ := q1; rw [hh] at e; cases e

theorem loop_own {lp : Option (BlockId × BlockId)} {k : Option BlockId} {avoid : List BlockId} {h : BlockId} {t m : UInt32}
    {hint : LoopControl} {body rest : Program} (hh : ends h = some (.gotoLoop t m hint))
    (hb : Spelt ends (some (h, ⟨m⟩)) (some h) body) (hr : Spelt ends lp k rest) (he : rest.entry k = some ⟨m⟩)
    (ha : h ∉ avoid) (hn : body.Nested (h :: avoid) (some h)) (hk : ∀ z, k = some z → z ∈ avoid) :
    h ∉ body.ids ∧ (⟨m⟩ : BlockId) ∉ body.ids ∧ (⟨m⟩ : BlockId) ≠ h := by
  have hk' : k ≠ some h := fun e => ha (hk h e)
  refine ⟨nested_off List.mem_cons_self hn, fun hm => ?_, fun hm => ?_⟩
  · exact no_return hh hk' (fun p hp hpe => reach hb hn hp (fun z hz => List.mem_cons_of_mem _ (hk z hz)) hm hpe) _ rest
      (Nat.le_refl _) hr he
  · exact no_return hh hk' (fun p hp hpe => ⟨p, hp, hm ▸ hpe, Nat.le_refl _⟩) _ rest (Nat.le_refl _) hr he

/-- The loops of a program -/
theorem loop_part {x : BlockId} {B : ControlFlowChain} {hint : LoopControl} {w : Option BranchWeights} {s : Program} :
    ∀ {lp : Option (BlockId × BlockId)} {k : Option BlockId} {avoid : List BlockId}, Spelt ends lp k s → s.Nested avoid k →
    (∀ z, k = some z → z ∈ avoid) → (∃ i ∈ s.toChains, PartOf (.Loop x B hint w) i) →
    ∃ b t m, ends x = some (.gotoLoop t m hint) ∧ B = b.toChain ∧ Spelt ends (some (x, ⟨m⟩)) (some x) b ∧
      b.Nested [x] (some x) ∧ x ∉ b.ids ∧ (⟨m⟩ : BlockId) ∉ b.ids ∧ (⟨m⟩ : BlockId) ≠ x := by
  induction s with
  | done => rintro lp k avoid - - - ⟨i, hi, -⟩; cases hi
  | ret id =>
    rintro lp k avoid - - - ⟨i, hi, h⟩
    cases List.mem_singleton.mp hi
    cases h
  | atom id rest ih =>
    rintro lp k avoid hs hn hk ⟨i, hi, h⟩
    rcases List.mem_cons.mp hi with rfl | hi
    · cases h
    · exact ih hs.2 hn.2 hk ⟨i, hi, h⟩
  | exit id brk w1 rest ih =>
    rintro lp k avoid ⟨hd, mg, t1, f1, h1, h2, h3, h4, h5, h6⟩ hn hk ⟨i, hi, h⟩
    cases List.mem_singleton.mp hi
    cases h with
    | left h => exact ih h6 hn.2 hk (inside_items (fun _ e => by cases e) h)
    | right h => cases brk <;> cases h
  | sel id left right hint1 w1 rest ihl ihr ih =>
    rintro lp k avoid ⟨t1, f1, m1, h1, h2, h3, h4, h5, h6, h7⟩ hn hk ⟨i, hi, h⟩
    obtain ⟨n1, n2, n3, n4⟩ := hn
    rw [h2] at n2 n3
    have hm : ∀ z, some (⟨m1⟩ : BlockId) = some z → z ∈ (some (⟨m1⟩ : BlockId)).toList ++ avoid := by
      rintro _ ⟨⟩
      exact List.mem_cons_self
    rcases List.mem_cons.mp hi with rfl | hi
    · cases h with
      | left h => exact ihl h5 n2 hm (inside_items (fun _ e => by cases e) h)
      | right h => exact ihr h6 n3 hm (inside_items (fun _ e => by cases e) h)
    · exact ih h7 n4 hk ⟨i, hi, h⟩
  | loop id body hint1 rest ihb ih =>
    rintro lp k avoid ⟨t1, m1, h1, h2, h3, h4, h5⟩ hn hk ⟨i, hi, h⟩
    obtain ⟨n1, n2, n3⟩ := hn
    rcases List.mem_cons.mp hi with rfl | hi
    · cases h with
      | whole =>
        exact ⟨body, t1, m1, h1, rfl, h4, nested_less (fun y hy => by simp at hy; simp [hy]) n2, loop_own h1 h4 h5 h2 n1 n2 hk⟩
      | inner h => exact ihb h4 n2 (by rintro _ ⟨⟩; exact List.mem_cons_self) (inside_items (fun _ e => by cases e) h)
    · exact ih h5 n3 hk ⟨i, hi, h⟩

/-- Programs that start and end at the same blocks are made of the same blocks. -/
theorem same_ids {p : Program} : ∀ {lp lp' : Option (BlockId × BlockId)} {k : Option BlockId} {avoid avoid' : List BlockId}
    {p' : Program}, Spelt ends lp k p → p.Nested avoid k → (∀ z, k = some z → z ∈ avoid) → Spelt ends lp' k p' →
    p'.Nested avoid' k → (∀ z, k = some z → z ∈ avoid') → p.entry k = p'.entry k → p.ids = p'.ids := by
  induction p with
  | done =>
    intro lp lp' k avoid avoid' p' hs hn hk hs' hn' hk' he
    cases p' with
    | done => rfl
    | ret id' => exact absurd hs'.1 hs
    | atom id' => exact absurd (hk' _ he) hn'.1
    | sel id' => exact absurd (hk' _ he) hn'.1
    | loop id' => exact absurd (hk' _ he) hn'.1
    | exit id' => exact absurd (hk' _ he) hn'.1
  | ret id =>
    intro lp lp' k avoid avoid' p' hs hn hk hs' hn' hk' he
    have h1 := hs.2
    cases p' with
    | done => exact absurd hs.1 hs'
    | ret id' => cases he; rfl
    | sel id' => cases he; obtain ⟨_, _, _, e, -⟩ := hs'; rw [h1] at e; cases e
    | loop id' => cases he; obtain ⟨_, _, e, -⟩ := hs'; rw [h1] at e; cases e
    | exit id' => cases he; obtain ⟨_, _, _, _, _, _, e, -⟩ := hs'; rw [h1] at e; cases e
    | atom id' => cases he; obtain ⟨⟨_, e, -⟩, -⟩ := hs'; rw [h1] at e; cases e
  | atom id rest ih =>
    rintro lp lp' k avoid avoid' p' ⟨⟨t, h1, h2⟩, h3⟩ hn hk hs' hn' hk' he
    cases p' with
    | done => exact absurd (hk _ he.symm) hn.1
    | atom id' rest' =>
      cases he
      obtain ⟨⟨t', e1, e2⟩, e3⟩ := hs'
      rw [h1] at e1
      cases e1
      exact congrArg (_ :: ·) (ih h3 hn.2 hk e3 hn'.2 hk' (h2.trans e2.symm))
    | ret id' => cases he; have e := hs'.2; rw [h1] at e; cases e
    | sel id' => cases he; obtain ⟨_, _, _, e, -⟩ := hs'; rw [h1] at e; cases e
    | loop id' => cases he; obtain ⟨_, _, e, -⟩ := hs'; rw [h1] at e; cases e
    | exit id' => cases he; obtain ⟨_, _, _, _, _, _, e, -⟩ := hs'; rw [h1] at e; cases e
  | exit id brk w rest ih =>
    rintro lp lp' k avoid avoid' p' ⟨_, _, t, f, _, _, h1, _, h2, h3⟩ hn hk hs' hn' hk' he
    cases p' with
    | done => exact absurd (hk _ he.symm) hn.1
    | exit id' brk' w' rest' =>
      cases he
      obtain ⟨_, _, _, _, _, _, e1, _, e2, e3⟩ := hs'
      rw [h1] at e1
      cases e1
      exact congrArg (_ :: ·) (ih h3 hn.2 hk e3 hn'.2 hk' (h2.trans e2.symm))
    | ret id' => cases he; have e := hs'.2; rw [h1] at e; cases e
    | sel id' => cases he; obtain ⟨_, _, _, e, -⟩ := hs'; rw [h1] at e; cases e
    | loop id' => cases he; obtain ⟨_, _, e, -⟩ := hs'; rw [h1] at e; cases e
    | atom id' => cases he; obtain ⟨⟨_, e, -⟩, -⟩ := hs'; rw [h1] at e; cases e
  | loop id body hint rest ihb ih =>
    rintro lp lp' k avoid avoid' p' ⟨t, m, h1, h2, h4, h5, h3⟩ hn hk hs' hn' hk' he
    cases p' with
    | done => exact absurd (hk _ he.symm) hn.1
    | loop id' body' hint' rest' =>
      cases he
      obtain ⟨_, _, e1, e2, e4, e5, e3⟩ := hs'
      rw [h1] at e1
      cases e1
      rw [ids, ids, ih h3 hn.2.2 hk e3 hn'.2.2 hk' (h2.trans e2.symm),
        ihb h5 hn.2.1 (by rintro _ ⟨⟩; exact List.mem_cons_self) e5 hn'.2.1 (by rintro _ ⟨⟩; exact List.mem_cons_self)
          (h4.trans e4.symm)]
    | ret id' => cases he; have e := hs'.2; rw [h1] at e; cases e
    | sel id' => cases he; obtain ⟨_, _, _, e, -⟩ := hs'; rw [h1] at e; cases e
    | exit id' => cases he; obtain ⟨_, _, _, _, _, _, e, -⟩ := hs'; rw [h1] at e; cases e
    | atom id' => cases he; obtain ⟨⟨_, e, -⟩, -⟩ := hs'; rw [h1] at e; cases e
  | sel id left right hint w rest ihl ihr ih =>
    rintro lp lp' k avoid avoid' p' ⟨t, f, m, h1, h2, h4, h5, h6, h7, h3⟩ hn hk hs' hn' hk' he
    cases p' with
    | done => exact absurd (hk _ he.symm) hn.1
    | sel id' left' right' hint' w' rest' =>
      cases he
      obtain ⟨_, _, _, e1, e2, e4, e5, e6, e7, e3⟩ := hs'
      rw [h1] at e1
      cases e1
      obtain ⟨n1, n2, n3, n4⟩ := hn
      obtain ⟨o1, o2, o3, o4⟩ := hn'
      rw [h2] at n2 n3
      rw [e2] at o2 o3
      have hm : ∀ (avoid : List BlockId) z, some (⟨m⟩ : BlockId) = some z → z ∈ (some (⟨m⟩ : BlockId)).toList ++ avoid := by
        rintro _ _ ⟨⟩
        exact List.mem_cons_self
      rw [ids, ids, ih h3 n4 hk e3 o4 hk' (h2.trans e2.symm), ihl h6 n2 (hm _) e6 o2 (hm _) (h4.trans e4.symm),
        ihr h7 n3 (hm _) e7 o3 (hm _) (h5.trans e5.symm)]
    | ret id' => cases he; have e := hs'.2; rw [h1] at e; cases e
    | loop id' => cases he; obtain ⟨_, _, e, -⟩ := hs'; rw [h1] at e; cases e
    | exit id' => cases he; obtain ⟨_, _, _, _, _, _, e, -⟩ := hs'; rw [h1] at e; cases e
    | atom id' => cases he; obtain ⟨⟨_, e, -⟩, -⟩ := hs'; rw [h1] at e; cases e

/-- Where a block that starts a selection is in a program, its arms are in the program. -/
theorem arms_in {x : BlockId} {t e m : UInt32} {hint : SelectionControl} {w : Option BranchWeights}
    (hx : ends x = some (.chooseSelection t e w m hint)) {p : Program} : ∀ {lp : Option (BlockId × BlockId)}
    {k : Option BlockId} {avoid : List BlockId}, Spelt ends lp k p → p.Nested avoid k → x ∈ p.ids →
    ∃ l r lp' avoid', Spelt ends lp' (some ⟨m⟩) l ∧ Spelt ends lp' (some ⟨m⟩) r ∧ l.Nested (⟨m⟩ :: avoid') (some ⟨m⟩) ∧
      r.Nested (⟨m⟩ :: avoid') (some ⟨m⟩) ∧ l.entry (some ⟨m⟩) = some ⟨t⟩ ∧ r.entry (some ⟨m⟩) = some ⟨e⟩ ∧
      l.ids.length < p.ids.length ∧ r.ids.length < p.ids.length := by
  induction p with
  | done => exact fun _ _ h => nomatch h
  | ret id =>
    intro lp k avoid hs hn hm
    cases List.mem_singleton.mp hm
    have := hs.2
    rw [hx] at this
    cases this
  | atom id rest ih =>
    intro lp k avoid hs hn hm
    rcases List.mem_cons.mp hm with rfl | hm
    · obtain ⟨⟨_, e, -⟩, -⟩ := hs; rw [hx] at e; cases e
    · obtain ⟨l, r, lp', avoid', a1, a2, a3, a4, a5, a6, a7, a8⟩ := ih hs.2 hn.2 hm
      exact ⟨l, r, lp', avoid', a1, a2, a3, a4, a5, a6, Nat.lt_succ_of_lt a7, Nat.lt_succ_of_lt a8⟩
  | exit id brk w rest ih =>
    rintro lp k avoid ⟨_, _, _, _, _, _, h1, _, _, h3⟩ hn hm
    rcases List.mem_cons.mp hm with rfl | hm
    · rw [hx] at h1; cases h1
    · obtain ⟨l, r, lp', avoid', a1, a2, a3, a4, a5, a6, a7, a8⟩ := ih h3 hn.2 hm
      exact ⟨l, r, lp', avoid', a1, a2, a3, a4, a5, a6, Nat.lt_succ_of_lt a7, Nat.lt_succ_of_lt a8⟩
  | loop id body hint rest ihb ih =>
    rintro lp k avoid ⟨_, _, h1, _, _, h4, h5⟩ hn hm
    simp only [ids, List.mem_cons, List.mem_append] at hm
    rcases hm with rfl | hm | hm
    · rw [hx] at h1; cases h1
    · obtain ⟨l, r, lp', avoid', a1, a2, a3, a4, a5, a6, a7, a8⟩ := ihb h4 hn.2.1 hm
      refine ⟨l, r, lp', avoid', a1, a2, a3, a4, a5, a6, ?_, ?_⟩ <;>
        simp only [ids, List.length_cons, List.length_append] <;> omega
    · obtain ⟨l, r, lp', avoid', a1, a2, a3, a4, a5, a6, a7, a8⟩ := ih h5 hn.2.2 hm
      refine ⟨l, r, lp', avoid', a1, a2, a3, a4, a5, a6, ?_, ?_⟩ <;>
        simp only [ids, List.length_cons, List.length_append] <;> omega
  | sel id left right hint w rest ihl ihr ih =>
    rintro lp k avoid ⟨_, _, m1, h1, h2, h3, h4, h5, h6, h7⟩ ⟨n1, n2, n3, n4⟩ hm
    rw [h2] at n2 n3
    simp only [ids, List.mem_cons, List.mem_append] at hm
    rcases hm with rfl | (hm | hm) | hm
    · rw [hx] at h1
      cases h1
      refine ⟨left, right, lp, avoid, h5, h6, n2, n3, h3, h4, ?_, ?_⟩ <;>
        simp only [ids, List.length_cons, List.length_append] <;> omega
    · obtain ⟨l, r, lp', avoid', a1, a2, a3, a4, a5, a6, a7, a8⟩ := ihl h5 n2 hm
      refine ⟨l, r, lp', avoid', a1, a2, a3, a4, a5, a6, ?_, ?_⟩ <;>
        simp only [ids, List.length_cons, List.length_append] <;> omega
    · obtain ⟨l, r, lp', avoid', a1, a2, a3, a4, a5, a6, a7, a8⟩ := ihr h6 n3 hm
      refine ⟨l, r, lp', avoid', a1, a2, a3, a4, a5, a6, ?_, ?_⟩ <;>
        simp only [ids, List.length_cons, List.length_append] <;> omega
    · obtain ⟨l, r, lp', avoid', a1, a2, a3, a4, a5, a6, a7, a8⟩ := ih h7 n4 hm
      refine ⟨l, r, lp', avoid', a1, a2, a3, a4, a5, a6, ?_, ?_⟩ <;>
        simp only [ids, List.length_cons, List.length_append] <;> omega

/-- A plain branch in a program goes to a block of it, or to where it ends. -/
theorem goto_in {y : BlockId} {t : UInt32} (hy : ends y = some (.goto t)) {p : Program} :
    ∀ {lp : Option (BlockId × BlockId)} {j : BlockId}, Spelt ends lp (some j) p → y ∈ p.ids →
      (⟨t⟩ : BlockId) ∈ p.ids ∨ (⟨t⟩ : BlockId) = j := by
  have next : ∀ {q : Program} {j : BlockId}, q.entry (some j) = some ⟨t⟩ → (⟨t⟩ : BlockId) ∈ q.ids ∨ (⟨t⟩ : BlockId) = j := by
    intro q j h
    rcases entry_mem h with rfl | h'
    · cases h
      exact .inr rfl
    · exact .inl h'
  induction p with
  | done => exact fun _ h => nomatch h
  | ret id => exact fun hs => nomatch hs.1
  | atom id rest ih =>
    rintro lp j ⟨⟨t', h1, h2⟩, h3⟩ hm
    rcases List.mem_cons.mp hm with rfl | hm
    · rw [hy] at h1
      cases h1
      exact (next h2).imp (List.mem_cons_of_mem _) (fun h => h)
    · exact (ih h3 hm).imp (List.mem_cons_of_mem _) (fun h => h)
  | exit id brk w rest ih =>
    rintro lp j ⟨_, _, _, _, _, _, h1, _, _, h3⟩ hm
    rcases List.mem_cons.mp hm with rfl | hm
    · rw [hy] at h1
      cases h1
    · exact (ih h3 hm).imp (List.mem_cons_of_mem _) (fun h => h)
  | loop id body hint rest ihb ih =>
    rintro lp j ⟨_, _, h1, _, _, h4, h5⟩ hm
    simp only [ids, List.mem_cons, List.mem_append] at hm ⊢
    rcases hm with rfl | hm | hm
    · rw [hy] at h1; cases h1
    · rcases ihb h4 hm with h | h
      · exact .inl (.inr (.inl h))
      · exact .inl (.inl h)
    · exact (ih h5 hm).imp (fun h => .inr (.inr h)) (fun h => h)
  | sel id left right hint w rest ihl ihr ih =>
    rintro lp j ⟨_, _, m1, h1, h2, h3, h4, h5, h6, h7⟩ hm
    simp only [ids, List.mem_cons, List.mem_append] at hm ⊢
    rcases hm with rfl | (hm | hm) | hm
    · rw [hy] at h1; cases h1
    · rcases ihl h5 hm with h | h
      · exact .inl (.inr (.inl (.inl h)))
      · exact (next (h ▸ h2)).imp (fun h => .inr (.inr h)) (fun h => h)
    · rcases ihr h6 hm with h | h
      · exact .inl (.inr (.inl (.inr h)))
      · exact (next (h ▸ h2)).imp (fun h => .inr (.inr h)) (fun h => h)
    · exact (ih h7 hm).imp (fun h => .inr (.inr h)) (fun h => h)

end Magma.Own
