import Verif.Proofs.Flow
import Verif.Proofs.Live
import Verif.Proofs.SearchCost
import Verif.Spec.SearchDepth
/-! How large the program spelled by a number of blocks can be. Every block has one block after it: the target of
its branch, or the block where its construct merges. From every block of a program one comes to the block that
returns in this way, so the blocks form a tree. What ends at a block lies below it in the tree. A program is
taken apart from its end: the body of a loop at the end and what comes before the loop both end at the loop, and
what comes before a selection ends at the selection, where nothing of its two sides does. -/

namespace Magma.Largest
open Spec
variable {X : Type} {blocks : List (BasicBlock X)}

/-! ### The tree -/

/-- What comes after a block and its construct -/
def after : BlockEnd → Option BlockId
  | .goto t => some ⟨t⟩
  | .gotoLoop _ m _ => some ⟨m⟩
  | .choose t _ _ => some ⟨t⟩
  | .chooseSelection _ _ _ m _ => some ⟨m⟩
  | _ => none

/-- What comes after the block with a label -/
def next (blocks : List (BasicBlock X)) (id : BlockId) : Option BlockId :=
  (blockOf blocks id).bind fun b => after (endOf b)

theorem next_eq {id : BlockId} {b : BasicBlock X} (h : blockOf blocks id = some b) :
    next blocks id = after (endOf b) := by
  rw [next, h]; rfl

/-- From a block, several blocks on -/
inductive Up (blocks : List (BasicBlock X)) : Nat → BlockId → BlockId → Prop where
  | refl (x : BlockId) : Up blocks 0 x x
  | step {n : Nat} {x y z : BlockId} : next blocks x = some y → Up blocks n y z → Up blocks (n + 1) x z

theorem Up.trans {n m : Nat} {x y z : BlockId} (h : Up blocks n x y) (h' : Up blocks m y z) :
    Up blocks (n + m) x z := by
  induction h with
  | refl => rw [Nat.zero_add]; exact h'
  | step hn _ ih => rw [Nat.succ_add]; exact .step hn (ih h')

/-- One comes to an end. -/
def Rooted (blocks : List (BasicBlock X)) (x : BlockId) : Prop :=
  ∃ n r, Up blocks n x r ∧ next blocks r = none

theorem Rooted.before {x y : BlockId} (h : Rooted blocks y) (hn : next blocks x = some y) : Rooted blocks x := by
  obtain ⟨n, r, hu, hr⟩ := h
  exact ⟨n + 1, r, .step hn hu, hr⟩

theorem Rooted.no_cycle {x : BlockId} (h : Rooted blocks x) (m : Nat) : ¬ Up blocks (m + 1) x x := by
  obtain ⟨n, r, hu, hr⟩ := h
  induction hu with
  | refl x =>
    intro h
    cases h with
    | step h _ => rw [hr] at h; cases h
  | step hn _ ih =>
    intro h
    cases h with
    | step h h' =>
      rw [hn] at h
      cases h
      exact ih hr (h'.trans (.step hn (.refl _)))

/-! ### Programs without regard to the loops around -/

/-- The blocks spell the program, up to where conditional exits go. -/
def Shape (blocks : List (BasicBlock X)) : Option BlockId → Program → Prop
  | k, .done => k ≠ none
  | k, .ret id => k = none ∧ ∃ b, blockOf blocks id = some b ∧ endOf b = .returns
  | k, .atom id rest =>
    (∃ b t, blockOf blocks id = some b ∧ endOf b = .goto t ∧ rest.entry k = some ⟨t⟩) ∧ Shape blocks k rest
  | k, .exit id _ _ rest =>
    (∃ b t f w, blockOf blocks id = some b ∧ endOf b = .choose t f w ∧ rest.entry k = some ⟨t⟩) ∧
      Shape blocks k rest
  | k, .sel id left right _ _ rest =>
    ∃ b t f w m h, blockOf blocks id = some b ∧ endOf b = .chooseSelection t f w m h ∧
      rest.entry k = some ⟨m⟩ ∧ left.entry (some ⟨m⟩) = some ⟨t⟩ ∧ right.entry (some ⟨m⟩) = some ⟨f⟩ ∧
      Shape blocks (some ⟨m⟩) left ∧ Shape blocks (some ⟨m⟩) right ∧ Shape blocks k rest
  | k, .loop id body _ rest =>
    ∃ b t m h, blockOf blocks id = some b ∧ endOf b = .gotoLoop t m h ∧ rest.entry k = some ⟨m⟩ ∧
      body.entry (some id) = some ⟨t⟩ ∧ Shape blocks (some id) body ∧ Shape blocks k rest

theorem shape_of_spelled : ∀ (s : Program) {lp : Option (BlockId × BlockId)} {k : Option BlockId},
    s.SpelledBy blocks lp k → Shape blocks k s
  | .done, _, _, h => h
  | .ret _, _, _, ⟨h, b, r, h1, h2⟩ => ⟨h, b, h1, by rw [endOf, h2]⟩
  | .atom _ rest, _, _, ⟨⟨b, op, h1, h2, h3, h4⟩, h5⟩ =>
    ⟨⟨b, _, h1, by rw [endOf, h2, h3], h4⟩, shape_of_spelled rest h5⟩
  | .sel _ left right _ _ rest, _, _, ⟨b, op, sm, h1, h2, h3, _, _, h4, h5, h6, h7, h8, h9⟩ =>
    ⟨b, _, _, _, _, _, h1, by rw [endOf, h2, h3], h4, h5, h6, shape_of_spelled left h7, shape_of_spelled right h8,
      shape_of_spelled rest h9⟩
  | .loop _ body _ rest, _, _, ⟨b, op, lm, h1, h2, h3, _, h4, h5, h6, h7⟩ =>
    ⟨b, _, _, _, h1, by rw [endOf, h2, h3], h4, h5, shape_of_spelled body h6, shape_of_spelled rest h7⟩
  | .exit _ _ _ rest, _, _, ⟨_, _, b, op, _, _, h1, h2, h3, _, _, h4, h5⟩ =>
    ⟨⟨b, _, _, _, h1, by rw [endOf, h2, h3], h4⟩, shape_of_spelled rest h5⟩

theorem entry_mem (s : Program) {k : Option BlockId} {x : BlockId} (h : s.entry k = some x) :
    (s = .done ∧ k = some x) ∨ x ∈ s.ids := by
  cases s with
  | done => exact .inl ⟨rfl, h⟩
  | _ => cases h; exact .inr (List.mem_cons_self)

/-- From every block of a program one comes to an end. -/
theorem rooted : ∀ (s : Program) {k : Option BlockId}, Shape blocks k s → (∀ v, k = some v → Rooted blocks v) →
    ∀ x ∈ s.ids, Rooted blocks x
  | .done, _, _, _, x, hx => by cases hx
  | .ret id, _, ⟨_, b, h1, h2⟩, _, x, hx => by
    cases List.mem_singleton.mp hx
    exact ⟨0, id, .refl _, by rw [next_eq h1, h2]; rfl⟩
  | .atom id rest, k, ⟨⟨b, t, h1, h2, h3⟩, h4⟩, hk, x, hx => by
    have ih := rooted rest h4 hk
    have hr : Rooted blocks ⟨t⟩ := by
      rcases entry_mem rest h3 with ⟨-, h⟩ | h
      · exact hk _ h
      · exact ih _ h
    rcases List.mem_cons.mp hx with rfl | hx
    · exact hr.before (by rw [next_eq h1, h2]; rfl)
    · exact ih x hx
  | .exit id _ _ rest, k, ⟨⟨b, t, f, w, h1, h2, h3⟩, h4⟩, hk, x, hx => by
    have ih := rooted rest h4 hk
    have hr : Rooted blocks ⟨t⟩ := by
      rcases entry_mem rest h3 with ⟨-, h⟩ | h
      · exact hk _ h
      · exact ih _ h
    rcases List.mem_cons.mp hx with rfl | hx
    · exact hr.before (by rw [next_eq h1, h2]; rfl)
    · exact ih x hx
  | .sel id left right _ _ rest, k, ⟨b, t, f, w, m, h, h1, h2, h3, h4, h5, h6, h7, h8⟩, hk, x, hx => by
    have ih := rooted rest h8 hk
    have hr : Rooted blocks ⟨m⟩ := by
      rcases entry_mem rest h3 with ⟨-, h⟩ | h
      · exact hk _ h
      · exact ih _ h
    have ihl := rooted left h6 (fun v hv => by cases hv; exact hr)
    have ihr := rooted right h7 (fun v hv => by cases hv; exact hr)
    rcases List.mem_cons.mp hx with rfl | hx
    · exact hr.before (by rw [next_eq h1, h2]; rfl)
    · rcases List.mem_append.mp hx with hx | hx
      · rcases List.mem_append.mp hx with hx | hx
        · exact ihl x hx
        · exact ihr x hx
      · exact ih x hx
  | .loop id body _ rest, k, ⟨b, t, m, h, h1, h2, h3, h4, h5, h6⟩, hk, x, hx => by
    have ih := rooted rest h6 hk
    have hr : Rooted blocks ⟨m⟩ := by
      rcases entry_mem rest h3 with ⟨-, h⟩ | h
      · exact hk _ h
      · exact ih _ h
    have hi : Rooted blocks id := hr.before (by rw [next_eq h1, h2]; rfl)
    have ihb := rooted body h5 (fun v hv => by cases hv; exact hi)
    rcases List.mem_cons.mp hx with rfl | hx
    · exact hi
    · rcases List.mem_append.mp hx with hx | hx
      · exact ihb x hx
      · exact ih x hx

/-- What comes after a block of a program is in it, or is where it ends. -/
theorem closed : ∀ (s : Program) {v : BlockId}, Shape blocks (some v) s → ∀ x ∈ s.ids, ∀ w,
    next blocks x = some w → w = v ∨ w ∈ s.ids
  | .done, _, _, x, hx, _, _ => by cases hx
  | .ret _, _, ⟨h, _⟩, _, _, _, _ => by cases h
  | .atom id rest, v, ⟨⟨b, t, h1, h2, h3⟩, h4⟩, x, hx, w, hw => by
    have ih := closed rest h4
    rcases List.mem_cons.mp hx with rfl | hx
    · rw [next_eq h1, h2] at hw
      cases hw
      rcases entry_mem rest h3 with ⟨-, h⟩ | h
      · cases h; exact .inl rfl
      · exact .inr (List.mem_cons_of_mem _ h)
    · exact (ih x hx w hw).imp _root_.id (List.mem_cons_of_mem _)
  | .exit id _ _ rest, v, ⟨⟨b, t, f, w', h1, h2, h3⟩, h4⟩, x, hx, w, hw => by
    have ih := closed rest h4
    rcases List.mem_cons.mp hx with rfl | hx
    · rw [next_eq h1, h2] at hw
      cases hw
      rcases entry_mem rest h3 with ⟨-, h⟩ | h
      · cases h; exact .inl rfl
      · exact .inr (List.mem_cons_of_mem _ h)
    · exact (ih x hx w hw).imp _root_.id (List.mem_cons_of_mem _)
  | .sel id left right _ _ rest, v, ⟨b, t, f, w', m, h, h1, h2, h3, h4, h5, h6, h7, h8⟩, x, hx, w, hw => by
    have ihl := closed left h6
    have ihr := closed right h7
    have ih := closed rest h8
    have hm : (⟨m⟩ : BlockId) = v ∨ ⟨m⟩ ∈ rest.ids := by
      rcases entry_mem rest h3 with ⟨-, h⟩ | h
      · cases h; exact .inl rfl
      · exact .inr h
    have inRest {y : BlockId} (h : y = v ∨ y ∈ rest.ids) :
        y = v ∨ y ∈ id :: (left.ids ++ right.ids ++ rest.ids) :=
      h.imp _root_.id fun h => List.mem_cons_of_mem _ (List.mem_append_right _ h)
    show w = v ∨ w ∈ id :: (left.ids ++ right.ids ++ rest.ids)
    rcases List.mem_cons.mp hx with rfl | hx
    · rw [next_eq h1, h2] at hw
      cases hw
      exact inRest hm
    · rcases List.mem_append.mp hx with hx | hx
      · rcases List.mem_append.mp hx with hx | hx
        · rcases ihl x hx w hw with rfl | h
          · exact inRest hm
          · exact .inr (List.mem_cons_of_mem _ (List.mem_append_left _ (List.mem_append_left _ h)))
        · rcases ihr x hx w hw with rfl | h
          · exact inRest hm
          · exact .inr (List.mem_cons_of_mem _ (List.mem_append_left _ (List.mem_append_right _ h)))
      · exact inRest (ih x hx w hw)
  | .loop id body _ rest, v, ⟨b, t, m, h, h1, h2, h3, h4, h5, h6⟩, x, hx, w, hw => by
    have ihb := closed body h5
    have ih := closed rest h6
    have inRest {y : BlockId} (h : y = v ∨ y ∈ rest.ids) : y = v ∨ y ∈ id :: (body.ids ++ rest.ids) :=
      h.imp _root_.id fun h => List.mem_cons_of_mem _ (List.mem_append_right _ h)
    show w = v ∨ w ∈ id :: (body.ids ++ rest.ids)
    rcases List.mem_cons.mp hx with rfl | hx
    · rw [next_eq h1, h2] at hw
      cases hw
      rcases entry_mem rest h3 with ⟨-, h⟩ | h
      · cases h; exact .inl rfl
      · exact inRest (.inr h)
    · rcases List.mem_append.mp hx with hx | hx
      · rcases ihb x hx w hw with rfl | h
        · exact .inr List.mem_cons_self
        · exact .inr (List.mem_cons_of_mem _ (List.mem_append_left _ h))
      · exact inRest (ih x hx w hw)

/-- Going on from a block of a program, one stays in it or comes past its end. -/
theorem closed_up {s : Program} {v : BlockId} (hs : Shape blocks (some v) s) {n : Nat} {x y : BlockId}
    (h : Up blocks n x y) : x ∈ s.ids → y ∈ s.ids ∨ ∃ j, Up blocks j v y := by
  induction h with
  | refl => exact .inl
  | step hn hu ih =>
    intro hx
    rcases closed s hs _ hx _ hn with rfl | h
    · exact .inr ⟨_, hu⟩
    · exact ih h

/-- From every block of a program one comes to its end. -/
theorem below : ∀ (s : Program) {v : BlockId}, Shape blocks (some v) s → ∀ x ∈ s.ids, ∃ n, Up blocks (n + 1) x v
  | .done, _, _, x, hx => by cases hx
  | .ret _, _, ⟨h, _⟩, _, _ => by cases h
  | .atom id rest, v, ⟨⟨b, t, h1, h2, h3⟩, h4⟩, x, hx => by
    have ih := below rest h4
    rcases List.mem_cons.mp hx with rfl | hx
    · have hn : next blocks x = some ⟨t⟩ := by rw [next_eq h1, h2]; rfl
      rcases entry_mem rest h3 with ⟨-, h⟩ | h
      · cases h; exact ⟨0, .step hn (.refl _)⟩
      · obtain ⟨n, hu⟩ := ih _ h
        exact ⟨_, .step hn hu⟩
    · exact ih x hx
  | .exit id _ _ rest, v, ⟨⟨b, t, f, w', h1, h2, h3⟩, h4⟩, x, hx => by
    have ih := below rest h4
    rcases List.mem_cons.mp hx with rfl | hx
    · have hn : next blocks x = some ⟨t⟩ := by rw [next_eq h1, h2]; rfl
      rcases entry_mem rest h3 with ⟨-, h⟩ | h
      · cases h; exact ⟨0, .step hn (.refl _)⟩
      · obtain ⟨n, hu⟩ := ih _ h
        exact ⟨_, .step hn hu⟩
    · exact ih x hx
  | .sel id left right _ _ rest, v, ⟨b, t, f, w', m, h, h1, h2, h3, h4, h5, h6, h7, h8⟩, x, hx => by
    have ihl := below left h6
    have ihr := below right h7
    have ih := below rest h8
    have hm : ∃ n, Up blocks n ⟨m⟩ v := by
      rcases entry_mem rest h3 with ⟨-, h⟩ | h
      · cases h; exact ⟨0, .refl _⟩
      · obtain ⟨n, hu⟩ := ih _ h
        exact ⟨_, hu⟩
    obtain ⟨j, hm⟩ := hm
    rcases List.mem_cons.mp hx with rfl | hx
    · exact ⟨j, .step (by rw [next_eq h1, h2]; rfl) hm⟩
    · rcases List.mem_append.mp hx with hx | hx
      · rcases List.mem_append.mp hx with hx | hx
        · obtain ⟨n, hu⟩ := ihl x hx
          exact ⟨n + j, by rw [Nat.add_right_comm]; exact hu.trans hm⟩
        · obtain ⟨n, hu⟩ := ihr x hx
          exact ⟨n + j, by rw [Nat.add_right_comm]; exact hu.trans hm⟩
      · exact ih x hx
  | .loop id body _ rest, v, ⟨b, t, m, h, h1, h2, h3, h4, h5, h6⟩, x, hx => by
    have ihb := below body h5
    have ih := below rest h6
    have hi : ∃ n, Up blocks (n + 1) id v := by
      have hn : next blocks id = some ⟨m⟩ := by rw [next_eq h1, h2]; rfl
      rcases entry_mem rest h3 with ⟨-, h⟩ | h
      · cases h; exact ⟨0, .step hn (.refl _)⟩
      · obtain ⟨n, hu⟩ := ih _ h
        exact ⟨_, .step hn hu⟩
    rcases List.mem_cons.mp hx with rfl | hx
    · exact hi
    · rcases List.mem_append.mp hx with hx | hx
      · obtain ⟨j, hi⟩ := hi
        obtain ⟨n, hu⟩ := ihb x hx
        exact ⟨n + 1 + j, hu.trans hi⟩
      · exact ih x hx

/-- Where a program ends is not in it. -/
theorem end_not_mem {s : Program} {v : BlockId} (hs : Shape blocks (some v) s) (hv : Rooted blocks v) : v ∉ s.ids := by
  intro h
  obtain ⟨n, hu⟩ := below s hs v h
  exact hv.no_cycle n hu

/-! ### Programs are determined by where they start and end -/

theorem entry_shape {s : Program} {k : Option BlockId} {v : BlockId} (hk : k = some v)
    (hs : Shape blocks k s) (hv : Rooted blocks v) (he : s.entry k = some v) : s = .done := by
  subst hk
  rcases entry_mem s he with ⟨h, -⟩ | h
  · exact h
  · exact absurd h (end_not_mem hs hv)

theorem after_unique {id : BlockId} {b b' : BasicBlock X} {e e' : BlockEnd} (h : blockOf blocks id = some b)
    (h' : blockOf blocks id = some b') (he : endOf b = e) (he' : endOf b' = e') : e = e' := by
  rw [h] at h'
  cases h'
  rw [← he, ← he']

theorem unique : ∀ (s s' : Program) {k : Option BlockId}, Shape blocks k s → Shape blocks k s' →
    (∀ v, k = some v → Rooted blocks v) → s.entry k = s'.entry k → s.ids = s'.ids
  | .done, s', k, h, h', hk, he => by
    cases k with
    | none => exact absurd rfl h
    | some v => rw [entry_shape rfl h' (hk v rfl) he.symm]
  | .ret id, s', k, ⟨hn, b, h1, h2⟩, h', hk, he => by
    cases s' with
    | done => subst hn; exact absurd rfl h'
    | ret id' => cases he; rfl
    | atom id' rest' =>
      cases he
      obtain ⟨⟨b', t, h1', h2', -⟩, -⟩ := h'
      cases after_unique h1 h1' h2 h2'
    | exit id' _ _ rest' =>
      cases he
      obtain ⟨⟨b', t, f, w, h1', h2', -⟩, -⟩ := h'
      cases after_unique h1 h1' h2 h2'
    | sel id' _ _ _ _ rest' =>
      cases he
      obtain ⟨b', _, _, _, _, _, h1', h2', -⟩ := h'
      cases after_unique h1 h1' h2 h2'
    | loop id' _ _ rest' =>
      cases he
      obtain ⟨b', _, _, _, h1', h2', -⟩ := h'
      cases after_unique h1 h1' h2 h2'
  | .atom id rest, s', k, hs@⟨⟨b, t, h1, h2, h3⟩, h4⟩, h', hk, he => by
    cases s' with
    | done =>
      cases k with
      | none => exact absurd rfl h'
      | some v => cases entry_shape rfl hs (hk v rfl) he
    | ret id' =>
      cases he
      obtain ⟨-, b', h1', h2'⟩ := h'
      cases after_unique h1 h1' h2 h2'
    | atom id' rest' =>
      cases he
      obtain ⟨⟨b', t', h1', h2', h3'⟩, h4'⟩ := h'
      cases after_unique h1 h1' h2 h2'
      exact congrArg (id :: ·) (unique rest rest' h4 h4' hk (h3.trans h3'.symm))
    | exit id' _ _ rest' =>
      cases he
      obtain ⟨⟨b', t, f, w, h1', h2', -⟩, -⟩ := h'
      cases after_unique h1 h1' h2 h2'
    | sel id' _ _ _ _ rest' =>
      cases he
      obtain ⟨b', _, _, _, _, _, h1', h2', -⟩ := h'
      cases after_unique h1 h1' h2 h2'
    | loop id' _ _ rest' =>
      cases he
      obtain ⟨b', _, _, _, h1', h2', -⟩ := h'
      cases after_unique h1 h1' h2 h2'
  | .exit id _ _ rest, s', k, hs@⟨⟨b, t, f, w, h1, h2, h3⟩, h4⟩, h', hk, he => by
    cases s' with
    | done =>
      cases k with
      | none => exact absurd rfl h'
      | some v => cases entry_shape rfl hs (hk v rfl) he
    | ret id' =>
      cases he
      obtain ⟨-, b', h1', h2'⟩ := h'
      cases after_unique h1 h1' h2 h2'
    | atom id' rest' =>
      cases he
      obtain ⟨⟨b', t', h1', h2', h3'⟩, h4'⟩ := h'
      cases after_unique h1 h1' h2 h2'
    | exit id' _ _ rest' =>
      cases he
      obtain ⟨⟨b', t', f', w', h1', h2', h3'⟩, h4'⟩ := h'
      cases after_unique h1 h1' h2 h2'
      exact congrArg (id :: ·) (unique rest rest' h4 h4' hk (h3.trans h3'.symm))
    | sel id' _ _ _ _ rest' =>
      cases he
      obtain ⟨b', _, _, _, _, _, h1', h2', -⟩ := h'
      cases after_unique h1 h1' h2 h2'
    | loop id' _ _ rest' =>
      cases he
      obtain ⟨b', _, _, _, h1', h2', -⟩ := h'
      cases after_unique h1 h1' h2 h2'
  | .sel id left right hi we rest, s', k, hs@⟨b, t, f, w, m, h, h1, h2, h3, h4, h5, h6, h7, h8⟩, h', hk, he => by
    cases s' with
    | done =>
      cases k with
      | none => exact absurd rfl h'
      | some v => cases entry_shape rfl hs (hk v rfl) he
    | ret id' =>
      cases he
      obtain ⟨-, b', h1', h2'⟩ := h'
      cases after_unique h1 h1' h2 h2'
    | atom id' rest' =>
      cases he
      obtain ⟨⟨b', t', h1', h2', h3'⟩, h4'⟩ := h'
      cases after_unique h1 h1' h2 h2'
    | exit id' _ _ rest' =>
      cases he
      obtain ⟨⟨b', t', f', w', h1', h2', h3'⟩, h4'⟩ := h'
      cases after_unique h1 h1' h2 h2'
    | sel id' left' right' _ _ rest' =>
      cases he
      obtain ⟨b', t', f', w', m', h', h1', h2', h3', h4', h5', h6', h7', h8'⟩ := h'
      cases after_unique h1 h1' h2 h2'
      have hm : Rooted blocks ⟨m⟩ := by
        rcases entry_mem rest h3 with ⟨-, h⟩ | h
        · exact hk _ h
        · exact rooted rest h8 hk _ h
      have hm' : ∀ v, some (⟨m⟩ : BlockId) = some v → Rooted blocks v := fun v hv => by cases hv; exact hm
      show id :: (left.ids ++ right.ids ++ rest.ids) = id :: (left'.ids ++ right'.ids ++ rest'.ids)
      rw [unique left left' h6 h6' hm' (h4.trans h4'.symm), unique right right' h7 h7' hm' (h5.trans h5'.symm),
        unique rest rest' h8 h8' hk (h3.trans h3'.symm)]
    | loop id' _ _ rest' =>
      cases he
      obtain ⟨b', _, _, _, h1', h2', -⟩ := h'
      cases after_unique h1 h1' h2 h2'
  | .loop id body hi rest, s', k, hs@⟨b, t, m, h, h1, h2, h3, h4, h5, h6⟩, h', hk, he => by
    cases s' with
    | done =>
      cases k with
      | none => exact absurd rfl h'
      | some v => cases entry_shape rfl hs (hk v rfl) he
    | ret id' =>
      cases he
      obtain ⟨-, b', h1', h2'⟩ := h'
      cases after_unique h1 h1' h2 h2'
    | atom id' rest' =>
      cases he
      obtain ⟨⟨b', t', h1', h2', h3'⟩, h4'⟩ := h'
      cases after_unique h1 h1' h2 h2'
    | exit id' _ _ rest' =>
      cases he
      obtain ⟨⟨b', t', f', w', h1', h2', h3'⟩, h4'⟩ := h'
      cases after_unique h1 h1' h2 h2'
    | sel id' _ _ _ _ rest' =>
      cases he
      obtain ⟨b', _, _, _, _, _, h1', h2', -⟩ := h'
      cases after_unique h1 h1' h2 h2'
    | loop id' body' _ rest' =>
      cases he
      obtain ⟨b', t', m', h', h1', h2', h3', h4', h5', h6'⟩ := h'
      cases after_unique h1 h1' h2 h2'
      have hi : Rooted blocks id := rooted _ hs hk id List.mem_cons_self
      have hi' : ∀ v, some id = some v → Rooted blocks v := fun v hv => by cases hv; exact hi
      show id :: (body.ids ++ rest.ids) = id :: (body'.ids ++ rest'.ids)
      rw [unique body body' h5 h5' hi' (h4.trans h4'.symm), unique rest rest' h6 h6' hk (h3.trans h3'.symm)]

/-- A selection in a program comes with both its sides. -/
theorem sides : ∀ (s : Program) {k : Option BlockId}, Shape blocks k s → ∀ {y : BlockId}, y ∈ s.ids →
    ∀ {b : BasicBlock X} {t f : UInt32} {w : Option BranchWeights} {m : UInt32} {h : SelectionControl},
    blockOf blocks y = some b → endOf b = .chooseSelection t f w m h →
    ∃ left right, Shape blocks (some ⟨m⟩) left ∧ Shape blocks (some ⟨m⟩) right ∧
      left.entry (some ⟨m⟩) = some ⟨t⟩ ∧ right.entry (some ⟨m⟩) = some ⟨f⟩ ∧
      left.ids.length < s.ids.length ∧ right.ids.length < s.ids.length
  | .done, _, _, _, hy, _, _, _, _, _, _, _, _ => by cases hy
  | .ret id, _, ⟨_, b', h1', h2'⟩, y, hy, b, t, f, w, m, h, h1, h2 => by
    cases List.mem_singleton.mp hy
    cases after_unique h1 h1' h2 h2'
  | .atom id rest, _, ⟨⟨b', t', h1', h2', _⟩, h4⟩, y, hy, b, t, f, w, m, h, h1, h2 => by
    rcases List.mem_cons.mp hy with rfl | hy
    · cases after_unique h1 h1' h2 h2'
    · obtain ⟨l, r, a1, a2, a3, a4, a5, a6⟩ := sides rest h4 hy h1 h2
      exact ⟨l, r, a1, a2, a3, a4, Nat.lt_succ_of_lt a5, Nat.lt_succ_of_lt a6⟩
  | .exit id _ _ rest, _, ⟨⟨b', t', _, _, h1', h2', _⟩, h4⟩, y, hy, b, t, f, w, m, h, h1, h2 => by
    rcases List.mem_cons.mp hy with rfl | hy
    · cases after_unique h1 h1' h2 h2'
    · obtain ⟨l, r, a1, a2, a3, a4, a5, a6⟩ := sides rest h4 hy h1 h2
      exact ⟨l, r, a1, a2, a3, a4, Nat.lt_succ_of_lt a5, Nat.lt_succ_of_lt a6⟩
  | .sel id left right hi we rest, _, ⟨b', t', f', w', m', h', h1', h2', h3', h4', h5', h6', h7', h8'⟩, y, hy, b, t, f, w,
      m, h, h1, h2 => by
    have el : (left.ids ++ right.ids ++ rest.ids).length = left.ids.length + right.ids.length + rest.ids.length := by
      rw [List.length_append, List.length_append]
    have es : (Program.ids (.sel id left right hi we rest)).length =
      left.ids.length + right.ids.length + rest.ids.length + 1 := congrArg (· + 1) el
    rw [es]
    rcases List.mem_cons.mp hy with rfl | hy
    · cases after_unique h1 h1' h2 h2'
      exact ⟨left, right, h6', h7', h4', h5', by omega, by omega⟩
    · rcases List.mem_append.mp hy with hy | hy
      · rcases List.mem_append.mp hy with hy | hy
        · obtain ⟨l, r, a1, a2, a3, a4, a5, a6⟩ := sides left h6' hy h1 h2
          exact ⟨l, r, a1, a2, a3, a4, by omega, by omega⟩
        · obtain ⟨l, r, a1, a2, a3, a4, a5, a6⟩ := sides right h7' hy h1 h2
          exact ⟨l, r, a1, a2, a3, a4, by omega, by omega⟩
      · obtain ⟨l, r, a1, a2, a3, a4, a5, a6⟩ := sides rest h8' hy h1 h2
        exact ⟨l, r, a1, a2, a3, a4, by omega, by omega⟩
  | .loop id body hi rest, _, ⟨b', t', m', h', h1', h2', h3', h4', h5', h6'⟩, y, hy, b, t, f, w, m, h, h1, h2 => by
    have es : (Program.ids (.loop id body hi rest)).length = body.ids.length + rest.ids.length + 1 :=
      congrArg (· + 1) List.length_append
    rw [es]
    rcases List.mem_cons.mp hy with rfl | hy
    · cases after_unique h1 h1' h2 h2'
    · rcases List.mem_append.mp hy with hy | hy
      · obtain ⟨l, r, a1, a2, a3, a4, a5, a6⟩ := sides body h5' hy h1 h2
        exact ⟨l, r, a1, a2, a3, a4, by omega, by omega⟩
      · obtain ⟨l, r, a1, a2, a3, a4, a5, a6⟩ := sides rest h6' hy h1 h2
        exact ⟨l, r, a1, a2, a3, a4, by omega, by omega⟩

/-- A selection is not inside itself, on either side. -/
theorem not_inside {y : BlockId} {b : BasicBlock X} {t f : UInt32} {w : Option BranchWeights} {m : UInt32}
    {h : SelectionControl} (h1 : blockOf blocks y = some b) (h2 : endOf b = .chooseSelection t f w m h)
    (hm : Rooted blocks ⟨m⟩) {s : Program} (hs : Shape blocks (some ⟨m⟩) s)
    (he : s.entry (some ⟨m⟩) = some ⟨t⟩ ∨ s.entry (some ⟨m⟩) = some ⟨f⟩) : y ∉ s.ids := by
  intro hy
  obtain ⟨l, r, a1, a2, a3, a4, a5, a6⟩ := sides s hs hy h1 h2
  have hm' : ∀ v, some (⟨m⟩ : BlockId) = some v → Rooted blocks v := fun v hv => by cases hv; exact hm
  rcases he with he | he
  · have := unique s l hs a1 hm' (he.trans a3.symm)
    rw [this] at a5
    omega
  · have := unique s r hs a2 hm' (he.trans a4.symm)
    rw [this] at a6
    omega

/-- Nothing on a side of a selection leads to the selection. -/
theorem apart {y m : BlockId} (hy : next blocks y = some m) (hm : Rooted blocks m) {q s : Program}
    (hq : Shape blocks (some y) q) (hs : Shape blocks (some m) s) (hn : y ∉ s.ids) : ∀ x ∈ q.ids, x ∉ s.ids := by
  intro x hx hx'
  obtain ⟨n, hu⟩ := below q hq x hx
  rcases closed_up hs hu hx' with h | ⟨j, h⟩
  · exact hn h
  · exact hm.no_cycle j (h.trans (.step hy (.refl _)))

/-! ### The end of a program -/

/-- The mentions of blocks, and `d` for the end of every body -/
def weight (d : Nat) : Program → Nat
  | .done => 0
  | .ret _ => 1
  | .atom _ rest => weight d rest + 1
  | .sel _ left right _ _ rest => (weight d left + d) + (weight d right + d) + weight d rest + 1
  | .loop _ body _ rest => (weight d body + d) + weight d rest + 1
  | .exit _ _ _ rest => weight d rest + 1

/-- A program without its last block and the construct of that -/
inductive Last (blocks : List (BasicBlock X)) (d : Nat) (v : BlockId) (p : Program) (q : Program) (y : BlockId) : Prop where
  | plain {b : BasicBlock X} : blockOf blocks y = some b → starts b = false → p.ids = q.ids ++ [y] →
      weight d p = weight d q + 1 → Last blocks d v p q y
  | loop {b : BasicBlock X} {body : Program} : blockOf blocks y = some b → starts b = true →
      p.ids = q.ids ++ y :: body.ids → weight d p = weight d q + (weight d body + d) + 1 →
      Shape blocks (some y) body → Last blocks d v p q y
  | sel {b : BasicBlock X} {t f : UInt32} {w : Option BranchWeights} {m : UInt32} {h : SelectionControl}
      {left right : Program} : blockOf blocks y = some b → endOf b = .chooseSelection t f w m h → v = ⟨m⟩ →
      p.ids = q.ids ++ y :: (left.ids ++ right.ids) →
      weight d p = weight d q + (weight d left + d) + (weight d right + d) + 1 →
      Shape blocks (some ⟨m⟩) left → Shape blocks (some ⟨m⟩) right →
      left.entry (some ⟨m⟩) = some ⟨t⟩ → right.entry (some ⟨m⟩) = some ⟨f⟩ → Last blocks d v p q y

/-- The same with more in front -/
theorem Last.front {d : Nat} {v y : BlockId} {p q p' q' : Program} (front : List BlockId) (n : Nat)
    (h : Last blocks d v p q y) (hp : p'.ids = front ++ p.ids) (hq : q'.ids = front ++ q.ids)
    (wp : weight d p' = weight d p + n) (wq : weight d q' = weight d q + n) : Last blocks d v p' q' y := by
  cases h with
  | plain h1 h2 h3 h4 => exact .plain h1 h2 (by rw [hp, hq, h3, List.append_assoc]) (by omega)
  | loop h1 h2 h3 h4 h5 => exact .loop h1 h2 (by rw [hp, hq, h3, List.append_assoc]) (by omega) h5
  | sel h1 h2 h3 h4 h5 h6 h7 h8 h9 =>
    exact .sel h1 h2 h3 (by rw [hp, hq, h4, List.append_assoc]) (by omega) h6 h7 h8 h9

theorem entry_none_or (s : Program) : s = .done ∨ ∃ x, ∀ k, s.entry k = some x := by
  cases s with
  | done => exact .inl rfl
  | _ => exact .inr ⟨_, fun _ => rfl⟩

/-- Every program that goes on has a last block. -/
theorem last (d : Nat) : ∀ (p : Program) {v : BlockId}, Shape blocks (some v) p → p ≠ .done →
    ∃ q y, Shape blocks (some y) q ∧ q.entry (some y) = p.entry (some v) ∧ next blocks y = some v ∧
      Last blocks d v p q y
  | .done, _, _, h => absurd rfl h
  | .ret _, _, ⟨h, _⟩, _ => by cases h
  | .atom id rest, v, ⟨⟨b, t, h1, h2, h3⟩, h4⟩, _ => by
    have hn : next blocks id = some ⟨t⟩ := by rw [next_eq h1, h2]; rfl
    by_cases hr : rest = .done
    · subst hr
      cases h3
      exact ⟨.done, id, (fun h => by cases h), rfl, hn, .plain h1 (by rw [starts, h2]) rfl rfl⟩
    · obtain ⟨q, y, hq, he, hy, hl⟩ := last d rest h4 hr
      exact ⟨.atom id q, y, ⟨⟨b, t, h1, h2, he.trans h3⟩, hq⟩, rfl, hy, hl.front [id] 1 rfl rfl rfl rfl⟩
  | .exit id brk w0 rest, v, ⟨⟨b, t, f, w, h1, h2, h3⟩, h4⟩, _ => by
    have hn : next blocks id = some ⟨t⟩ := by rw [next_eq h1, h2]; rfl
    by_cases hr : rest = .done
    · subst hr
      cases h3
      exact ⟨.done, id, (fun h => by cases h), rfl, hn, .plain h1 (by rw [starts, h2]) rfl rfl⟩
    · obtain ⟨q, y, hq, he, hy, hl⟩ := last d rest h4 hr
      exact ⟨.exit id brk w0 q, y, ⟨⟨b, t, f, w, h1, h2, he.trans h3⟩, hq⟩, rfl, hy, hl.front [id] 1 rfl rfl rfl rfl⟩
  | .sel id left right hi we rest, v, ⟨b, t, f, w, m, h, h1, h2, h3, h4, h5, h6, h7, h8⟩, _ => by
    have hn : next blocks id = some ⟨m⟩ := by rw [next_eq h1, h2]; rfl
    by_cases hr : rest = .done
    · subst hr
      cases h3
      refine ⟨.done, id, (fun h => by cases h), rfl, hn,
        .sel (left := left) (right := right) h1 h2 rfl ?_ ?_ h6 h7 h4 h5⟩
      · show id :: (left.ids ++ right.ids ++ []) = id :: (left.ids ++ right.ids)
        rw [List.append_nil]
      · show (weight d left + d) + (weight d right + d) + 0 + 1 = 0 + (weight d left + d) + (weight d right + d) + 1
        omega
    · obtain ⟨q, y, hq, he, hy, hl⟩ := last d rest h8 hr
      refine ⟨.sel id left right hi we q, y, ⟨b, t, f, w, m, h, h1, h2, he.trans h3, h4, h5, h6, h7, hq⟩, rfl, hy,
        hl.front (id :: (left.ids ++ right.ids)) ((weight d left + d) + (weight d right + d) + 1) rfl rfl ?_ ?_⟩
      · show (weight d left + d) + (weight d right + d) + weight d rest + 1 = _
        omega
      · show (weight d left + d) + (weight d right + d) + weight d q + 1 = _
        omega
  | .loop id body hi rest, v, ⟨b, t, m, h, h1, h2, h3, h4, h5, h6⟩, _ => by
    have hn : next blocks id = some ⟨m⟩ := by rw [next_eq h1, h2]; rfl
    by_cases hr : rest = .done
    · subst hr
      cases h3
      refine ⟨.done, id, (fun h => by cases h), rfl, hn,
        .loop (body := body) h1 (by rw [starts, h2]) ?_ ?_ h5⟩
      · show id :: (body.ids ++ []) = id :: body.ids
        rw [List.append_nil]
      · show (weight d body + d) + 0 + 1 = 0 + (weight d body + d) + 1
        omega
    · obtain ⟨q, y, hq, he, hy, hl⟩ := last d rest h6 hr
      refine ⟨.loop id body hi q, y, ⟨b, t, m, h, h1, h2, he.trans h3, h4, h5, hq⟩, rfl, hy,
        hl.front (id :: body.ids) ((weight d body + d) + 1) rfl rfl ?_ ?_⟩
      · show (weight d body + d) + weight d rest + 1 = _
        omega
      · show (weight d body + d) + weight d q + 1 = _
        omega

/-- A program that returns, without the block that does -/
theorem last_ret (d : Nat) : ∀ (p : Program), Shape blocks none p →
    ∃ q y b, Shape blocks (some y) q ∧ q.entry (some y) = p.entry none ∧ blockOf blocks y = some b ∧
      endOf b = .returns ∧ p.ids = q.ids ++ [y] ∧ weight d p = weight d q + 1
  | .done, h => absurd rfl h
  | .ret id, ⟨_, b, h1, h2⟩ => ⟨.done, id, b, (fun h => by cases h), rfl, h1, h2, rfl, rfl⟩
  | .atom id rest, ⟨⟨b, t, h1, h2, h3⟩, h4⟩ => by
    obtain ⟨q, y, b', hq, he, hb, hr, hi, hw⟩ := last_ret d rest h4
    exact ⟨.atom id q, y, b', ⟨⟨b, t, h1, h2, he.trans h3⟩, hq⟩, rfl, hb, hr, congrArg (id :: ·) hi,
      congrArg (· + 1) hw⟩
  | .exit id brk w0 rest, ⟨⟨b, t, f, w, h1, h2, h3⟩, h4⟩ => by
    obtain ⟨q, y, b', hq, he, hb, hr, hi, hw⟩ := last_ret d rest h4
    exact ⟨.exit id brk w0 q, y, b', ⟨⟨b, t, f, w, h1, h2, he.trans h3⟩, hq⟩, rfl, hb, hr, congrArg (id :: ·) hi,
      congrArg (· + 1) hw⟩
  | .sel id left right hi we rest, ⟨b, t, f, w, m, h, h1, h2, h3, h4, h5, h6, h7, h8⟩ => by
    obtain ⟨q, y, b', hq, he, hb, hr, hids, hw⟩ := last_ret d rest h8
    refine ⟨.sel id left right hi we q, y, b', ⟨b, t, f, w, m, h, h1, h2, he.trans h3, h4, h5, h6, h7, hq⟩, rfl, hb, hr,
      ?_, ?_⟩
    · show id :: (left.ids ++ right.ids ++ rest.ids) = id :: (left.ids ++ right.ids ++ q.ids) ++ [y]
      rw [hids, List.cons_append, List.append_assoc (left.ids ++ right.ids)]
    · show (weight d left + d) + (weight d right + d) + weight d rest + 1 =
        (weight d left + d) + (weight d right + d) + weight d q + 1 + 1
      omega
  | .loop id body hi rest, ⟨b, t, m, h, h1, h2, h3, h4, h5, h6⟩ => by
    obtain ⟨q, y, b', hq, he, hb, hr, hids, hw⟩ := last_ret d rest h6
    refine ⟨.loop id body hi q, y, b', ⟨b, t, m, h, h1, h2, he.trans h3, h4, h5, hq⟩, rfl, hb, hr, ?_, ?_⟩
    · show id :: (body.ids ++ rest.ids) = id :: (body.ids ++ q.ids) ++ [y]
      rw [hids, List.cons_append, List.append_assoc body.ids]
    · show (weight d body + d) + weight d rest + 1 = (weight d body + d) + weight d q + 1 + 1
      omega

/-! ### Counting -/

/-- How many of the blocks that a list mentions have a property -/
def count (blocks : List (BasicBlock X)) (q : BasicBlock X → Bool) (ids : List BlockId) : Nat :=
  blocks.countP fun b => q b && decide (⟨labelId b⟩ ∈ ids)

theorem countP_add {α : Type} (p q r : α → Bool) : ∀ (l : List α), (∀ a ∈ l, p a = true → r a = true) →
    (∀ a ∈ l, q a = true → r a = true) → (∀ a ∈ l, p a = true → q a = true → False) →
    l.countP p + l.countP q ≤ l.countP r
  | [], _, _, _ => Nat.le_refl _
  | a :: l, hp, hq, hd => by
    have ih := countP_add p q r l (fun a h => hp a (List.mem_cons_of_mem _ h))
      (fun a h => hq a (List.mem_cons_of_mem _ h)) (fun a h => hd a (List.mem_cons_of_mem _ h))
    rw [List.countP_cons, List.countP_cons, List.countP_cons]
    have h1 := hp a List.mem_cons_self
    have h2 := hq a List.mem_cons_self
    have h3 := hd a List.mem_cons_self
    cases ha : p a <;> cases hb : q a <;> cases hc : r a <;> simp_all <;> omega

theorem count_mono (q : BasicBlock X → Bool) {ids ids' : List BlockId} (h : ∀ x ∈ ids, x ∈ ids') :
    count blocks q ids ≤ count blocks q ids' := by
  refine List.countP_mono_left fun b _ hb => ?_
  rw [Bool.and_eq_true, decide_eq_true_iff] at hb ⊢
  exact ⟨hb.1, h _ hb.2⟩

theorem count_add (q : BasicBlock X → Bool) {a b ids : List BlockId} (ha : ∀ x ∈ a, x ∈ ids) (hb : ∀ x ∈ b, x ∈ ids)
    (hd : ∀ x ∈ a, x ∉ b) : count blocks q a + count blocks q b ≤ count blocks q ids := by
  refine countP_add _ _ _ _ (fun c _ hc => ?_) (fun c _ hc => ?_) (fun c _ hc hc' => ?_)
  · rw [Bool.and_eq_true, decide_eq_true_iff] at hc ⊢
    exact ⟨hc.1, ha _ hc.2⟩
  · rw [Bool.and_eq_true, decide_eq_true_iff] at hc ⊢
    exact ⟨hc.1, hb _ hc.2⟩
  · rw [Bool.and_eq_true, decide_eq_true_iff] at hc hc'
    exact hd _ hc.2 hc'.2

theorem count_one (q : BasicBlock X → Bool) {y : BlockId} {b : BasicBlock X} (h : blockOf blocks y = some b)
    (hq : q b = true) : 1 ≤ count blocks q [y] := by
  obtain ⟨hm, hl⟩ := blockOf_some h
  refine List.countP_pos_iff.mpr ⟨b, hm, ?_⟩
  rw [Bool.and_eq_true, decide_eq_true_iff]
  exact ⟨hq, List.mem_singleton.mpr (by rw [hl])⟩

/-- One more block -/
theorem count_more (q : BasicBlock X → Bool) {y : BlockId} {b : BasicBlock X} (h : blockOf blocks y = some b)
    (hq : q b = true) {a ids : List BlockId} (ha : ∀ x ∈ a, x ∈ ids) (hy : y ∈ ids) (hn : y ∉ a) :
    count blocks q a + 1 ≤ count blocks q ids := by
  have h1 := count_add (blocks := blocks) q ha (b := [y]) (fun x hx => by rw [List.mem_singleton.mp hx]; exact hy)
    (fun x hx hx' => hn (by rw [← List.mem_singleton.mp hx']; exact hx))
  have h2 := count_one q h hq
  omega

/-! ### The bound -/

/-- The bound for `a` blocks without and `h` with a construct, where `c` is what a construct adds to itself -/
def most (c a h : Nat) : Nat := (a + c) * 2 ^ h

theorem most_mono {c a a' h h' : Nat} (ha : a ≤ a') (hh : h ≤ h') : most c a h ≤ most c a' h' :=
  Nat.mul_le_mul (Nat.add_le_add_right ha c) (Nat.pow_le_pow_right (by decide) hh)

theorem most_succ (c a h : Nat) : most c a h + 1 ≤ most c (a + 1) h := by
  have h2 : 1 ≤ 2 ^ h := Nat.pos_of_ne_zero (by simp)
  rw [most, most, Nat.add_right_comm, Nat.succ_mul]
  omega

theorem most_double (c a h : Nat) : most c a (h + 1) = 2 * most c a h := by
  rw [most, most, Nat.pow_succ, ← Nat.mul_assoc, Nat.mul_comm]

theorem most_add {c : Nat} (a a' h h' : Nat) :
    most c a h + most c a' h' ≤ most c (a + a') (h + h') + c := by
  rw [most, most, most, Nat.pow_add]
  obtain ⟨x, hx⟩ : ∃ x, 2 ^ h = x + 1 := ⟨2 ^ h - 1, by have : 1 ≤ 2 ^ h := Nat.pos_of_ne_zero (by simp); omega⟩
  obtain ⟨y, hy⟩ : ∃ y, 2 ^ h' = y + 1 := ⟨2 ^ h' - 1, by have : 1 ≤ 2 ^ h' := Nat.pos_of_ne_zero (by simp); omega⟩
  rw [hx, hy]
  have e1 : (x + 1) * (y + 1) = x * y + x + y + 1 := by rw [Nat.succ_mul, Nat.mul_succ]; omega
  rw [e1]
  simp only [Nat.add_mul, Nat.mul_add, Nat.mul_one]
  have := Nat.zero_le (a * (x * y) + a * y + a' * (x * y) + a' * x + c * (x * y))
  omega

/-- The weight of what ends at a block is bounded by the numbers of the blocks in it. -/
theorem bound (d : Nat) : ∀ (n : Nat) (p : Program) {v : BlockId}, p.ids.length ≤ n → Shape blocks (some v) p →
    Rooted blocks v → weight d p + (1 + 2 * d) ≤
      most (1 + 2 * d) (count blocks (fun b => !starts b) p.ids) (count blocks starts p.ids) := by
  intro n
  induction n with
  | zero =>
    intro p v hn hs _
    cases p with
    | done =>
      show 0 + (1 + 2 * d) ≤ (_ + (1 + 2 * d)) * 2 ^ _
      have h2 : 1 ≤ 2 ^ count blocks starts (Program.done).ids := Nat.pos_of_ne_zero (by simp)
      have := Nat.mul_le_mul (Nat.le_add_left (1 + 2 * d) (count blocks (fun b => !starts b) (Program.done).ids)) h2
      omega
    | _ => exact absurd hn (Nat.not_succ_le_zero _)
  | succ n ih =>
    intro p v hn hs hv
    by_cases hp : p = .done
    · subst hp
      exact ih .done (Nat.zero_le _) hs hv
    obtain ⟨q, y, hq, he, hy, hl⟩ := last d p hs hp
    have ry : Rooted blocks y := hv.before hy
    have nq : y ∉ q.ids := end_not_mem hq ry
    cases hl with
    | plain h1 h2 h3 h4 =>
      rw [h3, List.length_append, List.length_singleton] at hn
      have hb := ih q (by omega) hq ry
      have c1 := count_more (blocks := blocks) (fun b => !starts b) (a := q.ids) (ids := p.ids) h1 (by simp [h2])
        (fun x hx => by rw [h3]; exact List.mem_append_left _ hx) (by rw [h3]; simp) nq
      have c2 := count_mono (blocks := blocks) starts (ids := q.ids) (ids' := p.ids)
        (fun x hx => by rw [h3]; exact List.mem_append_left _ hx)
      have m1 := most_succ (1 + 2 * d) (count blocks (fun b => !starts b) q.ids) (count blocks starts q.ids)
      have m2 := most_mono (c := 1 + 2 * d) c1 c2
      omega
    | @loop b body h1 h2 h3 h4 h5 =>
      rw [h3, List.length_append, List.length_cons] at hn
      have hb := ih q (by omega) hq ry
      have hb' := ih body (by omega) h5 ry
      have c1 := count_more (blocks := blocks) starts (a := q.ids) (ids := p.ids) h1 h2
        (fun x hx => by rw [h3]; exact List.mem_append_left _ hx) (by rw [h3]; simp) nq
      have c2 := count_mono (blocks := blocks) (fun b => !starts b) (ids := q.ids) (ids' := p.ids)
        (fun x hx => by rw [h3]; exact List.mem_append_left _ hx)
      have c3 := count_more (blocks := blocks) starts (a := body.ids) (ids := p.ids) h1 h2
        (fun x hx => by rw [h3]; simp [hx]) (by rw [h3]; simp) (end_not_mem h5 ry)
      have c4 := count_mono (blocks := blocks) (fun b => !starts b) (ids := body.ids) (ids' := p.ids)
        (fun x hx => by rw [h3]; simp [hx])
      obtain ⟨k, hk⟩ : ∃ k, count blocks starts p.ids = k + 1 := ⟨count blocks starts p.ids - 1, by omega⟩
      rw [hk] at c1 c3 ⊢
      rw [most_double]
      have m1 := most_mono (c := 1 + 2 * d) c2 (Nat.le_of_succ_le_succ c1)
      have m2 := most_mono (c := 1 + 2 * d) c4 (Nat.le_of_succ_le_succ c3)
      omega
    | @sel b t f w m h left right h1 h2 hvm h3 h4 h6 h7 h8 h9 =>
      subst hvm
      rw [h3, List.length_append, List.length_cons, List.length_append] at hn
      have hst : starts b = true := by rw [starts, h2]
      have nl : y ∉ left.ids := not_inside h1 h2 hv h6 (.inl h8)
      have nr : y ∉ right.ids := not_inside h1 h2 hv h7 (.inr h9)
      have hb := ih q (by omega) hq ry
      have hb' := ih left (by omega) h6 hv
      have hb'' := ih right (by omega) h7 hv
      have c1 := count_more (blocks := blocks) starts (a := left.ids) (ids := p.ids) h1 hst
        (fun x hx => by rw [h3]; simp [hx]) (by rw [h3]; simp) nl
      have c2 := count_mono (blocks := blocks) (fun b => !starts b) (ids := left.ids) (ids' := p.ids)
        (fun x hx => by rw [h3]; simp [hx])
      have hsub : ∀ x ∈ q.ids ++ right.ids, x ∈ p.ids := fun x hx => by
        rw [h3]
        rcases List.mem_append.mp hx with hx | hx <;> simp [hx]
      have hd := apart hy hv hq h7 nr
      have c3 := count_add (blocks := blocks) starts (a := q.ids) (b := right.ids) (ids := q.ids ++ right.ids)
        (fun x hx => List.mem_append_left _ hx) (fun x hx => List.mem_append_right _ hx) hd
      have c4 := count_add (blocks := blocks) (fun b => !starts b) (a := q.ids) (b := right.ids) (ids := p.ids)
        (fun x hx => hsub x (List.mem_append_left _ hx)) (fun x hx => hsub x (List.mem_append_right _ hx)) hd
      have c5 := count_more (blocks := blocks) starts (a := q.ids ++ right.ids) (ids := p.ids) h1 hst hsub
        (by rw [h3]; simp) (fun hx => (List.mem_append.mp hx).elim nq nr)
      obtain ⟨k, hk⟩ : ∃ k, count blocks starts p.ids = k + 1 := ⟨count blocks starts p.ids - 1, by omega⟩
      rw [hk] at c1 c5 ⊢
      rw [most_double]
      have m1 := most_mono (c := 1 + 2 * d) c2 (Nat.le_of_succ_le_succ c1)
      have m2 := most_add (c := 1 + 2 * d) (count blocks (fun b => !starts b) q.ids)
        (count blocks (fun b => !starts b) right.ids) (count blocks starts q.ids) (count blocks starts right.ids)
      have m3 := most_mono (c := 1 + 2 * d) c4 (Nat.le_trans c3 (Nat.le_of_succ_le_succ c5))
      omega

theorem count_le (q : BasicBlock X → Bool) (ids : List BlockId) : count blocks q ids ≤ blocks.countP q :=
  List.countP_mono_left fun b _ hb => by rw [Bool.and_eq_true] at hb; exact hb.1

theorem countP_not (blocks : List (BasicBlock X)) :
    blocks.countP (fun b => !starts b) + headers blocks = blocks.length := by
  rw [headers, Nat.add_comm, List.length_eq_countP_add_countP starts]
  congr 2
  funext b
  cases starts b <;> rfl

/-- The weight of a program that returns -/
theorem bound_ret (d : Nat) {p : Program} (hs : Shape blocks none p) :
    weight d p + 2 * d ≤ (blocks.length - headers blocks + 2 * d) * 2 ^ headers blocks := by
  obtain ⟨q, y, b, hq, he, h1, h2, h3, h4⟩ := last_ret d p hs
  have ry : Rooted blocks y := ⟨0, y, .refl _, by rw [next_eq h1, h2]; rfl⟩
  have hb := bound d _ q (Nat.le_refl _) hq ry
  have c1 := count_more (blocks := blocks) (fun b => !starts b) (a := q.ids) (ids := p.ids) h1
    (by simp [starts, h2]) (fun x hx => by rw [h3]; exact List.mem_append_left _ hx) (by rw [h3]; simp)
    (end_not_mem hq ry)
  have c2 := count_le (blocks := blocks) (fun b => !starts b) p.ids
  have c3 := count_le (blocks := blocks) starts q.ids
  have c4 := countP_not blocks
  have m := most_mono (c := 1 + 2 * d) (a := count blocks (fun b => !starts b) q.ids)
    (a' := blocks.length - headers blocks - 1) (by omega) c3
  have e : blocks.length - headers blocks - 1 + (1 + 2 * d) = blocks.length - headers blocks + 2 * d := by omega
  rw [most, most, e] at m
  have : headers blocks = List.countP starts blocks := rfl
  rw [← this] at m
  rw [most] at hb
  omega

/-! ### Weights of chains -/

theorem weight_ids : ∀ (p : Program), weight 0 p = p.ids.length
  | .done => rfl
  | .ret _ => rfl
  | .atom _ rest => congrArg (· + 1) (weight_ids rest)
  | .exit _ _ _ rest => congrArg (· + 1) (weight_ids rest)
  | .sel id left right _ _ rest => by
    show (weight 0 left + 0) + (weight 0 right + 0) + weight 0 rest + 1 =
      (id :: (left.ids ++ right.ids ++ rest.ids)).length
    rw [weight_ids left, weight_ids right, weight_ids rest, List.length_cons, List.length_append, List.length_append]
    omega
  | .loop id body _ rest => by
    show (weight 0 body + 0) + weight 0 rest + 1 = (id :: (body.ids ++ rest.ids)).length
    rw [weight_ids body, weight_ids rest, List.length_cons, List.length_append]
    omega

theorem calls_toChain (p : Program) (k : Nat) : chainCalls p.toChain k = chainCallsAll p.toChains k := by
  cases p <;> rfl

theorem toChain_not_exit (p : Program) : p.toChain ≠ .Break ∧ p.toChain ≠ .Continue := by
  cases p <;> exact ⟨(fun h => by cases h), (fun h => by cases h)⟩

theorem weight_calls : ∀ (p : Program) (k : Nat), chainCallsAll p.toChains k = weight 1 p + k
  | .done, k => (Nat.zero_add k).symm
  | .ret _, k => Nat.add_comm k 1
  | .atom _ rest, k => by
    show chainCallsAll rest.toChains k + 1 = weight 1 rest + 1 + k
    rw [weight_calls rest]; omega
  | .exit _ brk _ rest, k => by
    cases brk
    · show chainCalls rest.toChain k + 1 = weight 1 rest + 1 + k
      rw [calls_toChain, weight_calls rest]; omega
    · show chainCalls rest.toChain k + 1 = weight 1 rest + 1 + k
      rw [calls_toChain, weight_calls rest]; omega
  | .sel id left right hi we rest, k => by
    show chainCalls (.Selection id left.toChain right.toChain hi we) (chainCallsAll rest.toChains k) =
      (weight 1 left + 1) + (weight 1 right + 1) + weight 1 rest + 1 + k
    rw [chainCalls_selection (toChain_not_exit right).1 (toChain_not_exit right).2, calls_toChain, calls_toChain,
      weight_calls left, weight_calls right, weight_calls rest]
    omega
  | .loop id body _ rest, k => by
    show chainCalls body.toChain 1 + chainCallsAll rest.toChains k + 1 = (weight 1 body + 1) + weight 1 rest + 1 + k
    rw [calls_toChain, weight_calls body, weight_calls rest]
    omega

end Magma.Largest
