import Verif.Spec.Excerpt
import Verif.Spec.Structured
import Verif.Proofs.Course
import Verif.Proofs.Live
/-! Parts of structured programs by themselves. -/

namespace Magma.Excerpt
open Spec Spec.Program
variable {X Y : Type}

/-- `SpelledBy`, by how blocks end -/
def Spelt (ends : BlockId → Option BlockEnd) : Option (BlockId × BlockId) → Option BlockId → Program → Prop
  | _, k, .done => k ≠ none
  | _, k, .ret id => k = none ∧ ends id = some .returns
  | lp, k, .atom id rest => (∃ t, ends id = some (.goto t) ∧ rest.entry k = some ⟨t⟩) ∧ Spelt ends lp k rest
  | lp, k, .sel id left right hint w rest =>
    ∃ t f m, ends id = some (.chooseSelection t f w m hint) ∧ rest.entry k = some ⟨m⟩ ∧ left.entry (some ⟨m⟩) = some ⟨t⟩ ∧
      right.entry (some ⟨m⟩) = some ⟨f⟩ ∧ Spelt ends lp (some ⟨m⟩) left ∧ Spelt ends lp (some ⟨m⟩) right ∧ Spelt ends lp k rest
  | lp, k, .loop id body hint rest =>
    ∃ t m, ends id = some (.gotoLoop t m hint) ∧ rest.entry k = some ⟨m⟩ ∧ body.entry (some id) = some ⟨t⟩ ∧
      Spelt ends (some (id, ⟨m⟩)) (some id) body ∧ Spelt ends lp k rest
  | lp, k, .exit id brk w rest =>
    ∃ h m t f, lp = some (h, m) ∧ k = some h ∧ ends id = some (.choose t f w) ∧ (⟨f⟩ : BlockId) = (if brk then m else h) ∧
      rest.entry k = some ⟨t⟩ ∧ Spelt ends lp k rest

/-- How the block with a label ends -/
def endsOf (blocks : List (BasicBlock X)) (id : BlockId) : Option BlockEnd := (blockOf blocks id).map endOf

section
variable {b : BasicBlock X}

theorem returns_iff : endOf b = .returns ↔ ∃ r, b.branch = .OpReturn r := by
  unfold endOf
  rcases b.branch with op | op | op <;> rcases b.merge with _ | m | m <;> simp <;> exact ⟨op, trivial⟩

theorem goto_iff {t : UInt32} :
    endOf b = .goto t ↔ ∃ op, b.merge = none ∧ b.branch = .OpBranch op ∧ op.target_label.val = t := by
  unfold endOf
  rcases b.branch with op | op | op <;> rcases b.merge with _ | m | m <;> simp

theorem gotoLoop_iff {t m : UInt32} {hint : LoopControl} :
    endOf b = .gotoLoop t m hint ↔ ∃ op lm, b.merge = some (.OpLoopMerge lm) ∧ b.branch = .OpBranch op ∧
      op.target_label.val = t ∧ lm.merge_block.val = m ∧ lm.loop_control = hint := by
  unfold endOf
  rcases b.branch with op | op | op <;> rcases b.merge with _ | m | m <;> simp

theorem choose_iff {t f : UInt32} {w : Option BranchWeights} :
    endOf b = .choose t f w ↔ ∃ op, b.merge = none ∧ b.branch = .OpBranchConditional op ∧
      op.true_label.val = t ∧ op.false_label.val = f ∧ op.weights = w := by
  unfold endOf
  rcases b.branch with op | op | op <;> rcases b.merge with _ | m | m <;> simp

theorem chooseSelection_iff {t f m : UInt32} {w : Option BranchWeights} {hint : SelectionControl} :
    endOf b = .chooseSelection t f w m hint ↔ ∃ op sm, b.merge = some (.OpSelectionMerge sm) ∧
      b.branch = .OpBranchConditional op ∧ op.true_label.val = t ∧ op.false_label.val = f ∧ op.weights = w ∧
      sm.merge_block.val = m ∧ sm.selection_control = hint := by
  unfold endOf
  rcases b.branch with op | op | op <;> rcases b.merge with _ | m | m <;> simp

end

theorem endsOf_iff {blocks : List (BasicBlock X)} {id : BlockId} {e : BlockEnd} :
    endsOf blocks id = some e ↔ ∃ b, blockOf blocks id = some b ∧ endOf b = e := Option.map_eq_some_iff

theorem spelt_iff {blocks : List (BasicBlock X)} : ∀ (s : Program) (lp : Option (BlockId × BlockId)) (k : Option BlockId),
    s.SpelledBy blocks lp k ↔ Spelt (endsOf blocks) lp k s := by
  intro s
  induction s with
  | done => exact fun _ _ => Iff.rfl
  | ret id =>
    intro lp k
    simp only [SpelledBy, Spelt, endsOf_iff, returns_iff]
    exact and_congr_right fun _ => ⟨fun ⟨b, r, h1, h2⟩ => ⟨b, h1, r, h2⟩, fun ⟨b, h1, r, h2⟩ => ⟨b, r, h1, h2⟩⟩
  | atom id rest ih =>
    intro lp k
    simp only [SpelledBy, Spelt, endsOf_iff, goto_iff, ih]
    refine and_congr_left fun _ => ⟨?_, ?_⟩
    · rintro ⟨b, op, h1, h2, h3, h4⟩
      exact ⟨_, ⟨b, h1, op, h2, h3, rfl⟩, h4⟩
    · rintro ⟨_, ⟨b, h1, op, h2, h3, rfl⟩, h4⟩
      exact ⟨b, op, h1, h2, h3, h4⟩
  | sel id left right hint w rest ihl ihr ih =>
    intro lp k
    simp only [SpelledBy, Spelt, endsOf_iff, chooseSelection_iff, ih, ihl, ihr]
    constructor
    · rintro ⟨b, op, sm, h1, h2, h3, h4, h5, h6⟩
      exact ⟨_, _, _, ⟨b, h1, op, sm, h2, h3, rfl, rfl, h5, rfl, h4⟩, h6⟩
    · rintro ⟨_, _, _, ⟨b, h1, op, sm, h2, h3, rfl, rfl, h5, rfl, h4⟩, h6⟩
      exact ⟨b, op, sm, h1, h2, h3, h4, h5, h6⟩
  | loop id body hint rest ihb ih =>
    intro lp k
    simp only [SpelledBy, Spelt, endsOf_iff, gotoLoop_iff, ih, ihb]
    constructor
    · rintro ⟨b, op, lm, h1, h2, h3, h4, h5⟩
      exact ⟨_, _, ⟨b, h1, op, lm, h2, h3, rfl, rfl, h4⟩, h5⟩
    · rintro ⟨_, _, ⟨b, h1, op, lm, h2, h3, rfl, rfl, h4⟩, h5⟩
      exact ⟨b, op, lm, h1, h2, h3, h4, h5⟩
  | exit id brk w rest ih =>
    intro lp k
    simp only [SpelledBy, Spelt, endsOf_iff, choose_iff, ih]
    constructor
    · rintro ⟨h, m, b, op, h1, h2, h3, h4, h5, h6, h7, h8⟩
      exact ⟨h, m, _, _, h1, h2, ⟨b, h3, op, h4, h5, rfl, rfl, h6⟩, h7, h8⟩
    · rintro ⟨h, m, _, _, h1, h2, ⟨b, h3, op, h4, h5, rfl, rfl, h6⟩, h7, h8⟩
      exact ⟨h, m, b, op, h1, h2, h3, h4, h5, h6, h7, h8⟩

/-- Only the blocks of the program count. -/
theorem Spelt.congr {ends ends' : BlockId → Option BlockEnd} : ∀ {s : Program} {lp : Option (BlockId × BlockId)}
    {k : Option BlockId}, (∀ x ∈ s.ids, ∀ e, ends x = some e → ends' x = some e) → Spelt ends lp k s → Spelt ends' lp k s := by
  intro s
  induction s with
  | done => exact fun _ h => h
  | ret id => exact fun hx h => ⟨h.1, hx id List.mem_cons_self _ h.2⟩
  | atom id rest ih =>
    rintro lp k hx ⟨⟨t, h1, h2⟩, h3⟩
    exact ⟨⟨t, hx id List.mem_cons_self _ h1, h2⟩, ih (fun x h => hx x (List.mem_cons_of_mem _ h)) h3⟩
  | exit id brk w rest ih =>
    rintro lp k hx ⟨h, m, t, f, h1, h2, h3, h4, h5, h6⟩
    exact ⟨h, m, t, f, h1, h2, hx id List.mem_cons_self _ h3, h4, h5,
      ih (fun x h => hx x (List.mem_cons_of_mem _ h)) h6⟩
  | sel id left right hint w rest ihl ihr ih =>
    rintro lp k hx ⟨t, f, m, h1, h2, h3, h4, h5, h6, h7⟩
    exact ⟨t, f, m, hx id List.mem_cons_self _ h1, h2, h3, h4, ihl (fun x h => hx x (by simp [ids, h])) h5,
      ihr (fun x h => hx x (by simp [ids, h])) h6, ih (fun x h => hx x (by simp [ids, h])) h7⟩
  | loop id body hint rest ihb ih =>
    rintro lp k hx ⟨t, m, h1, h2, h3, h4, h5⟩
    exact ⟨t, m, hx id List.mem_cons_self _ h1, h2, h3, ihb (fun x h => hx x (by simp [ids, h])) h4,
      ih (fun x h => hx x (by simp [ids, h])) h5⟩

/-- The program, and then the block `m` returns -/
def close (m : BlockId) : Program → Program
  | .done => .ret m
  | .ret id => .ret id
  | .atom id rest => .atom id (close m rest)
  | .sel id left right hint w rest => .sel id left right hint w (close m rest)
  | .loop id body hint rest => .loop id body hint (close m rest)
  | .exit id brk w rest => .exit id brk w (close m rest)

/-- No block of the program leaves a loop around it. -/
def NoExit : Program → Prop
  | .done => True
  | .ret _ => True
  | .atom _ rest => NoExit rest
  | .sel _ left right _ _ rest => NoExit left ∧ NoExit right ∧ NoExit rest
  | .loop _ _ _ rest => NoExit rest
  | .exit _ _ _ _ => False

theorem close_entry (m : BlockId) (s : Program) : (close m s).entry none = s.entry (some m) := by
  cases s <;> rfl

/-- A program without exits does not depend on the loop around it. -/
theorem Spelt.loops {ends : BlockId → Option BlockEnd} : ∀ {s : Program} {lp : Option (BlockId × BlockId)}
    {k : Option BlockId}, NoExit s → Spelt ends lp k s → Spelt ends none k s := by
  intro s
  induction s with
  | done => exact fun _ h => h
  | ret id => exact fun _ h => h
  | atom id rest ih => exact fun n h => ⟨h.1, ih n h.2⟩
  | exit id brk w rest ih => exact fun n => n.elim
  | sel id left right hint w rest ihl ihr ih =>
    rintro lp k ⟨n1, n2, n3⟩ ⟨t, f, m, h1, h2, h3, h4, h5, h6, h7⟩
    exact ⟨t, f, m, h1, h2, h3, h4, ihl n1 h5, ihr n2 h6, ih n3 h7⟩
  | loop id body hint rest ihb ih =>
    rintro lp k n ⟨t, m, h1, h2, h3, h4, h5⟩
    exact ⟨t, m, h1, h2, h3, h4, ih n h5⟩

theorem close_spelt {ends : BlockId → Option BlockEnd} {m : BlockId} (hm : ends m = some .returns) : ∀ {s : Program}
    {lp : Option (BlockId × BlockId)}, NoExit s → Spelt ends lp (some m) s → Spelt ends none none (close m s) := by
  intro s
  induction s with
  | done => exact fun _ _ => ⟨rfl, hm⟩
  | ret id => exact fun _ h => absurd h.1 (by simp)
  | atom id rest ih => exact fun n h => ⟨by rw [close_entry]; exact h.1, ih n h.2⟩
  | exit id brk w rest ih => exact fun n => n.elim
  | sel id left right hint w rest ihl ihr ih =>
    rintro lp ⟨n1, n2, n3⟩ ⟨t, f, m', h1, h2, h3, h4, h5, h6, h7⟩
    exact ⟨t, f, m', h1, by rw [close_entry]; exact h2, h3, h4, h5.loops n1, h6.loops n2, ih n3 h7⟩
  | loop id body hint rest ihb ih =>
    rintro lp n ⟨t, m', h1, h2, h3, h4, h5⟩
    exact ⟨t, m', h1, by rw [close_entry]; exact h2, h3, h4, ih n h5⟩

theorem nested_less : ∀ {s : Program} {avoid avoid' : List BlockId} {k : Option BlockId}, (∀ x ∈ avoid', x ∈ avoid) →
    s.Nested avoid k → s.Nested avoid' k := by
  intro s
  induction s with
  | done => exact fun _ _ => trivial
  | ret id => exact fun hx h hm => h (hx _ hm)
  | atom id rest ih => exact fun hx h => ⟨fun hm => h.1 (hx _ hm), ih hx h.2⟩
  | exit id brk w rest ih => exact fun hx h => ⟨fun hm => h.1 (hx _ hm), ih hx h.2⟩
  | sel id left right hint w rest ihl ihr ih =>
    intro avoid avoid' k hx h
    have up : ∀ x ∈ (rest.entry k).toList ++ avoid', x ∈ (rest.entry k).toList ++ avoid := fun x hm =>
      (List.mem_append.mp hm).elim (fun h => List.mem_append_left _ h) (fun h => List.mem_append_right _ (hx x h))
    exact ⟨fun hm => h.1 (hx _ hm), ihl up h.2.1, ihr up h.2.2.1, ih hx h.2.2.2⟩
  | loop id body hint rest ihb ih =>
    intro avoid avoid' k hx h
    have up : ∀ x ∈ id :: avoid', x ∈ id :: avoid := fun x hm =>
      (List.mem_cons.mp hm).elim (fun h => h ▸ List.mem_cons_self) (fun h => List.mem_cons_of_mem _ (hx x h))
    exact ⟨fun hm => h.1 (hx _ hm), ihb up h.2.1, ih hx h.2.2⟩

theorem close_nested {m : BlockId} : ∀ {s : Program} {avoid : List BlockId}, s.Nested avoid (some m) →
    (close m s).Nested [] none := by
  intro s
  induction s with
  | done => exact fun _ => List.not_mem_nil
  | ret id => exact fun _ => List.not_mem_nil
  | atom id rest ih => exact fun h => ⟨List.not_mem_nil, ih h.2⟩
  | exit id brk w rest ih => exact fun h => ⟨List.not_mem_nil, ih h.2⟩
  | sel id left right hint w rest ihl ihr ih =>
    intro avoid h
    obtain ⟨-, h2, h3, h4⟩ := h
    refine ⟨List.not_mem_nil, ?_, ?_, ih h4⟩ <;> rw [close_entry]
    · exact nested_less (fun x hm => by simpa using Or.inl hm) h2
    · exact nested_less (fun x hm => by simpa using Or.inl hm) h3
  | loop id body hint rest ihb ih =>
    intro avoid h
    obtain ⟨-, h2, h3⟩ := h
    exact ⟨List.not_mem_nil, nested_less (fun x hm => by simpa using Or.inl hm) h2, ih h3⟩

theorem nested_off : ∀ {s : Program} {avoid : List BlockId} {k : Option BlockId} {x : BlockId}, x ∈ avoid →
    s.Nested avoid k → x ∉ s.ids := by
  intro s
  induction s with
  | done => exact fun _ _ => List.not_mem_nil
  | ret id => intro avoid k x hx h hm; cases List.mem_singleton.mp hm; exact h hx
  | atom id rest ih =>
    intro avoid k x hx h hm
    rcases List.mem_cons.mp hm with rfl | hm
    · exact h.1 hx
    · exact ih hx h.2 hm
  | exit id brk w rest ih =>
    intro avoid k x hx h hm
    rcases List.mem_cons.mp hm with rfl | hm
    · exact h.1 hx
    · exact ih hx h.2 hm
  | sel id left right hint w rest ihl ihr ih =>
    intro avoid k x hx h hm
    simp only [ids, List.mem_cons, List.mem_append] at hm
    rcases hm with rfl | (hm | hm) | hm
    · exact h.1 hx
    · exact ihl (List.mem_append_right _ hx) h.2.1 hm
    · exact ihr (List.mem_append_right _ hx) h.2.2.1 hm
    · exact ih hx h.2.2.2 hm
  | loop id body hint rest ihb ih =>
    intro avoid k x hx h hm
    simp only [ids, List.mem_cons, List.mem_append] at hm
    rcases hm with rfl | hm | hm
    · exact h.1 hx
    · exact ihb (List.mem_cons_of_mem _ hx) h.2.1 hm
    · exact ih hx h.2.2 hm

theorem noExit_iff (s : Program) : (SelfContained s.toChain ↔ NoExit s) ∧ (SelfContainedAll s.toChains ↔ NoExit s) := by
  induction s with
  | done => simp [toChain, toChains, SelfContained, SelfContainedAll, NoExit]
  | ret id => simp [toChain, toChains, SelfContained, SelfContainedAll, NoExit]
  | atom id rest ih => simp [toChain, toChains, SelfContained, SelfContainedAll, NoExit, ih]
  | exit id brk w rest ih => cases brk <;> simp [toChain, toChains, SelfContained, SelfContainedAll, NoExit]
  | sel id l r hint w rest ihl ihr ih =>
    simp [toChain, toChains, SelfContained, SelfContainedAll, NoExit, ihl, ihr, ih, and_assoc]
  | loop id body hint rest ihb ih => simp [toChain, toChains, SelfContained, SelfContainedAll, NoExit, ih]

theorem close_toChains (m : BlockId) : ∀ (s : Program), NoExit s → (∃ ends lp k, Spelt ends lp (some k) s) →
    (close m s).toChains = s.toChains ++ [.Atom m] := by
  intro s
  induction s with
  | done => exact fun _ _ => rfl
  | ret id => rintro - ⟨_, _, _, h, -⟩; cases h
  | atom id rest ih =>
    rintro n ⟨e, lp, k, h⟩
    simp only [close, toChains, ih n ⟨e, lp, k, h.2⟩, List.cons_append]
  | exit id brk w rest ih => exact fun n => n.elim
  | sel id l r hint w rest ihl ihr ih =>
    rintro ⟨-, -, n⟩ ⟨e, lp, k, h⟩
    obtain ⟨_, _, _, -, -, -, -, -, -, h⟩ := h
    simp only [close, toChains, ih n ⟨e, lp, k, h⟩, List.cons_append]
  | loop id body hint rest ihb ih =>
    rintro n ⟨e, lp, k, h⟩
    obtain ⟨_, _, -, -, -, -, h⟩ := h
    simp only [close, toChains, ih n ⟨e, lp, k, h⟩, List.cons_append]

theorem close_toChain {ends : BlockId → Option BlockEnd} {lp : Option (BlockId × BlockId)} {k : BlockId} {m : UInt32}
    {s : Program} (n : NoExit s) (h : Spelt ends lp (some k) s) : (close ⟨m⟩ s).toChain = followedBy s.toChain m := by
  have hc := close_toChains ⟨m⟩ s n ⟨_, _, _, h⟩
  cases s with
  | done => rfl
  | ret id => cases h.1
  | exit => exact n.elim
  | atom | sel | loop =>
    simp only [close, toChains, toChain, followedBy, itemsOf] at hc ⊢
    rw [hc]

theorem ids_toChain (s : Program) : chainIds s.toChain = s.ids.map BlockId.val ∧
    chainIdsAll s.toChains = s.ids.map BlockId.val := by
  induction s with
  | done => exact ⟨rfl, rfl⟩
  | ret id => exact ⟨rfl, rfl⟩
  | atom id rest ih => simp [toChain, toChains, chainIds, chainIdsAll, ids, ih.2]
  | exit id brk w rest ih => cases brk <;> simp [toChain, toChains, chainIds, chainIdsAll, ids, ih.1]
  | sel id l r hint w rest ihl ihr ih => simp [toChain, toChains, chainIds, chainIdsAll, ids, ih.2, ihl.1, ihr.1]
  | loop id body hint rest ihb ih => simp [toChain, toChains, chainIds, chainIdsAll, ids, ih.2, ihb.1]

/-- A chain that is not a block is inside of one of the items. -/
theorem inside_items {c : ControlFlowChain} (hc : ∀ l, c ≠ .Block l) {s : Program} (h : PartOf c s.toChain) :
    ∃ i ∈ s.toChains, PartOf c i := by
  cases s with
  | ret id => exact ⟨_, List.mem_singleton.mpr rfl, h⟩
  | exit id brk w rest => exact ⟨_, List.mem_singleton.mpr rfl, h⟩
  | done | atom | sel | loop =>
    simp only [toChain] at h
    cases h with
    | whole => exact (hc _ rfl).elim
    | item hm hi => exact ⟨_, hm, hi⟩

section
variable {ends : BlockId → Option BlockEnd} {x : BlockId}

/-- Where a selection is found, there is the program for it. -/
theorem selection_at {L R : ControlFlowChain} {hint hint' : SelectionControl} {w w' : Option BranchWeights} {t e m : UInt32}
    (hx : ends x = some (.chooseSelection t e w' m hint')) : ∀ {s : Program} {lp : Option (BlockId × BlockId)}
    {k : Option BlockId} {avoid : List BlockId}, Spelt ends lp k s → s.Nested avoid k →
    (∃ i ∈ s.toChains, PartOf (.Selection x L R hint w) i) →
    ∃ l r lp' avoid', L = l.toChain ∧ R = r.toChain ∧ hint = hint' ∧ w = w' ∧ l.entry (some ⟨m⟩) = some ⟨t⟩ ∧
      r.entry (some ⟨m⟩) = some ⟨e⟩ ∧ Spelt ends lp' (some ⟨m⟩) l ∧ Spelt ends lp' (some ⟨m⟩) r ∧
      l.Nested (⟨m⟩ :: avoid') (some ⟨m⟩) ∧ r.Nested (⟨m⟩ :: avoid') (some ⟨m⟩) ∧ x ∉ avoid' := by
  intro s
  induction s with
  | done => rintro lp k avoid - - ⟨i, hi, -⟩; cases hi
  | ret id =>
    rintro lp k avoid - - ⟨i, hi, h⟩
    cases List.mem_singleton.mp hi
    cases h
  | atom id rest ih =>
    rintro lp k avoid hs hn ⟨i, hi, h⟩
    rcases List.mem_cons.mp hi with rfl | hi
    · cases h
    · exact ih hs.2 hn.2 ⟨i, hi, h⟩
  | exit id brk w1 rest ih =>
    rintro lp k avoid ⟨hd, mg, t1, f1, h1, h2, h3, h4, h5, h6⟩ hn ⟨i, hi, h⟩
    cases List.mem_singleton.mp hi
    cases h with
    | whole => rw [hx] at h3; cases h3
    | left h => exact ih h6 hn.2 (inside_items (fun _ e => by cases e) h)
    | right h => cases brk <;> cases h
  | sel id left right hint1 w1 rest ihl ihr ih =>
    rintro lp k avoid ⟨t1, f1, m1, h1, h2, h3, h4, h5, h6, h7⟩ hn ⟨i, hi, h⟩
    obtain ⟨n1, n2, n3, n4⟩ := hn
    rw [h2] at n2 n3
    rcases List.mem_cons.mp hi with rfl | hi
    · cases h with
      | whole =>
        rw [hx] at h1
        cases h1
        exact ⟨left, right, lp, avoid, rfl, rfl, rfl, rfl, h3, h4, h5, h6, n2, n3, n1⟩
      | left h => exact ihl h5 n2 (inside_items (fun _ e => by cases e) h)
      | right h => exact ihr h6 n3 (inside_items (fun _ e => by cases e) h)
    · exact ih h7 n4 ⟨i, hi, h⟩
  | loop id body hint1 rest ihb ih =>
    rintro lp k avoid ⟨t1, m1, h1, h2, h3, h4, h5⟩ hn ⟨i, hi, h⟩
    obtain ⟨n1, n2, n3⟩ := hn
    rcases List.mem_cons.mp hi with rfl | hi
    · cases h with
      | inner h => exact ihb h4 n2 (inside_items (fun _ e => by cases e) h)
    · exact ih h5 n3 ⟨i, hi, h⟩

/-- Where a loop is found, there is the program for it. -/
theorem loop_at {B : ControlFlowChain} {hint : LoopControl} {w : Option BranchWeights} :
    ∀ {s : Program} {lp : Option (BlockId × BlockId)}
    {k : Option BlockId} {avoid : List BlockId}, Spelt ends lp k s → s.Nested avoid k →
    (∃ i ∈ s.toChains, PartOf (.Loop x B hint w) i) →
    ∃ b t m, ends x = some (.gotoLoop t m hint) ∧ B = b.toChain ∧ w = none ∧ b.entry (some x) = some ⟨t⟩ ∧
      Spelt ends (some (x, ⟨m⟩)) (some x) b ∧ b.Nested [x] (some x) := by
  intro s
  induction s with
  | done => rintro lp k avoid - - ⟨i, hi, -⟩; cases hi
  | ret id =>
    rintro lp k avoid - - ⟨i, hi, h⟩
    cases List.mem_singleton.mp hi
    cases h
  | atom id rest ih =>
    rintro lp k avoid hs hn ⟨i, hi, h⟩
    rcases List.mem_cons.mp hi with rfl | hi
    · cases h
    · exact ih hs.2 hn.2 ⟨i, hi, h⟩
  | exit id brk w1 rest ih =>
    rintro lp k avoid ⟨hd, mg, t1, f1, h1, h2, h3, h4, h5, h6⟩ hn ⟨i, hi, h⟩
    cases List.mem_singleton.mp hi
    cases h with
    | left h => exact ih h6 hn.2 (inside_items (fun _ e => by cases e) h)
    | right h => cases brk <;> cases h
  | sel id left right hint1 w1 rest ihl ihr ih =>
    rintro lp k avoid ⟨t1, f1, m1, h1, h2, h3, h4, h5, h6, h7⟩ hn ⟨i, hi, h⟩
    obtain ⟨n1, n2, n3, n4⟩ := hn
    rw [h2] at n2 n3
    rcases List.mem_cons.mp hi with rfl | hi
    · cases h with
      | left h => exact ihl h5 n2 (inside_items (fun _ e => by cases e) h)
      | right h => exact ihr h6 n3 (inside_items (fun _ e => by cases e) h)
    · exact ih h7 n4 ⟨i, hi, h⟩
  | loop id body hint1 rest ihb ih =>
    rintro lp k avoid ⟨t1, m1, h1, h2, h3, h4, h5⟩ hn ⟨i, hi, h⟩
    obtain ⟨n1, n2, n3⟩ := hn
    rcases List.mem_cons.mp hi with rfl | hi
    · cases h with
      | whole => exact ⟨body, t1, m1, h1, rfl, rfl, h3, h4, nested_less (fun y hy => by simp at hy; simp [hy]) n2⟩
      | inner h => exact ihb h4 n2 (inside_items (fun _ e => by cases e) h)
    · exact ih h5 n3 ⟨i, hi, h⟩

end

end Magma.Excerpt
