import Verif.Spec.Settle
import Verif.Proofs.Replace
/-! Lemmas: structured programs in which selections have just one arm. -/

namespace Magma.Settle
open Spec Spec.Program Excerpt

/-- One program after the other -/
def append : Program → Program → Program
  | .done, r => r
  | .ret id, _ => .ret id
  | .atom id rest, r => .atom id (append rest r)
  | .sel id left right hint w rest, r => .sel id left right hint w (append rest r)
  | .loop id body hint rest, r => .loop id body hint (append rest r)
  | .exit id brk w rest, r => .exit id brk w (append rest r)

/-- The program, with just one arm of each selection of which it is known where it goes -/
def prune (known : UInt32 → Option Bool) : Program → Program
  | .done => .done
  | .ret id => .ret id
  | .atom id rest => .atom id (prune known rest)
  | .sel id left right hint w rest =>
    match known id.val with
    | none => .sel id (prune known left) (prune known right) hint w (prune known rest)
    | some true => .atom id (append (prune known left) (prune known rest))
    | some false => .atom id (append (prune known right) (prune known rest))
  | .loop id body hint rest => .loop id (prune known body) hint (prune known rest)
  | .exit id brk w rest =>
    match known id.val with
    | none => .exit id brk w (prune known rest)
    | some true => .atom id (prune known rest)
    | some false => .atom id .done

/-- How a block ends of which it is known where it goes -/
def settleEnd (known : Option Bool) (e : BlockEnd) : BlockEnd :=
  match known, e with
  | some d, .choose t f _ => .goto (if d then t else f)
  | some d, .chooseSelection t f _ _ _ => .goto (if d then t else f)
  | some d, .chooseLoop t f _ _ _ => .goto (if d then t else f)
  | _, e => e

theorem append_done (s : Program) : append s .done = s := by
  induction s <;> simp_all [append]

theorem append_entry (a b : Program) (k : Option BlockId) : (append a b).entry k = a.entry (b.entry k) := by
  cases a <;> rfl

variable {known : UInt32 → Option Bool}

theorem prune_entry (s : Program) (k : Option BlockId) : (prune known s).entry k = s.entry k := by
  cases s with
  | sel id left right hint w rest => unfold prune; split <;> rfl
  | exit id brk w rest => unfold prune; split <;> rfl
  | _ => rfl

theorem noExit_append {a b : Program} (ha : NoExit a) (hb : NoExit b) : NoExit (append a b) := by
  induction a with
  | done => exact hb
  | ret => trivial
  | atom id rest ih => exact ih ha
  | sel id l r hint w rest ihl ihr ih => exact ⟨ha.1, ha.2.1, ih ha.2.2⟩
  | loop id body hint rest ihb ih => exact ih ha
  | exit => exact ha.elim

theorem noExit_prune {s : Program} (h : NoExit s) : NoExit (prune known s) := by
  induction s with
  | done => trivial
  | ret => trivial
  | atom id rest ih => exact ih h
  | sel id l r hint w rest ihl ihr ih =>
    unfold prune
    split
    · exact ⟨ihl h.1, ihr h.2.1, ih h.2.2⟩
    · exact noExit_append (ihl h.1) (ih h.2.2)
    · exact noExit_append (ihr h.2.1) (ih h.2.2)
  | loop id body hint rest ihb ih => exact ih h
  | exit => exact h.elim

variable {ends ends' : BlockId → Option BlockEnd}

/-- Nothing leaves a loop where control goes on with something other than the head of the loop. -/
theorem noExit_of {s : Program} : ∀ {lp : Option (BlockId × BlockId)} {k : Option BlockId} {avoid : List BlockId},
    Spelt ends lp k s → s.Nested avoid k → (∀ h m, lp = some (h, m) → h ∈ avoid) →
    (∀ h m, lp = some (h, m) → k ≠ some h) → NoExit s := by
  induction s with
  | done => intros; trivial
  | ret => intros; trivial
  | atom id rest ih => exact fun hs hn ha hk => ih hs.2 hn.2 ha hk
  | exit id brk w rest ih =>
    rintro lp k avoid ⟨h, m, t, f, h1, h2, -⟩ hn ha hk
    exact hk h m h1 h2
  | loop id body hint rest ihb ih =>
    rintro lp k avoid ⟨t, m, h1, h2, h3, h4, h5⟩ hn ha hk
    exact ih h5 hn.2.2 ha hk
  | sel id left right hint w rest ihl ihr ih =>
    rintro lp k avoid ⟨t, f, m, h1, h2, h3, h4, h5, h6, h7⟩ ⟨n1, n2, n3, n4⟩ ha hk
    have hk' : ∀ h m, lp = some (h, m) → rest.entry k ≠ some h := by
      intro h m hl he
      cases rest with
      | done => exact hk h m hl he
      | ret id => cases he; exact n4 (ha _ _ hl)
      | _ => cases he; exact n4.1 (ha _ _ hl)
    have ha' : ∀ h m, lp = some (h, m) → h ∈ (rest.entry k).toList ++ avoid :=
      fun h m hl => List.mem_append_right _ (ha h m hl)
    rw [← h2] at h5 h6
    exact ⟨ihl h5 n2 ha' hk', ihr h6 n3 ha' hk', ih h7 n4 ha hk⟩

/-- After an arm comes nothing, or nothing leaves a loop in it. -/
theorem arm_noExit {s rest : Program} {lp : Option (BlockId × BlockId)} {k : Option BlockId} {avoid avoid' : List BlockId}
    (hs : Spelt ends lp (rest.entry k) s) (hn : s.Nested avoid' (rest.entry k)) (hr : rest.Nested avoid k)
    (ha : ∀ h m, lp = some (h, m) → h ∈ avoid) (ha' : ∀ h m, lp = some (h, m) → h ∈ avoid') :
    rest = .done ∨ NoExit s := by
  by_cases hd : rest = .done
  · exact .inl hd
  · refine .inr (noExit_of hs hn ha' ?_)
    intro h m hl he
    cases rest with
    | done => exact hd rfl
    | ret id => cases he; exact hr (ha _ _ hl)
    | _ => cases he; exact hr.1 (ha _ _ hl)

theorem append_spelt {a b : Program} {lp : Option (BlockId × BlockId)} {k : Option BlockId}
    (hn : b = .done ∨ NoExit a) (ha : Spelt ends lp (b.entry k) a) (hk : b.entry k ≠ none) (hb : Spelt ends lp k b) :
    Spelt ends lp k (append a b) := by
  rcases hn with rfl | hn
  · rw [append_done]
    exact ha
  · induction a with
    | done => exact hb
    | ret id => exact absurd ha.1 hk
    | atom id rest ih =>
      obtain ⟨⟨t, h1, h2⟩, h3⟩ := ha
      exact ⟨⟨t, h1, by rw [append_entry]; exact h2⟩, ih h3 hn⟩
    | exit => exact hn.elim
    | sel id left right hint w rest ihl ihr ih =>
      obtain ⟨t, f, m, h1, h2, h3, h4, h5, h6, h7⟩ := ha
      exact ⟨t, f, m, h1, by rw [append_entry]; exact h2, h3, h4, h5, h6, ih h7 hn.2.2⟩
    | loop id body hint rest ihb ih =>
      obtain ⟨t, m, h1, h2, h3, h4, h5⟩ := ha
      exact ⟨t, m, h1, by rw [append_entry]; exact h2, h3, h4, ih h5 hn⟩

theorem append_nested {a b : Program} {k : Option BlockId} {avoid : List BlockId} (ha : a.Nested avoid (b.entry k))
    (hb : b.Nested avoid k) : (append a b).Nested avoid k := by
  induction a with
  | done => exact hb
  | ret id => exact ha
  | atom id rest ih => exact ⟨ha.1, ih ha.2⟩
  | exit id brk w rest ih => exact ⟨ha.1, ih ha.2⟩
  | sel id left right hint w rest ihl ihr ih =>
    exact ⟨ha.1, by rw [append_entry]; exact ha.2.1, by rw [append_entry]; exact ha.2.2.1, ih ha.2.2.2⟩
  | loop id body hint rest ihb ih => exact ⟨ha.1, ha.2.1, ih ha.2.2⟩

theorem prune_nested {s : Program} : ∀ {k : Option BlockId} {avoid : List BlockId}, s.Nested avoid k →
    (prune known s).Nested avoid k := by
  induction s with
  | done => exact fun h => h
  | ret id => exact fun h => h
  | atom id rest ih => exact fun h => ⟨h.1, ih h.2⟩
  | exit id brk w rest ih =>
    intro k avoid h
    unfold prune
    split
    · exact ⟨h.1, ih h.2⟩
    · exact ⟨h.1, ih h.2⟩
    · exact ⟨h.1, trivial⟩
  | loop id body hint rest ihb ih => exact fun h => ⟨h.1, ihb h.2.1, ih h.2.2⟩
  | sel id left right hint w rest ihl ihr ih =>
    intro k avoid h
    have fewer : ∀ {s : Program}, s.Nested ((rest.entry k).toList ++ avoid) (rest.entry k) →
        s.Nested avoid (rest.entry k) := fun h =>
      Replace.nested_more (fun x hx => .inl (List.mem_append_right _ hx)) h
    unfold prune
    split
    · refine ⟨h.1, ?_, ?_, ih h.2.2.2⟩ <;> rw [prune_entry]
      · exact ihl h.2.1
      · exact ihr h.2.2.1
    · exact ⟨h.1, append_nested (by rw [prune_entry]; exact fewer (ihl h.2.1)) (ih h.2.2.2)⟩
    · exact ⟨h.1, append_nested (by rw [prune_entry]; exact fewer (ihr h.2.2.1)) (ih h.2.2.2)⟩

theorem armItems_toChain (s : Program) : armItems s.toChain = s.toChains := by
  cases s <;> rfl

theorem append_toChains {a b : Program} {lp : Option (BlockId × BlockId)} {m : Option BlockId}
    (hn : b = .done ∨ NoExit a) (hm : m ≠ none) (ha : Spelt ends lp m a) :
    (append a b).toChains = a.toChains ++ b.toChains := by
  rcases hn with rfl | hn
  · rw [append_done]
    exact (List.append_nil _).symm
  · induction a with
    | done => rfl
    | ret id => exact absurd ha.1 hm
    | atom id rest ih => exact congrArg (_ :: ·) (ih ha.2 hn)
    | exit => exact hn.elim
    | sel id left right hint w rest ihl ihr ih =>
      obtain ⟨t, f, m, h1, h2, h3, h4, h5, h6, h7⟩ := ha
      exact congrArg (_ :: ·) (ih h7 hn.2.2)
    | loop id body hint rest ihb ih =>
      obtain ⟨t, m, h1, h2, h3, h4, h5⟩ := ha
      exact congrArg (_ :: ·) (ih h5 hn)

theorem itemsOf_block (l : List ControlFlowChain) : itemsOf (.Block l) = l := rfl
theorem itemsOf_atom (id : BlockId) : itemsOf (.Atom id) = [.Atom id] := rfl
theorem itemsOf_selection (id : BlockId) (l r : ControlFlowChain) (hint : SelectionControl) (w : Option BranchWeights) :
    itemsOf (.Selection id l r hint w) = [.Selection id l r hint w] := rfl
theorem itemsOf_loop (id : BlockId) (l : ControlFlowChain) (hint : LoopControl) (w : Option BranchWeights) :
    itemsOf (.Loop id l hint w) = [.Loop id l hint w] := rfl

/-- The loop around is one of the blocks. -/
def LoopOf (ends : BlockId → Option BlockEnd) (lp : Option (BlockId × BlockId)) : Prop :=
  ∀ h m, lp = some (h, m) → ∃ t hint, ends h = some (.gotoLoop t m.val hint)

theorem LoopOf.here {id : BlockId} {t m : UInt32} {hint : LoopControl} (h : ends id = some (.gotoLoop t m hint)) :
    LoopOf ends (some (id, ⟨m⟩)) := by
  rintro _ _ ⟨⟩
  exact ⟨_, _, h⟩

/-- What is so of each block that leaves a loop or goes on with the next round of one -/
def Exits (P : BlockId → Bool → Prop) : Program → Prop
  | .done => True
  | .ret _ => True
  | .atom _ rest => Exits P rest
  | .sel _ left right _ _ rest => Exits P left ∧ Exits P right ∧ Exits P rest
  | .loop _ body _ rest => Exits P body ∧ Exits P rest
  | .exit id brk _ rest => P id brk ∧ Exits P rest

theorem items_inside {c i : ControlFlowChain} {s : Program} (hi : i ∈ s.toChains) (h : PartOf c i) : PartOf c s.toChain := by
  cases s with
  | done => cases hi
  | ret id => cases List.mem_singleton.mp hi; exact h
  | exit id brk w rest => cases List.mem_singleton.mp hi; exact h
  | atom | sel | loop => exact .item hi h

/-- They are the selections of the chain with an arm that is just that. -/
theorem exits_of {P : BlockId → Bool → Prop} {s : Program} (h : ∀ i ∈ s.toChains, ∀ id brk inner hint w,
    PartOf (.Selection id inner (if brk then .Break else .Continue) hint w) i → P id brk) : Exits P s := by
  have sub : ∀ {s : Program}, (∀ id brk inner hint w,
      PartOf (.Selection id inner (if brk then .Break else .Continue) hint w) s.toChain → P id brk) →
      ∀ i ∈ s.toChains, ∀ id brk inner hint w,
        PartOf (.Selection id inner (if brk then .Break else .Continue) hint w) i → P id brk :=
    fun h i hi id brk inner hint w hp => h id brk inner hint w (items_inside hi hp)
  induction s with
  | done => exact trivial
  | ret id => exact trivial
  | atom id rest ih => exact ih fun i hi => h i (List.mem_cons_of_mem _ hi)
  | sel id left right hint w rest ihl ihr ih =>
    exact ⟨ihl (sub fun id brk inner hint w hp => h _ List.mem_cons_self id brk inner hint w (.left hp)),
      ihr (sub fun id brk inner hint w hp => h _ List.mem_cons_self id brk inner hint w (.right hp)),
      ih fun i hi => h i (List.mem_cons_of_mem _ hi)⟩
  | loop id body hint rest ihb ih =>
    exact ⟨ihb (sub fun id brk inner hint w hp => h _ List.mem_cons_self id brk inner hint w (.inner hp)),
      ih fun i hi => h i (List.mem_cons_of_mem _ hi)⟩
  | exit id brk w rest ih =>
    exact ⟨h _ List.mem_cons_self id brk _ _ _ .whole,
      ih (sub fun id brk inner hint w hp => h _ List.mem_cons_self id brk inner hint w (.left hp))⟩

theorem toChain_ne (s : Program) : s.toChain ≠ .Break ∧ s.toChain ≠ .Continue := by
  cases s <;> exact ⟨nofun, nofun⟩

theorem exits_at {P : BlockId → Bool → Prop} {id : BlockId} {brk : Bool} {inner : ControlFlowChain} {hint : SelectionControl}
    {w : Option BranchWeights} {s : Program} (hs : Exits P s) (h : ∃ i ∈ s.toChains,
      PartOf (.Selection id inner (if brk then .Break else .Continue) hint w) i) : P id brk := by
  have arm : ∀ {s : Program}, PartOf (.Selection id inner (if brk then .Break else .Continue) hint w) s.toChain →
      ∃ i ∈ s.toChains, PartOf (.Selection id inner (if brk then .Break else .Continue) hint w) i :=
    fun h => inside_items (fun _ e => by cases e) h
  induction s with
  | done => obtain ⟨i, hi, -⟩ := h; cases hi
  | ret id => obtain ⟨i, hi, h⟩ := h; cases List.mem_singleton.mp hi; cases h
  | atom id rest ih =>
    obtain ⟨i, hi, h⟩ := h
    rcases List.mem_cons.mp hi with rfl | hi
    · cases h
    · exact ih hs ⟨i, hi, h⟩
  | sel id' left right hint' w' rest ihl ihr ih =>
    obtain ⟨i, hi, h⟩ := h
    rcases List.mem_cons.mp hi with rfl | hi
    · generalize hr : right.toChain = r at h
      cases h with
      | whole =>
        cases brk
        · exact absurd hr (toChain_ne right).2
        · exact absurd hr (toChain_ne right).1
      | left h => exact ihl hs.1 (arm h)
      | right h => subst hr; exact ihr hs.2.1 (arm h)
    · exact ih hs.2.2 ⟨i, hi, h⟩
  | loop id' body hint' rest ihb ih =>
    obtain ⟨i, hi, h⟩ := h
    rcases List.mem_cons.mp hi with rfl | hi
    · cases h with
      | inner h => exact ihb hs.1 (arm h)
    · exact ih hs.2 ⟨i, hi, h⟩
  | exit id' brk' w' rest ih =>
    obtain ⟨i, hi, h⟩ := h
    cases List.mem_singleton.mp hi
    generalize hr : (if brk' = true then ControlFlowChain.Break else .Continue) = r at h
    cases h with
    | whole =>
      cases brk <;> cases brk' <;> first | exact hs.1 | cases hr
    | left h => exact ih hs.2 (arm h)
    | right h => cases brk' <;> subst hr <;> cases h

/-- A loop that is left is one of the blocks. -/
theorem exits_loop {s : Program} : ∀ {lp : Option (BlockId × BlockId)} {k : Option BlockId}, Spelt ends lp k s →
    LoopOf ends lp → Exits (fun y brk => brk = true → ∃ t f w, ends y = some (.choose t f w) ∧
      ∃ x t' hint, ends x = some (.gotoLoop t' f hint)) s := by
  induction s with
  | done => exact fun _ _ => trivial
  | ret id => exact fun _ _ => trivial
  | atom id rest ih => exact fun hs hl => ih hs.2 hl
  | exit id brk w rest ih =>
    rintro lp k ⟨h, m, t, f, h1, h2, h3, h4, h5, h6⟩ hl
    refine ⟨?_, ih h6 hl⟩
    rintro rfl
    obtain ⟨t', hint, hh⟩ := hl h m h1
    cases (show (⟨f⟩ : BlockId) = m from h4)
    exact ⟨t, f, w, h3, h, t', hint, hh⟩
  | loop id body hint rest ihb ih =>
    rintro lp k ⟨t, m, h1, h2, h3, h4, h5⟩ hl
    exact ⟨ihb h4 (.here h1), ih h5 hl⟩
  | sel id left right hint w rest ihl ihr ih =>
    rintro lp k ⟨t, f, m, h1, h2, h3, h4, h5, h6, h7⟩ hl
    exact ⟨ihl h5 hl, ihr h6 hl, ih h7 hl⟩

section
variable (ho : ∀ y e, ends y = some e → ends' y = some (settleEnd (known y.val) e))
include ho

theorem prune_spelt {s : Program} : ∀ {lp : Option (BlockId × BlockId)} {k : Option BlockId} {avoid : List BlockId},
    Spelt ends lp k s → s.Nested avoid k → (∀ h m, lp = some (h, m) → h ∈ avoid) →
    Exits (fun y brk => brk = true → known y.val ≠ some false) s →
    Spelt ends' lp k (prune known s) := by
  have plain : ∀ {y : BlockId} {e : BlockEnd}, ends y = some e → (settleEnd (known y.val) e = e) → ends' y = some e :=
    fun h he => (ho _ _ h).trans (congrArg some he)
  induction s with
  | done => exact fun h _ _ _ => h
  | ret id => exact fun h _ _ _ => ⟨h.1, plain h.2 (by cases known id.val <;> rfl)⟩
  | atom id rest ih =>
    rintro lp k avoid ⟨⟨t, h1, h2⟩, h3⟩ hn ha hl
    exact ⟨⟨t, plain h1 (by cases known id.val <;> rfl), by rw [prune_entry]; exact h2⟩, ih h3 hn.2 ha hl⟩
  | exit id brk w rest ih =>
    rintro lp k avoid ⟨h, m, t, f, h1, h2, h3, h4, h5, h6⟩ hn ha hl
    unfold prune
    split
    · rename_i hk
      exact ⟨h, m, t, f, h1, h2, plain h3 (by rw [hk]; rfl), h4, by rw [prune_entry]; exact h5, ih h6 hn.2 ha hl.2⟩
    · rename_i hk
      refine ⟨⟨t, ?_, by rw [prune_entry]; exact h5⟩, ih h6 hn.2 ha hl.2⟩
      have := ho _ _ h3
      rw [hk] at this
      exact this
    · rename_i hk
      have := ho _ _ h3
      rw [hk] at this
      refine ⟨⟨f, this, ?_⟩, by rw [h2]; nofun⟩
      cases brk with
      | true => exact absurd hk (hl.1 rfl)
      | false => exact h2.trans (congrArg some h4.symm)
  | loop id body hint rest ihb ih =>
    rintro lp k avoid ⟨t, m, h1, h2, h3, h4, h5⟩ hn ha hl
    refine ⟨t, m, plain h1 (by cases known id.val <;> rfl), by rw [prune_entry]; exact h2, by rw [prune_entry]; exact h3,
      ihb h4 hn.2.1 ?_ hl.1, ih h5 hn.2.2 ha hl.2⟩
    rintro h m' ⟨⟩
    exact List.mem_cons_self
  | sel id left right hint w rest ihl ihr ih =>
    rintro lp k avoid ⟨t, f, m, h1, h2, h3, h4, h5, h6, h7⟩ ⟨n1, n2, n3, n4⟩ ha hl
    have ha' : ∀ h m, lp = some (h, m) → h ∈ (rest.entry k).toList ++ avoid :=
      fun h m hl => List.mem_append_right _ (ha h m hl)
    rw [← h2] at h3 h4 h5 h6
    have hne : rest.entry k ≠ none := by rw [h2]; nofun
    have hr := ih h7 n4 ha hl.2.2
    unfold prune
    split
    · rename_i hk
      refine ⟨t, f, m, plain h1 (by rw [hk]; rfl), by rw [prune_entry]; exact h2, ?_, ?_, ?_, ?_, hr⟩
      · rw [prune_entry, ← h2]; exact h3
      · rw [prune_entry, ← h2]; exact h4
      · rw [← h2]; exact ihl h5 n2 ha' hl.1
      · rw [← h2]; exact ihr h6 n3 ha' hl.2.1
    · rename_i hk
      have he := ho _ _ h1
      rw [hk] at he
      refine ⟨⟨t, he, by rw [append_entry, prune_entry, prune_entry]; exact h3⟩, append_spelt ?_ ?_ ?_ hr⟩
      · exact (arm_noExit h5 n2 n4 ha ha').imp (fun h => by rw [h]; rfl) noExit_prune
      · rw [prune_entry]; exact ihl h5 n2 ha' hl.1
      · rw [prune_entry]; exact hne
    · rename_i hk
      have he := ho _ _ h1
      rw [hk] at he
      refine ⟨⟨f, he, by rw [append_entry, prune_entry, prune_entry]; exact h4⟩, append_spelt ?_ ?_ ?_ hr⟩
      · exact (arm_noExit h6 n3 n4 ha ha').imp (fun h => by rw [h]; rfl) noExit_prune
      · rw [prune_entry]; exact ihr h6 n3 ha' hl.2.1
      · rw [prune_entry]; exact hne

theorem prune_toChain {s : Program} : ∀ {lp : Option (BlockId × BlockId)} {k : Option BlockId} {avoid : List BlockId},
    Spelt ends lp k s → s.Nested avoid k → (∀ h m, lp = some (h, m) → h ∈ avoid) →
    Exits (fun y brk => brk = true → known y.val ≠ some false) s →
    (prune known s).toChain = settle known s.toChain ∧ (prune known s).toChains = settleItems known s.toChains := by
  induction s with
  | done => exact fun _ _ _ _ => ⟨rfl, rfl⟩
  | ret id => exact fun _ _ _ _ => ⟨rfl, rfl⟩
  | atom id rest ih =>
    intro lp k avoid hs hn ha hl
    have := (ih hs.2 hn.2 ha hl).2
    simp [prune, toChain, toChains, settle, settleItems, itemsOf_atom, this]
  | exit id brk w rest ih =>
    rintro lp k avoid ⟨h, m, t, f, h1, h2, h3, h4, h5, h6⟩ hn ha hl
    obtain ⟨e1, e2⟩ := ih h6 hn.2 ha hl.2
    have e3 : armItems (settle known rest.toChain) = (prune known rest).toChains := by
      rw [← e1, armItems_toChain]
    cases hk : known id.val with
    | none =>
      cases brk <;> simp [prune, hk, toChain, toChains, settle, settleItems, itemsOf_selection, e1]
    | some d =>
      cases d with
      | true => simp [prune, hk, toChain, toChains, settle, settleItems, itemsOf_block, e3]
      | false =>
        cases brk with
        | true => exact absurd hk (hl.1 rfl)
        | false => simp [prune, hk, toChain, toChains, settle, settleItems, itemsOf_block, armItems]
  | loop id body hint rest ihb ih =>
    rintro lp k avoid ⟨t, m, h1, h2, h3, h4, h5⟩ hn ha hl
    have e1 := (ihb h4 hn.2.1 (by rintro h m' ⟨⟩; exact List.mem_cons_self) hl.1).1
    have e2 := (ih h5 hn.2.2 ha hl.2).2
    simp [prune, toChain, toChains, settle, settleItems, itemsOf_loop, e1, e2]
  | sel id left right hint w rest ihl ihr ih =>
    rintro lp k avoid ⟨t, f, m, h1, h2, h3, h4, h5, h6, h7⟩ ⟨n1, n2, n3, n4⟩ ha hl
    have ha' : ∀ h m, lp = some (h, m) → h ∈ (rest.entry k).toList ++ avoid :=
      fun h m hl => List.mem_append_right _ (ha h m hl)
    rw [← h2] at h3 h4 h5 h6
    have hne : rest.entry k ≠ none := by rw [h2]; nofun
    have er := (ih h7 n4 ha hl.2.2).2
    have el := (ihl h5 n2 ha' hl.1).1
    have eg := (ihr h6 n3 ha' hl.2.1).1
    have el' : armItems (settle known left.toChain) = (prune known left).toChains := by
      rw [← el, armItems_toChain]
    have eg' : armItems (settle known right.toChain) = (prune known right).toChains := by
      rw [← eg, armItems_toChain]
    cases hk : known id.val with
    | none => simp [prune, hk, toChain, toChains, settle, settleItems, itemsOf_selection, er, el, eg]
    | some d =>
      cases d with
      | true =>
        have := append_toChains (b := prune known rest)
          ((arm_noExit h5 n2 n4 ha ha').imp (fun h => by rw [h]; rfl) noExit_prune) hne (prune_spelt ho h5 n2 ha' hl.1)
        simp [prune, hk, toChain, toChains, settle, settleItems, itemsOf_block, er, el', this]
      | false =>
        have := append_toChains (b := prune known rest)
          ((arm_noExit h6 n3 n4 ha ha').imp (fun h => by rw [h]; rfl) noExit_prune) hne (prune_spelt ho h6 n3 ha' hl.2.1)
        simp [prune, hk, toChain, toChains, settle, settleItems, itemsOf_block, er, eg', this]

end

end Magma.Settle
