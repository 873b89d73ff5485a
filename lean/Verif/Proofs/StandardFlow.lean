import Verif.Proofs.Place
import Mathlib.Data.List.Nodup
import Mathlib.Data.List.Perm.Subperm
import Verif.Spec.StandardFlow
/-! Walks, dominance, and the trails of places of a structured function. -/

namespace Magma.Standard
open Magma Spec
variable {X : Type} {blocks : List (BasicBlock X)} {first : UInt32}

/-- A walk can be cut short at every block on it. -/
theorem Walk.cut {l : List UInt32} (h : Walk blocks first l) {u : UInt32} (hu : u ∈ l) :
    ∃ l', Walk blocks first (u :: l') ∧ (u :: l') <:+ l := by
  induction h with
  | start =>
    simp only [List.mem_singleton] at hu
    subst hu
    exact ⟨[], .start, List.suffix_rfl⟩
  | @step a b l hw he ih =>
    rcases List.mem_cons.mp hu with rfl | hu
    · exact ⟨a :: l, .step hw he, List.suffix_rfl⟩
    · obtain ⟨l', h1, h2⟩ := ih hu
      exact ⟨l', h1, h2.trans (List.suffix_cons _ _)⟩

theorem dominates_self (v : UInt32) : Dominates blocks first v v := fun _ _ => List.mem_cons_self

theorem Dominates.trans {a b c : UInt32} (h1 : Dominates blocks first a b) (h2 : Dominates blocks first b c) :
    Dominates blocks first a c := by
  intro l hl
  obtain ⟨l', h3, h4⟩ := hl.cut (h2 l hl)
  exact h4.subset (h1 _ h3)

/-- What dominates a block also dominates the blocks before it. -/
theorem Dominates.before {x u v : UInt32} (h : Dominates blocks first x v) (he : Edge blocks u v) (hx : v ≠ x) :
    Dominates blocks first x u := by
  intro l hl
  rcases List.mem_cons.mp (h _ (.step hl he)) with h | h
  · exact absurd h.symm hx
  · exact h

theorem Header.edge {x m : UInt32} (h : Header blocks x m) : Edge blocks x m := by
  obtain ⟨b, hb, hl, hm⟩ := h
  exact ⟨b, hb, hl, .inr (.inl hm)⟩

theorem Branch.edge {u v : UInt32} (h : Branch blocks u v) : Edge blocks u v := by
  obtain ⟨b, hb, hl, hm⟩ := h
  exact ⟨b, hb, hl, .inl hm⟩

section
variable (hs : Structured blocks first)
include hs

/-- Constructs are entered at their header, whatever the kind of the edge. -/
theorem Structured.enters {u v x m : UInt32} {l : List UInt32} (he : Edge blocks u v) (hh : Header blocks x m)
    (hi : Inside blocks first x m v) (hv : v ≠ x) (hw : Walk blocks first (u :: l)) : Inside blocks first x m u := by
  have low : Dominates blocks first u v → Inside blocks first x m u := fun hd =>
    ⟨hi.1.before he hv, fun hm => hi.2 (hm.trans hd)⟩
  obtain ⟨b, hb, rfl, ht | hm | hc⟩ := he
  · exact hs.entry _ v x m ⟨b, hb, rfl, ht⟩ hh hi hv ⟨l, hw⟩
  · exact low (hs.merges _ v ⟨b, hb, rfl, hm⟩).2
  · exact low (hs.continues b hb v hc)

/-- After the merge block one does not get into the construct again, other than through the header. -/
theorem Structured.behind {x m : UInt32} (hh : Header blocks x m) {l : List UInt32} (hw : Walk blocks first l) :
    ∀ {v l'}, l = v :: l' → l.Nodup → m ∈ l → ¬ Inside blocks first x m v := by
  induction hw with
  | start =>
    intro v l' hl hn hm hi
    simp only [List.mem_singleton] at hm
    cases hl
    subst hm
    exact hi.2 (dominates_self _)
  | @step a b l hw he ih =>
    intro v l' hl hn hm hi
    cases hl
    rcases List.mem_cons.mp hm with rfl | hm
    · exact hi.2 (dominates_self _)
    · have hv : b ≠ x := by
        rintro rfl
        obtain ⟨l2, h1, h2⟩ := hw.cut hm
        exact (List.nodup_cons.mp hn).1 (h2.subset ((hs.merges _ m hh).2 _ h1))
      exact ih rfl (List.nodup_cons.mp hn).2 hm (hs.enters he hh hi hv hw)

/-- A header that is reached without a repetition is part of its construct. -/
theorem Structured.own_inside {x m : UInt32} (hh : Header blocks x m) {l : List UInt32} (hw : Walk blocks first (x :: l))
    (hn : (x :: l).Nodup) : Inside blocks first x m x := by
  refine ⟨dominates_self _, fun hm => ?_⟩
  rcases List.mem_cons.mp (hm l hw) with h | h
  · exact (hs.merges x m hh).1 h.symm
  · obtain ⟨l2, h1, h2⟩ := hw.cut (List.mem_cons_of_mem _ h)
    have h3 := (hs.merges x m hh).2 _ h1
    rcases List.suffix_cons_iff.mp h2 with h4 | h4
    · exact (hs.merges x m hh).1 (List.cons.inj h4).1.symm
    · exact (List.nodup_cons.mp hn).1 (h4.subset h3)

theorem Structured.unique {a b : BasicBlock X} (ha : a ∈ blocks) (hb : b ∈ blocks) (h : labelId a = labelId b) :
    a = b :=
  List.inj_on_of_nodup_map hs.labels ha hb h

end

/-- The construct that a block opens -/
def opened (r : UInt32) : BlockEnd → Option Construct
  | .gotoLoop _ m _ => some (.loop r m)
  | .chooseSelection _ _ _ m _ => some (.selection m)
  | _ => none

/-- The merge block of a construct -/
def mergeC : Construct → UInt32
  | .selection m => m
  | .loop _ m => m

/-- The construct is opened by the block `r`. -/
def Entered (blocks : List (BasicBlock X)) (r : UInt32) (c : Construct) : Prop :=
  ∃ b ∈ blocks, labelId b = r ∧ opened r (endOf b) = some c

theorem Entered.header {r : UInt32} {c : Construct} (h : Entered blocks r c) : Header blocks r (mergeC c) := by
  obtain ⟨b, hb, hl, ho⟩ := h
  refine ⟨b, hb, hl, ?_⟩
  cases he : endOf b <;> rw [he] at ho <;> simp only [opened, reduceCtorEq, Option.some.injEq] at ho <;> subst ho <;> rfl

theorem Entered.opens {r : UInt32} {c : Construct} (h : Entered blocks r c) : Opens blocks r (mergeC c) c.stop := by
  obtain ⟨b, hb, hl, ho⟩ := h
  refine ⟨b, hb, hl, ?_⟩
  cases he : endOf b <;> rw [he] at ho <;> simp only [opened, reduceCtorEq, Option.some.injEq] at ho <;> subst ho <;>
    exact ⟨rfl, rfl⟩

/-- Two stops of one construct -/
theorem Opens.header {x m s : UInt32} (h : Opens blocks x m s) : Header blocks x m := by
  obtain ⟨b, hb, hl, hm, -⟩ := h
  exact ⟨b, hb, hl, hm⟩

/-- What a step does -/
theorem step_does {p q : Place} (h : Step blocks p q) : ∃ b, At blocks p b ∧ q.1 ∈ next (endOf b) ∧
    ((q.2 = p.2 ∧ (q.1 ∈ targets (endOf b) ∧ opened p.1 (endOf b) = none ∨
        mergeOf (endOf b) = some q.1 ∧ opened p.1 (endOf b) ≠ none)) ∨
      ∃ c, q.2 = c :: p.2 ∧ opened p.1 (endOf b) = some c ∧ q.1 ∈ targets (endOf b)) := by
  cases h with
  | goto ha he => exact ⟨_, ha, by simp [he, next], .inl ⟨rfl, .inl (by simp [he, targets, opened])⟩⟩
  | body ha he => exact ⟨_, ha, by simp [he, next], .inr ⟨_, rfl, by simp [he, opened, targets]⟩⟩
  | after ha he => exact ⟨_, ha, by simp [he, next], .inl ⟨rfl, .inr (by simp [he, mergeOf, opened])⟩⟩
  | left ha he => exact ⟨_, ha, by simp [he, next], .inr ⟨_, rfl, by simp [he, opened, targets]⟩⟩
  | right ha he => exact ⟨_, ha, by simp [he, next], .inr ⟨_, rfl, by simp [he, opened, targets]⟩⟩
  | join ha he => exact ⟨_, ha, by simp [he, next], .inl ⟨rfl, .inr (by simp [he, mergeOf, opened])⟩⟩
  | stay ha he _ _ => exact ⟨_, ha, by simp [he, next], .inl ⟨rfl, .inl (by simp [he, targets, opened])⟩⟩

theorem next_named {e : BlockEnd} {v : UInt32} (h : v ∈ next e) : v ∈ targets e ∨ mergeOf e = some v := by
  cases e <;> simp only [next, targets, mergeOf, List.mem_cons, List.not_mem_nil, or_false, Option.some.injEq] at h ⊢ <;>
    grind

theorem step_edge {p q : Place} (h : Step blocks p q) : Edge blocks p.1 q.1 := by
  obtain ⟨b, ha, hn, -⟩ := step_does h
  refine ⟨b, ha.1, ha.2.1, ?_⟩
  rcases next_named hn with h | h
  · exact .inl h
  · exact .inr (.inl h)

theorem step_stack {p q : Place} (h : Step blocks p q) : p.2 <:+ q.2 := by
  obtain ⟨_, -, -, ⟨h, -⟩ | ⟨c, h, -⟩⟩ := step_does h
  · rw [h]
    exact List.suffix_rfl
  · rw [h]
    exact List.suffix_cons _ _

/-- The places on the way to a place, last place first -/
inductive Trail (blocks : List (BasicBlock X)) (first : UInt32) : List Place → Prop where
  | start : Trail blocks first [(first, [])]
  | step {p q l} : Trail blocks first (p :: l) → Step blocks p q → Trail blocks first (q :: p :: l)

theorem Trail.walk {l : List Place} (h : Trail blocks first l) : Walk blocks first (l.map Prod.fst) := by
  induction h with
  | start => exact .start
  | step _ hst ih => exact .step ih (step_edge hst)

theorem Trail.path {q : Place} {l : List Place} (h : Trail blocks first (q :: l)) : Path blocks (first, []) q := by
  generalize hk : q :: l = k at h
  induction h generalizing q l with
  | start => cases hk; exact .refl
  | step _ hst ih => cases hk; exact (ih rfl).tail hst

theorem trail_of_path {q : Place} (h : Path blocks (first, []) q) : ∃ l, Trail blocks first (q :: l) := by
  induction h with
  | refl => exact ⟨[], .start⟩
  | tail _ hst ih =>
    obtain ⟨l, hl⟩ := ih
    exact ⟨_, .step hl hst⟩

theorem Trail.cut {l : List Place} (h : Trail blocks first l) {r : Place} {l1 l2 : List Place} (hl : l = l1 ++ r :: l2) :
    Trail blocks first (r :: l2) := by
  induction h generalizing l1 with
  | start =>
    cases l1 with
    | nil => cases hl; exact .start
    | cons a l1 => simp at hl
  | step ht hst ih =>
    cases l1 with
    | nil => cases hl; exact .step ht hst
    | cons a l1 => exact ih (List.cons.inj hl).2

theorem Trail.stack {q : Place} {l : List Place} (h : Trail blocks first (q :: l)) {r : Place} (hr : r ∈ q :: l) :
    r.2 <:+ q.2 := by
  generalize hk : q :: l = k at h hr
  induction h generalizing q l with
  | start =>
    cases hk
    simp only [List.mem_singleton] at hr
    subst hr
    exact List.suffix_rfl
  | step ht hst ih =>
    cases hk
    rcases List.mem_cons.mp hr with rfl | hr
    · exact List.suffix_rfl
    · exact (ih rfl hr).trans (step_stack hst)

theorem Trail.from {q : Place} {l : List Place} (h : Trail blocks first (q :: l)) {r : Place} (hr : r ∈ q :: l) :
    Path blocks r q := by
  generalize hk : q :: l = k at h hr
  induction h generalizing q l with
  | start =>
    cases hk
    simp only [List.mem_singleton] at hr
    subst hr
    exact .refl
  | step ht hst ih =>
    cases hk
    rcases List.mem_cons.mp hr with rfl | hr
    · exact .refl
    · exact (ih rfl hr).tail hst

/-- A place that is not the last one has a step to the place after it. -/
theorem Trail.after {q : Place} {l : List Place} (h : Trail blocks first (q :: l)) {r : Place} (hr : r ∈ l) :
    ∃ s ∈ q :: l, Step blocks r s := by
  generalize hk : q :: l = k at h
  induction h generalizing q l with
  | start => cases hk; cases hr
  | @step p q' l' ht hst ih =>
    cases hk
    rcases List.mem_cons.mp hr with rfl | hr
    · exact ⟨_, List.mem_cons_self, hst⟩
    · obtain ⟨s, h1, h2⟩ := ih hr rfl
      exact ⟨s, List.mem_cons_of_mem _ h1, h2⟩

theorem Trail.goes {q : Place} {l : List Place} (h : Trail blocks first (q :: l)) {r : Place} (hr : r ∈ l) :
    ¬ Stops r ∧ ∃ b, At blocks r b := by
  obtain ⟨s, -, hst⟩ := h.after hr
  obtain ⟨b, ha, -⟩ := step_does hst
  exact ⟨ha.2.2, b, ha⟩

/-- Where a construct around a place was opened -/
theorem Trail.opened {q : Place} {l : List Place} (h : Trail blocks first (q :: l)) {cs1 cs : List Construct}
    {c : Construct} (hc : q.2 = cs1 ++ c :: cs) : ∃ r t l1 l2, q :: l = l1 ++ (t, c :: cs) :: (r, cs) :: l2 ∧
      Entered blocks r c ∧ Step blocks (r, cs) (t, c :: cs) := by
  generalize hk : q :: l = k at h
  induction h generalizing q l cs1 with
  | start => cases hk; simp at hc
  | @step p q' l' ht hst ih =>
    obtain ⟨rfl, rfl⟩ := List.cons.inj hk
    have deep {cs1} (hp : p.2 = cs1 ++ c :: cs) : ∃ r t l1 l2, q :: p :: l' = l1 ++ (t, c :: cs) :: (r, cs) :: l2 ∧
        Entered blocks r c ∧ Step blocks (r, cs) (t, c :: cs) := by
      obtain ⟨r, t, l1, l2, h1, h2, h3⟩ := ih hp rfl
      exact ⟨r, t, q :: l1, l2, by rw [h1]; rfl, h2, h3⟩
    obtain ⟨b, ha, -, ⟨h1, -⟩ | ⟨c0, h1, h2, -⟩⟩ := step_does hst
    · exact deep (h1 ▸ hc)
    · rw [h1] at hc
      cases cs1 with
      | nil =>
        obtain ⟨rfl, rfl⟩ := List.cons.inj hc
        obtain ⟨t, qs⟩ := q
        simp only at h1
        subst h1
        exact ⟨p.1, t, [], l', rfl, ⟨b, ha.1, ha.2.1, h2⟩, hst⟩
      | cons a cs1 => exact deep (List.cons.inj hc).2

section
variable (hs : Structured blocks first)
include hs

/-- No block comes twice, other than at the end of a body. -/
theorem Structured.simple {k : List Place} (h : Trail blocks first k) : ∀ {q l}, k = q :: l →
    (l.map Prod.fst).Nodup ∧ (q.1 ∈ l.map Prod.fst → Stops q) := by
  induction h with
  | start =>
    intro q l hk
    cases hk
    exact ⟨List.nodup_nil, fun h => by cases h⟩
  | @step p q l ht hst ih =>
    intro q' l' hk
    cases hk
    obtain ⟨h1, h2⟩ := ih rfl
    obtain ⟨b, ha, -, -⟩ := step_does hst
    have hn : ((p :: l).map Prod.fst).Nodup := List.nodup_cons.mpr ⟨fun h => ha.2.2 (h2 h), h1⟩
    refine ⟨hn, fun hq => ?_⟩
    have hback : BackEdge blocks first p.1 q.1 := ⟨step_edge hst, l.map Prod.fst, ht.walk, hn, hq⟩
    obtain ⟨b1, hb1, hl1, hloop⟩ := hs.back _ _ hback
    obtain ⟨r, hr, hrq⟩ := List.mem_map.mp hq
    obtain ⟨s, hs1, hs2⟩ := (Trail.step ht hst).after hr
    obtain ⟨b2, ha2, -, hcase⟩ := step_does hs2
    have hbb : b2 = b1 := hs.unique ha2.1 hb1 (by rw [ha2.2.1, hl1, hrq])
    subst hbb
    have hop : ∃ m, Standard.opened r.1 (endOf b2) = some (.loop r.1 m) ∧ mergeOf (endOf b2) = some m := by
      cases he : endOf b2 <;> rw [he] at hloop <;> simp only [isLoop, reduceCtorEq] at hloop
      · exact ⟨_, rfl, rfl⟩
      · obtain ⟨b3, ha3, hn3, -⟩ := step_does hs2
        have : b3 = b2 := hs.unique ha3.1 hb1 (by rw [ha3.2.1, ha2.2.1])
        subst this
        rw [he] at hn3
        cases hn3
    obtain ⟨m, hop, hmm⟩ := hop
    have hhead : Header blocks q.1 m := ⟨b2, hb1, hl1, hmm⟩
    rcases hcase with ⟨-, ⟨-, hno⟩ | ⟨hm, -⟩⟩ | ⟨c, hc, hoc, -⟩
    · rw [hop] at hno
      cases hno
    · rw [hmm] at hm
      cases hm
      rcases List.mem_cons.mp hs1 with rfl | hs1
      · exact absurd rfl (hs.merges _ _ hhead).1
      · exact absurd (hs.part _ _ _ hback hhead)
          (hs.behind hhead ht.walk rfl hn (List.mem_map_of_mem hs1))
    · rw [hop] at hoc
      cases hoc
      have : (Construct.loop r.1 m) ∈ q.2 := ((Trail.step ht hst).stack hs1).subset (by rw [hc]; exact List.mem_cons_self)
      exact List.mem_map.mpr ⟨_, this, hrq⟩

theorem Structured.nodup {q : Place} {l : List Place} (h : Trail blocks first (q :: l)) (hq : ¬ Stops q) :
    ((q :: l).map Prod.fst).Nodup :=
  List.nodup_cons.mpr ⟨fun h' => hq ((hs.simple h rfl).2 h'), (hs.simple h rfl).1⟩

/-- A trail has at most one place more than the function has blocks. -/
theorem Structured.short {q : Place} {l : List Place} (h : Trail blocks first (q :: l)) : l.length ≤ blocks.length := by
  have h1 := (hs.simple h rfl).1
  have h2 : l.map Prod.fst ⊆ blocks.map labelId := by
    intro u hu
    obtain ⟨r, hr, rfl⟩ := List.mem_map.mp hu
    obtain ⟨-, b, ha⟩ := h.goes hr
    exact List.mem_map.mpr ⟨b, ha.1, ha.2.1⟩
  simpa using (List.subperm_of_subset h1 h2).length_le

theorem Structured.ends : ¬ ∃ p : Nat → Place, p 0 = (first, []) ∧ ∀ n, Step blocks (p n) (p (n + 1)) := by
  rintro ⟨p, h0, hp⟩
  have long : ∀ n, ∃ l, Trail blocks first (p n :: l) ∧ l.length = n := by
    intro n
    induction n with
    | zero => exact ⟨[], by rw [h0]; exact .start, rfl⟩
    | succ n ih =>
      obtain ⟨l, h1, h2⟩ := ih
      exact ⟨p n :: l, .step h1 (hp n), by simp [h2]⟩
  obtain ⟨l, h1, h2⟩ := long (blocks.length + 1)
  have := hs.short h1
  omega

end

end Magma.Standard
