import Verif.Spec.Replace
import Verif.Proofs.Excerpt
/-! A part of a structured program replaced. -/

namespace Magma.Replace
open Spec Spec.Program Excerpt

/-- The program, with `n` as a part of the construct that starts with block `x` -/
def put (spot : Spot) (x : UInt32) (n : Program) : Program → Program
  | .done => .done
  | .ret id => .ret id
  | .atom id rest => .atom id (put spot x n rest)
  | .sel id left right hint w rest =>
    .sel id (if id.val = x ∧ spot = .left then n else put spot x n left)
      (if id.val = x ∧ spot = .right then n else put spot x n right) hint w (put spot x n rest)
  | .loop id body hint rest =>
    .loop id (if id.val = x ∧ spot = .inner then n else put spot x n body) hint (put spot x n rest)
  | .exit id brk w rest => .exit id brk w (put spot x n rest)

theorem put_entry {spot : Spot} {x : UInt32} {n : Program} (k : Option BlockId) (s : Program) :
    (put spot x n s).entry k = s.entry k := by cases s <;> rfl

/-- The program, where control goes on where it returned -/
def resume : Program → Program
  | .done => .done
  | .ret id => .atom id .done
  | .atom id rest => .atom id (resume rest)
  | .sel id left right hint w rest => .sel id left right hint w (resume rest)
  | .loop id body hint rest => .loop id body hint (resume rest)
  | .exit id brk w rest => .exit id brk w (resume rest)

theorem resume_entry {ends : BlockId → Option BlockEnd} {lp : Option (BlockId × BlockId)} {s : Program}
    (h : Spelt ends lp none s) (k : Option BlockId) : (resume s).entry k = s.entry none := by
  cases s with
  | done => exact absurd rfl h
  | _ => rfl

/-- Outside of loops nothing leaves a loop. -/
theorem Spelt.noExit {ends : BlockId → Option BlockEnd} : ∀ {s : Program} {k : Option BlockId}, Spelt ends none k s →
    NoExit s := by
  intro s
  induction s with
  | done => exact fun _ => trivial
  | ret id => exact fun _ => trivial
  | atom id rest ih => exact fun h => ih h.2
  | exit id brk w rest ih => rintro k ⟨_, _, _, _, h, -⟩; cases h
  | sel id left right hint w rest ihl ihr ih =>
    rintro k ⟨t, f, m, h1, h2, h3, h4, h5, h6, h7⟩
    exact ⟨ihl h5, ihr h6, ih h7⟩
  | loop id body hint rest ihb ih =>
    rintro k ⟨t, m, h1, h2, h3, h4, h5⟩
    exact ih h5

theorem Spelt.anyLoop {ends : BlockId → Option BlockEnd} : ∀ {s : Program} {lp lp' : Option (BlockId × BlockId)}
    {k : Option BlockId}, NoExit s → Spelt ends lp k s → Spelt ends lp' k s := by
  intro s
  induction s with
  | done => exact fun _ h => h
  | ret id => exact fun _ h => h
  | atom id rest ih => exact fun n h => ⟨h.1, ih n h.2⟩
  | exit id brk w rest ih => exact fun n => n.elim
  | sel id left right hint w rest ihl ihr ih =>
    rintro lp lp' k ⟨n1, n2, n3⟩ ⟨t, f, m, h1, h2, h3, h4, h5, h6, h7⟩
    exact ⟨t, f, m, h1, h2, h3, h4, ihl n1 h5, ihr n2 h6, ih n3 h7⟩
  | loop id body hint rest ihb ih =>
    rintro lp lp' k n ⟨t, m, h1, h2, h3, h4, h5⟩
    exact ⟨t, m, h1, h2, h3, h4, ih n h5⟩

/-- A part that control comes out of does not return. -/
theorem Spelt.goingOn {ends ends' : BlockId → Option BlockEnd} {a : UInt32} : ∀ {s : Program}
    {lp : Option (BlockId × BlockId)} {k : BlockId},
    (∀ x ∈ s.ids, ∀ e, ends x = some e → ends' x = some (Spec.goingOn a e)) → Spelt ends lp (some k) s →
    Spelt ends' lp (some k) s := by
  intro s
  induction s with
  | done => exact fun _ h => h
  | ret id => exact fun _ h => absurd h.1 (by simp)
  | atom id rest ih =>
    rintro lp k hx ⟨⟨t, h1, h2⟩, h3⟩
    exact ⟨⟨t, hx id List.mem_cons_self _ h1, h2⟩, ih (fun x h => hx x (List.mem_cons_of_mem _ h)) h3⟩
  | exit id brk w rest ih =>
    rintro lp k hx ⟨h, m, t, f, h1, h2, h3, h4, h5, h6⟩
    exact ⟨h, m, t, f, h1, h2, hx id List.mem_cons_self _ h3, h4, h5, ih (fun x h => hx x (List.mem_cons_of_mem _ h)) h6⟩
  | sel id left right hint w rest ihl ihr ih =>
    rintro lp k hx ⟨t, f, m, h1, h2, h3, h4, h5, h6, h7⟩
    exact ⟨t, f, m, hx id List.mem_cons_self _ h1, h2, h3, h4, ihl (fun x h => hx x (by simp [ids, h])) h5,
      ihr (fun x h => hx x (by simp [ids, h])) h6, ih (fun x h => hx x (by simp [ids, h])) h7⟩
  | loop id body hint rest ihb ih =>
    rintro lp k hx ⟨t, m, h1, h2, h3, h4, h5⟩
    exact ⟨t, m, hx id List.mem_cons_self _ h1, h2, h3, ihb (fun x h => hx x (by simp [ids, h])) h4,
      ih (fun x h => hx x (by simp [ids, h])) h5⟩

theorem resume_spelt {ends ends' : BlockId → Option BlockEnd} {a : UInt32} : ∀ {s : Program}
    {lp : Option (BlockId × BlockId)}, (∀ x ∈ s.ids, ∀ e, ends x = some e → ends' x = some (Spec.goingOn a e)) →
    NoExit s → Spelt ends lp none s → Spelt ends' lp (some ⟨a⟩) (resume s) := by
  intro s
  induction s with
  | done => exact fun _ _ h => absurd rfl h
  | ret id => exact fun hx _ h => ⟨⟨a, hx id List.mem_cons_self _ h.2, rfl⟩, nofun⟩
  | atom id rest ih =>
    rintro lp hx n ⟨⟨t, h1, h2⟩, h3⟩
    exact ⟨⟨t, hx id List.mem_cons_self _ h1, by rw [resume_entry h3]; exact h2⟩,
      ih (fun x h => hx x (List.mem_cons_of_mem _ h)) n h3⟩
  | exit id brk w rest ih => exact fun _ n => n.elim
  | sel id left right hint w rest ihl ihr ih =>
    rintro lp hx ⟨n1, n2, n3⟩ ⟨t, f, m, h1, h2, h3, h4, h5, h6, h7⟩
    exact ⟨t, f, m, hx id List.mem_cons_self _ h1, by rw [resume_entry h7]; exact h2, h3, h4,
      Spelt.goingOn (fun x h => hx x (by simp [ids, h])) h5, Spelt.goingOn (fun x h => hx x (by simp [ids, h])) h6,
      ih (fun x h => hx x (by simp [ids, h])) n3 h7⟩
  | loop id body hint rest ihb ih =>
    rintro lp hx n ⟨t, m, h1, h2, h3, h4, h5⟩
    exact ⟨t, m, hx id List.mem_cons_self _ h1, by rw [resume_entry h5]; exact h2, h3,
      Spelt.goingOn (fun x h => hx x (by simp [ids, h])) h4, ih (fun x h => hx x (by simp [ids, h])) n h5⟩

theorem Spelt.known {ends : BlockId → Option BlockEnd} : ∀ {s : Program} {lp : Option (BlockId × BlockId)}
    {k : Option BlockId}, Spelt ends lp k s → ∀ x ∈ s.ids, ∃ e, ends x = some e := by
  intro s
  induction s with
  | done => exact fun _ _ h => (List.not_mem_nil h).elim
  | ret id => exact fun h x hx => (List.mem_singleton.mp hx) ▸ ⟨_, h.2⟩
  | atom id rest ih =>
    rintro lp k ⟨⟨t, h1, h2⟩, h3⟩
    exact List.forall_mem_cons.mpr ⟨⟨_, h1⟩, ih h3⟩
  | exit id brk w rest ih =>
    rintro lp k ⟨h, m, t, f, h1, h2, h3, h4, h5, h6⟩
    exact List.forall_mem_cons.mpr ⟨⟨_, h3⟩, ih h6⟩
  | sel id left right hint w rest ihl ihr ih =>
    rintro lp k ⟨t, f, m, h1, h2, h3, h4, h5, h6, h7⟩
    refine List.forall_mem_cons.mpr ⟨⟨_, h1⟩, List.forall_mem_append.mpr ⟨List.forall_mem_append.mpr ⟨ihl h5, ihr h6⟩, ih h7⟩⟩
  | loop id body hint rest ihb ih =>
    rintro lp k ⟨t, m, h1, h2, h3, h4, h5⟩
    exact List.forall_mem_cons.mpr ⟨⟨_, h1⟩, List.forall_mem_append.mpr ⟨ihb h4, ih h5⟩⟩

/-- Blocks that do not occur can be avoided, too. -/
theorem nested_more : ∀ {s : Program} {avoid avoid' : List BlockId} {k : Option BlockId},
    (∀ x ∈ avoid', x ∈ avoid ∨ x ∉ s.ids) → s.Nested avoid k → s.Nested avoid' k := by
  have off : ∀ {avoid avoid' : List BlockId} {id : BlockId} {l : List BlockId},
      (∀ x ∈ avoid', x ∈ avoid ∨ x ∉ id :: l) → id ∉ avoid → id ∉ avoid' := fun hx h hm =>
    (hx _ hm).elim h fun h => h List.mem_cons_self
  have sub : ∀ {avoid avoid' pre : List BlockId} {l l' : List BlockId}, (∀ x ∈ avoid', x ∈ avoid ∨ x ∉ l) →
      (∀ x ∈ l', x ∈ l) → ∀ x ∈ pre ++ avoid', x ∈ pre ++ avoid ∨ x ∉ l' := by
    intro avoid avoid' pre l l' hx hl x hm
    rcases List.mem_append.mp hm with hm | hm
    · exact .inl (List.mem_append_left _ hm)
    · exact (hx x hm).imp (List.mem_append_right _) fun h hm => h (hl x hm)
  intro s
  induction s with
  | done => exact fun _ _ => trivial
  | ret id => exact fun hx h => off hx h
  | atom id rest ih => exact fun hx h => ⟨off hx h.1, ih (sub (pre := []) hx fun x h => List.mem_cons_of_mem _ h) h.2⟩
  | exit id brk w rest ih => exact fun hx h => ⟨off hx h.1, ih (sub (pre := []) hx fun x h => List.mem_cons_of_mem _ h) h.2⟩
  | sel id left right hint w rest ihl ihr ih =>
    intro avoid avoid' k hx h
    exact ⟨off hx h.1, ihl (sub hx fun x h => by simp [ids, h]) h.2.1, ihr (sub hx fun x h => by simp [ids, h]) h.2.2.1,
      ih (sub (pre := []) hx fun x h => by simp [ids, h]) h.2.2.2⟩
  | loop id body hint rest ihb ih =>
    intro avoid avoid' k hx h
    exact ⟨off hx h.1, ihb (sub (pre := [id]) hx fun x h => by simp [ids, h]) h.2.1,
      ih (sub (pre := []) hx fun x h => by simp [ids, h]) h.2.2⟩

theorem resume_ids (s : Program) : (resume s).ids = s.ids := by
  induction s with
  | done => rfl
  | ret id => rfl
  | _ => simp_all [resume, ids]

theorem resume_nested {ends : BlockId → Option BlockEnd} {lp : Option (BlockId × BlockId)} : ∀ {s : Program}
    {avoid : List BlockId} {k : Option BlockId}, Spelt ends lp none s → s.Nested avoid none → (resume s).Nested avoid k := by
  intro s
  induction s with
  | done => exact fun _ _ => trivial
  | ret id => exact fun _ h => ⟨h, trivial⟩
  | atom id rest ih => exact fun hs h => ⟨h.1, ih hs.2 h.2⟩
  | exit id brk w rest ih => rintro avoid k ⟨_, _, _, _, -, h, -⟩; cases h
  | sel id left right hint w rest ihl ihr ih =>
    rintro avoid k ⟨t, f, m, h1, h2, h3, h4, h5, h6, h7⟩ ⟨n1, n2, n3, n4⟩
    refine ⟨n1, ?_, ?_, ih h7 n4⟩ <;> rw [resume_entry h7] <;> assumption
  | loop id body hint rest ihb ih =>
    rintro avoid k ⟨t, m, h1, h2, h3, h4, h5⟩ ⟨n1, n2, n3⟩
    exact ⟨n1, n2, ih h5 n3⟩

theorem resume_toChains {s : Program} : NoExit s → (resume s).toChains = s.toChains := by
  induction s with
  | done => exact fun _ => rfl
  | ret id => exact fun _ => rfl
  | exit id brk w rest ih => exact fun n => n.elim
  | atom id rest ih => intro n; simp only [resume, toChains, ih n]
  | sel id left right hint w rest ihl ihr ih => intro n; simp only [resume, toChains, ih n.2.2]
  | loop id body hint rest ihb ih => intro n; simp only [resume, toChains, ih n]

theorem resume_toChain {s : Program} (n : NoExit s) : (resume s).toChain = .Block (itemsOf s.toChain) := by
  have h := resume_toChains n
  cases s with
  | done => rfl
  | ret id => rfl
  | exit => exact n.elim
  | atom | sel | loop =>
    simp only [resume, toChains] at h
    simp only [resume, toChain, itemsOf, h]

section
variable {ends ends' : BlockId → Option BlockEnd} {spot : Spot} {x n0 kk : UInt32} {n : Program} {E : BlockEnd}

theorem put_spelt (hx : ends ⟨x⟩ = some E) (hk : afterPart spot x E = some kk) (hx' : ends' ⟨x⟩ = some (turned spot n0 E))
    (hn : ∀ lp, Spelt ends' lp (some ⟨kk⟩) n) (he : n.entry (some ⟨kk⟩) = some ⟨n0⟩)
    (ho : ∀ y : BlockId, y.val ≠ x → ∀ e, ends y = some e → ends' y = some e) :
    ∀ {s : Program} {lp : Option (BlockId × BlockId)} {k : Option BlockId}, Spelt ends lp k s →
      Spelt ends' lp k (put spot x n s) := by
  have plain : ∀ {y : BlockId} {e : BlockEnd}, ends y = some e → afterPart spot x e = none → ends' y = some e := by
    intro y e h ha
    by_cases hy : y.val = x
    · obtain ⟨y⟩ := y
      cases hy
      cases hx.symm.trans h
      cases hk.symm.trans ha
    · exact ho y hy e h
  intro s
  induction s with
  | done => exact fun h => h
  | ret id => exact fun h => ⟨h.1, plain h.2 rfl⟩
  | atom id rest ih =>
    rintro lp k ⟨⟨t, h1, h2⟩, h3⟩
    exact ⟨⟨t, plain h1 rfl, by rw [put_entry]; exact h2⟩, ih h3⟩
  | exit id brk w rest ih =>
    rintro lp k ⟨h, m, t, f, h1, h2, h3, h4, h5, h6⟩
    exact ⟨h, m, t, f, h1, h2, plain h3 rfl, h4, by rw [put_entry]; exact h5, ih h6⟩
  | sel id left right hint w rest ihl ihr ih =>
    rintro lp k ⟨t, f, m, h1, h2, h3, h4, h5, h6, h7⟩
    by_cases hy : id.val = x
    · obtain ⟨id⟩ := id
      cases hy
      cases hx.symm.trans h1
      simp only [afterPart] at hk
      simp only [turned] at hx'
      cases spot with
      | inner => simp at hk
      | left =>
        simp only [reduceCtorEq, if_false, Option.some.injEq] at hk hx'
        subst hk
        simp only [put, and_self, if_true, reduceCtorEq, and_false, if_false]
        exact ⟨n0, f, m, hx', by rw [put_entry]; exact h2, he, by rw [put_entry]; exact h4, hn lp, ihr h6, ih h7⟩
      | right =>
        simp only [reduceCtorEq, if_false, Option.some.injEq] at hk hx'
        subst hk
        simp only [put, and_self, if_true, reduceCtorEq, and_false, if_false]
        exact ⟨t, n0, m, hx', by rw [put_entry]; exact h2, by rw [put_entry]; exact h3, he, ihl h5, hn lp, ih h7⟩
    · simp only [put, hy, false_and, if_false]
      exact ⟨t, f, m, ho _ hy _ h1, by rw [put_entry]; exact h2, by rw [put_entry]; exact h3, by rw [put_entry]; exact h4,
        ihl h5, ihr h6, ih h7⟩
  | loop id body hint rest ihb ih =>
    rintro lp k ⟨t, m, h1, h2, h3, h4, h5⟩
    by_cases hy : id.val = x
    · obtain ⟨id⟩ := id
      cases hy
      cases hx.symm.trans h1
      simp only [afterPart] at hk
      simp only [turned] at hx'
      split at hk
      · rename_i hs
        subst hs
        cases hk
        simp only [if_true] at hx'
        simp only [put, and_self, if_true]
        exact ⟨n0, m, hx', by rw [put_entry]; exact h2, he, hn _, ih h5⟩
      · cases hk
    · simp only [put, hy, false_and, if_false]
      exact ⟨t, m, ho _ hy _ h1, by rw [put_entry]; exact h2, by rw [put_entry]; exact h3, ihb h4, ih h5⟩

/-- What comes after the part is not in what replaces it. -/
theorem put_nested (hx : ends ⟨x⟩ = some E) (hk : afterPart spot x E = some kk) (hn : n.Nested [] (some ⟨kk⟩))
    (ha : ∀ y e, ends y = some e → y ∉ n.ids) :
    ∀ {s : Program} {lp : Option (BlockId × BlockId)} {k : Option BlockId} {avoid : List BlockId}, Spelt ends lp k s →
      (∀ a ∈ avoid, a ∉ n.ids) → (∀ a, k = some a → a ∉ n.ids) → s.Nested avoid k → (put spot x n s).Nested avoid k := by
  have enter : ∀ {s : Program} {lp : Option (BlockId × BlockId)} {k : Option BlockId}, Spelt ends lp k s →
      (∀ a, k = some a → a ∉ n.ids) → ∀ a, s.entry k = some a → a ∉ n.ids := by
    intro s lp k hs hk a h
    cases s with
    | done => exact hk a h
    | ret id => cases h; exact ha _ _ hs.2
    | atom id rest => cases h; obtain ⟨⟨_, h, -⟩, -⟩ := hs; exact ha _ _ h
    | exit id brk w rest => cases h; obtain ⟨_, _, _, _, -, -, h, -⟩ := hs; exact ha _ _ h
    | sel id l r hint w rest => cases h; obtain ⟨_, _, _, h, -⟩ := hs; exact ha _ _ h
    | loop id body hint rest => cases h; obtain ⟨_, _, h, -⟩ := hs; exact ha _ _ h
  have more : ∀ {avoid : List BlockId}, (∀ a ∈ avoid, a ∉ n.ids) → n.Nested avoid (some ⟨kk⟩) := fun h =>
    nested_more (fun a hm => .inr (h a hm)) hn
  intro s
  induction s with
  | done => exact fun _ _ _ _ => trivial
  | ret id => exact fun _ _ _ h => h
  | atom id rest ih => exact fun hs h1 h2 h => ⟨h.1, ih hs.2 h1 h2 h.2⟩
  | exit id brk w rest ih =>
    rintro lp k avoid ⟨_, _, _, _, -, -, -, -, -, hs⟩ h1 h2 h
    exact ⟨h.1, ih hs h1 h2 h.2⟩
  | sel id left right hint w rest ihl ihr ih =>
    rintro lp k avoid ⟨t, f, m, e1, e2, e3, e4, e5, e6, e7⟩ h1 h2 ⟨n1, n2, n3, n4⟩
    have hm : ∀ a ∈ (rest.entry k).toList ++ avoid, a ∉ n.ids := by
      intro a hm
      rcases List.mem_append.mp hm with hm | hm
      · exact enter e7 h2 a (by simpa using hm)
      · exact h1 a hm
    have hk' : ∀ a, rest.entry k = some a → a ∉ n.ids := enter e7 h2
    have e5' : Spelt ends lp (rest.entry k) left := by rw [e2]; exact e5
    have e6' : Spelt ends lp (rest.entry k) right := by rw [e2]; exact e6
    have key : id.val = x → spot ≠ .inner → rest.entry k = some ⟨kk⟩ := by
      rintro hy hs
      obtain ⟨id⟩ := id
      cases hy
      cases hx.symm.trans e1
      simp only [afterPart, hs, if_false, Option.some.injEq] at hk
      rw [← hk, e2]
    refine ⟨n1, ?_, ?_, ih e7 h1 h2 n4⟩ <;> rw [put_entry]
    · split
      · rename_i hy
        rw [key hy.1 (by rw [hy.2]; nofun)] at hm ⊢
        exact more hm
      · exact ihl e5' hm hk' n2
    · split
      · rename_i hy
        rw [key hy.1 (by rw [hy.2]; nofun)] at hm ⊢
        exact more hm
      · exact ihr e6' hm hk' n3
  | loop id body hint rest ihb ih =>
    rintro lp k avoid ⟨t, m, e1, e2, e3, e4, e5⟩ h1 h2 ⟨n1, n2, n3⟩
    have hid : id ∉ n.ids := ha _ _ e1
    have hm : ∀ a ∈ id :: avoid, a ∉ n.ids := fun a hm => (List.mem_cons.mp hm).elim (fun h => h ▸ hid) (h1 a)
    refine ⟨n1, ?_, ih e5 h1 h2 n3⟩
    split
    · rename_i hy
      obtain ⟨id⟩ := id
      obtain ⟨hy, rfl⟩ := hy
      cases hy
      cases hx.symm.trans e1
      cases hk
      exact more hm
    · exact ihb e4 hm (fun a h => (Option.some.inj h) ▸ hid) n2

theorem put_toChain (hx : ends ⟨x⟩ = some E) (hk : afterPart spot x E = some kk) :
    ∀ {s : Program} {lp : Option (BlockId × BlockId)} {k : Option BlockId}, Spelt ends lp k s →
      (put spot x n s).toChain = replaceAt spot x n.toChain s.toChain ∧
      (put spot x n s).toChains = replaceItems spot x n.toChain s.toChains := by
  intro s
  induction s with
  | done => exact fun _ => ⟨rfl, rfl⟩
  | ret id => exact fun _ => ⟨rfl, rfl⟩
  | atom id rest ih =>
    intro lp k h
    simp [put, toChain, toChains, replaceAt, replaceItems, ih h.2]
  | exit id brk w rest ih =>
    rintro lp k ⟨_, _, _, _, -, -, h, -, -, hs⟩
    have hy : id.val ≠ x := by
      rintro hy
      obtain ⟨id⟩ := id
      cases hy
      cases hx.symm.trans h
      cases hk
    cases brk <;> simp [put, toChain, toChains, replaceAt, replaceItems, ih hs, hy]
  | sel id left right hint w rest ihl ihr ih =>
    rintro lp k ⟨t, f, m, e1, e2, e3, e4, e5, e6, e7⟩
    simp only [put, toChain, toChains, replaceAt, replaceItems, ih e7, apply_ite toChain, (ihl e5).1, (ihr e6).1, and_self]
  | loop id body hint rest ihb ih =>
    rintro lp k ⟨t, m, e1, e2, e3, e4, e5⟩
    simp only [put, toChain, toChains, replaceAt, replaceItems, ih e5, apply_ite toChain, (ihb e4).1, and_self]

end

end Magma.Replace
