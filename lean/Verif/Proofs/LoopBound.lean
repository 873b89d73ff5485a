import Verif.Spec.LoopBound
import Verif.Proofs.Cost
/-! Executions within bounds on the rounds of loops are those that match. -/

namespace Magma.LoopBound
open Spec RegularExpression Regular

/-! ### Traces that keep the bounds -/

section
variable {bound : BlockId → Nat} {P P₁ P₂ : UInt32 → UInt32 → Prop} {t t₁ t₂ : List BlockId}

theorem keeps_nil : Keeps bound P [] := by
  intro a u hu _
  rw [List.infix_nil.mp hu]
  exact Nat.zero_le _

theorem keeps_infix (h : Keeps bound P t) (hi : t₁ <:+: t) : Keeps bound P t₁ :=
  fun a u hu => h a u (hu.trans hi)

theorem keeps_mono (h : Keeps bound P t) (hp : ∀ a b, P₁ a b → P a b) : Keeps bound P₁ t :=
  fun a u hu hb => h a u hu fun b hb' => hp a _ (hb b hb')

theorem keeps_false (hp : ∀ a b, ¬ P a b) : Keeps bound P t := by
  intro a u _ hb
  cases u with
  | nil => exact Nat.zero_le _
  | cons b u => exact absurd (hb b List.mem_cons_self) (hp _ _)

theorem infix_left {u : List BlockId} (h : u <:+: t₁ ++ t₂) (hd : ∀ b ∈ u, b ∉ t₂) : u <:+: t₁ := by
  obtain ⟨x, y, e⟩ := h
  rw [List.append_assoc, List.append_eq_append_iff] at e
  rcases e with ⟨z, rfl, e⟩ | ⟨z, rfl, e⟩
  · rw [List.append_eq_append_iff] at e
    rcases e with ⟨z', rfl, e⟩ | ⟨z', rfl, e⟩
    · exact ⟨x, z', by simp⟩
    · cases z' with
      | nil => exact ⟨x, [], by simp⟩
      | cons b z' => exact absurd (e ▸ List.mem_append_left _ List.mem_cons_self) (hd b (List.mem_append_right _ List.mem_cons_self))
  · cases u with
    | nil => exact ⟨[], t₁, rfl⟩
    | cons b u => exact absurd (e ▸ by simp) (hd b List.mem_cons_self)

theorem infix_right {u : List BlockId} (h : u <:+: t₁ ++ t₂) (hd : ∀ b ∈ u, b ∉ t₁) : u <:+: t₂ := by
  rw [← List.reverse_infix] at h ⊢
  rw [List.reverse_append] at h
  exact infix_left h fun b hb hb' => hd b (List.mem_reverse.mp hb) (List.mem_reverse.mp hb')

/-- Traces one after the other, through different blocks -/
theorem keeps_append {A B : UInt32 → Prop} (h1 : ∀ a b, P₁ a b → A a ∧ A b) (h2 : ∀ a b, P₂ a b → B a ∧ B b)
    (hd : ∀ a, A a → ¬ B a) (ht1 : ∀ b ∈ t₁, A b.val) (ht2 : ∀ b ∈ t₂, B b.val) (hk1 : Keeps bound P₁ t₁)
    (hk2 : Keeps bound P₂ t₂) : Keeps bound (fun a b => P₁ a b ∨ P₂ a b) (t₁ ++ t₂) := by
  intro a u hu hb
  by_cases ha : A a
  · have hb1 : ∀ b ∈ u, P₁ a b.val := fun b hm => (hb b hm).resolve_right fun h => hd a ha (h2 _ _ h).1
    exact hk1 a u (infix_left hu fun b hm hm' => hd _ (h1 _ _ (hb1 b hm)).2 (ht2 b hm')) hb1
  · have hb2 : ∀ b ∈ u, P₂ a b.val := fun b hm => (hb b hm).resolve_left fun h => ha (h1 _ _ h).1
    exact hk2 a u (infix_right hu fun b hm hm' => hd _ (ht1 b hm') (h2 _ _ (hb2 b hm)).2) hb2

theorem keeps_cons {id : BlockId} (h : ∀ a, ¬ P a id.val) (hk : Keeps bound P t) : Keeps bound P (id :: t) := by
  intro a u hu hb
  refine hk a u (infix_right (t₁ := [id]) hu fun b hm hm' => ?_) hb
  rw [List.mem_singleton.mp hm'] at hm
  exact h a (hb id hm)

theorem infix_round {id : BlockId} {u : List BlockId} : ∀ {L : List (List BlockId)}, u <:+: L.flatMap (id :: ·) →
    id ∉ u → u = [] ∨ ∃ t ∈ L, u <:+: t
  | [], h, _ => .inl (List.infix_nil.mp h)
  | t :: L, h, hn => by
    rw [List.flatMap_cons] at h
    cases u with
    | nil => exact .inl rfl
    | cons b u =>
      -- either all of it is before the next round, or it has nothing of this one
      cases L with
      | nil =>
        rw [List.flatMap_nil, List.append_nil] at h
        exact .inr ⟨t, List.mem_cons_self, infix_right (t₁ := [id]) h fun b hb hb' => hn (List.mem_singleton.mp hb' ▸ hb)⟩
      | cons t' L =>
        obtain ⟨x, y, e⟩ := h
        rw [List.append_assoc, List.append_eq_append_iff] at e
        rcases e with ⟨z, e1, e2⟩ | ⟨z, e1, e2⟩
        · rw [List.append_eq_append_iff] at e2
          rcases e2 with ⟨z', rfl, -⟩ | ⟨z', e3, e2⟩
          · refine .inr ⟨t, List.mem_cons_self, infix_right (t₁ := [id]) ⟨x, z', ?_⟩ fun b hb hb' =>
              hn (List.mem_singleton.mp hb' ▸ hb)⟩
            rw [List.append_assoc, ← e1]
            rfl
          · cases z' with
            | nil =>
              refine .inr ⟨t, List.mem_cons_self, infix_right (t₁ := [id]) ⟨x, [], ?_⟩ fun b hb hb' =>
                hn (List.mem_singleton.mp hb' ▸ hb)⟩
              rw [List.append_nil, e3, List.append_nil, ← e1]
              rfl
            | cons c z' =>
              rw [List.flatMap_cons, List.cons_append, List.cons_append] at e2
              obtain rfl := (List.cons.inj e2).1
              exact absurd (e3 ▸ List.mem_append_right _ List.mem_cons_self) hn
        · refine (infix_round (L := t' :: L) ⟨z, y, ?_⟩ hn).imp (fun h => h) fun ⟨t, ht, hi⟩ => ⟨t, List.mem_cons_of_mem _ ht, hi⟩
          rw [List.append_assoc, ← e2]

theorem count_rounds {id : BlockId} : ∀ {L : List (List BlockId)}, (∀ t ∈ L, id ∉ t) →
    (L.flatMap (id :: ·)).count id = L.length
  | [], _ => rfl
  | t :: L, h => by
    rw [List.flatMap_cons, List.count_append, count_rounds fun t ht => h t (List.mem_cons_of_mem _ ht), List.count_cons_self,
      List.count_eq_zero_of_not_mem (h t List.mem_cons_self), List.length_cons]
    omega

/-- The rounds of a loop -/
theorem keeps_rounds {id : BlockId} {A : UInt32 → Prop} (hp : ∀ a b, P a b → A a ∧ A b) (hn : ¬ A id.val)
    {L : List (List BlockId)} (hL : ∀ t ∈ L, ∀ b ∈ t, A b.val) :
    Keeps bound (fun a b => (a = id.val ∧ (b = a ∨ A b)) ∨ P a b) (L.flatMap (id :: ·)) ↔
      L.length ≤ bound id ∧ ∀ t ∈ L, Keeps bound P t := by
  have hn' : ∀ t ∈ L, id ∉ t := fun t ht h => hn (hL t ht id h)
  constructor
  · intro h
    refine ⟨?_, fun t ht => keeps_mono (keeps_infix h ?_) fun a b => .inr⟩
    · have := h id.val _ (List.infix_refl _) fun b hb => by
        obtain ⟨t, ht, hb⟩ := List.mem_flatMap.mp hb
        rcases List.mem_cons.mp hb with rfl | hb
        · exact .inl ⟨rfl, .inl rfl⟩
        · exact .inl ⟨rfl, .inr (hL t ht b hb)⟩
      rwa [count_rounds hn'] at this
    · obtain ⟨L1, L2, rfl⟩ := List.append_of_mem ht
      exact ⟨L1.flatMap (id :: ·) ++ [id], L2.flatMap (id :: ·), by simp⟩
  · rintro ⟨hl, hk⟩ a u hu hb
    by_cases ha : a = id.val
    · subst ha
      refine Nat.le_trans (hu.sublist.count_le _) ?_
      rw [count_rounds hn']
      exact hl
    · have hb' : ∀ b ∈ u, P a b.val := fun b hm => (hb b hm).resolve_left fun h => ha h.1
      rcases infix_round hu fun hm => hn (hp _ _ (hb' id hm)).2 with rfl | ⟨t, ht, hi⟩
      · exact Nat.zero_le _
      · exact hk t ht a u hi hb'

end

/-! ### Blocks of chains -/

mutual
theorem within_ids : ∀ (chain : ControlFlowChain) (a b : UInt32), WithinLoop a b chain →
    a ∈ chainIds chain ∧ b ∈ chainIds chain
  | .Atom _, _, _, h => h.elim
  | .Block chains, a, b, h => within_ids_all chains a b h
  | .Selection id l r _ _, a, b, h => by
    rw [WithinLoop] at h
    rw [chainIds]
    rcases h with h | h
    · have := within_ids l a b h
      simp [this]
    · have := within_ids r a b h
      simp [this]
  | .Loop id inner _ _, a, b, h => by
    rw [WithinLoop] at h
    rw [chainIds]
    rcases h with ⟨rfl, rfl | h⟩ | h
    · simp
    · simp [h]
    · have := within_ids inner a b h
      simp [this]
  | .Break, _, _, h => h.elim
  | .Continue, _, _, h => h.elim
theorem within_ids_all : ∀ (chains : List ControlFlowChain) (a b : UInt32), WithinLoopAny a b chains →
    a ∈ chainIdsAll chains ∧ b ∈ chainIdsAll chains
  | [], _, _, h => h.elim
  | c :: cs, a, b, h => by
    rw [WithinLoopAny] at h
    rw [chainIdsAll]
    rcases h with h | h
    · have := within_ids c a b h
      simp [this]
    · have := within_ids_all cs a b h
      simp [this]
end

mutual
theorem lang_ids : ∀ (chain : ControlFlowChain) (s : Signal) (x : List BlockId), x ∈ lang chain s →
    ∀ b ∈ x, b.val ∈ chainIds chain
  | .Atom id, s, x, h, b, hb => by
    cases s with
    | next =>
      have h : x = [id] := h
      rw [h] at hb
      rw [List.mem_singleton.mp hb, chainIds]
      exact List.mem_singleton.mpr rfl
    | running =>
      have h : x = [] := h
      rw [h] at hb
      cases hb
    | breaks => exact absurd h (Language.notMem_zero x)
    | continues => exact absurd h (Language.notMem_zero x)
  | .Block chains, s, x, h, b, hb => lang_ids_all chains s x (by rwa [lang, ways] at h) b hb
  | .Selection id l r _ _, s, x, h, b, hb => by
    rw [chainIds]
    rcases mem_sel.mp h with ⟨-, rfl⟩ | ⟨y, rfl, hy | hy⟩
    · cases hb
    · rcases List.mem_cons.mp hb with rfl | hb
      · simp
      · simp [lang_ids l s y hy b hb]
    · rcases List.mem_cons.mp hb with rfl | hb
      · simp
      · simp [lang_ids r s y hy b hb]
  | .Loop id inner _ _, s, x, h, b, hb => by
    rw [chainIds]
    obtain ⟨L, z, rfl, hL, hz⟩ := mem_loop.mp h
    have key : ∀ s' y, y ∈ lang inner s' → b ∈ id :: y → b.val ∈ id.val :: chainIds inner := by
      intro s' y hy hb
      rcases List.mem_cons.mp hb with rfl | hb
      · simp
      · simp [lang_ids inner s' y hy b hb]
    rcases List.mem_append.mp hb with hb | hb
    · obtain ⟨y, hy, hb⟩ := List.mem_flatten.mp hb
      obtain ⟨y', rfl, hy' | hy'⟩ := hL y hy
      · exact key _ y' hy' hb
      · exact key _ y' hy' hb
    · cases s with
      | next =>
        obtain ⟨y, rfl, hy⟩ := hz
        exact key _ y hy hb
      | running =>
        rcases hz with rfl | ⟨y, rfl, hy⟩
        · cases hb
        · exact key _ y hy hb
      | breaks => exact hz.elim
      | continues => exact hz.elim
  | .Break, s, x, h, b, hb => by
    cases s <;> first | exact absurd h (Language.notMem_zero x) | skip
    have h : x = [] := h
    rw [h] at hb
    cases hb
  | .Continue, s, x, h, b, hb => by
    cases s <;> first | exact absurd h (Language.notMem_zero x) | skip
    have h : x = [] := h
    rw [h] at hb
    cases hb
theorem lang_ids_all : ∀ (chains : List ControlFlowChain) (s : Signal) (x : List BlockId), x ∈ langAll chains s →
    ∀ b ∈ x, b.val ∈ chainIdsAll chains
  | [], s, x, h, b, hb => by
    cases s <;> first | exact absurd h (Language.notMem_zero x) | skip
    have h : x = [] := h
    rw [h] at hb
    cases hb
  | c :: cs, s, x, h, b, hb => by
    rw [chainIdsAll]
    rcases mem_cons.mp h with ⟨-, h⟩ | ⟨y, z, rfl, hy, hz⟩
    · exact List.mem_append_left _ (lang_ids c s x h b hb)
    · rcases List.mem_append.mp hb with hb | hb
      · exact List.mem_append_left _ (lang_ids c _ y hy b hb)
      · exact List.mem_append_right _ (lang_ids_all cs s z hz b hb)
end

/-! ### What matches -/

section
variable {bound : BlockId → Nat}

variable (bound) in
/-- What executions that keep the bounds visit -/
abbrev lang' (chain : ControlFlowChain) (s : Signal) : Language BlockId := (waysWithin bound chain s).matches'
variable (bound) in
/-- The same for a sequence -/
abbrev langAll' (chains : List ControlFlowChain) (s : Signal) : Language BlockId := (waysWithinAll bound chains s).matches'

theorem mem_fewer (e : RegularExpression BlockId) : ∀ (n : Nat) (x : List BlockId), x ∈ (fewer n e).matches' ↔
    ∃ L : List (List BlockId), L.length < n ∧ x = L.flatten ∧ ∀ y ∈ L, y ∈ e.matches'
  | 0, x => ⟨fun h => absurd h (Language.notMem_zero x), fun ⟨_, h, _⟩ => absurd h (Nat.not_lt_zero _)⟩
  | n + 1, x => by
    rw [fewer, matches'_add, matches'_epsilon, matches'_mul, Language.mem_add, Language.mem_one, Language.mem_mul]
    constructor
    · rintro (rfl | ⟨y, hy, z, hz, rfl⟩)
      · exact ⟨[], Nat.succ_pos _, rfl, fun y hy => nomatch hy⟩
      · obtain ⟨L, hl, rfl, hL⟩ := (mem_fewer e n z).mp hz
        exact ⟨y :: L, Nat.succ_lt_succ hl, rfl, fun y' hy' => (List.mem_cons.mp hy').elim (fun h => h ▸ hy) (hL y')⟩
    · rintro ⟨L, hl, rfl, hL⟩
      cases L with
      | nil => exact .inl rfl
      | cons y L =>
        exact .inr ⟨y, hL y List.mem_cons_self, _,
          (mem_fewer e n _).mpr ⟨L, Nat.lt_of_succ_lt_succ hl, rfl, fun y' hy' => hL y' (List.mem_cons_of_mem _ hy')⟩, rfl⟩

theorem mem_sel' {id : BlockId} {l r : ControlFlowChain} {h w} {s : Signal} {x : List BlockId} :
    x ∈ lang' bound (.Selection id l r h w) s ↔
      (s = .running ∧ x = []) ∨ ∃ y, x = id :: y ∧ (y ∈ lang' bound l s ∨ y ∈ lang' bound r s) := by
  have key : x ∈ ({[id]} : Language BlockId) * (lang' bound l s + lang' bound r s) ↔
      ∃ y, x = id :: y ∧ (y ∈ lang' bound l s ∨ y ∈ lang' bound r s) := by
    rw [mem_char_mul]
    simp only [Language.mem_add]
    exact ⟨fun ⟨y, h, e⟩ => ⟨y, e, h⟩, fun ⟨y, e, h⟩ => ⟨y, h, e⟩⟩
  cases s
  case running =>
    simp only [lang', waysWithin, matches'_add, matches'_mul, matches'_char, matches'_epsilon, Language.mem_add,
      Language.mem_one, true_and]
    rw [← key]
  all_goals
    simp only [lang', waysWithin, matches'_add, matches'_mul, matches'_char, reduceCtorEq, false_and, false_or]
    rw [← key]

theorem mem_cons' {chain : ControlFlowChain} {chains : List ControlFlowChain} {s : Signal} {x : List BlockId} :
    x ∈ langAll' bound (chain :: chains) s ↔ (s ≠ .next ∧ x ∈ lang' bound chain s) ∨
      ∃ y z, x = y ++ z ∧ y ∈ lang' bound chain .next ∧ z ∈ langAll' bound chains s := by
  have key : x ∈ lang' bound chain .next * langAll' bound chains s ↔
      ∃ y z, x = y ++ z ∧ y ∈ lang' bound chain .next ∧ z ∈ langAll' bound chains s := by
    rw [Language.mem_mul]
    exact ⟨fun ⟨y, hy, z, hz, e⟩ => ⟨y, z, e.symm, hy, hz⟩, fun ⟨y, z, e, hy, hz⟩ => ⟨y, hy, z, hz, e.symm⟩⟩
  cases s
  case next =>
    simp only [langAll', waysWithinAll, matches'_mul, ne_eq, not_true, false_and, false_or]
    rw [← key]
  all_goals
    simp only [langAll', waysWithinAll, matches'_add, matches'_mul, Language.mem_add, ne_eq, reduceCtorEq, not_false_eq_true,
      true_and]
    rw [← key]

/-- The rounds of a loop, and how the last one ends if it is cut short -/
def lastRound : Signal → Signal
  | .next => .breaks
  | s => s

/-- Rounds, by what is visited after the head -/
theorem flatten_rounds {id : BlockId} {p : List BlockId → Prop} : ∀ {L : List (List BlockId)},
    (∀ y ∈ L, ∃ y', y = id :: y' ∧ p y') → ∃ L' : List (List BlockId), L'.length = L.length ∧
      L.flatten = L'.flatMap (id :: ·) ∧ ∀ y ∈ L', p y
  | [], _ => ⟨[], rfl, rfl, fun y hy => nomatch hy⟩
  | y :: L, h => by
    obtain ⟨L', hl, e, hL⟩ := flatten_rounds (L := L) fun y hy => h y (List.mem_cons_of_mem _ hy)
    obtain ⟨y', rfl, hy⟩ := h y List.mem_cons_self
    exact ⟨y' :: L', by rw [List.length_cons, List.length_cons, hl], by rw [List.flatten_cons, List.flatMap_cons, e],
      fun z hz => (List.mem_cons.mp hz).elim (fun e => e ▸ hy) (hL z)⟩

/-- A loop by its rounds: all of them full, if it is cut off just after one, or the last one ends it. -/
theorem loop_rounds {id : BlockId} {inner : ControlFlowChain} {h w} {s : Signal} {x : List BlockId} :
    x ∈ lang (.Loop id inner h w) s ↔
      ∃ L : List (List BlockId), (∀ y ∈ L, y ∈ lang inner .next ∨ y ∈ lang inner .continues) ∧
        ((s = .running ∧ x = L.flatMap (id :: ·)) ∨ ((s = .running ∨ s = .next) ∧
          ∃ z ∈ lang inner (lastRound s), x = (L ++ [z]).flatMap (id :: ·))) := by
  rw [mem_loop]
  constructor
  · rintro ⟨L, z, rfl, hL, hz⟩
    obtain ⟨L', -, e, hL'⟩ := flatten_rounds hL
    refine ⟨L', hL', ?_⟩
    rw [e]
    cases s with
    | next =>
      obtain ⟨y, rfl, hy⟩ := hz
      exact .inr ⟨.inr rfl, y, hy, by simp⟩
    | running =>
      rcases hz with rfl | ⟨y, rfl, hy⟩
      · exact .inl ⟨rfl, by simp⟩
      · exact .inr ⟨.inl rfl, y, hy, by simp⟩
    | breaks => exact hz.elim
    | continues => exact hz.elim
  · rintro ⟨L, hL, hx⟩
    have hL' : ∀ y ∈ L.map (id :: ·), Round id inner y := fun y hy => by
      obtain ⟨y', hy', rfl⟩ := List.mem_map.mp hy
      exact ⟨y', rfl, hL y' hy'⟩
    rcases hx with ⟨rfl, rfl⟩ | ⟨rfl | rfl, z, hz, rfl⟩
    · exact ⟨L.map (id :: ·), [], by rw [List.append_nil, List.flatMap_def], hL', .inl rfl⟩
    · exact ⟨L.map (id :: ·), id :: z, by simp [List.flatMap_def], hL', .inr ⟨z, rfl, hz⟩⟩
    · exact ⟨L.map (id :: ·), id :: z, by simp [List.flatMap_def], hL', ⟨z, rfl, hz⟩⟩

theorem fewer_rounds {id : BlockId} {inner : ControlFlowChain} {n : Nat} {x : List BlockId} :
    x ∈ (fewer n (char id * (waysWithin bound inner .next + waysWithin bound inner .continues))).matches' ↔
      ∃ L : List (List BlockId), L.length < n ∧ x = L.flatMap (id :: ·) ∧
        ∀ y ∈ L, y ∈ lang' bound inner .next ∨ y ∈ lang' bound inner .continues := by
  have round : ∀ y, y ∈ (char id * (waysWithin bound inner .next + waysWithin bound inner .continues)).matches' ↔
      ∃ y', y = id :: y' ∧ (y' ∈ lang' bound inner .next ∨ y' ∈ lang' bound inner .continues) := by
    intro y
    rw [matches'_mul, matches'_char, mem_char_mul, matches'_add]
    simp only [Language.mem_add]
    exact ⟨fun ⟨y, h, e⟩ => ⟨y, e, h⟩, fun ⟨y, e, h⟩ => ⟨y, h, e⟩⟩
  rw [mem_fewer]
  constructor
  · rintro ⟨L, hl, rfl, hL⟩
    obtain ⟨L', hl', e, hL'⟩ := flatten_rounds fun y hy => (round y).mp (hL y hy)
    exact ⟨L', hl' ▸ hl, e, hL'⟩
  · rintro ⟨L, hl, rfl, hL⟩
    refine ⟨L.map (id :: ·), by rwa [List.length_map], by rw [List.flatMap_def], fun y hy => ?_⟩
    obtain ⟨y', hy', rfl⟩ := List.mem_map.mp hy
    exact (round _).mpr ⟨y', rfl, hL y' hy'⟩

theorem loop_rounds' {id : BlockId} {inner : ControlFlowChain} {h w} {s : Signal} {x : List BlockId} :
    x ∈ lang' bound (.Loop id inner h w) s ↔
      ∃ L : List (List BlockId), (∀ y ∈ L, y ∈ lang' bound inner .next ∨ y ∈ lang' bound inner .continues) ∧
        ((s = .running ∧ L.length ≤ bound id ∧ x = L.flatMap (id :: ·)) ∨ ((s = .running ∨ s = .next) ∧
          ∃ z ∈ lang' bound inner (lastRound s), (L ++ [z]).length ≤ bound id ∧ x = (L ++ [z]).flatMap (id :: ·))) := by
  have last : ∀ s', x ∈ (fewer (bound id) (char id * (waysWithin bound inner .next + waysWithin bound inner .continues)) *
      (char id * waysWithin bound inner s')).matches' ↔
      ∃ L : List (List BlockId), (∀ y ∈ L, y ∈ lang' bound inner .next ∨ y ∈ lang' bound inner .continues) ∧
        ∃ z ∈ lang' bound inner s', (L ++ [z]).length ≤ bound id ∧ x = (L ++ [z]).flatMap (id :: ·) := by
    intro s'
    rw [matches'_mul, Language.mem_mul]
    constructor
    · rintro ⟨y, hy, z, hz, rfl⟩
      obtain ⟨L, hl, rfl, hL⟩ := fewer_rounds.mp hy
      rw [matches'_mul, matches'_char, mem_char_mul] at hz
      obtain ⟨z, hz, rfl⟩ := hz
      exact ⟨L, hL, z, hz, by rw [List.length_append]; exact hl, by simp⟩
    · rintro ⟨L, hL, z, hz, hl, rfl⟩
      refine ⟨_, fewer_rounds.mpr ⟨L, by rw [List.length_append] at hl; exact hl, rfl, hL⟩, id :: z, ?_, by simp⟩
      rw [matches'_mul, matches'_char, mem_char_mul]
      exact ⟨z, hz, rfl⟩
  cases s with
  | next =>
    rw [lang', waysWithin, last]
    simp [lastRound]
  | running =>
    rw [lang', waysWithin, matches'_add, Language.mem_add, last, fewer_rounds]
    constructor
    · rintro (⟨L, hl, rfl, hL⟩ | ⟨L, hL, hz⟩)
      · exact ⟨L, hL, .inl ⟨rfl, Nat.le_of_lt_succ hl, rfl⟩⟩
      · exact ⟨L, hL, .inr ⟨.inl rfl, hz⟩⟩
    · rintro ⟨L, hL, ⟨-, hl, rfl⟩ | ⟨-, hz⟩⟩
      · exact .inl ⟨L, Nat.lt_succ_of_le hl, rfl, hL⟩
      · exact .inr ⟨L, hL, hz⟩
  | breaks =>
    simp only [lang', waysWithin]
    exact ⟨fun h => absurd h (Language.notMem_zero _), fun ⟨_, _, h⟩ => by simp at h⟩
  | continues =>
    simp only [lang', waysWithin]
    exact ⟨fun h => absurd h (Language.notMem_zero _), fun ⟨_, _, h⟩ => by simp at h⟩

end

/-! ### The executions that keep the bounds -/

variable {bound : BlockId → Nat}

mutual
theorem within_iff : ∀ (chain : ControlFlowChain) (s : Signal) (x : List BlockId), (chainIds chain).Nodup →
    (x ∈ lang' bound chain s ↔ x ∈ lang chain s ∧ Keeps bound (fun a b => WithinLoop a b chain) x)
  | .Atom id, s, x, _ => by
    have hk : Keeps bound (fun a b => WithinLoop a b (.Atom id)) x := keeps_false fun a b h => h
    cases s <;> exact ⟨fun h => ⟨h, hk⟩, fun h => h.1⟩
  | .Block chains, s, x, hd => by
    have := within_iff_all chains s x (by rwa [chainIds] at hd)
    rw [lang', waysWithin, this, lang, ways]
    simp only [WithinLoop]
  | .Selection id l r _ _, s, x, hd => by
    rw [chainIds, List.nodup_cons, List.nodup_append] at hd
    obtain ⟨hn, hl, hr, hlr⟩ := hd
    have hdis : ∀ a, a ∈ chainIds l → ¬ a ∈ chainIds r := fun a h h' => hlr a h a h' rfl
    have hnl : ∀ a, ¬ WithinLoop a id.val l := fun a h => hn (List.mem_append_left _ (within_ids l _ _ h).2)
    have hnr : ∀ a, ¬ WithinLoop a id.val r := fun a h => hn (List.mem_append_right _ (within_ids r _ _ h).2)
    rw [mem_sel', mem_sel]
    simp only [WithinLoop]
    constructor
    · rintro (⟨rfl, rfl⟩ | ⟨y, rfl, hy | hy⟩)
      · exact ⟨.inl ⟨rfl, rfl⟩, keeps_nil⟩
      · obtain ⟨h1, h2⟩ := (within_iff l s y hl).mp hy
        refine ⟨.inr ⟨y, rfl, .inl h1⟩, keeps_cons (fun a h => h.elim (hnl a) (hnr a)) ?_⟩
        have := keeps_append (within_ids l) (within_ids r) hdis (lang_ids l s y h1) (t₂ := []) (fun b hb => nomatch hb) h2
          keeps_nil
        rwa [List.append_nil] at this
      · obtain ⟨h1, h2⟩ := (within_iff r s y hr).mp hy
        refine ⟨.inr ⟨y, rfl, .inr h1⟩, keeps_cons (fun a h => h.elim (hnl a) (hnr a)) ?_⟩
        exact keeps_append (within_ids l) (within_ids r) hdis (t₁ := []) (fun b hb => nomatch hb) (lang_ids r s y h1)
          keeps_nil h2
    · rintro ⟨⟨rfl, rfl⟩ | ⟨y, rfl, hy | hy⟩, hk⟩
      · exact .inl ⟨rfl, rfl⟩
      · have hk := keeps_infix hk (List.suffix_cons id y).isInfix
        exact .inr ⟨y, rfl, .inl ((within_iff l s y hl).mpr ⟨hy, keeps_mono hk fun a b => .inl⟩)⟩
      · have hk := keeps_infix hk (List.suffix_cons id y).isInfix
        exact .inr ⟨y, rfl, .inr ((within_iff r s y hr).mpr ⟨hy, keeps_mono hk fun a b => .inr⟩)⟩
  | .Loop id inner _ _, s, x, hd => by
    rw [chainIds, List.nodup_cons] at hd
    obtain ⟨hn, hi⟩ := hd
    have ih := fun s y => within_iff inner s y hi
    rw [loop_rounds', loop_rounds]
    simp only [WithinLoop]
    have rounds : ∀ L : List (List BlockId), (∀ y ∈ L, ∃ s, y ∈ lang inner s) →
        (Keeps bound (fun a b => (a = id.val ∧ (b = a ∨ b ∈ chainIds inner)) ∨ WithinLoop a b inner) (L.flatMap (id :: ·)) ↔
          L.length ≤ bound id ∧ ∀ t ∈ L, Keeps bound (fun a b => WithinLoop a b inner) t) := fun L hL =>
      keeps_rounds (A := (· ∈ chainIds inner)) (within_ids inner) hn fun t ht b hb => by
        obtain ⟨s, hs⟩ := hL t ht
        exact lang_ids inner s t hs b hb
    constructor
    · rintro ⟨L, hL, hx⟩
      have hL1 : ∀ y ∈ L, (y ∈ lang inner .next ∨ y ∈ lang inner .continues) ∧
          Keeps bound (fun a b => WithinLoop a b inner) y := fun y hy => by
        rcases hL y hy with h | h
        · exact ⟨.inl ((ih _ _).mp h).1, ((ih _ _).mp h).2⟩
        · exact ⟨.inr ((ih _ _).mp h).1, ((ih _ _).mp h).2⟩
      have hL2 : ∀ y ∈ L, ∃ s, y ∈ lang inner s := fun y hy => (hL1 y hy).1.elim (fun h => ⟨_, h⟩) fun h => ⟨_, h⟩
      rcases hx with ⟨rfl, hl, rfl⟩ | ⟨hs, z, hz, hl, rfl⟩
      · exact ⟨⟨L, fun y hy => (hL1 y hy).1, .inl ⟨rfl, rfl⟩⟩, (rounds L hL2).mpr ⟨hl, fun y hy => (hL1 y hy).2⟩⟩
      · obtain ⟨hz1, hz2⟩ := (ih _ _).mp hz
        refine ⟨⟨L, fun y hy => (hL1 y hy).1, .inr ⟨hs, z, hz1, rfl⟩⟩, (rounds (L ++ [z]) fun y hy => ?_).mpr ⟨hl, fun y hy => ?_⟩⟩
        · rcases List.mem_append.mp hy with hy | hy
          · exact hL2 y hy
          · exact ⟨_, List.mem_singleton.mp hy ▸ hz1⟩
        · rcases List.mem_append.mp hy with hy | hy
          · exact (hL1 y hy).2
          · exact List.mem_singleton.mp hy ▸ hz2
    · rintro ⟨⟨L, hL, hx⟩, hk⟩
      have hL2 : ∀ y ∈ L, ∃ s, y ∈ lang inner s := fun y hy => (hL y hy).elim (fun h => ⟨_, h⟩) fun h => ⟨_, h⟩
      rcases hx with ⟨rfl, rfl⟩ | ⟨hs, z, hz, rfl⟩
      · obtain ⟨hl, hk⟩ := (rounds L hL2).mp hk
        exact ⟨L, fun y hy => (hL y hy).imp (fun h => (ih _ _).mpr ⟨h, hk y hy⟩) fun h => (ih _ _).mpr ⟨h, hk y hy⟩,
          .inl ⟨rfl, hl, rfl⟩⟩
      · obtain ⟨hl, hk⟩ := (rounds (L ++ [z]) fun y hy => (List.mem_append.mp hy).elim (hL2 y) fun hy =>
          ⟨_, List.mem_singleton.mp hy ▸ hz⟩).mp hk
        have hk1 := fun y (hy : y ∈ L) => hk y (List.mem_append_left _ hy)
        exact ⟨L, fun y hy => (hL y hy).imp (fun h => (ih _ _).mpr ⟨h, hk1 y hy⟩) fun h => (ih _ _).mpr ⟨h, hk1 y hy⟩,
          .inr ⟨hs, z, (ih _ _).mpr ⟨hz, hk z (by simp)⟩, hl, rfl⟩⟩
  | .Break, s, x, _ => by
    have hk : Keeps bound (fun a b => WithinLoop a b .Break) x := keeps_false fun a b h => h
    cases s <;> exact ⟨fun h => ⟨h, hk⟩, fun h => h.1⟩
  | .Continue, s, x, _ => by
    have hk : Keeps bound (fun a b => WithinLoop a b .Continue) x := keeps_false fun a b h => h
    cases s <;> exact ⟨fun h => ⟨h, hk⟩, fun h => h.1⟩
theorem within_iff_all : ∀ (chains : List ControlFlowChain) (s : Signal) (x : List BlockId), (chainIdsAll chains).Nodup →
    (x ∈ langAll' bound chains s ↔ x ∈ langAll chains s ∧ Keeps bound (fun a b => WithinLoopAny a b chains) x)
  | [], s, x, _ => by
    have hk : Keeps bound (fun a b => WithinLoopAny a b []) x := keeps_false fun a b h => h
    cases s <;> exact ⟨fun h => ⟨h, hk⟩, fun h => h.1⟩
  | c :: cs, s, x, hd => by
    rw [chainIdsAll, List.nodup_append] at hd
    obtain ⟨hc, hcs, hlr⟩ := hd
    have hdis : ∀ a, a ∈ chainIds c → ¬ a ∈ chainIdsAll cs := fun a h h' => hlr a h a h' rfl
    rw [mem_cons', mem_cons]
    simp only [WithinLoopAny]
    constructor
    · rintro (⟨hs, hx⟩ | ⟨y, z, rfl, hy, hz⟩)
      · obtain ⟨h1, h2⟩ := (within_iff c s x hc).mp hx
        refine ⟨.inl ⟨hs, h1⟩, ?_⟩
        have := keeps_append (within_ids c) (within_ids_all cs) hdis (lang_ids c s x h1) (t₂ := []) (fun b hb => nomatch hb)
          h2 keeps_nil
        rwa [List.append_nil] at this
      · obtain ⟨h1, h2⟩ := (within_iff c _ y hc).mp hy
        obtain ⟨h3, h4⟩ := (within_iff_all cs s z hcs).mp hz
        exact ⟨.inr ⟨y, z, rfl, h1, h3⟩,
          keeps_append (within_ids c) (within_ids_all cs) hdis (lang_ids c _ y h1) (lang_ids_all cs s z h3) h2 h4⟩
    · rintro ⟨⟨hs, hx⟩ | ⟨y, z, rfl, hy, hz⟩, hk⟩
      · exact .inl ⟨hs, (within_iff c s x hc).mpr ⟨hx, keeps_mono hk fun a b => .inl⟩⟩
      · exact .inr ⟨y, z, rfl,
          (within_iff c _ y hc).mpr ⟨hy, keeps_mono (keeps_infix hk (List.prefix_append y z).isInfix) fun a b => .inl⟩,
          (within_iff_all cs s z hcs).mpr ⟨hz, keeps_mono (keeps_infix hk (List.suffix_append y z).isInfix) fun a b => .inr⟩⟩
end

/-! ### Costs -/

theorem fewer_bounded {w : BlockId → Nat} {e : RegularExpression BlockId} (h : dearest w e ≠ .unbounded) :
    ∀ n, dearest w (fewer n e) ≠ .unbounded
  | 0 => nofun
  | n + 1 => Cost.plus_bounded nofun (Cost.comp_bounded h (fewer_bounded h n))

mutual
theorem bounded (w : BlockId → Nat) : ∀ (chain : ControlFlowChain) (s : Signal),
    dearest w (waysWithin bound chain s) ≠ .unbounded
  | .Atom id, s => by cases s <;> rw [waysWithin] <;> nofun
  | .Block chains, s => by
    rw [waysWithin]
    exact bounded_all w chains s
  | .Selection id l r _ _, s => by
    have key : dearest w (char id * (waysWithin bound l s + waysWithin bound r s)) ≠ .unbounded :=
      Cost.comp_bounded nofun (Cost.plus_bounded (bounded w l s) (bounded w r s))
    cases s <;> rw [waysWithin]
    case running => exact Cost.plus_bounded nofun key
    all_goals first | exact key | nofun
  | .Loop id inner _ _, s => by
    have hr : ∀ n, dearest w (fewer n (char id * (waysWithin bound inner .next + waysWithin bound inner .continues))) ≠
        .unbounded := fewer_bounded (Cost.comp_bounded nofun (Cost.plus_bounded (bounded w inner _) (bounded w inner _)))
    cases s <;> rw [waysWithin]
    case next => exact Cost.comp_bounded (hr _) (Cost.comp_bounded nofun (bounded w inner _))
    case running =>
      exact Cost.plus_bounded (hr _) (Cost.comp_bounded (hr _) (Cost.comp_bounded nofun (bounded w inner _)))
    all_goals nofun
  | .Break, s => by cases s <;> rw [waysWithin] <;> nofun
  | .Continue, s => by cases s <;> rw [waysWithin] <;> nofun
theorem bounded_all (w : BlockId → Nat) : ∀ (chains : List ControlFlowChain) (s : Signal),
    dearest w (waysWithinAll bound chains s) ≠ .unbounded
  | [], s => by cases s <;> rw [waysWithinAll] <;> nofun
  | chain :: chains, s => by
    have key := Cost.comp_bounded (bounded w chain .next) (bounded_all w chains s)
    cases s <;> rw [waysWithinAll]
    case next => exact key
    all_goals first | exact Cost.plus_bounded (bounded w chain _) key | nofun
end

end Magma.LoopBound
