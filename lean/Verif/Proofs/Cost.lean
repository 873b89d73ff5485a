import Verif.Spec.Cost
import Verif.Proofs.Regular
import Verif.Proofs.Expressible
/-! What executions can cost. -/

namespace Magma.Cost
open Spec RegularExpression

theorem cost_nil (w : BlockId → Nat) : cost w [] = 0 := rfl

theorem cost_append (w : BlockId → Nat) (x y : List BlockId) : cost w (x ++ y) = cost w x + cost w y := by
  simp [cost]

/-- `n` is the least cost in a language. -/
def Cheapest (w : BlockId → Nat) (l : Language BlockId) : Option Nat → Prop
  | none => ∀ x, x ∉ l
  | some n => (∃ x ∈ l, cost w x = n) ∧ ∀ x ∈ l, n ≤ cost w x

theorem cheapest_spec (w : BlockId → Nat) : ∀ e : RegularExpression BlockId, Cheapest w e.matches' (cheapest w e)
  | .zero => fun x => Language.notMem_zero x
  | .epsilon => ⟨⟨[], rfl, rfl⟩, fun _ _ => Nat.zero_le _⟩
  | .char id => ⟨⟨[id], rfl, by simp [cost]⟩, fun x h => by
    have h : x = [id] := h
    simp [h, cost]⟩
  | .plus a b => by
    have ha := cheapest_spec w a
    have hb := cheapest_spec w b
    show Cheapest w (a.matches' + b.matches') _
    rw [cheapest]
    generalize cheapest w a = m at ha
    generalize cheapest w b = n at hb
    cases m with
    | none =>
      cases n with
      | none => exact fun x hx => hx.elim (ha x) (hb x)
      | some n =>
        obtain ⟨⟨x, hx, e⟩, h⟩ := hb
        exact ⟨⟨x, .inr hx, e⟩, fun y hy => hy.elim (fun hy => absurd hy (ha y)) (h y)⟩
    | some m =>
      obtain ⟨⟨x, hx, e⟩, h⟩ := ha
      cases n with
      | none => exact ⟨⟨x, .inl hx, e⟩, fun y hy => hy.elim (h y) (fun hy => absurd hy (hb y))⟩
      | some n =>
        obtain ⟨⟨x', hx', e'⟩, h'⟩ := hb
        refine ⟨?_, fun y hy => hy.elim (fun hy => ?_) (fun hy => ?_)⟩
        · by_cases hmn : m ≤ n
          · exact ⟨x, .inl hx, by rw [e, Nat.min_eq_left hmn]⟩
          · exact ⟨x', .inr hx', by rw [e', Nat.min_eq_right (by omega)]⟩
        · exact Nat.le_trans (Nat.min_le_left _ _) (h y hy)
        · exact Nat.le_trans (Nat.min_le_right _ _) (h' y hy)
  | .comp a b => by
    have ha := cheapest_spec w a
    have hb := cheapest_spec w b
    show Cheapest w (a.matches' * b.matches') _
    rw [cheapest]
    generalize cheapest w a = m at ha
    generalize cheapest w b = n at hb
    cases m with
    | none =>
      intro x hx
      obtain ⟨y, hy, -⟩ := Language.mem_mul.mp hx
      exact ha y hy
    | some m =>
      cases n with
      | none =>
        intro x hx
        obtain ⟨y, -, z, hz, -⟩ := Language.mem_mul.mp hx
        exact hb z hz
      | some n =>
        obtain ⟨⟨x, hx, e⟩, h⟩ := ha
        obtain ⟨⟨x', hx', e'⟩, h'⟩ := hb
        refine ⟨⟨x ++ x', Language.append_mem_mul hx hx', by rw [cost_append, e, e']⟩, fun y hy => ?_⟩
        obtain ⟨y', hy', z, hz, rfl⟩ := Language.mem_mul.mp hy
        rw [cost_append]
        exact Nat.add_le_add (h y' hy') (h' z hz)
  | .star a => ⟨⟨[], Language.nil_mem_kstar _, rfl⟩, fun _ _ => Nat.zero_le _⟩

/-- `n` is the greatest cost in a language. -/
def IsDearest (w : BlockId → Nat) (l : Language BlockId) : Dearest → Prop
  | .never => ∀ x, x ∉ l
  | .costs n => (∃ x ∈ l, cost w x = n) ∧ ∀ x ∈ l, cost w x ≤ n
  | .unbounded => ∀ n, ∃ x ∈ l, n ≤ cost w x

theorem IsDearest.some_mem {w : BlockId → Nat} {l : Language BlockId} {m : Dearest} (h : IsDearest w l m)
    (hm : m ≠ .never) : ∃ x, x ∈ l := by
  cases m with
  | never => exact absurd rfl hm
  | costs n => exact ⟨_, h.1.choose_spec.1⟩
  | unbounded => exact ⟨_, (h 0).choose_spec.1⟩

theorem star_grows {w : BlockId → Nat} {l : Language BlockId} {x : List BlockId} (hx : x ∈ l) (h : 0 < cost w x)
    (n : Nat) : ∃ y ∈ KStar.kstar l, n ≤ cost w y := by
  refine ⟨(List.replicate n x).flatten, Language.join_mem_kstar fun y hy => (List.mem_replicate.mp hy).2 ▸ hx, ?_⟩
  induction n with
  | zero => exact Nat.zero_le _
  | succ n ih => rw [List.replicate_succ, List.flatten_cons, cost_append]; omega

theorem dearest_spec (w : BlockId → Nat) : ∀ e : RegularExpression BlockId, IsDearest w e.matches' (dearest w e)
  | .zero => fun x => Language.notMem_zero x
  | .epsilon => ⟨⟨[], rfl, rfl⟩, fun x h => by
    have h : x = [] := h
    simp [h, cost]⟩
  | .char id => ⟨⟨[id], rfl, by simp [cost]⟩, fun x h => by
    have h : x = [id] := h
    simp [h, cost]⟩
  | .plus a b => by
    have ha := dearest_spec w a
    have hb := dearest_spec w b
    show IsDearest w (a.matches' + b.matches') _
    rw [dearest]
    generalize dearest w a = m at ha
    generalize dearest w b = n at hb
    have ul (h : ∀ n, ∃ x ∈ a.matches', n ≤ cost w x) : IsDearest w (a.matches' + b.matches') .unbounded := fun n => by
      obtain ⟨x, hx, e⟩ := h n
      exact ⟨x, .inl hx, e⟩
    have ur (h : ∀ n, ∃ x ∈ b.matches', n ≤ cost w x) : IsDearest w (a.matches' + b.matches') .unbounded := fun n => by
      obtain ⟨x, hx, e⟩ := h n
      exact ⟨x, .inr hx, e⟩
    cases m with
    | never =>
      cases n with
      | never => exact fun x hx => hx.elim (ha x) (hb x)
      | costs n =>
        obtain ⟨⟨x, hx, e⟩, h⟩ := hb
        exact ⟨⟨x, .inr hx, e⟩, fun y hy => hy.elim (fun hy => absurd hy (ha y)) (h y)⟩
      | unbounded => exact ur hb
    | unbounded => cases n <;> exact ul ha
    | costs m =>
      obtain ⟨⟨x, hx, e⟩, h⟩ := ha
      cases n with
      | never => exact ⟨⟨x, .inl hx, e⟩, fun y hy => hy.elim (h y) (fun hy => absurd hy (hb y))⟩
      | unbounded => exact ur hb
      | costs n =>
        obtain ⟨⟨x', hx', e'⟩, h'⟩ := hb
        refine ⟨?_, fun y hy => hy.elim (fun hy => ?_) (fun hy => ?_)⟩
        · by_cases hmn : m ≤ n
          · exact ⟨x', .inr hx', by rw [e', Nat.max_eq_right hmn]⟩
          · exact ⟨x, .inl hx, by rw [e, Nat.max_eq_left (by omega)]⟩
        · exact Nat.le_trans (h y hy) (Nat.le_max_left _ _)
        · exact Nat.le_trans (h' y hy) (Nat.le_max_right _ _)
  | .comp a b => by
    have ha := dearest_spec w a
    have hb := dearest_spec w b
    show IsDearest w (a.matches' * b.matches') _
    rw [dearest]
    generalize dearest w a = m at ha
    generalize dearest w b = n at hb
    have nl (h : ∀ x, x ∉ a.matches') : IsDearest w (a.matches' * b.matches') .never := fun x hx => by
      obtain ⟨y, hy, -⟩ := Language.mem_mul.mp hx
      exact h y hy
    have nr (h : ∀ x, x ∉ b.matches') : IsDearest w (a.matches' * b.matches') .never := fun x hx => by
      obtain ⟨y, -, z, hz, -⟩ := Language.mem_mul.mp hx
      exact h z hz
    have ul (h : ∀ n, ∃ x ∈ a.matches', n ≤ cost w x) (h' : ∃ y, y ∈ b.matches') :
        IsDearest w (a.matches' * b.matches') .unbounded := fun n => by
      obtain ⟨x, hx, e⟩ := h n
      obtain ⟨y, hy⟩ := h'
      exact ⟨x ++ y, Language.append_mem_mul hx hy, by rw [cost_append]; omega⟩
    have ur (h : ∀ n, ∃ x ∈ b.matches', n ≤ cost w x) (h' : ∃ y, y ∈ a.matches') :
        IsDearest w (a.matches' * b.matches') .unbounded := fun n => by
      obtain ⟨x, hx, e⟩ := h n
      obtain ⟨y, hy⟩ := h'
      exact ⟨y ++ x, Language.append_mem_mul hy hx, by rw [cost_append]; omega⟩
    cases m with
    | never => cases n <;> exact nl ha
    | unbounded =>
      cases n with
      | never => exact nr hb
      | costs n => exact ul ha (IsDearest.some_mem hb nofun)
      | unbounded => exact ul ha (IsDearest.some_mem hb nofun)
    | costs m =>
      cases n with
      | never => exact nr hb
      | unbounded => exact ur hb (IsDearest.some_mem ha nofun)
      | costs n =>
        obtain ⟨⟨x, hx, e⟩, h⟩ := ha
        obtain ⟨⟨x', hx', e'⟩, h'⟩ := hb
        refine ⟨⟨x ++ x', Language.append_mem_mul hx hx', by rw [cost_append, e, e']⟩, fun y hy => ?_⟩
        obtain ⟨y', hy', z, hz, rfl⟩ := Language.mem_mul.mp hy
        rw [cost_append]
        exact Nat.add_le_add (h y' hy') (h' z hz)
  | .star a => by
    have ha := dearest_spec w a
    show IsDearest w (KStar.kstar a.matches') _
    rw [dearest]
    generalize dearest w a = m at ha
    have zero (h : ∀ x ∈ a.matches', cost w x = 0) : IsDearest w (KStar.kstar a.matches') (.costs 0) := by
      refine ⟨⟨[], Language.nil_mem_kstar _, rfl⟩, fun x hx => ?_⟩
      obtain ⟨L, rfl, hL⟩ := Language.mem_kstar.mp hx
      clear hx
      induction L with
      | nil => exact Nat.le_refl _
      | cons y L ih =>
        rw [List.flatten_cons, cost_append, h y (hL y (List.mem_cons_self ..))]
        have := ih fun z hz => hL z (List.mem_cons_of_mem _ hz)
        omega
    cases m with
    | never => exact zero fun x hx => absurd hx (ha x)
    | unbounded =>
      obtain ⟨x, hx, h⟩ := ha 1
      exact star_grows hx h
    | costs n =>
      obtain ⟨⟨x, hx, e⟩, h⟩ := ha
      cases n with
      | zero => exact zero fun y hy => Nat.le_zero.mp (h y hy)
      | succ n => exact star_grows hx (by rw [e]; omega)

theorem Cheapest.unique {w : BlockId → Nat} {l : Language BlockId} {m n : Option Nat} (hm : Cheapest w l m)
    (hn : Cheapest w l n) : m = n := by
  cases m with
  | none =>
    cases n with
    | none => rfl
    | some n => obtain ⟨⟨x, hx, -⟩, -⟩ := hn; exact absurd hx (hm x)
  | some m =>
    obtain ⟨⟨x, hx, e⟩, h⟩ := hm
    cases n with
    | none => exact absurd hx (hn x)
    | some n =>
      obtain ⟨⟨y, hy, e'⟩, h'⟩ := hn
      have := h y hy
      have := h' x hx
      exact congrArg some (by omega)

theorem IsDearest.unique {w : BlockId → Nat} {l : Language BlockId} {m n : Dearest} (hm : IsDearest w l m)
    (hn : IsDearest w l n) : m = n := by
  cases m with
  | never =>
    cases n with
    | never => rfl
    | costs n => obtain ⟨⟨x, hx, -⟩, -⟩ := hn; exact absurd hx (hm x)
    | unbounded => obtain ⟨x, hx, -⟩ := hn 0; exact absurd hx (hm x)
  | costs m =>
    obtain ⟨⟨x, hx, e⟩, h⟩ := hm
    cases n with
    | never => exact absurd hx (hn x)
    | costs n =>
      obtain ⟨⟨y, hy, e'⟩, h'⟩ := hn
      have := h y hy
      have := h' x hx
      exact congrArg Dearest.costs (by omega)
    | unbounded =>
      obtain ⟨y, hy, h'⟩ := hn (m + 1)
      have := h y hy
      omega
  | unbounded =>
    cases n with
    | never => obtain ⟨x, hx, -⟩ := hm 0; exact absurd hx (hn x)
    | costs n =>
      obtain ⟨y, hy, h'⟩ := hm (n + 1)
      have := hn.2 y hy
      omega
    | unbounded => rfl

/-! ### Loops -/

theorem plus_bounded {w : BlockId → Nat} {a b : RegularExpression BlockId} (ha : dearest w a ≠ .unbounded)
    (hb : dearest w b ≠ .unbounded) : dearest w (a + b) ≠ .unbounded := by
  rw [← plus_def, dearest]
  generalize dearest w a = m at ha
  generalize dearest w b = n at hb
  cases m <;> cases n <;> first | exact absurd rfl ha | exact absurd rfl hb | nofun

theorem comp_bounded {w : BlockId → Nat} {a b : RegularExpression BlockId} (ha : dearest w a ≠ .unbounded)
    (hb : dearest w b ≠ .unbounded) : dearest w (a * b) ≠ .unbounded := by
  rw [← comp_def, dearest]
  generalize dearest w a = m at ha
  generalize dearest w b = n at hb
  cases m <;> cases n <;> first | exact absurd rfl ha | exact absurd rfl hb | nofun

mutual
/-- Without loops costs are bounded. -/
theorem bounded (w : BlockId → Nat) : ∀ (chain : ControlFlowChain) (s : Signal), ¬ HasLoop chain →
    dearest w (ways chain s) ≠ .unbounded
  | .Atom id, s, _ => by cases s <;> rw [ways] <;> nofun
  | .Block chains, s, h => by
    rw [ways]
    exact bounded_all w chains s (by rwa [HasLoop] at h)
  | .Selection id l r _ _, s, h => by
    rw [HasLoop] at h
    have hl := bounded w l s fun e => h (.inl e)
    have hr := bounded w r s fun e => h (.inr e)
    have key : dearest w (char id * (ways l s + ways r s)) ≠ .unbounded := comp_bounded nofun (plus_bounded hl hr)
    cases s <;> rw [ways]
    case running => exact plus_bounded nofun key
    all_goals first | exact key | nofun
  | .Loop id inner _ _, s, h => absurd trivial (by rwa [HasLoop] at h)
  | .Break, s, _ => by cases s <;> rw [ways] <;> nofun
  | .Continue, s, _ => by cases s <;> rw [ways] <;> nofun
theorem bounded_all (w : BlockId → Nat) : ∀ (chains : List ControlFlowChain) (s : Signal), ¬ HasLoops chains →
    dearest w (waysAll chains s) ≠ .unbounded
  | [], s, _ => by cases s <;> rw [waysAll] <;> nofun
  | chain :: chains, s, h => by
    rw [HasLoops] at h
    have h1 := fun s => bounded w chain s fun e => h (.inl e)
    have h2 := bounded_all w chains s fun e => h (.inr e)
    have key := comp_bounded (h1 .next) h2
    cases s <;> rw [waysAll]
    case next => exact key
    all_goals first | exact plus_bounded (h1 _) key | nofun
end

open Regular in
theorem mem_single {c : ControlFlowChain} {s : Signal} {x : List BlockId} : x ∈ langAll [c] s ↔ x ∈ lang c s := by
  rw [mem_cons]
  constructor
  · rintro (⟨-, h⟩ | ⟨y, z, rfl, hy, hz⟩)
    · exact h
    · cases s with
      | next =>
        have hz : z = [] := hz
        rw [hz, List.append_nil]
        exact hy
      | _ => exact absurd hz (Language.notMem_zero _)
  · intro h
    cases s with
    | next => exact .inr ⟨x, [], by simp, h, Language.nil_mem_one⟩
    | _ => exact .inl ⟨nofun, h⟩

open Regular in
theorem mem_toChain (p : Program) {s : Signal} {x : List BlockId} :
    x ∈ lang p.toChain s ↔ x ∈ langAll p.toChains s := by
  cases p with
  | ret id => rw [Program.toChain, Program.toChains, mem_single]
  | exit id b w rest => rw [Program.toChain, Program.toChains, mem_single]
  | _ =>
    rw [Program.toChain]
    simp only [lang, ways, Program.toChains]

theorem hasLoop_toChain (p : Program) : HasLoop p.toChain ↔ HasLoops p.toChains := by
  cases p with
  | ret id => simp only [Program.toChain, Program.toChains, HasLoop, HasLoops, or_false]
  | exit id b w rest => simp only [Program.toChain, Program.toChains, HasLoop, HasLoops, or_false]
  | _ => simp only [Program.toChain, Program.toChains, HasLoop]

open Regular in
/-- Without loops there is an execution that comes to the end. -/
theorem ends_some : ∀ (p : Program), ¬ HasLoops p.toChains → ∃ x, x ∈ langAll p.toChains .next
  | .done, _ => ⟨[], Language.nil_mem_one⟩
  | .ret id, _ => ⟨[id], mem_single.mpr (rfl : [id] = [id])⟩
  | .atom id rest, h => by
    simp only [Program.toChains, HasLoops, HasLoop, false_or] at h
    obtain ⟨x, hx⟩ := ends_some rest h
    exact ⟨id :: x, mem_cons.mpr (.inr ⟨[id], x, rfl, rfl, hx⟩)⟩
  | .sel id l r hint w rest, h => by
    simp only [Program.toChains, HasLoops, HasLoop, hasLoop_toChain] at h
    obtain ⟨x, hx⟩ := ends_some l fun e => h (.inl (.inl e))
    obtain ⟨y, hy⟩ := ends_some rest fun e => h (.inr e)
    exact ⟨(id :: x) ++ y, mem_cons.mpr (.inr ⟨id :: x, y, rfl,
      mem_sel.mpr (.inr ⟨x, rfl, .inl ((mem_toChain l).mpr hx)⟩), hy⟩)⟩
  | .loop id body hint rest, h => by
    simp only [Program.toChains, HasLoops, HasLoop, true_or, not_true] at h
  | .exit id b w rest, h => by
    simp only [Program.toChains, HasLoops, HasLoop, hasLoop_toChain, or_false] at h
    obtain ⟨x, hx⟩ := ends_some rest fun e => h (.inl e)
    exact ⟨id :: x, mem_single.mpr (mem_sel.mpr (.inr ⟨x, rfl, .inl ((mem_toChain rest).mpr hx)⟩))⟩

open Regular in
/-- With a loop there are executions of any length. -/
theorem runs_on (n : Nat) : ∀ (p : Program), HasLoops p.toChains → ∃ x ∈ langAll p.toChains .running, n ≤ x.length
  | .done, h => by simp only [Program.toChains, HasLoops] at h
  | .ret id, h => by simp only [Program.toChains, HasLoops, HasLoop, or_self] at h
  | .atom id rest, h => by
    simp only [Program.toChains, HasLoops, HasLoop, false_or] at h
    obtain ⟨x, hx, hn⟩ := runs_on n rest h
    exact ⟨id :: x, mem_cons.mpr (.inr ⟨[id], x, rfl, rfl, hx⟩), by simp only [List.length_cons]; omega⟩
  | .sel id l r hint w rest, h => by
    simp only [Program.toChains, HasLoops, HasLoop, hasLoop_toChain] at h
    by_cases hl : HasLoops l.toChains
    · obtain ⟨x, hx, hn⟩ := runs_on n l hl
      exact ⟨id :: x, mem_cons.mpr (.inl ⟨nofun, mem_sel.mpr (.inr ⟨x, rfl, .inl ((mem_toChain l).mpr hx)⟩)⟩),
        by simp only [List.length_cons]; omega⟩
    by_cases hr : HasLoops r.toChains
    · obtain ⟨x, hx, hn⟩ := runs_on n r hr
      exact ⟨id :: x, mem_cons.mpr (.inl ⟨nofun, mem_sel.mpr (.inr ⟨x, rfl, .inr ((mem_toChain r).mpr hx)⟩)⟩),
        by simp only [List.length_cons]; omega⟩
    · obtain ⟨x, hx⟩ := ends_some l hl
      obtain ⟨y, hy, hn⟩ := runs_on n rest (h.resolve_left fun h => h.elim hl hr)
      exact ⟨(id :: x) ++ y, mem_cons.mpr (.inr ⟨id :: x, y, rfl,
        mem_sel.mpr (.inr ⟨x, rfl, .inl ((mem_toChain l).mpr hx)⟩), hy⟩),
        by simp only [List.length_cons, List.length_append]; omega⟩
  | .loop id body hint rest, _ => by
    by_cases hb : HasLoops body.toChains
    · obtain ⟨x, hx, hn⟩ := runs_on n body hb
      exact ⟨id :: x, mem_cons.mpr (.inl ⟨nofun, mem_loop.mpr ⟨[], id :: x, rfl, nofun,
        .inr ⟨x, rfl, (mem_toChain body).mpr hx⟩⟩⟩), by simp only [List.length_cons]; omega⟩
    · obtain ⟨x, hx⟩ := ends_some body hb
      refine ⟨(List.replicate n (id :: x)).flatten ++ [], mem_cons.mpr (.inl ⟨nofun, mem_loop.mpr ⟨_, [], rfl, ?_,
        .inl rfl⟩⟩), ?_⟩
      · intro y hy
        rw [(List.mem_replicate.mp hy).2]
        exact ⟨x, rfl, .inl ((mem_toChain body).mpr hx)⟩
      · rw [List.append_nil, List.length_flatten, List.map_replicate, List.sum_replicate_nat, List.length_cons]
        exact Nat.le_mul_of_pos_right n (Nat.succ_pos _)
  | .exit id b w rest, h => by
    have h : HasLoops rest.toChains := by
      cases b <;> simpa [Program.toChains, HasLoops, HasLoop, hasLoop_toChain] using h
    obtain ⟨x, hx, hn⟩ := runs_on n rest h
    exact ⟨id :: x, mem_single.mpr (mem_sel.mpr (.inr ⟨x, rfl, .inl ((mem_toChain rest).mpr hx)⟩)),
      by simp only [List.length_cons]; omega⟩

/-- An execution that is cut off has visited as many blocks as there were decisions. -/
theorem running_length {X : Type} (blocks : List (BasicBlock X)) : ∀ (ds : List Bool) (id : BlockId),
    (runBlocks blocks ds id).2 = .running → (runBlocks blocks ds id).1.length = ds.length
  | [], _, _ => rfl
  | d :: ds, id, h => by
    rw [runBlocks] at h ⊢
    cases hb : blockOf blocks id with
    | none => rw [hb] at h; cases h
    | some b =>
      rw [hb] at h
      simp only at h ⊢
      cases hbr : b.branch with
      | OpReturn r => rw [hbr] at h; cases h
      | OpBranch op =>
        rw [hbr] at h
        simp only [List.length_cons] at h ⊢
        rw [running_length blocks ds _ h]
      | OpBranchConditional op =>
        rw [hbr] at h
        simp only [List.length_cons] at h ⊢
        rw [running_length blocks ds _ h]

theorem length_le {X : Type} (blocks : List (BasicBlock X)) : ∀ (ds : List Bool) (id : BlockId),
    (runBlocks blocks ds id).1.length ≤ ds.length
  | [], _ => Nat.le_refl _
  | d :: ds, id => by
    rw [runBlocks]
    cases hb : blockOf blocks id with
    | none => exact Nat.zero_le _
    | some b =>
      simp only
      cases hbr : b.branch with
      | OpReturn r => exact Nat.succ_le_succ (Nat.zero_le _)
      | OpBranch op => exact Nat.succ_le_succ (length_le blocks ds _)
      | OpBranchConditional op => exact Nat.succ_le_succ (length_le blocks ds _)

theorem cost_one (x : List BlockId) : cost (fun _ => 1) x = x.length := by
  induction x with
  | nil => rfl
  | cons a x ih =>
    have : cost (fun _ => 1) (a :: x) = 1 + cost (fun _ => 1) x := by simp [cost]
    rw [this, ih, List.length_cons, Nat.add_comm]

end Magma.Cost
