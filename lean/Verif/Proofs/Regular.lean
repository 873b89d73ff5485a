import Verif.Spec.Regular
/-! The regular expression for a structured program is that of its executions. -/

namespace Magma.Regular
open Spec RegularExpression

/-- What executions ending in some way visit -/
abbrev lang (chain : ControlFlowChain) (s : Signal) : Language BlockId := (ways chain s).matches'
/-- The same for a sequence -/
abbrev langAll (chains : List ControlFlowChain) (s : Signal) : Language BlockId := (waysAll chains s).matches'

theorem mem_char_mul {id : BlockId} {l : Language BlockId} {x : List BlockId} :
    x ∈ ({[id]} : Language BlockId) * l ↔ ∃ y ∈ l, x = id :: y := by
  rw [Language.mem_mul]
  constructor
  · rintro ⟨a, ha, b, hb, rfl⟩
    have ha : a = [id] := ha
    exact ⟨b, hb, by rw [ha]; rfl⟩
  · rintro ⟨y, hy, rfl⟩
    exact ⟨[id], rfl, y, hy, rfl⟩

theorem mem_sel {id : BlockId} {l r : ControlFlowChain} {h w} {s : Signal} {x : List BlockId} :
    x ∈ lang (.Selection id l r h w) s ↔ (s = .running ∧ x = []) ∨ ∃ y, x = id :: y ∧ (y ∈ lang l s ∨ y ∈ lang r s) := by
  have key : x ∈ ({[id]} : Language BlockId) * (lang l s + lang r s) ↔
      ∃ y, x = id :: y ∧ (y ∈ lang l s ∨ y ∈ lang r s) := by
    rw [mem_char_mul]
    simp only [Language.mem_add]
    exact ⟨fun ⟨y, h, e⟩ => ⟨y, e, h⟩, fun ⟨y, e, h⟩ => ⟨y, h, e⟩⟩
  cases s
  case running =>
    simp only [lang, ways, matches'_add, matches'_mul, matches'_char, matches'_epsilon, Language.mem_add,
      Language.mem_one, true_and]
    rw [← key]
  all_goals
    simp only [lang, ways, matches'_add, matches'_mul, matches'_char, reduceCtorEq, false_and, false_or]
    rw [← key]

theorem mem_cons {chain : ControlFlowChain} {chains : List ControlFlowChain} {s : Signal} {x : List BlockId} :
    x ∈ langAll (chain :: chains) s ↔ (s ≠ .next ∧ x ∈ lang chain s) ∨
      ∃ y z, x = y ++ z ∧ y ∈ lang chain .next ∧ z ∈ langAll chains s := by
  have key : x ∈ lang chain .next * langAll chains s ↔
      ∃ y z, x = y ++ z ∧ y ∈ lang chain .next ∧ z ∈ langAll chains s := by
    rw [Language.mem_mul]
    exact ⟨fun ⟨y, hy, z, hz, e⟩ => ⟨y, z, e.symm, hy, hz⟩, fun ⟨y, z, e, hy, hz⟩ => ⟨y, hy, z, hz, e.symm⟩⟩
  cases s
  case next =>
    simp only [langAll, waysAll, matches'_mul, ne_eq, not_true, false_and, false_or]
    rw [← key]
  all_goals
    simp only [langAll, waysAll, matches'_add, matches'_mul, Language.mem_add, ne_eq, reduceCtorEq, not_false_eq_true,
      true_and]
    rw [← key]

/-- Full rounds of a loop -/
abbrev Round (id : BlockId) (inner : ControlFlowChain) (x : List BlockId) : Prop :=
  ∃ y, x = id :: y ∧ (y ∈ lang inner .next ∨ y ∈ lang inner .continues)

/-- The last round of a loop -/
def Last (id : BlockId) (inner : ControlFlowChain) : Signal → List BlockId → Prop
  | .next, x => ∃ y, x = id :: y ∧ y ∈ lang inner .breaks
  | .running, x => x = [] ∨ ∃ y, x = id :: y ∧ y ∈ lang inner .running
  | _, _ => False

theorem mem_loop {id : BlockId} {inner : ControlFlowChain} {h w} {s : Signal} {x : List BlockId} :
    x ∈ lang (.Loop id inner h w) s ↔
      ∃ (L : List (List BlockId)) (z : List BlockId), x = L.flatten ++ z ∧ (∀ y ∈ L, Round id inner y) ∧ Last id inner s z := by
  have round : ∀ y, y ∈ ({[id]} : Language BlockId) * (lang inner .next + lang inner .continues) ↔ Round id inner y := by
    intro y
    rw [mem_char_mul]
    simp only [Language.mem_add, Round]
    exact ⟨fun ⟨y, h, e⟩ => ⟨y, e, h⟩, fun ⟨y, e, h⟩ => ⟨y, h, e⟩⟩
  have key : ∀ l : Language BlockId, (∀ z, z ∈ l ↔ Last id inner s z) →
      (x ∈ KStar.kstar (({[id]} : Language BlockId) * (lang inner .next + lang inner .continues)) * l ↔
      ∃ (L : List (List BlockId)) (z : List BlockId), x = L.flatten ++ z ∧ (∀ y ∈ L, Round id inner y) ∧ Last id inner s z) := by
    intro l hl
    rw [Language.mem_mul]
    constructor
    · rintro ⟨a, ha, z, hz, rfl⟩
      obtain ⟨L, rfl, hL⟩ := Language.mem_kstar.mp ha
      exact ⟨L, z, rfl, fun y hy => (round y).mp (hL y hy), (hl z).mp hz⟩
    · rintro ⟨L, z, rfl, hL, hz⟩
      exact ⟨_, Language.join_mem_kstar fun y hy => (round y).mpr (hL y hy), z, (hl z).mpr hz, rfl⟩
  cases s with
  | next =>
    simp only [lang, ways, matches'_add, matches'_mul, matches'_char, matches'_star]
    exact key _ fun z => by
      rw [mem_char_mul]; exact ⟨fun ⟨y, h, e⟩ => ⟨y, e, h⟩, fun ⟨y, e, h⟩ => ⟨y, h, e⟩⟩
  | running =>
    simp only [lang, ways, matches'_add, matches'_mul, matches'_char, matches'_star, matches'_epsilon]
    exact key _ fun z => by
      rw [Language.mem_add, Language.mem_one, mem_char_mul]
      exact or_congr Iff.rfl ⟨fun ⟨y, h, e⟩ => ⟨y, e, h⟩, fun ⟨y, e, h⟩ => ⟨y, h, e⟩⟩
  | breaks =>
    simp only [lang, ways, matches'_zero]
    exact ⟨fun h => absurd h (Language.notMem_zero _), fun ⟨_, _, _, _, h⟩ => h.elim⟩
  | continues =>
    simp only [lang, ways, matches'_zero]
    exact ⟨fun h => absurd h (Language.notMem_zero _), fun ⟨_, _, _, _, h⟩ => h.elim⟩

/-! ### Executions are matched -/

/-- One round -/
abbrev round (id : BlockId) (inner : ControlFlowChain) (ds : List Bool) : Effect :=
  andThen (visit id ds) (fun ds => exec inner ds)

theorem sound_loop {id : BlockId} {inner : ControlFlowChain} {h w}
    (hi : ∀ ds, (exec inner ds).trace ∈ lang inner (exec inner ds).signal) : ∀ (n : Nat) (ds : List Bool),
    (repeatUntilBreak (round id inner) n ds).trace ∈
      lang (.Loop id inner h w) (repeatUntilBreak (round id inner) n ds).signal
  | 0, ds => mem_loop.mpr ⟨[], [], rfl, nofun, .inl rfl⟩
  | n + 1, [] => mem_loop.mpr ⟨[], [], rfl, nofun, .inl rfl⟩
  | n + 1, d :: ds => by
    have h1 := hi ds
    rw [repeatUntilBreak, show round id inner (d :: ds) = ⟨id :: (exec inner ds).trace, (exec inner ds).signal,
      (exec inner ds).rest⟩ from rfl]
    generalize exec inner ds = e at h1
    obtain ⟨tr, sig, rest⟩ := e
    have more (hr : Round id inner (id :: tr)) :
        (id :: tr ++ (repeatUntilBreak (round id inner) n rest).trace) ∈
          lang (.Loop id inner h w) (repeatUntilBreak (round id inner) n rest).signal := by
      obtain ⟨L, z, e, hL, hz⟩ := mem_loop.mp (sound_loop (h := h) (w := w) hi n rest)
      rw [e]
      refine mem_loop.mpr ⟨(id :: tr) :: L, z, by simp, fun y hy => ?_, hz⟩
      rcases List.mem_cons.mp hy with rfl | hy
      · exact hr
      · exact hL y hy
    cases sig with
    | next => exact more ⟨tr, rfl, .inl h1⟩
    | continues => exact more ⟨tr, rfl, .inr h1⟩
    | breaks => exact mem_loop.mpr ⟨[], id :: tr, rfl, nofun, tr, rfl, h1⟩
    | running => exact mem_loop.mpr ⟨[], id :: tr, rfl, nofun, .inr ⟨tr, rfl, h1⟩⟩

mutual
theorem sound : ∀ (chain : ControlFlowChain) (ds : List Bool), (exec chain ds).trace ∈ lang chain (exec chain ds).signal
  | .Atom id, [] => by rw [exec]; exact Language.nil_mem_one
  | .Atom id, _ :: _ => by rw [exec]; exact (rfl : [id] = [id])
  | .Block chains, ds => by
    rw [exec]
    have := sound_all chains ds
    simpa only [lang, ways] using this
  | .Selection id l r h w, [] => by rw [exec]; exact mem_sel.mpr (.inl ⟨rfl, rfl⟩)
  | .Selection id l r h w, true :: ds => by
    rw [exec]
    exact mem_sel.mpr (.inr ⟨_, rfl, .inl (sound l ds)⟩)
  | .Selection id l r h w, false :: ds => by
    rw [exec]
    exact mem_sel.mpr (.inr ⟨_, rfl, .inr (sound r ds)⟩)
  | .Loop id inner h w, ds => by
    have hi := sound inner
    rw [exec]
    exact sound_loop hi _ ds
  | .Break, ds => by rw [exec]; exact Language.nil_mem_one
  | .Continue, ds => by rw [exec]; exact Language.nil_mem_one
theorem sound_all : ∀ (chains : List ControlFlowChain) (ds : List Bool),
    (execAll chains ds).trace ∈ langAll chains (execAll chains ds).signal
  | [], ds => by rw [execAll]; exact Language.nil_mem_one
  | chain :: chains, ds => by
    have h := sound chain ds
    have hc := sound_all chains
    rw [execAll]
    generalize exec chain ds = e at h
    obtain ⟨tr, sig, rest⟩ := e
    cases sig with
    | next => exact mem_cons.mpr (.inr ⟨tr, _, rfl, h, hc rest⟩)
    | breaks => exact mem_cons.mpr (.inl ⟨nofun, h⟩)
    | continues => exact mem_cons.mpr (.inl ⟨nofun, h⟩)
    | running => exact mem_cons.mpr (.inl ⟨nofun, h⟩)
end

/-! ### What is matched is executed -/

/-- These decisions lead to that end, and no others are looked at. -/
def Drives (run : List Bool → Effect) (x : List BlockId) (s : Signal) (ds : List Bool) : Prop :=
  ds.length = x.length ∧ ∀ rest, (s = .running → rest = []) → run (ds ++ rest) = ⟨x, s, rest⟩

theorem round_drives {id : BlockId} {inner : ControlFlowChain} {y : List BlockId} {s : Signal} {ds : List Bool}
    (h : Drives (exec inner) y s ds) : Drives (round id inner) (id :: y) s (true :: ds) :=
  ⟨by simp [h.1], fun rest hr => by
    show (⟨id :: (exec inner (ds ++ rest)).trace, (exec inner (ds ++ rest)).signal,
      (exec inner (ds ++ rest)).rest⟩ : Effect) = _
    rw [h.2 rest hr]⟩

theorem complete_loop {id : BlockId} {inner : ControlFlowChain} {s : Signal}
    (hi : ∀ s y, y ∈ lang inner s → ∃ ds, Drives (exec inner) y s ds) {z : List BlockId} (hz : Last id inner s z) :
    ∀ L : List (List BlockId), (∀ y ∈ L, Round id inner y) → ∃ ds, ds.length = (L.flatten ++ z).length ∧
      ∀ rest, (s = .running → rest = []) → ∀ n, (ds ++ rest).length < n →
        repeatUntilBreak (round id inner) n (ds ++ rest) = ⟨L.flatten ++ z, s, rest⟩
  | [], _ => by
    cases s with
    | breaks => exact hz.elim
    | continues => exact hz.elim
    | next =>
      obtain ⟨y, rfl, hy⟩ := hz
      obtain ⟨ds, hd⟩ := hi _ y hy
      have hd := round_drives (id := id) hd
      refine ⟨true :: ds, hd.1, fun rest hr n hn => ?_⟩
      obtain ⟨n, rfl⟩ : ∃ k, n = k + 1 := ⟨n - 1, by omega⟩
      rw [repeatUntilBreak, hd.2 rest nofun]
      rfl
    | running =>
      rcases hz with rfl | ⟨y, rfl, hy⟩
      · refine ⟨[], rfl, fun rest hr n hn => ?_⟩
        cases hr rfl
        obtain ⟨n, rfl⟩ : ∃ k, n = k + 1 := ⟨n - 1, by omega⟩
        rfl
      · obtain ⟨ds, hd⟩ := hi _ y hy
        have hd := round_drives (id := id) hd
        refine ⟨true :: ds, hd.1, fun rest hr n hn => ?_⟩
        obtain ⟨n, rfl⟩ : ∃ k, n = k + 1 := ⟨n - 1, by omega⟩
        rw [repeatUntilBreak, hd.2 rest hr]
        rfl
  | x :: L, hL => by
    obtain ⟨ds, hl, hd⟩ := complete_loop hi hz L fun y hy => hL y (List.mem_cons_of_mem _ hy)
    obtain ⟨y, rfl, hy⟩ := hL x (List.mem_cons_self ..)
    have step : ∀ sig, (sig = .next ∨ sig = .continues) → y ∈ lang inner sig → ∃ ds, ds.length = (((id :: y) :: L).flatten ++ z).length ∧
      ∀ rest, (s = .running → rest = []) → ∀ n, (ds ++ rest).length < n →
        repeatUntilBreak (round id inner) n (ds ++ rest) = ⟨((id :: y) :: L).flatten ++ z, s, rest⟩ := by
      intro sig hsig hy
      obtain ⟨ds', hd'⟩ := hi _ y hy
      have hd' := round_drives (id := id) hd'
      refine ⟨true :: ds' ++ ds, ?_, fun rest hr n hn => ?_⟩
      · simp only [List.length_append, hd'.1, hl, List.flatten_cons]
        omega
      · obtain ⟨n, rfl⟩ : ∃ k, n = k + 1 := ⟨n - 1, by omega⟩
        rw [List.append_assoc, repeatUntilBreak, hd'.2 (ds ++ rest) (by rcases hsig with rfl | rfl <;> nofun)]
        have hn' : (ds ++ rest).length < n := by
          simp only [List.length_append, List.length_cons] at hn ⊢
          omega
        rcases hsig with rfl | rfl <;> simp only [hd rest hr n hn', List.flatten_cons, List.append_assoc]
    rcases hy with hy | hy
    · exact step _ (.inl rfl) hy
    · exact step _ (.inr rfl) hy

mutual
theorem complete : ∀ (chain : ControlFlowChain) (s : Signal) (x : List BlockId), x ∈ lang chain s →
    ∃ ds, Drives (exec chain) x s ds
  | .Atom id, s, x, h => by
    cases s with
    | next =>
      have h : x = [id] := h
      subst h
      exact ⟨[true], rfl, fun rest _ => by rw [exec]; rfl⟩
    | running =>
      have h : x = [] := h
      subst h
      exact ⟨[], rfl, fun rest hr => by cases hr rfl; rw [exec]; rfl⟩
    | breaks => exact absurd h (Language.notMem_zero _)
    | continues => exact absurd h (Language.notMem_zero _)
  | .Block chains, s, x, h => by
    have h : x ∈ langAll chains s := by simpa only [lang, ways] using h
    obtain ⟨ds, hd⟩ := complete_all chains s x h
    exact ⟨ds, hd.1, fun rest hr => by rw [exec]; exact hd.2 rest hr⟩
  | .Selection id l r hh w, s, x, h => by
    rcases mem_sel.mp h with ⟨rfl, rfl⟩ | ⟨y, rfl, hy | hy⟩
    · exact ⟨[], rfl, fun rest hr => by cases hr rfl; rw [List.append_nil, exec]⟩
    · obtain ⟨ds, hd⟩ := complete l s y hy
      refine ⟨true :: ds, by simp [hd.1], fun rest hr => ?_⟩
      rw [List.cons_append, exec]
      show (⟨id :: (exec l (ds ++ rest)).trace, (exec l (ds ++ rest)).signal, (exec l (ds ++ rest)).rest⟩ : Effect) = _
      rw [hd.2 rest hr]
    · obtain ⟨ds, hd⟩ := complete r s y hy
      refine ⟨false :: ds, by simp [hd.1], fun rest hr => ?_⟩
      rw [List.cons_append, exec]
      show (⟨id :: (exec r (ds ++ rest)).trace, (exec r (ds ++ rest)).signal, (exec r (ds ++ rest)).rest⟩ : Effect) = _
      rw [hd.2 rest hr]
  | .Loop id inner hh w, s, x, h => by
    obtain ⟨L, z, rfl, hL, hz⟩ := mem_loop.mp h
    obtain ⟨ds, hl, hd⟩ := complete_loop (complete inner) hz L hL
    exact ⟨ds, hl, fun rest hr => by rw [exec]; exact hd rest hr _ (Nat.lt_succ_self _)⟩
  | .Break, s, x, h => by
    cases s with
    | breaks =>
      have h : x = [] := h
      subst h
      exact ⟨[], rfl, fun rest _ => by rw [exec]; rfl⟩
    | _ => exact absurd h (Language.notMem_zero _)
  | .Continue, s, x, h => by
    cases s with
    | continues =>
      have h : x = [] := h
      subst h
      exact ⟨[], rfl, fun rest _ => by rw [exec]; rfl⟩
    | _ => exact absurd h (Language.notMem_zero _)
theorem complete_all : ∀ (chains : List ControlFlowChain) (s : Signal) (x : List BlockId), x ∈ langAll chains s →
    ∃ ds, Drives (execAll chains) x s ds
  | [], s, x, h => by
    cases s with
    | next =>
      have h : x = [] := h
      subst h
      exact ⟨[], rfl, fun rest _ => by rw [execAll]; rfl⟩
    | _ => exact absurd h (Language.notMem_zero _)
  | chain :: chains, s, x, h => by
    rcases mem_cons.mp h with ⟨hn, h⟩ | ⟨y, z, rfl, hy, hz⟩
    · obtain ⟨ds, hd⟩ := complete chain s x h
      refine ⟨ds, hd.1, fun rest hr => ?_⟩
      rw [execAll, hd.2 rest hr]
      cases s with
      | next => exact absurd rfl hn
      | _ => rfl
    · obtain ⟨ds, hd⟩ := complete chain .next y hy
      obtain ⟨ds', hd'⟩ := complete_all chains s z hz
      refine ⟨ds ++ ds', by simp [hd.1, hd'.1], fun rest hr => ?_⟩
      rw [execAll, List.append_assoc, hd.2 _ nofun]
      show (⟨y ++ (execAll chains (ds' ++ rest)).trace, (execAll chains (ds' ++ rest)).signal,
        (execAll chains (ds' ++ rest)).rest⟩ : Effect) = _
      rw [hd'.2 rest hr]
end

/-- The executions of a structured program that return, and those cut off -/
theorem run_iff (chain : ControlFlowChain) (x : List BlockId) :
    ((∃ ds, runProgram chain ds = (x, .returned)) ↔ x ∈ lang chain .next) ∧
    ((∃ ds, runProgram chain ds = (x, .running)) ↔ x ∈ lang chain .running) := by
  have key : ∀ (s : Signal) (o : Outcome), (∀ t : Signal, (match t with
      | .next => Outcome.returned
      | .running => .running
      | _ => .stuck) = o ↔ t = s) → ((∃ ds, runProgram chain ds = (x, o)) ↔ x ∈ lang chain s) := by
    intro s o ho
    constructor
    · rintro ⟨ds, h⟩
      have h1 : (exec chain ds).trace = x := congrArg Prod.fst h
      have h2 := (ho _).mp (congrArg Prod.snd h)
      have := sound chain ds
      rw [h2, h1] at this
      exact this
    · intro h
      obtain ⟨ds, -, hd⟩ := complete chain s x h
      refine ⟨ds, ?_⟩
      have hd := hd [] fun _ => rfl
      rw [List.append_nil] at hd
      rw [runProgram, hd]
      exact Prod.ext rfl ((ho s).mpr rfl)
  exact ⟨key .next .returned fun t => by cases t <;> simp, key .running .running fun t => by cases t <;> simp⟩

end Magma.Regular
