import Verif.Spec.Dominance
import Verif.Proofs.Live
import Verif.Proofs.Expressible
/-! The order in which executions of a chain visit its blocks. -/

namespace Magma.Spec

theorem Preceded.nil {h b : BlockId} : Preceded h b [] := by
  intro pre post e
  cases pre <;> cases e

theorem Preceded.of_not_mem {h b : BlockId} {t : List BlockId} (hb : b ∉ t) : Preceded h b t := by
  rintro pre post rfl
  exact absurd (by simp) hb

theorem Preceded.append {h b : BlockId} {t u : List BlockId} (ht : Preceded h b t) (hu : h ∈ t ∨ Preceded h b u) :
    Preceded h b (t ++ u) := by
  intro pre post e
  rcases List.append_eq_append_iff.mp e with ⟨w, rfl, e'⟩ | ⟨w, rfl, e'⟩
  · rcases hu with hu | hu
    · exact List.mem_append_left _ hu
    · exact List.mem_append_right _ (hu _ _ e')
  · cases w with
    | nil =>
      rcases hu with hu | hu
      · rwa [List.append_nil] at hu
      · exact absurd (hu [] post e'.symm) (by simp)
    | cons x w =>
      cases e'
      exact ht pre w rfl

theorem Followed.nil {h b : BlockId} : Followed h b [] := by
  intro pre post e
  cases pre <;> cases e

theorem Followed.of_not_mem {h b : BlockId} {t : List BlockId} (hb : b ∉ t) : Followed h b t := by
  rintro pre post rfl
  exact absurd (by simp) hb

theorem Followed.append {h b : BlockId} {t u : List BlockId} (ht : h ∈ u ∨ Followed h b t) (hu : Followed h b u) :
    Followed h b (t ++ u) := by
  intro pre post e
  rcases List.append_eq_append_iff.mp e with ⟨w, rfl, e'⟩ | ⟨w, rfl, e'⟩
  · exact hu _ _ e'
  · cases w with
    | nil => exact hu [] post e'.symm
    | cons x w =>
      cases e'
      rcases ht with ht | ht
      · exact List.mem_append_right _ ht
      · exact List.mem_append_left _ (ht pre w rfl)

/-- What holds of every round of a loop holds of all rounds together. -/
theorem repeat_all {body : List Bool → Effect} {P : List BlockId → Prop} (hn : P [])
    (ha : ∀ t u, P t → P u → P (t ++ u)) (hb : ∀ ds, P (body ds).trace) :
    ∀ n ds, P (repeatUntilBreak body n ds).trace := by
  intro n
  induction n with
  | zero => exact fun _ => hn
  | succ n ih =>
    intro ds
    rw [repeatUntilBreak]
    have hb := hb ds
    generalize body ds = e at hb
    obtain ⟨tr, sig, rest⟩ := e
    cases sig
    · exact ha _ _ hb (ih _)
    · exact hb
    · exact ha _ _ hb (ih _)
    · exact hb

/-- The same if only rounds are known that do not run out of decisions -/
theorem repeat_done {body : List Bool → Effect} {P : List BlockId → Prop}
    (ha : ∀ t u, P t → P u → P (t ++ u)) (hb : ∀ ds, (body ds).signal ≠ .running → P (body ds).trace) :
    ∀ n ds, (repeatUntilBreak body n ds).signal ≠ .running → P (repeatUntilBreak body n ds).trace := by
  intro n
  induction n with
  | zero => exact fun _ h => absurd rfl h
  | succ n ih =>
    intro ds
    rw [repeatUntilBreak]
    have hb := hb ds
    generalize body ds = e at hb
    obtain ⟨tr, sig, rest⟩ := e
    cases sig
    · exact fun h => ha _ _ (hb (fun h => by cases h)) (ih _ h)
    · exact fun h => (hb (fun h => by cases h))
    · exact fun h => ha _ _ (hb (fun h => by cases h)) (ih _ h)
    · exact fun h => absurd rfl h

theorem repeat_signal {body : List Bool → Effect} :
    ∀ n ds, (repeatUntilBreak body n ds).signal = .running ∨ (repeatUntilBreak body n ds).signal = .next := by
  intro n
  induction n with
  | zero => exact fun _ => .inl rfl
  | succ n ih =>
    intro ds
    rw [repeatUntilBreak]
    generalize body ds = e
    obtain ⟨tr, sig, rest⟩ := e
    cases sig
    · exact ih _
    · exact .inr rfl
    · exact ih _
    · exact .inl rfl

/-- A loop that does not run out of decisions starts with a round. -/
theorem repeat_mem {body : List Bool → Effect} {id : BlockId}
    (hb : ∀ ds, (body ds).signal ≠ .running → id ∈ (body ds).trace) :
    ∀ n ds, (repeatUntilBreak body n ds).signal ≠ .running → id ∈ (repeatUntilBreak body n ds).trace :=
  repeat_done (P := fun t => id ∈ t) (fun _ _ h _ => List.mem_append_left _ h) hb

mutual
/-- Can the chain end with a break or continue for the loop around it? -/
def canExit : ControlFlowChain → Bool
  | .Atom _ => false
  | .Block chains => canExitAny chains
  | .Selection _ left right _ _ => canExit left || canExit right
  | .Loop _ _ _ _ => false
  | .Break => true
  | .Continue => true
/-- The same for chains one after the other -/
def canExitAny : List ControlFlowChain → Bool
  | [] => false
  | chain :: chains => canExit chain || canExitAny chains
end

mutual
/-- What can end with a break or continue has nothing behind it in its block. -/
def ExitsLast : ControlFlowChain → Prop
  | .Atom _ => True
  | .Block chains => ExitsLastAll chains
  | .Selection _ left right _ _ => ExitsLast left ∧ ExitsLast right
  | .Loop _ inner _ _ => ExitsLast inner
  | .Break => True
  | .Continue => True
/-- The same for chains one after the other -/
def ExitsLastAll : List ControlFlowChain → Prop
  | [] => True
  | chain :: chains => (chains ≠ [] → canExit chain = false) ∧ ExitsLast chain ∧ ExitsLastAll chains
end

theorem andThen_signal {e : Effect} {k : List Bool → Effect} :
    (e.signal = .next ∧ (andThen e k).trace = e.trace ++ (k e.rest).trace ∧ (andThen e k).signal = (k e.rest).signal) ∨
    (e.signal ≠ .next ∧ andThen e k = e) := by
  obtain ⟨tr, sig, rest⟩ := e
  cases sig
  · exact .inl ⟨rfl, rfl, rfl⟩
  all_goals exact .inr ⟨(fun h => by cases h), rfl⟩

mutual
theorem signal_of_noExit : ∀ (c : ControlFlowChain) (ds : List Bool), canExit c = false →
    (exec c ds).signal = .running ∨ (exec c ds).signal = .next
  | .Atom id, ds => by
    intro _
    cases ds
    · exact .inl rfl
    · exact .inr rfl
  | .Block chains, ds => fun h => signal_of_noExitAny chains ds h
  | .Selection id left right _ _, ds => by
    intro h
    obtain ⟨h1, h2⟩ := Bool.or_eq_false_iff.mp h
    cases ds with
    | nil => exact .inl rfl
    | cons d ds =>
      cases d
      · exact signal_of_noExit right ds h2
      · exact signal_of_noExit left ds h1
  | .Loop id inner _ _, ds => fun _ => repeat_signal _ _
  | .Break, ds => fun h => by cases h
  | .Continue, ds => fun h => by cases h
theorem signal_of_noExitAny : ∀ (cs : List ControlFlowChain) (ds : List Bool), canExitAny cs = false →
    (execAll cs ds).signal = .running ∨ (execAll cs ds).signal = .next
  | [], ds => fun _ => .inr rfl
  | c :: cs, ds => by
    intro h
    obtain ⟨h1, h2⟩ := Bool.or_eq_false_iff.mp h
    rw [execAll]
    rcases andThen_signal (e := exec c ds) (k := fun ds => execAll cs ds) with ⟨-, -, e⟩ | ⟨-, e⟩
    · rw [e]; exact signal_of_noExitAny cs _ h2
    · rw [e]; exact signal_of_noExit c ds h1
end

mutual
/-- An execution that does not run out of decisions visits the spine. -/
theorem spine_visited : ∀ (c : ControlFlowChain) (ds : List Bool), ExitsLast c → (exec c ds).signal ≠ .running →
    ∀ id ∈ spine c, id ∈ (exec c ds).trace
  | .Atom id, ds => by
    intro _ hs i hi
    cases ds with
    | nil => exact absurd rfl hs
    | cons d ds => exact hi
  | .Block chains, ds => fun h hs => spineAll_visited chains ds h hs
  | .Selection id left right _ _, ds => by
    intro _ hs i hi
    cases ds with
    | nil => exact absurd rfl hs
    | cons d ds => exact List.mem_append_left _ hi
  | .Loop id inner _ _, ds => by
    intro _ hs i hi
    refine repeat_mem (fun ds hs => ?_) _ _ hs
    cases ds with
    | nil => exact absurd rfl hs
    | cons d ds => exact List.mem_append_left _ hi
  | .Break, ds => fun _ _ i hi => by cases hi
  | .Continue, ds => fun _ _ i hi => by cases hi
theorem spineAll_visited : ∀ (cs : List ControlFlowChain) (ds : List Bool), ExitsLastAll cs →
    (execAll cs ds).signal ≠ .running → ∀ id ∈ spineAll cs, id ∈ (execAll cs ds).trace
  | [], ds => fun _ _ i hi => by cases hi
  | c :: cs, ds => by
    rintro ⟨h0, h1, h2⟩ hs i hi
    rw [execAll] at hs ⊢
    rcases andThen_signal (e := exec c ds) (k := fun ds => execAll cs ds) with ⟨hn, ht, e⟩ | ⟨hn, e⟩
    · rw [ht]
      rw [e] at hs
      rcases List.mem_append.mp hi with hi | hi
      · exact List.mem_append_left _ (spine_visited c ds h1 (by rw [hn]; intro h; cases h) i hi)
      · exact List.mem_append_right _ (spineAll_visited cs _ h2 hs i hi)
    · rw [e] at hs ⊢
      cases cs with
      | nil =>
        rcases List.mem_append.mp hi with hi | hi
        · exact spine_visited c ds h1 hs i hi
        · cases hi
      | cons c' cs =>
        rcases signal_of_noExit c ds (h0 (fun h => by cases h)) with h | h
        · exact absurd h hs
        · exact absurd h hn
end

mutual
theorem guards_mem {h b : BlockId} : ∀ c : ControlFlowChain, Guards h b c → b.val ∈ chainIds c
  | .Atom _ => fun h => h.elim
  | .Block chains => fun h => guardsAny_mem chains h
  | .Selection id left right _ _ => by
    rintro (⟨-, h | h⟩ | h | h)
    · exact List.mem_cons_of_mem _ (List.mem_append_left _ h)
    · exact List.mem_cons_of_mem _ (List.mem_append_right _ h)
    · exact List.mem_cons_of_mem _ (List.mem_append_left _ (guards_mem left h))
    · exact List.mem_cons_of_mem _ (List.mem_append_right _ (guards_mem right h))
  | .Loop id inner _ _ => by
    rintro (⟨-, h⟩ | h)
    · exact List.mem_cons_of_mem _ h
    · exact List.mem_cons_of_mem _ (guards_mem inner h)
  | .Break => fun h => h.elim
  | .Continue => fun h => h.elim
theorem guardsAny_mem {h b : BlockId} : ∀ cs : List ControlFlowChain, GuardsAny h b cs → b.val ∈ chainIdsAll cs
  | [] => fun h => h.elim
  | c :: cs => by
    rintro (⟨-, h⟩ | h | h)
    · exact List.mem_append_right _ h
    · exact List.mem_append_left _ (guards_mem c h)
    · exact List.mem_append_right _ (guardsAny_mem cs h)
end

theorem not_visited {b : BlockId} {c : ControlFlowChain} (h : b.val ∉ chainIds c) (ds : List Bool) :
    b ∉ (exec c ds).trace := fun hb => h (Program.visited_mem c ds b hb)
theorem not_visitedAll {b : BlockId} {cs : List ControlFlowChain} (h : b.val ∉ chainIdsAll cs) (ds : List Bool) :
    b ∉ (execAll cs ds).trace := fun hb => h (Program.visitedAll_mem cs ds b hb)

mutual
/-- No block is visited before the ones that guard it. -/
theorem guards_preceded {h b : BlockId} : ∀ (c : ControlFlowChain) (ds : List Bool), ExitsLast c → (chainIds c).Nodup →
    Guards h b c → Preceded h b (exec c ds).trace
  | .Atom _, _ => fun _ _ h => h.elim
  | .Block chains, ds => fun he hn h => guardsAny_preceded chains ds he hn h
  | .Selection id left right _ _, ds => by
    rintro ⟨he1, he2⟩ hn hg
    obtain ⟨h0, hn⟩ := List.nodup_cons.mp hn
    obtain ⟨hl, hr, hd⟩ := List.nodup_append.mp hn
    have hb : b.val ∈ chainIds left ++ chainIds right := by
      rcases hg with ⟨-, h | h⟩ | h | h
      · exact List.mem_append_left _ h
      · exact List.mem_append_right _ h
      · exact List.mem_append_left _ (guards_mem left h)
      · exact List.mem_append_right _ (guards_mem right h)
    have hne : b ∉ [id] := by
      intro e
      rw [List.mem_singleton.mp e] at hb
      exact h0 hb
    cases ds with
    | nil => exact .nil
    | cons d ds =>
      have e : (exec (.Selection id left right ‹_› ‹_›) (d :: ds)).trace = [id] ++ (if d then exec left ds else exec right ds).trace := rfl
      rw [e]
      refine .append (.of_not_mem hne) ?_
      rcases hg with ⟨rfl, -⟩ | h | h
      · exact .inl (List.mem_singleton_self _)
      · cases d
        · exact .inr (.of_not_mem (not_visited (fun hb => hd _ (guards_mem left h) _ hb rfl) ds))
        · exact .inr (guards_preceded left ds he1 hl h)
      · cases d
        · exact .inr (guards_preceded right ds he2 hr h)
        · exact .inr (.of_not_mem (not_visited (fun hb => hd _ hb _ (guards_mem right h) rfl) ds))
  | .Loop id inner _ _, ds => by
    intro he hn hg
    obtain ⟨h0, hn⟩ := List.nodup_cons.mp hn
    have hb : b.val ∈ chainIds inner := by
      rcases hg with ⟨-, h⟩ | h
      · exact h
      · exact guards_mem inner h
    have hne : b ∉ [id] := by
      intro e
      rw [List.mem_singleton.mp e] at hb
      exact h0 hb
    refine repeat_all (P := Preceded h b) .nil (fun t u ht hu => .append ht (.inr hu)) (fun ds => ?_) _ _
    cases ds with
    | nil => exact .nil
    | cons d ds =>
      refine Preceded.append (t := [id]) (.of_not_mem hne) ?_
      rcases hg with ⟨rfl, -⟩ | h
      · exact .inl (List.mem_singleton_self _)
      · exact .inr (guards_preceded inner ds he hn h)
  | .Break, _ => fun _ _ h => h.elim
  | .Continue, _ => fun _ _ h => h.elim
theorem guardsAny_preceded {h b : BlockId} : ∀ (cs : List ControlFlowChain) (ds : List Bool), ExitsLastAll cs →
    (chainIdsAll cs).Nodup → GuardsAny h b cs → Preceded h b (execAll cs ds).trace
  | [], _ => fun _ _ h => h.elim
  | c :: cs, ds => by
    rintro ⟨-, he1, he2⟩ hn hg
    obtain ⟨hc, hcs, hd⟩ := List.nodup_append.mp hn
    rw [execAll]
    rcases andThen_signal (e := exec c ds) (k := fun ds => execAll cs ds) with ⟨hs, ht, -⟩ | ⟨-, e⟩
    · rw [ht]
      rcases hg with ⟨hh, hb⟩ | hg | hg
      · exact .append (.of_not_mem (not_visited (fun h => hd _ h _ hb rfl) ds))
          (.inl (spine_visited c ds he1 (by rw [hs]; intro h; cases h) _ hh))
      · exact .append (guards_preceded c ds he1 hc hg)
          (.inr (.of_not_mem (not_visitedAll (fun h => hd _ (guards_mem c hg) _ h rfl) _)))
      · exact .append (.of_not_mem (not_visited (fun h => hd _ h _ (guardsAny_mem cs hg) rfl) ds))
          (.inr (guardsAny_preceded cs _ he2 hcs hg))
    · rw [e]
      rcases hg with ⟨hh, hb⟩ | hg | hg
      · exact .of_not_mem (not_visited (fun h => hd _ h _ hb rfl) ds)
      · exact guards_preceded c ds he1 hc hg
      · exact .of_not_mem (not_visited (fun h => hd _ h _ (guardsAny_mem cs hg) rfl) ds)
end

mutual
theorem awaits_mem {h b : BlockId} : ∀ c : ControlFlowChain, Awaits h b c → b.val ∈ chainIds c
  | .Atom _ => fun h => h.elim
  | .Block chains => fun h => awaitsAny_mem chains h
  | .Selection id left right _ _ => by
    rintro (h | h)
    · exact List.mem_cons_of_mem _ (List.mem_append_left _ (awaits_mem left h))
    · exact List.mem_cons_of_mem _ (List.mem_append_right _ (awaits_mem right h))
  | .Loop id inner _ _ => fun h => List.mem_cons_of_mem _ (awaits_mem inner h)
  | .Break => fun h => h.elim
  | .Continue => fun h => h.elim
theorem awaitsAny_mem {h b : BlockId} : ∀ cs : List ControlFlowChain, AwaitsAny h b cs → b.val ∈ chainIdsAll cs
  | [] => fun h => h.elim
  | c :: cs => by
    rintro (⟨h, -⟩ | h | h)
    · exact List.mem_append_left _ h
    · exact List.mem_append_left _ (awaits_mem c h)
    · exact List.mem_append_right _ (awaitsAny_mem cs h)
end

mutual
/-- An execution that does not run out of decisions gets from every block to the ones that await it. -/
theorem awaits_followed {h b : BlockId} : ∀ (c : ControlFlowChain) (ds : List Bool), ExitsLast c → (chainIds c).Nodup →
    Awaits h b c → (exec c ds).signal ≠ .running → Followed h b (exec c ds).trace
  | .Atom _, _ => fun _ _ h => h.elim
  | .Block chains, ds => fun he hn h => awaitsAny_followed chains ds he hn h
  | .Selection id left right _ _, ds => by
    rintro ⟨he1, he2⟩ hn hg hs
    obtain ⟨h0, hn⟩ := List.nodup_cons.mp hn
    obtain ⟨hl, hr, hd⟩ := List.nodup_append.mp hn
    have hb : b.val ∈ chainIds left ++ chainIds right := by
      rcases hg with h | h
      · exact List.mem_append_left _ (awaits_mem left h)
      · exact List.mem_append_right _ (awaits_mem right h)
    have hne : b ∉ [id] := by
      intro e
      rw [List.mem_singleton.mp e] at hb
      exact h0 hb
    cases ds with
    | nil => exact .nil
    | cons d ds =>
      refine Followed.append (t := [id]) (.inr (.of_not_mem hne)) ?_
      rcases hg with h | h
      · cases d
        · exact .of_not_mem (not_visited (fun hb => hd _ (awaits_mem left h) _ hb rfl) ds)
        · exact awaits_followed left ds he1 hl h hs
      · cases d
        · exact awaits_followed right ds he2 hr h hs
        · exact .of_not_mem (not_visited (fun hb => hd _ hb _ (awaits_mem right h) rfl) ds)
  | .Loop id inner _ _, ds => by
    intro he hn hg hs
    obtain ⟨h0, hn⟩ := List.nodup_cons.mp hn
    have hne : b ∉ [id] := by
      intro e
      have hb := awaits_mem inner hg
      rw [List.mem_singleton.mp e] at hb
      exact h0 hb
    refine repeat_done (P := Followed h b) (fun t u ht hu => .append (.inr ht) hu) (fun ds hs => ?_) _ _ hs
    cases ds with
    | nil => exact .nil
    | cons d ds =>
      exact Followed.append (t := [id]) (.inr (.of_not_mem hne)) (awaits_followed inner ds he hn hg hs)
  | .Break, _ => fun _ _ h => h.elim
  | .Continue, _ => fun _ _ h => h.elim
theorem awaitsAny_followed {h b : BlockId} : ∀ (cs : List ControlFlowChain) (ds : List Bool), ExitsLastAll cs →
    (chainIdsAll cs).Nodup → AwaitsAny h b cs → (execAll cs ds).signal ≠ .running → Followed h b (execAll cs ds).trace
  | [], _ => fun _ _ h => h.elim
  | c :: cs, ds => by
    rintro ⟨h0, he1, he2⟩ hn hg hs
    obtain ⟨hc, hcs, hd⟩ := List.nodup_append.mp hn
    rw [execAll] at hs ⊢
    rcases andThen_signal (e := exec c ds) (k := fun ds => execAll cs ds) with ⟨hs1, ht, e⟩ | ⟨hs1, e⟩
    · rw [e] at hs
      rw [ht]
      rcases hg with ⟨hb, hh⟩ | hg | hg
      · exact .append (.inl (spineAll_visited cs _ he2 hs _ hh))
          (.of_not_mem (not_visitedAll (fun h => hd _ hb _ h rfl) _))
      · exact .append (.inr (awaits_followed c ds he1 hc hg (by rw [hs1]; intro h; cases h)))
          (.of_not_mem (not_visitedAll (fun h => hd _ (awaits_mem c hg) _ h rfl) _))
      · exact .append (.inr (.of_not_mem (not_visited (fun h => hd _ h _ (awaitsAny_mem cs hg) rfl) ds)))
          (awaitsAny_followed cs _ he2 hcs hg hs)
    · rw [e] at hs ⊢
      rcases hg with ⟨hb, hh⟩ | hg | hg
      · have hne : cs ≠ [] := by rintro rfl; cases hh
        rcases signal_of_noExit c ds (h0 hne) with h | h
        · exact absurd h hs
        · exact absurd h hs1
      · exact awaits_followed c ds he1 hc hg hs
      · exact .of_not_mem (not_visited (fun h => hd _ h _ (awaitsAny_mem cs hg) rfl) ds)
end

namespace Program

theorem canExit_toChain (s : Program) : canExit s.toChain = canExitAny s.toChains := by
  cases s with
  | done => rfl
  | ret id => rfl
  | atom id rest => rfl
  | sel id left right hint weights rest => rfl
  | loop id body hint rest => rfl
  | exit id brk weights rest => exact (Bool.or_false _).symm

theorem exitsLast_toChain (s : Program) : ExitsLast s.toChain ↔ ExitsLastAll s.toChains := by
  cases s with
  | done => exact Iff.rfl
  | ret id => exact ⟨fun _ => ⟨fun _ => rfl, trivial, trivial⟩, fun _ => trivial⟩
  | atom id rest => exact Iff.rfl
  | sel id left right hint weights rest => exact Iff.rfl
  | loop id body hint rest => exact Iff.rfl
  | exit id brk weights rest => exact ⟨fun h => ⟨fun h => absurd rfl h, h, trivial⟩, fun h => h.2.1⟩

theorem noExit_of_wellFormed (s : Program) {more : Bool} (h : s.WellFormed false more) : canExitAny s.toChains = false := by
  induction s generalizing more with
  | done => rfl
  | ret id => rfl
  | atom id rest ih => exact ih h
  | sel id left right hint weights rest ihl ihr ih =>
    obtain ⟨h1, h2, h3⟩ := h
    rw [toChains, canExitAny, canExit, canExit_toChain, canExit_toChain, ihl h1, ihr h2, ih h3]
    rfl
  | loop id body hint rest ihb ih => exact ih h.2
  | exit id brk weights rest ih => cases h.1

theorem exitsLast_of_wellFormed (s : Program) {tail more : Bool} (h : s.WellFormed tail more) : ExitsLastAll s.toChains := by
  induction s generalizing tail more with
  | done => trivial
  | ret id => exact ⟨fun _ => rfl, trivial, trivial⟩
  | atom id rest ih => exact ⟨fun _ => rfl, trivial, ih h⟩
  | sel id left right hint weights rest ihl ihr ih =>
    obtain ⟨h1, h2, h3⟩ := h
    refine ⟨fun hne => ?_, ⟨(exitsLast_toChain _).mpr (ihl h1), (exitsLast_toChain _).mpr (ihr h2)⟩, ih h3⟩
    have hf : rest.finished = false := by
      cases rest <;> first | rfl | exact absurd rfl hne
    rw [hf, Bool.and_false] at h1 h2
    rw [canExit, canExit_toChain, canExit_toChain, noExit_of_wellFormed left h1, noExit_of_wellFormed right h2]
    rfl
  | loop id body hint rest ihb ih => exact ⟨fun _ => rfl, (exitsLast_toChain _).mpr (ihb h.1), ih h.2⟩
  | exit id brk weights rest ih =>
    refine ⟨fun hne => absurd rfl hne, ⟨(exitsLast_toChain _).mpr (ih h.2), ?_⟩, trivial⟩
    cases brk <;> trivial

end Program
end Magma.Spec
