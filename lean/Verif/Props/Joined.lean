import Verif.Proofs.Joined
import Verif.Props.Disassembly
/-! Which modules the disassembly does not determine: more of C40. -/

namespace Magma.Props
open Spec

/-- C40: with two instructions that join, whatever comes between them and around them, the text of a module is also that
of a module with fewer instructions. -/
theorem C40_joined {X : Type} [Display X] (m : RawModule X) (pre mid post : List (Core X)) (a b : Core X)
    (hm : m.instructions = pre ++ a :: (mid ++ b :: post)) (hj : Joins a b) :
    ∃ c, RawModule.fmt { m with instructions := pre ++ c :: post } = m.fmt := by
  obtain ⟨c, hc⟩ := Joined.join hj mid
  refine ⟨c, ?_⟩
  rw [fmt_eq_unlines, fmt_eq_unlines, hm]
  show unlines (headerLines m ++ (pre ++ c :: post).map Display.fmt) = _
  have e1 : pre ++ c :: post = pre ++ ([c] ++ post) := rfl
  have e2 : pre ++ a :: (mid ++ b :: post) = pre ++ ((a :: (mid ++ [b])) ++ post) := by simp
  rw [e1, e2, List.map_append, List.map_append, List.map_append, List.map_append, unlines_append, unlines_append,
    unlines_append, unlines_append, unlines_append, unlines_append, ← hc]
  rfl

/-- C40, exactly for the modules whose strings forge nothing: there is another module with the same disassembly, be it
with strings of any kind, if and only if the generator is not a registered one or two of the instructions join. -/
theorem C40_shared_partial {X : Type} [Display X] (hl : ∀ x : X, '\n' ∉ Display.fmt x ∧ '"' ∉ Display.fmt x)
    (hw : ∀ (x : X) (u : Text), ' ' :: Display.fmt x ≠ u ++ " Export".toList ∧ ' ' :: Display.fmt x ≠ u ++ " Import".toList)
    (hx : ∀ x y : X, Display.fmt x = Display.fmt y → x = y) (m : RawModule X)
    (hs : ∀ c ∈ m.instructions, ∀ s ∈ strings c, ¬ Forges s) :
    (∃ m', m' ≠ m ∧ m'.fmt = m.fmt) ↔
      (∃ n, m.generator.tool = .Other n) ∨
      ∃ pre a mid b post, m.instructions = pre ++ a :: (mid ++ b :: post) ∧ Joins a b := by
  have ht (x : X) : Quotes.Tame (' ' :: Display.fmt x) := by
    refine ⟨fun h => ?_, fun l u => ?_⟩
    · rcases List.mem_cons.mp h with h | h
      · exact absurd h (by decide)
      · exact (hl x).2 h
    · cases l with
      | Export => exact (hw x u).1
      | Import => exact (hw x u).2
  constructor
  · rintro ⟨m', hne, h⟩
    rw [fmt_eq_unlines, fmt_eq_unlines, unlines_append, unlines_append] at h
    obtain ⟨h1, h2⟩ := Forge.header_inj (as := headerLines m') (bs := headerLines m) rfl (headerLines_line m')
      (headerLines_line m) h
    obtain ⟨hv, hg, hb, hg'⟩ := headerLines_inj h1
    rcases generatorName_inj hg' with hg' | ⟨-, n, -, h⟩
    · refine .inr (Joined.joins_of_unlines (fun x => (hl x).1) ht m.instructions m'.instructions
        (fun a ha => Forge.clean_core (fun x => (hl x).1) a (hs a ha)) h2.symm ?_)
      intro hi
      have hi := List.map_inj_right (fun a b h => Core.fmt_inj hx h) |>.mp hi
      apply hne
      obtain ⟨v, ⟨t, g⟩, b, i⟩ := m
      obtain ⟨v', ⟨t', g'⟩, b', i'⟩ := m'
      cases hv; cases hg; cases hb; cases hi; cases hg'
      rfl
    · exact .inl ⟨n, h⟩
  · rintro (⟨n, hn⟩ | ⟨pre, a, mid, b, post, hm, hj⟩)
    · refine ⟨{ m with generator := { m.generator with tool := .Other (n + 1) } }, fun h => ?_, ?_⟩
      · have h := congrArg (fun m => m.generator.tool) h
        rw [hn] at h
        have h : n + 1 = n := Tool.Other.inj h
        have h := congrArg UInt16.toNat h
        rw [UInt16.toNat_add] at h
        have := n.toNat_lt
        have : (1 : UInt16).toNat = 1 := rfl
        omega
      · rw [fmt_eq_unlines, fmt_eq_unlines, headerLines, headerLines, hn]
        rfl
    · obtain ⟨c, hc⟩ := C40_joined m pre mid post a b hm hj
      refine ⟨_, fun h => ?_, hc⟩
      have h := congrArg (fun m => m.instructions.length) h
      simp only [hm, List.length_append, List.length_cons] at h
      omega

/-- The instructions of the GLSL set do not end in a kind of linkage and have no quotes. -/
theorem glsl_tame (x : Glsl.Inst) : Quotes.Tame (' ' :: Display.fmt x) := by
  cases x with
  | Sin s => exact Quotes.tame_id (s := " Sin ".toList) (by decide) s.x
  | Cos s => exact Quotes.tame_id (s := " Cos ".toList) (by decide) s.x

/-- C40 for the set of the library: a module with a registered generator, without strings that forge and without two
instructions that join is determined by its disassembly among all modules. -/
theorem C40_determined_partial (m m' : RawModule Glsl.Inst) (hs : ∀ c ∈ m.instructions, ∀ s ∈ strings c, ¬ Forges s)
    (hg : ∀ n, m.generator.tool ≠ .Other n)
    (hj : m.instructions.Pairwise (fun a b => ¬ Joins a b))
    (h : m'.fmt = m.fmt) : m' = m := by
  refine Classical.not_not.mp fun hne => ?_
  rcases (C40_shared_partial (fun x => ⟨glsl_line x, fun h => (glsl_tame x).1 (List.mem_cons_of_mem _ h)⟩)
    (fun x u => ⟨(glsl_tame x).2 .Export u, (glsl_tame x).2 .Import u⟩) glsl_inj m hs).mp ⟨m', hne, h⟩ with
    ⟨n, hn⟩ | ⟨pre, a, mid, b, post, hm, hab⟩
  · exact hg n hn
  · rw [hm] at hj
    exact (List.pairwise_cons.mp (List.pairwise_append.mp hj).2.1).1 b (by simp) hab

/-- The sample has a single string; no other module, whatever its strings, is printed like it. -/
example (m' : RawModule Glsl.Inst) (h : m'.fmt = Samples.raw.fmt) : m' = Samples.raw := by
  have hn : ∀ c ∈ Samples.raw.instructions, ∀ s ∈ strings c, '\n' ∉ s.toList := by decide +kernel
  refine C40_determined_partial Samples.raw m' (fun c hc s hs => Forge.not_forges_line (hn c hc s hs)) (fun n => by rintro ⟨⟩)
    ?_ h
  simp [Samples.raw, Joins, EndsQuoted, IsEntryPoint, IsLinkage]

/-- Two names join, so another module is printed like this one. -/
example : ∃ m', m' ≠ genuine ∧ m'.fmt = genuine.fmt := by
  have hn : ∀ c ∈ genuine.instructions, ∀ s ∈ strings c, '\n' ∉ s.toList := by decide +kernel
  refine (C40_shared_partial nofun nofun nofun genuine (fun c hc s hs => Forge.not_forges_line (hn c hc s hs))).mpr (.inr ?_)
  exact ⟨[], _, [], _, [], rfl, .inl ⟨trivial, trivial⟩⟩

/-- Two linkages, with instructions between them -/
example : ∃ c : Core Empty, RawModule.fmt ⟨⟨1, 0⟩, ⟨.Intel, 0⟩, 9, [.OpNop ⟨⟩, c, .OpNop ⟨⟩]⟩ =
    RawModule.fmt (X := Empty) ⟨⟨1, 0⟩, ⟨.Intel, 0⟩, 9, [.OpNop ⟨⟩, .OpDecorate ⟨⟨1⟩, .LinkageAttributes "f" .Import⟩,
      .OpTypeVoid ⟨⟨2⟩⟩, .OpDecorate ⟨⟨3⟩, .LinkageAttributes "g" .Export⟩, .OpNop ⟨⟩]⟩ :=
  C40_joined (X := Empty) ⟨⟨1, 0⟩, ⟨.Intel, 0⟩, 9, _⟩ [_] [_] [_] _ _ rfl (.inr (.inr ⟨⟨_, _, rfl⟩, _, _, rfl⟩))

end Magma.Props
