import Verif.Proofs.UnreadText
import Verif.Props.Disassembly
import Verif.Props.Instructions
/-! C123: instructions that are printed but not read. -/

namespace Magma.Props
open Spec

/-- C123: the text of every instruction that has a printer but no reader is the line that the standard's operands give,
except for the constituents of an `OpCompositeConstruct`. What is missing is `C123_violated`: the crate keeps them as
literal numbers, though the standard makes them ids. `C123_exact` says that nothing else is wrong. -/
theorem C123_text_partial (u : Unread) (h : ∀ op, u = .OpCompositeConstruct op → op.constituents = []) :
    Display.fmt u = unreadLine (unreadCode u) (unreadWords u) := Unread.shown u h

/-- C123: the text differs from the standard's line just for an `OpCompositeConstruct` that has constituents. -/
theorem C123_exact (u : Unread) : Display.fmt u = unreadLine (unreadCode u) (unreadWords u) ↔
    ∀ op, u = .OpCompositeConstruct op → op.constituents = [] := by
  refine ⟨fun h op e => ?_, C123_text_partial u⟩
  subst e
  obtain ⟨t, r, cs⟩ := op
  exact composite_only h

/-- C123: the finding. Constituents 4 and 5 are printed without the sign of an id. -/
theorem C123_violated : ∃ u : Unread, Display.fmt u ≠ unreadLine (unreadCode u) (unreadWords u) ∧
    Display.fmt u = "          %3 = OpCompositeConstruct %2 4 5".toList ∧
    unreadLine (unreadCode u) (unreadWords u) = "          %3 = OpCompositeConstruct %2 %4 %5".toList :=
  ⟨.OpCompositeConstruct ⟨⟨2⟩, ⟨3⟩, [⟨4⟩, ⟨5⟩]⟩, by decide +kernel⟩

/-- C123: the text determines the instruction and all its operands. -/
theorem C123_inj {a b : Unread} (h : Display.fmt a = Display.fmt b) : a = b := Unread.fmt_inj h

/-- C123: no instruction of a module that was read has the same text. -/
theorem C123_apart {X : Type} [Display X] (u : Unread) (c : Core X) : Display.fmt u ≠ Display.fmt c := by
  obtain ⟨n, s, hn, hs, r, e⟩ := Unread.layout u
  obtain ⟨n', s', hn', hs', e'⟩ := C38_layout c
  rw [e, e']
  intro h
  have h := (List.append_inj h (by rw [leftColumn_length, leftColumn_length])).2
  have h := congrArg (List.takeWhile (· != ' ')) h
  have ns : ∀ p ∈ mnemonics, ' ' ∉ p.2.toList := by decide +kernel
  rw [takeWhile_spaced (unreadNames_spaceless _ hn) hs, takeWhile_spaced (ns _ hn') hs'] at h
  have apart : ∀ p ∈ unreadNames, p.2 ∉ mnemonics.map Prod.snd := by decide +kernel
  exact apart _ hn (List.mem_map.mpr ⟨_, hn', (String.ext_iff.mpr h).symm⟩)

/-- C123: a module with such an instruction is refused. The reader knows the names of all but three of them. -/
theorem C123_refused {X : Type} {known : List (ExtInstSet X)} {before : List (Core X)}
    {head : UInt32} {ops rest : List UInt32} {tail bytes : List UInt8} (u : Unread)
    (h : Continues known before (head :: (ops ++ rest)) tail bytes)
    (hl : ops.length = operandCount head) (hu : head.toNat % 65536 = unreadCode u) :
    (unreadCode u ∉ [36, 73, 74] → ∃ name, (unreadCode u, name) ∈ unreadNames ∧
      readModule bytes known = .error (.err (.UnimplementedOp name))) ∧
    (unreadCode u ∈ [36, 73, 74] → readModule bytes known =
      .error (.err (.UnknownOp (UInt16.ofNat (unreadCode u)) (UInt16.ofNat (head.toNat / 65536))))) := by
  obtain ⟨n, -, hn, -⟩ := Unread.layout u
  constructor
  · intro h3
    have all : ∀ p ∈ unreadNames, p.1 ∉ [36, 73, 74] → unimplementedOpcodes.lookup p.1 = some p.2 := by decide +kernel
    exact ⟨n, hn, C13_unimplemented h hl (hu ▸ all _ hn h3)⟩
  · intro h3
    have all : ∀ c ∈ [36, 73, 74], unimplementedOpcodes.lookup c = none ∧ c ∉ supportedOpcodes := by decide +kernel
    rw [← hu]
    exact C13_unknown h hl (hu ▸ (all _ h3).1) (hu ▸ (all _ h3).2)

/-- C123: the names are those of C13's table where it has one. -/
theorem C123_names (u : Unread) : ∃ name args r, (unreadCode u, name) ∈ unreadNames ∧
    (args = [] ∨ ∃ t, args = ' ' :: t) ∧ Display.fmt u = leftColumn r ++ (name.toList ++ args) ∧
    ∀ name', unimplementedOpcodes.lookup (unreadCode u) = some name' → name' = name := by
  obtain ⟨n, s, hn, hs, r, e⟩ := Unread.layout u
  have all : ∀ p ∈ unreadNames, ∀ q, unimplementedOpcodes.lookup p.1 = some q → q = p.2 := by
    have : ∀ p ∈ unreadNames, (unimplementedOpcodes.lookup p.1).all (· == p.2) = true := by decide +kernel
    intro p hp q hq
    have := this p hp
    rw [hq] at this
    exact eq_of_beq this
  exact ⟨n, s, r, hn, hs, e, all _ hn⟩

/-- Not vacuous: enums, optional operands and lists -/
example : Display.fmt (Unread.OpConstantSampler ⟨⟨2⟩, ⟨3⟩, .Clamp, .Normalized, .Linear⟩) =
      "          %3 = OpConstantSampler %2 Clamp 1 Linear".toList ∧
    unreadLine 45 [2, 3, 2, 1, 1] = "          %3 = OpConstantSampler %2 Clamp 1 Linear".toList ∧
    Display.fmt (Unread.OpCopyMemory ⟨⟨7⟩, ⟨8⟩, some ⟨true, true, false⟩⟩) =
      "               OpCopyMemory %7 %8 Volatile | Aligned".toList ∧
    unreadLine 63 [7, 8, 3] = "               OpCopyMemory %7 %8 Volatile | Aligned".toList ∧
    Display.fmt (Unread.OpVectorShuffle ⟨⟨2⟩, ⟨3⟩, ⟨4⟩, ⟨5⟩, [⟨0⟩, ⟨1⟩]⟩) =
      "          %3 = OpVectorShuffle %2 %4 %5 0 1".toList := by decide +kernel

example : ∀ op, Unread.OpLine ⟨⟨1⟩, ⟨2⟩, ⟨3⟩⟩ = .OpCompositeConstruct op → op.constituents = [] := by
  intro op h; cases h

/-- Not vacuous: a module that begins with an `OpLine`, and one that begins with an `OpDecorationGroup` -/
example : readModule (X := Empty) (Samples.header ++ bytesOf true [0x00040008, 1, 2, 3, 7]) [] =
    .error (.err (.UnimplementedOp "OpLine")) := by
  obtain ⟨name, hn, h⟩ := (C123_refused (.OpLine ⟨⟨1⟩, ⟨2⟩, ⟨3⟩⟩) (ops := [1, 2, 3]) (rest := [7])
    (continues_header Empty [0x00040008, 1, 2, 3, 7]) rfl rfl).1 (by decide)
  have : ∀ p ∈ unreadNames, p.1 = 8 → p.2 = "OpLine" := by decide +kernel
  rw [h, show name = "OpLine" from this _ hn rfl]

example : readModule (X := Empty) (Samples.header ++ bytesOf true [0x00020049, 1]) [] =
    .error (.err (.UnknownOp 73 2)) :=
  (C123_refused (.OpDecorationGroup ⟨⟨1⟩⟩) (ops := [1]) (rest := []) (continues_header _ _) rfl rfl).2 (by decide)

end Magma.Props
