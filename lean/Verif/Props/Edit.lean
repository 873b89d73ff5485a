import Verif.Proofs.Edit
import Verif.Proofs.EditLayout
import Verif.Props.EndToEnd
import Verif.Props.Outline
import Verif.Props.Reader
/-! C106: a part of a binary that is replaced. -/

namespace Magma.Props
open Spec
variable {X : Type}

/-! ### C106 -/

/-- C106: replace the instructions at the front of a binary by others that are accepted and have the same imports. Whatever
comes after them is read as it was: the outcome is the same, with the new instructions in the place of the old. -/
theorem C106_read {known : List (ExtInstSet X)} {header a a' : List UInt8} {m m' : RawModule X} (hl : header.length = 20)
    (ha : readModule (header ++ a) known = .ok m) (ha' : readModule (header ++ a') known = .ok m')
    (hi : SameImports m.instructions m'.instructions) (b : List UInt8) :
    readModule (header ++ a' ++ b) known = (readModule (header ++ a ++ b) known).map fun n =>
      { n with instructions := m'.instructions ++ n.instructions.drop m.instructions.length } := by
  obtain ⟨le, ver, gen, body, hh, rfl, h1, h2, h3, h4⟩ := split_header hl ha
  obtain ⟨le', ver', gen', body', hh', rfl, h1', h2', h3', h4'⟩ := split_header hl ha'
  obtain rfl : le = le' := header_inj (hh.symm.trans hh')
  have e := bytesOf_inj (hh.symm.trans hh')
  simp only [List.cons.injEq, true_and, and_true] at e
  obtain ⟨rfl, rfl, -⟩ := e
  obtain ⟨ws, t, rfl, ht⟩ := bytes_words le b
  subst hh
  obtain ⟨sets, hs, r⟩ := readModule_on (le := le) (gen := gen) (bound := m.bound) h1 h4 ws ht
  obtain ⟨sets', hs', r'⟩ := readModule_on (le := le) (gen := gen) (bound := m.bound) h1 h4' ws ht
  rw [r, r', bodyW_same _ ws sets' sets (Nat.le_refl _) (inv_same hs' hs fun op => (hi op).symm)]
  cases bodyW known sets t ws with
  | error e => rfl
  | ok l =>
    simp only [Except.map, List.drop_left]

/-- C106: if the new instructions have the roles of the old ones, one by one, and labels, merge instructions and branches
stay as they are, a valid module stays valid and has the same outline, and control flow recovery does the same for each of
its functions, be it a chain, an error or a panic. -/
theorem C106_flow {raw raw' : RawModule X} {m : LogicalModule X} (hv : validate raw = .ok m)
    (hp : List.Forall₂ Patches raw.instructions raw'.instructions) :
    ∃ m', validate raw' = .ok m' ∧ outline m' = outline m ∧
      List.Forall₂ (fun d d' => ∀ fuel, findControlFlow fuel d' = findControlFlow fuel d) m.function_definitions
        m'.function_definitions := by
  have h := C55_roles (patches_roles hp)
  rw [hv] at h
  cases hv' : validate raw' with
  | error e => rw [hv'] at h; cases h
  | ok m' =>
    rw [hv'] at h
    have ho : outline m = outline m' := Except.ok.inj h
    refine ⟨m', rfl, ho.symm, ?_⟩
    refine (layout_keys ho ?_).imp fun d d' hd fuel => (C32_contents hd fuel).symm
    rw [C20_lossless hv, C20_lossless hv']
    exact patches_keys hp

/-- C106: from the bytes: such a patch of a binary leaves what comes after it, and all control flow, as it was. -/
theorem C106_patch {known : List (ExtInstSet X)} {header a a' b : List UInt8} {m m' n : RawModule X} {l : LogicalModule X}
    (hl : header.length = 20) (ha : readModule (header ++ a) known = .ok m) (ha' : readModule (header ++ a') known = .ok m')
    (hi : SameImports m.instructions m'.instructions) (hp : List.Forall₂ Patches m.instructions m'.instructions)
    (hr : readModule (header ++ a ++ b) known = .ok n) (hv : validate n = .ok l) :
    ∃ n' l', readModule (header ++ a' ++ b) known = .ok n' ∧ validate n' = .ok l' ∧ outline l' = outline l ∧
      List.Forall₂ (fun d d' => ∀ fuel, findControlFlow fuel d' = findControlFlow fuel d) l.function_definitions
        l'.function_definitions := by
  have e := C106_read hl ha ha' hi b
  rw [hr] at e
  obtain ⟨rest, hn⟩ : ∃ rest, n.instructions = m.instructions ++ rest := by
    obtain ⟨le, ws, rest, h, -⟩ := C05_cut_on_boundary known (header ++ a ++ b) n m hr (header ++ a).length
      (by rw [List.take_left]; exact ha)
    exact ⟨rest, h⟩
  have hp' : List.Forall₂ Patches n.instructions (m'.instructions ++ n.instructions.drop m.instructions.length) := by
    rw [hn, List.drop_left]
    exact List.rel_append hp (List.forall₂_same.mpr fun i _ => ⟨rfl, fun _ => rfl⟩)
  obtain ⟨l', h1, h2, h3⟩ := C106_flow
    (raw' := { n with instructions := m'.instructions ++ n.instructions.drop m.instructions.length }) hv hp'
  exact ⟨_, l', e, h1, h2, h3⟩

/-! An addition becomes a subtraction, and a name is changed. -/

def patchHeader : List UInt8 := bytesOf true [0x07230203, 0x00010000, 0x00080001, 20, 0]
def patchFront : List UInt8 := bytesOf true [0x0003000E, 0, 1, 0x00030005, 4, 0x66, 0x00050036, 2, 4, 0, 3, 0x000200F8, 10,
  0x00050080, 2, 6, 6, 3]
def patchNew : List UInt8 := bytesOf true [0x0003000E, 0, 1, 0x00040005, 4, 0x6e69616d, 0, 0x00050036, 2, 4, 0, 3, 0x000200F8,
  10, 0x00050082, 2, 6, 3, 6]
def patchRest : List UInt8 := bytesOf true [0x000100FD, 0x00010038]
def patchInsts (name : String) (inst : Core Empty) : List (Core Empty) := [.OpMemoryModel ⟨.Logical, .Glsl450⟩,
  .OpName ⟨⟨4⟩, name⟩, .OpFunction ⟨⟨2⟩, ⟨4⟩, ⟨false, false, false, false⟩, ⟨3⟩⟩, .OpLabel ⟨⟨10⟩⟩, inst]
def patchModule (name : String) (inst : Core Empty) : RawModule Empty :=
  { version := ⟨1, 0⟩, generator := ⟨.KhronosGlslang, 1⟩, bound := 20, instructions := patchInsts name inst }
def patchWhole : RawModule Empty := { patchModule "" (.OpNop {}) with
  instructions := patchInsts "f" (.OpIAdd ⟨⟨2⟩, ⟨6⟩, ⟨6⟩, ⟨3⟩⟩) ++ [.OpReturn {}, .OpFunctionEnd {}] }

example : readModule (patchHeader ++ patchFront ++ patchRest) [] = .ok patchWhole := by rfl
theorem patched : ∃ (n' : RawModule Empty) (l' : LogicalModule Empty),
    readModule (patchHeader ++ patchNew ++ patchRest) [] = .ok n' ∧ validate n' = .ok l' ∧
    l'.function_definitions.length = 1 := by
  obtain ⟨l, hl⟩ : ∃ l, validate patchWhole = .ok l := ⟨_, rfl⟩
  obtain ⟨n', l', h1, h2, h3, -⟩ := C106_patch (known := []) (header := patchHeader) (a := patchFront) (a' := patchNew)
    (b := patchRest) (m := patchModule "f" (.OpIAdd ⟨⟨2⟩, ⟨6⟩, ⟨6⟩, ⟨3⟩⟩))
    (m' := patchModule "main" (.OpISub ⟨⟨2⟩, ⟨6⟩, ⟨3⟩, ⟨6⟩⟩)) (n := patchWhole) (l := l) rfl (by rfl) (by rfl)
    (fun op => ⟨fun h => by simp [patchModule, patchInsts] at h, fun h => by simp [patchModule, patchInsts] at h⟩)
    (.cons ⟨rfl, fun _ => rfl⟩ (.cons ⟨rfl, by decide⟩ (.cons ⟨rfl, fun _ => rfl⟩ (.cons ⟨rfl, fun _ => rfl⟩
      (.cons ⟨rfl, by decide⟩ .nil))))) (by rfl) hl
  refine ⟨n', l', h1, h2, ?_⟩
  have e := congrArg (fun o => o.definitions.length) h3
  simp only [outline, List.length_map] at e
  rw [e]
  cases hl
  rfl

end Magma.Props
