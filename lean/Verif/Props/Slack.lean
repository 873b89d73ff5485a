import Verif.Proofs.Slack
import Verif.Proofs.SlackErrors
import Verif.Props.Reader
import Verif.Props.EndToEnd
/-! C80: exactly which inputs are read as the same module. -/

namespace Magma.Props
open Spec
variable {X : Type}

theorem encodes_of_recalls {encX : X → UInt32 × List UInt32} {s : ExtInstSet X} (h : Recalls encX s) :
    EncodesSet encX s := by
  intro n args x hx
  rw [h n args x hx]
  exact ⟨hx, Nat.le_refl _⟩

/-- The words after the magic number -/
theorem accepted_iff {known : List (ExtInstSet X)} {le : Bool} {ws : List UInt32} {m : RawModule X} :
    readModule (bytesOf le (0x07230203 :: ws)) known = .ok m ↔ ∃ ver gen body, ws = ver :: gen :: m.bound :: 0 :: body ∧
      IsVersionWord ver ∧ m.version = ⟨1, 0⟩ ∧ IsGeneratorWord m.generator gen ∧
      SpellsBody known [] m.instructions body := by
  have h := readModule_bytesOf (known := known) (t := []) (ws := ws) (by simp) le
  rw [List.append_nil] at h
  rw [h, headerW_iff]
  simp only [bodyW_iff (Inv.nil known), and_true]

theorem generator_eq {g : Generator} {gen : UInt32} (h : IsGeneratorWord g gen) :
    gen = UInt32.ofNat ((toolCode g.tool).toNat * 65536 + g.version.toNat) := by
  rw [← h.1, UInt32.ofNat_toNat]

/-- C80: the canonical serialisation of what was read is the input with everything cleared that is not looked at. -/
theorem C80_tidy {encX : X → UInt32 × List UInt32} {known : List (ExtInstSet X)}
    (henc : ∀ s ∈ known, Recalls encX s) {le : Bool} {ws : List UInt32} {m : RawModule X}
    (h : readModule (bytesOf le (0x07230203 :: ws)) known = .ok m) (le' : Bool) :
    encodeModule encX le' m = bytesOf le' (0x07230203 :: tidyWords ws) := by
  obtain ⟨ver, gen, body, rfl, h1, -, h3, h4⟩ := accepted_iff.mp h
  rw [encodeModule, encodeWords, tidyWords, (Slacks.tidyVersion_iff ver).mpr h1,
    Slacks.encodeBody_tidy henc _ _ _ h4, generator_eq h3]
  rfl

/-- C80: tidied words have the same outcome, whatever the instruction sets and the input: the same module or the same
error, but for what an error tells of the bits that are not looked at. -/
theorem C80_outcome (known : List (ExtInstSet X)) (le le' : Bool) (ws : List UInt32) (t : List UInt8) (ht : t.length < 4) :
    Agrees (readModule (bytesOf le (0x07230203 :: ws) ++ t) known)
      (readModule (bytesOf le' (0x07230203 :: tidyWords ws) ++ t) known) := by
  rw [readModule_bytesOf ht, readModule_bytesOf ht]
  exact Slacks.alike_header known t ws

/-- C80: words are read as a module if and only if the tidied words are, in any byte order. -/
theorem C80_same (known : List (ExtInstSet X)) (le le' : Bool) (ws : List UInt32) (m : RawModule X) :
    readModule (bytesOf le (0x07230203 :: ws)) known = .ok m ↔
      readModule (bytesOf le' (0x07230203 :: tidyWords ws)) known = .ok m := by
  have h := C80_outcome known le le' ws [] (by simp)
  rw [List.append_nil, List.append_nil] at h
  rcases h with h | ⟨e, h1, h2⟩
  · rw [h]
  · rw [h1, h2]
    exact ⟨nofun, nofun⟩

/-- C80: exactly the inputs that agree in everything that is looked at are read as the same module. -/
theorem C80_exact {encX : X → UInt32 × List UInt32} {known : List (ExtInstSet X)}
    (henc : ∀ s ∈ known, Recalls encX s) {le : Bool} {ws : List UInt32} {m : RawModule X}
    (h : readModule (bytesOf le (0x07230203 :: ws)) known = .ok m) (le' : Bool) (ws' : List UInt32) :
    readModule (bytesOf le' (0x07230203 :: ws')) known = .ok m ↔ tidyWords ws' = tidyWords ws := by
  constructor
  · intro h'
    exact (List.cons.inj (bytesOf_inj ((C80_tidy henc h' true).symm.trans (C80_tidy henc h true)))).2
  · intro h'
    rw [C80_same known le' true, h', ← C80_same known le true]
    exact h

/-- C80: the input is the canonical one exactly if nothing needs to be cleared. -/
theorem C80_canonical {encX : X → UInt32 × List UInt32} {known : List (ExtInstSet X)}
    (henc : ∀ s ∈ known, Recalls encX s) {le : Bool} {ws : List UInt32} {m : RawModule X}
    (h : readModule (bytesOf le (0x07230203 :: ws)) known = .ok m) :
    encodeModule encX le m = bytesOf le (0x07230203 :: ws) ↔ tidyWords ws = ws := by
  rw [C80_tidy henc h le]
  exact ⟨fun h' => (List.cons.inj (bytesOf_inj h')).2, fun h' => by rw [h']⟩

/-- C80: tidying tidied words of a module changes nothing. -/
theorem C80_idempotent {encX : X → UInt32 × List UInt32} {known : List (ExtInstSet X)}
    (henc : ∀ s ∈ known, Recalls encX s) {le : Bool} {ws : List UInt32} {m : RawModule X}
    (h : readModule (bytesOf le (0x07230203 :: ws)) known = .ok m) : tidyWords (tidyWords ws) = tidyWords ws :=
  (C80_exact henc h le _).mp ((C80_same known le le ws m).mp h)

/-- The instructions of GLSL.std.450 keep all their words. -/
theorem recalls_glsl : ∀ s ∈ [Glsl.instSet], Recalls glslWords s := by
  intro s hs n args x hx
  simp only [List.mem_singleton] at hs
  subst hs
  obtain ⟨w, rfl, ⟨rfl, rfl⟩ | ⟨rfl, rfl⟩⟩ := Glsl.readInst_ok.mp hx
  · rfl
  · rfl

/-- C80 with GLSL.std.450: exactly the inputs that agree in everything that is looked at are read as the same module. -/
theorem C80_exact_glsl {le : Bool} {ws : List UInt32} {m : RawModule Glsl.Inst}
    (h : readModule (bytesOf le (0x07230203 :: ws)) [Glsl.instSet] = .ok m) (le' : Bool) (ws' : List UInt32) :
    readModule (bytesOf le' (0x07230203 :: ws')) [Glsl.instSet] = .ok m ↔ tidyWords ws' = tidyWords ws :=
  C80_exact recalls_glsl h le' ws'

/-- C43, the functions: the canonical words of the function definitions are the last words of the input with everything
cleared that is not looked at. -/
theorem C43_tail_tidy_partial {encX : X → UInt32 × List UInt32} {known : List (ExtInstSet X)}
    (henc : ∀ s ∈ known, Recalls encX s) {bytes : List UInt8} {raw : RawModule X} {m : LogicalModule X}
    (hr : readModule bytes known = .ok raw) (hv : validate raw = .ok m) :
    ∃ le before ws, bytes = bytesOf le (before ++ ws) ∧
      (m.function_definitions.flatMap definitionInsts).flatMap (encodeInst encX) = tidyBody ws := by
  obtain ⟨le, before, ws, insts, h1, -, h3⟩ := C43_tail_partial hr hv
  exact ⟨le, before, ws, h1, (Slacks.encodeBody_tidy henc _ _ _ h3).symm⟩

/-! Words with everything in them that is not looked at: bits of the version, a word count of 0 (`OpNop`), bytes after the
NUL of a name, a bit of a selection control, a bit of the fast math mode of a decoration -/

def slackWords : List UInt32 :=
  [0x00A1B0C0, 0x00080001, 20, 0, 0x00000000, 0x00030005, 1, 0x99880061, 0x000300F7, 7, 0x00010001,
   0x00040047, 1, 40, 0x00120021]

def slackTidied : List UInt32 :=
  [0x00010000, 0x00080001, 20, 0, 0x00010000, 0x00030005, 1, 0x00000061, 0x000300F7, 7, 0x00000001,
   0x00040047, 1, 40, 0x00000001]

def slackModule : RawModule Glsl.Inst :=
  { version := ⟨1, 0⟩, generator := ⟨.KhronosGlslang, 1⟩, bound := 20,
    instructions := [.OpNop {}, .OpName ⟨⟨1⟩, "a"⟩, .OpSelectionMerge ⟨⟨7⟩, ⟨true, false⟩⟩,
      .OpDecorate ⟨⟨1⟩, .FpFastMathMode ⟨true, false, false, false, false⟩⟩] }

theorem slack_read : readModule (bytesOf true (0x07230203 :: slackWords)) [Glsl.instSet] = .ok slackModule := by rfl

theorem slack_tidied : tidyWords slackWords = slackTidied := by
  simp [slackWords, slackTidied, tidyWords, tidyBody, tidy, slackOf, decorationSlack, tidyText, tidyHead, wordBytes, upToNul,
    tidyVersion]
  decide

example : encodeModule glslWords false slackModule = bytesOf false (0x07230203 :: slackTidied) := by
  rw [C80_tidy recalls_glsl slack_read false, slack_tidied]
example : readModule (bytesOf false (0x07230203 :: slackTidied)) [Glsl.instSet] = .ok slackModule := by
  rw [← slack_tidied]
  exact (C80_same _ true false _ _).mp slack_read
example : tidyWords slackTidied = slackTidied := by
  rw [← slack_tidied]
  exact C80_idempotent recalls_glsl slack_read
example : encodeModule glslWords true slackModule ≠ bytesOf true (0x07230203 :: slackWords) := by
  rw [ne_eq, C80_canonical recalls_glsl slack_read, slack_tidied]
  decide
/-- The other bits are looked at. -/
example : readModule (bytesOf true (0x07230203 :: slackWords.set 10 0x00010002)) [Glsl.instSet] ≠ .ok slackModule := by
  rw [ne_eq, C80_exact_glsl slack_read, slack_tidied]
  simp [slackWords, slackTidied, tidyWords, tidyBody, tidy, slackOf, decorationSlack, tidyText, tidyHead, wordBytes, upToNul,
    tidyVersion]
  decide
/-- An error tells bits that are not looked at. -/
example : readModule (bytesOf true (0x07230203 :: slackWords.set 10 0x00010004)) [Glsl.instSet] =
      fail (.UnknownSelectionControl 0x00010004) ∧
    readModule (bytesOf true (0x07230203 :: slackTidied.set 10 0x00000004)) [Glsl.instSet] =
      fail (.UnknownSelectionControl 4) := ⟨by rfl, by rfl⟩

/-- C80 for the sample: all words that are read as the same module -/
example (le : Bool) (ws : List UInt32) : readModule (bytesOf le (0x07230203 :: ws)) [Glsl.instSet] = .ok slackModule ↔
    tidyWords ws = slackTidied := by
  rw [C80_exact recalls_glsl slack_read, slack_tidied]

end Magma.Props
