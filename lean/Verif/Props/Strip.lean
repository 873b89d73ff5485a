import Verif.Proofs.Strip
import Verif.Props.EndToEnd
/-! C94: instructions that can be taken out of a binary. -/

namespace Magma.Props
open Spec
variable {X : Type}

/-- C94: take any instructions out of a binary that is accepted, but no import that is used by an instruction that is
kept: the rest is accepted, and read as the instructions that are kept. -/
theorem C94_read {known : List (ExtInstSet X)} {le : Bool} {header : List UInt32} {items : List (Item X)}
    {raw : RawModule X} (hl : header.length = 4)
    (hr : readModule (bytesOf le (0x07230203 :: header ++ items.flatMap (·.words))) known = .ok raw)
    (hi : raw.instructions = items.map (·.inst)) (hw : ∀ x ∈ items, x.Framed) (hu : ImportsUnused items) :
    readModule (bytesOf le (0x07230203 :: header ++ (kept items).flatMap (·.words))) known =
      .ok { raw with instructions := (kept items).map (·.inst) } := by
  obtain ⟨ws, ⟨ver, gen, body, rfl, h1, h2, h3, h4⟩, hd⟩ := (readModule_iff _ _ _).mp hr
  have hd' : ∃ le', bytesOf le (0x07230203 :: header ++ items.flatMap (·.words)) =
      bytesOf le' (0x07230203 :: ver :: gen :: raw.bound :: 0 :: body) := by
    rcases hd with h | h
    · exact ⟨true, h⟩
    · exact ⟨false, h⟩
  obtain ⟨le', e⟩ := hd'
  have := magic_order e
  subst this
  have e := (List.cons.inj (bytesOf_inj e)).2
  obtain ⟨e1, e2⟩ := List.append_inj (s₁ := header) (s₂ := [ver, gen, raw.bound, 0]) e hl
  subst e1
  rw [hi, ← e2] at h4
  have hb : SpellsBody known [] ((kept items).map (·.inst)) ((kept items).flatMap (·.words)) :=
    kept_spells items [] hw hu h4
  have hs : SpellsWords known { raw with instructions := (kept items).map (·.inst) }
      (0x07230203 :: ([ver, gen, raw.bound, 0] ++ (kept items).flatMap (·.words))) :=
    ⟨ver, gen, _, rfl, h1, h2, h3, hb⟩
  refine (readModule_iff _ _ _).mpr ⟨_, hs, ?_⟩
  cases le
  · exact .inr rfl
  · exact .inl rfl

/-- C94: the module that is left is valid if the whole module was, and is the same module without what was taken out:
the sections in the same order, the same functions with the same blocks. -/
theorem C94_validate {raw : RawModule X} {m : LogicalModule X} {items : List (Item X)} (hv : validate raw = .ok m)
    (hi : raw.instructions = items.map (·.inst)) (ho : OnlyOptional items) :
    ∃ m', validate { raw with instructions := (kept items).map (·.inst) } = .ok m' ∧ LogicalModule.Thins m' m := by
  have h := (C21_layout_iff raw m).mp hv
  rw [hi] at h
  obtain ⟨m', ht, hl⟩ := kept_layout ho h
  exact ⟨m', (C21_layout_iff _ m').mpr hl, ht⟩

/-- C94: control flow recovery gives the same for each function, be it a chain, an error or a panic. -/
theorem C94_flow {d' d : FunctionDefinition X} (h : FunctionDefinition.Thins d' d) (fuel : Nat) :
    findControlFlow fuel d' = findControlFlow fuel d := by
  refine C32_contents ?_ fuel
  have hb := h.block
  have hl := h.blocks
  revert hb hl
  generalize d'.blocks = xs
  generalize d.blocks = ys
  intro hb hl
  induction xs generalizing ys with
  | nil =>
    cases ys with
    | nil => rfl
    | cons _ _ => cases hl
  | cons x xs ih =>
    cases ys with
    | nil => cases hl
    | cons y ys =>
      obtain ⟨h1, -, h3, h4⟩ := hb (x, y) (by simp)
      rw [List.map_cons, List.map_cons, ih ys (fun p hp => hb p (by
        rw [List.zip_cons_cons]
        exact List.mem_cons_of_mem _ hp)) (by simpa using hl)]
      have e : (labelId x, endOf x) = (labelId y, endOf y) := by
        obtain ⟨xl, xc, xm, xb⟩ := x
        obtain ⟨yl, yc, ym, yb⟩ := y
        cases h1
        cases h3
        cases h4
        rfl
      rw [e]

/-- C94: none of the others, except merge instructions, can be taken out alone: without one OpMemoryModel, OpFunction,
OpFunctionEnd, OpLabel, OpBranch, OpBranchConditional or OpReturn, whatever else is taken out of what is optional, the
module is rejected. -/
theorem C94_needed {raw : RawModule X} {m : LogicalModule X} {before after : List (Item X)} {x : Item X}
    (hv : validate raw = .ok m) (hi : raw.instructions = (before ++ x :: after).map (·.inst)) (hk : x.keep = false)
    (hx : opcode x.inst ∈ [14, 54, 56, 248, 249, 250, 253]) (ho : OnlyOptional (before ++ after)) (m' : LogicalModule X) :
    validate { raw with instructions := (kept (before ++ x :: after)).map (·.inst) } ≠ .ok m' := by
  intro h'
  have e1 := C20_lossless hv
  have e2 := C20_lossless h'
  have ek : kept (before ++ x :: after) = kept (before ++ after) := by
    rw [kept_append, kept_append]
    have : kept (x :: after) = kept after := by rw [kept, List.filter_cons, hk]; rfl
    rw [this]
  have key (w : Nat → Int) (hw : Cancels w) : w (opcode x.inst) = 0 := by
    have t1 := tally_layout hw m
    have t2 := tally_layout hw m'
    rw [e1, hi, List.map_append, List.map_cons, tally_append, tally_cons] at t1
    rw [e2] at t2
    have t3 := tally_kept hw ho
    rw [← ek] at t3
    rw [List.map_append, tally_append] at t3
    have t2 : tally w ((kept (before ++ x :: after)).map (·.inst)) = w 14 := t2
    omega
  have k1 := key (fun k => if k = 14 then 1 else 0) ⟨by
    intro k hk
    simp at hk
    simp [hk], rfl, rfl, rfl, rfl⟩
  have k2 := key (fun k => if k = 54 then 1 else if k = 56 then -1 else 0) ⟨by
    intro k hk
    simp at hk
    simp [hk], rfl, rfl, rfl, rfl⟩
  have k3 := key (fun k => if k = 248 then 1 else if k = 249 then -1 else if k = 250 then -1 else
    if k = 253 then -1 else 0) ⟨by
    intro k hk
    simp at hk
    simp [hk], rfl, rfl, rfl, rfl⟩
  simp only [List.mem_cons, List.not_mem_nil, or_false] at hx
  rcases hx with h | h | h | h | h | h | h <;> rw [h] at k1 k2 k3 <;> simp at k1 k2 k3

/-! A name and an addition are taken out. -/

def strippedItems : List (Item Empty) := [
  ⟨true, .OpMemoryModel ⟨.Logical, .Glsl450⟩, [0x0003000E, 0, 1]⟩,
  ⟨false, .OpName ⟨⟨4⟩, "f"⟩, [0x00030005, 4, 0x66]⟩,
  ⟨true, .OpName ⟨⟨6⟩, "n"⟩, [0x00030005, 6, 0x6E]⟩,
  ⟨true, .OpFunction ⟨⟨2⟩, ⟨4⟩, ⟨false, false, false, false⟩, ⟨3⟩⟩, [0x00050036, 2, 4, 0, 3]⟩,
  ⟨true, .OpLabel ⟨⟨10⟩⟩, [0x000200F8, 10]⟩,
  ⟨false, .OpIAdd ⟨⟨2⟩, ⟨6⟩, ⟨6⟩, ⟨3⟩⟩, [0x00050080, 2, 6, 6, 3]⟩,
  ⟨true, .OpReturn {}, [0x000100FD]⟩,
  ⟨true, .OpFunctionEnd {}, [0x00010038]⟩]

def strippedRaw : RawModule Empty :=
  { version := ⟨1, 0⟩, generator := ⟨.KhronosGlslang, 1⟩, bound := 20, instructions := strippedItems.map (·.inst) }

theorem stripped_read : readModule (bytesOf true (0x07230203 :: [0x00010000, 0x00080001, 20, 0] ++
    strippedItems.flatMap (·.words))) [] = .ok strippedRaw := by rfl
theorem stripped_valid : ∃ m, validate strippedRaw = .ok m := ⟨_, rfl⟩
theorem stripped_optional : OnlyOptional strippedItems := by
  intro x hx
  simp only [strippedItems, List.mem_cons, List.not_mem_nil, or_false] at hx
  rcases hx with rfl | rfl | rfl | rfl | rfl | rfl | rfl | rfl <;> decide

example : readModule (bytesOf true (0x07230203 :: [0x00010000, 0x00080001, 20, 0] ++ [0x0003000E, 0, 1, 0x00030005, 6,
    0x6E, 0x00050036, 2, 4, 0, 3, 0x000200F8, 10, 0x000100FD, 0x00010038])) [] =
    .ok { strippedRaw with instructions := (kept strippedItems).map (·.inst) } :=
  C94_read rfl stripped_read rfl (by
    intro x hx
    simp only [strippedItems, List.mem_cons, List.not_mem_nil, or_false] at hx
    rcases hx with rfl | rfl | rfl | rfl | rfl | rfl | rfl | rfl <;> exact ⟨_, _, rfl, rfl, rfl⟩) (by
    intro x hx hk y hy _ i e hi
    simp only [strippedItems, List.mem_cons, List.not_mem_nil, or_false] at hx
    rcases hx with rfl | rfl | rfl | rfl | rfl | rfl | rfl | rfl <;> cases hi)
example : ((kept strippedItems).map (·.inst)).length = 6 := rfl
example : ∃ m', validate { strippedRaw with instructions := (kept strippedItems).map (·.inst) } = .ok m' :=
  have ⟨_, h⟩ := stripped_valid
  have ⟨m', h', _⟩ := C94_validate h rfl stripped_optional
  ⟨m', h'⟩
/-- The function of the example with a parameter and code, and without -/
example : findControlFlow 1 (functionOf [emptyBlock 10 none (.OpReturn {})] : FunctionDefinition Empty) =
    findControlFlow 1 { functionOf [{ emptyBlock 10 none (.OpReturn {}) with
      code := [.OpIAdd ⟨⟨2⟩, ⟨6⟩, ⟨6⟩, ⟨3⟩⟩] }] with parameters := [⟨⟨2⟩, ⟨5⟩⟩] } :=
  C94_flow ⟨rfl, by simp [functionOf], rfl, by
    intro p hp
    rw [List.mem_singleton.mp hp]
    exact ⟨rfl, by simp [emptyBlock], rfl, rfl⟩⟩ 1
/-- Without its OpReturn the module is rejected. -/
example (m' : LogicalModule Empty) : validate { strippedRaw with instructions :=
    (kept (strippedItems.take 6 ++ ⟨false, .OpReturn {}, []⟩ :: strippedItems.drop 7)).map (·.inst) } ≠ .ok m' :=
  have ⟨_, h⟩ := stripped_valid
  C94_needed h rfl rfl (by decide) (fun x hx => stripped_optional x (by
    rcases List.mem_append.mp hx with h | h
    · exact List.mem_of_mem_take h
    · exact List.mem_of_mem_drop h)) m'

end Magma.Props
