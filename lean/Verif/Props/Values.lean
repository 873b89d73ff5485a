import Verif.Spec.Values
import Verif.Props.DeadCode
/-! C115: which values the instructions of SPIR-V read; what does not come to memory can be removed. -/

namespace Magma.Props
open Spec
variable {W : Type}

/-! ### C115 -/

/-- Another id in the place of `id` -/
def swap (id other : UInt32) : UInt32 → UInt32 := fun i => if i = id then other else i

theorem swap_iff (id x : UInt32) : (∀ other, swap id other x = x) ↔ x ≠ id := by
  constructor
  · rintro h rfl
    have := h (x + 1)
    simp [swap] at this
  · intro h other
    exact if_neg h

theorem swap_list {α : Type} (F : UInt32 → α → α) (P : α → Prop) (hF : ∀ a, (∀ other, F other a = a) ↔ P a)
    (l : List α) : (∀ other, l.map (F other) = l) ↔ ∀ a ∈ l, P a := by
  induction l with
  | nil => simp
  | cons a l ih =>
    rw [List.forall_mem_cons, ← ih, ← hF, ← forall_and]
    exact forall_congr' fun other => by rw [List.map_cons, List.cons.injEq]

theorem two_iff (a b c d id : UInt32) :
    a ≠ id ∧ b ≠ id ∧ c ≠ id ∧ d ≠ id ↔ ¬((id = c ∨ id = d) ∨ id = a ∨ b = id) := by
  rw [eq_comm (a := id) (b := c), eq_comm (a := id) (b := d), eq_comm (a := id) (b := a)]
  tauto

/-- C115: the ids an instruction mentions are those of the values it reads, its result, its type, and the like: none is
missing, and none is made up. -/
theorem C115_mentions (i : GroupCode Glsl.Inst) (id : UInt32) : Mentions id (codeInst i) ↔
    id ∈ valuesRead i ∨ id ∈ otherIds i ∨ resultId (codeInst i) = some id := by
  have ids : ∀ l : List OpId, (∀ other, l.map (fun a => (⟨swap id other a.val⟩ : OpId)) = l) ↔ ∀ a ∈ l, a.val ≠ id := by
    refine swap_list _ _ fun a => ?_
    rw [← swap_iff]
    exact forall_congr' fun other => ⟨fun e => congrArg OpId.val e, fun e => by rw [e]⟩
  have phis : ∀ l : List PhiArg, (∀ other, l.map (fun a => (⟨⟨swap id other a.1.val⟩, ⟨swap id other a.2.val⟩⟩ : PhiArg)) = l) ↔
      ∀ a ∈ l, a.1.val ≠ id ∧ a.2.val ≠ id := by
    refine swap_list _ _ fun a => ?_
    rw [← swap_iff, ← swap_iff, ← forall_and]
    refine forall_congr' fun other => ⟨fun e => ⟨congrArg (·.1.val) e, congrArg (·.2.val) e⟩, fun ⟨e1, e2⟩ => ?_⟩
    rw [e1, e2]
  rw [← not_iff_not, Mentions, not_exists]
  simp only [not_not]
  change (∀ other, renameInst (swap id other) (codeInst i) = codeInst i) ↔ _
  cases i with
  | OpNop op => simp [codeInst, renameInst, valuesRead, otherIds, resultId, ren]
  | OpExtInst op =>
    obtain ⟨⟨a⟩, ⟨b⟩, ⟨c⟩, x⟩ := op
    rcases x with ⟨⟨⟨e⟩⟩⟩ | ⟨⟨⟨e⟩⟩⟩ <;>
      simp [codeInst, renameInst, valuesRead, otherIds, resultId, ren, forall_and, swap_iff] <;> tauto
  | OpVariable op =>
    obtain ⟨⟨a⟩, ⟨b⟩, c, x⟩ := op
    rcases x with _ | ⟨⟨e⟩⟩ <;>
      simp [codeInst, renameInst, valuesRead, otherIds, resultId, ren, forall_and, swap_iff] <;> tauto
  | OpStore op =>
    obtain ⟨⟨a⟩, ⟨b⟩, c⟩ := op
    simp [codeInst, renameInst, valuesRead, otherIds, resultId, ren, forall_and, swap_iff]
    tauto
  | OpAccessChain op =>
    obtain ⟨⟨a⟩, ⟨b⟩, ⟨c⟩, l⟩ := op
    have hl := ids l
    simp only [codeInst, renameInst, valuesRead, otherIds, resultId, ren, Core.OpAccessChain.injEq, OpAccessChain.mk.injEq,
      OpId.mk.injEq, ResultId.mk.injEq, forall_and, swap_iff, List.mem_cons, List.not_mem_nil, or_false, Option.some.injEq,
      List.mem_map] at hl ⊢
    rw [hl]
    constructor
    · rintro ⟨h1, h2, h3, h4⟩ ((rfl | ⟨x, hx, e⟩) | rfl | rfl)
      · exact h3 rfl
      · exact h4 x hx e
      · exact h1 rfl
      · exact h2 rfl
    · intro h
      exact ⟨fun e => h (.inr (.inl e.symm)), fun e => h (.inr (.inr e)), fun e => h (.inl (.inl e.symm)),
        fun x hx e => h (.inl (.inr ⟨x, hx, e⟩))⟩
  | OpPhi op =>
    obtain ⟨⟨a⟩, ⟨b⟩, l⟩ := op
    have hl := phis l
    simp only [codeInst, renameInst, valuesRead, otherIds, resultId, ren, Core.OpPhi.injEq, OpPhi.mk.injEq,
      OpId.mk.injEq, ResultId.mk.injEq, forall_and, swap_iff, List.mem_cons, Option.some.injEq, List.mem_map] at hl ⊢
    rw [hl]
    constructor
    · rintro ⟨h1, h2, h3, h4⟩ (⟨x, hx, e⟩ | (rfl | ⟨x, hx, e⟩) | rfl)
      · exact h3 x hx e
      · exact h1 rfl
      · exact h4 x hx e
      · exact h2 rfl
    · intro h
      exact ⟨fun e => h (.inr (.inl (.inl e.symm))), fun e => h (.inr (.inr e)), fun x hx e => h (.inl ⟨x, hx, e⟩),
        fun x hx e => h (.inr (.inl (.inr ⟨x, hx, e⟩)))⟩
  | OpUndef op =>
    obtain ⟨⟨a⟩, ⟨b⟩⟩ := op
    simp [codeInst, renameInst, valuesRead, otherIds, resultId, ren, forall_and, swap_iff]
    tauto
  | OpLoad op =>
    obtain ⟨⟨a⟩, ⟨b⟩, ⟨c⟩, x⟩ := op
    simp [codeInst, renameInst, valuesRead, otherIds, resultId, ren, forall_and, swap_iff]
    tauto
  | OpConvertUToF op =>
    obtain ⟨⟨a⟩, ⟨b⟩, ⟨c⟩⟩ := op
    simp [codeInst, renameInst, valuesRead, otherIds, resultId, ren, forall_and, swap_iff]
    tauto
  | OpBitcast op =>
    obtain ⟨⟨a⟩, ⟨b⟩, ⟨c⟩⟩ := op
    simp [codeInst, renameInst, valuesRead, otherIds, resultId, ren, forall_and, swap_iff]
    tauto
  | OpIAdd op =>
    obtain ⟨⟨a⟩, ⟨b⟩, ⟨c⟩, ⟨d⟩⟩ := op
    simp only [codeInst, renameInst, valuesRead, otherIds, resultId, ren, Core.OpIAdd.injEq, OpIAdd.mk.injEq,
      OpId.mk.injEq, ResultId.mk.injEq, forall_and, swap_iff, List.mem_cons, List.not_mem_nil, or_false, Option.some.injEq]
    exact two_iff a b c d id
  | OpFAdd op =>
    obtain ⟨⟨a⟩, ⟨b⟩, ⟨c⟩, ⟨d⟩⟩ := op
    simp only [codeInst, renameInst, valuesRead, otherIds, resultId, ren, Core.OpFAdd.injEq, OpFAdd.mk.injEq,
      OpId.mk.injEq, ResultId.mk.injEq, forall_and, swap_iff, List.mem_cons, List.not_mem_nil, or_false, Option.some.injEq]
    exact two_iff a b c d id
  | OpISub op =>
    obtain ⟨⟨a⟩, ⟨b⟩, ⟨c⟩, ⟨d⟩⟩ := op
    simp only [codeInst, renameInst, valuesRead, otherIds, resultId, ren, Core.OpISub.injEq, OpISub.mk.injEq,
      OpId.mk.injEq, ResultId.mk.injEq, forall_and, swap_iff, List.mem_cons, List.not_mem_nil, or_false, Option.some.injEq]
    exact two_iff a b c d id
  | OpFSub op =>
    obtain ⟨⟨a⟩, ⟨b⟩, ⟨c⟩, ⟨d⟩⟩ := op
    simp only [codeInst, renameInst, valuesRead, otherIds, resultId, ren, Core.OpFSub.injEq, OpFSub.mk.injEq,
      OpId.mk.injEq, ResultId.mk.injEq, forall_and, swap_iff, List.mem_cons, List.not_mem_nil, or_false, Option.some.injEq]
    exact two_iff a b c d id
  | OpIMul op =>
    obtain ⟨⟨a⟩, ⟨b⟩, ⟨c⟩, ⟨d⟩⟩ := op
    simp only [codeInst, renameInst, valuesRead, otherIds, resultId, ren, Core.OpIMul.injEq, OpIMul.mk.injEq,
      OpId.mk.injEq, ResultId.mk.injEq, forall_and, swap_iff, List.mem_cons, List.not_mem_nil, or_false, Option.some.injEq]
    exact two_iff a b c d id
  | OpFMul op =>
    obtain ⟨⟨a⟩, ⟨b⟩, ⟨c⟩, ⟨d⟩⟩ := op
    simp only [codeInst, renameInst, valuesRead, otherIds, resultId, ren, Core.OpFMul.injEq, OpFMul.mk.injEq,
      OpId.mk.injEq, ResultId.mk.injEq, forall_and, swap_iff, List.mem_cons, List.not_mem_nil, or_false, Option.some.injEq]
    exact two_iff a b c d id
  | OpUDiv op =>
    obtain ⟨⟨a⟩, ⟨b⟩, ⟨c⟩, ⟨d⟩⟩ := op
    simp only [codeInst, renameInst, valuesRead, otherIds, resultId, ren, Core.OpUDiv.injEq, OpUDiv.mk.injEq,
      OpId.mk.injEq, ResultId.mk.injEq, forall_and, swap_iff, List.mem_cons, List.not_mem_nil, or_false, Option.some.injEq]
    exact two_iff a b c d id
  | OpSDiv op =>
    obtain ⟨⟨a⟩, ⟨b⟩, ⟨c⟩, ⟨d⟩⟩ := op
    simp only [codeInst, renameInst, valuesRead, otherIds, resultId, ren, Core.OpSDiv.injEq, OpSDiv.mk.injEq,
      OpId.mk.injEq, ResultId.mk.injEq, forall_and, swap_iff, List.mem_cons, List.not_mem_nil, or_false, Option.some.injEq]
    exact two_iff a b c d id
  | OpFDiv op =>
    obtain ⟨⟨a⟩, ⟨b⟩, ⟨c⟩, ⟨d⟩⟩ := op
    simp only [codeInst, renameInst, valuesRead, otherIds, resultId, ren, Core.OpFDiv.injEq, OpFDiv.mk.injEq,
      OpId.mk.injEq, ResultId.mk.injEq, forall_and, swap_iff, List.mem_cons, List.not_mem_nil, or_false, Option.some.injEq]
    exact two_iff a b c d id
  | OpUMod op =>
    obtain ⟨⟨a⟩, ⟨b⟩, ⟨c⟩, ⟨d⟩⟩ := op
    simp only [codeInst, renameInst, valuesRead, otherIds, resultId, ren, Core.OpUMod.injEq, OpUMod.mk.injEq,
      OpId.mk.injEq, ResultId.mk.injEq, forall_and, swap_iff, List.mem_cons, List.not_mem_nil, or_false, Option.some.injEq]
    exact two_iff a b c d id
  | OpSRem op =>
    obtain ⟨⟨a⟩, ⟨b⟩, ⟨c⟩, ⟨d⟩⟩ := op
    simp only [codeInst, renameInst, valuesRead, otherIds, resultId, ren, Core.OpSRem.injEq, OpSRem.mk.injEq,
      OpId.mk.injEq, ResultId.mk.injEq, forall_and, swap_iff, List.mem_cons, List.not_mem_nil, or_false, Option.some.injEq]
    exact two_iff a b c d id
  | OpSMod op =>
    obtain ⟨⟨a⟩, ⟨b⟩, ⟨c⟩, ⟨d⟩⟩ := op
    simp only [codeInst, renameInst, valuesRead, otherIds, resultId, ren, Core.OpSMod.injEq, OpSMod.mk.injEq,
      OpId.mk.injEq, ResultId.mk.injEq, forall_and, swap_iff, List.mem_cons, List.not_mem_nil, or_false, Option.some.injEq]
    exact two_iff a b c d id
  | OpFRem op =>
    obtain ⟨⟨a⟩, ⟨b⟩, ⟨c⟩, ⟨d⟩⟩ := op
    simp only [codeInst, renameInst, valuesRead, otherIds, resultId, ren, Core.OpFRem.injEq, OpFRem.mk.injEq,
      OpId.mk.injEq, ResultId.mk.injEq, forall_and, swap_iff, List.mem_cons, List.not_mem_nil, or_false, Option.some.injEq]
    exact two_iff a b c d id
  | OpFMod op =>
    obtain ⟨⟨a⟩, ⟨b⟩, ⟨c⟩, ⟨d⟩⟩ := op
    simp only [codeInst, renameInst, valuesRead, otherIds, resultId, ren, Core.OpFMod.injEq, OpFMod.mk.injEq,
      OpId.mk.injEq, ResultId.mk.injEq, forall_and, swap_iff, List.mem_cons, List.not_mem_nil, or_false, Option.some.injEq]
    exact two_iff a b c d id
  | OpIAddCarry op =>
    obtain ⟨⟨a⟩, ⟨b⟩, ⟨c⟩, ⟨d⟩⟩ := op
    simp only [codeInst, renameInst, valuesRead, otherIds, resultId, ren, Core.OpIAddCarry.injEq, OpIAddCarry.mk.injEq,
      OpId.mk.injEq, ResultId.mk.injEq, forall_and, swap_iff, List.mem_cons, List.not_mem_nil, or_false, Option.some.injEq]
    exact two_iff a b c d id
  | OpISubBorrow op =>
    obtain ⟨⟨a⟩, ⟨b⟩, ⟨c⟩, ⟨d⟩⟩ := op
    simp only [codeInst, renameInst, valuesRead, otherIds, resultId, ren, Core.OpISubBorrow.injEq, OpISubBorrow.mk.injEq,
      OpId.mk.injEq, ResultId.mk.injEq, forall_and, swap_iff, List.mem_cons, List.not_mem_nil, or_false, Option.some.injEq]
    exact two_iff a b c d id
  | OpUMulExtended op =>
    obtain ⟨⟨a⟩, ⟨b⟩, ⟨c⟩, ⟨d⟩⟩ := op
    simp only [codeInst, renameInst, valuesRead, otherIds, resultId, ren, Core.OpUMulExtended.injEq, OpUMulExtended.mk.injEq,
      OpId.mk.injEq, ResultId.mk.injEq, forall_and, swap_iff, List.mem_cons, List.not_mem_nil, or_false, Option.some.injEq]
    exact two_iff a b c d id
  | OpSMulExtended op =>
    obtain ⟨⟨a⟩, ⟨b⟩, ⟨c⟩, ⟨d⟩⟩ := op
    simp only [codeInst, renameInst, valuesRead, otherIds, resultId, ren, Core.OpSMulExtended.injEq, OpSMulExtended.mk.injEq,
      OpId.mk.injEq, ResultId.mk.injEq, forall_and, swap_iff, List.mem_cons, List.not_mem_nil, or_false, Option.some.injEq]
    exact two_iff a b c d id
  | OpBitwiseOr op =>
    obtain ⟨⟨a⟩, ⟨b⟩, ⟨c⟩, ⟨d⟩⟩ := op
    simp only [codeInst, renameInst, valuesRead, otherIds, resultId, ren, Core.OpBitwiseOr.injEq, OpBitwiseOr.mk.injEq,
      OpId.mk.injEq, ResultId.mk.injEq, forall_and, swap_iff, List.mem_cons, List.not_mem_nil, or_false, Option.some.injEq]
    exact two_iff a b c d id
  | OpBitwiseXor op =>
    obtain ⟨⟨a⟩, ⟨b⟩, ⟨c⟩, ⟨d⟩⟩ := op
    simp only [codeInst, renameInst, valuesRead, otherIds, resultId, ren, Core.OpBitwiseXor.injEq, OpBitwiseXor.mk.injEq,
      OpId.mk.injEq, ResultId.mk.injEq, forall_and, swap_iff, List.mem_cons, List.not_mem_nil, or_false, Option.some.injEq]
    exact two_iff a b c d id
  | OpBitwiseAnd op =>
    obtain ⟨⟨a⟩, ⟨b⟩, ⟨c⟩, ⟨d⟩⟩ := op
    simp only [codeInst, renameInst, valuesRead, otherIds, resultId, ren, Core.OpBitwiseAnd.injEq, OpBitwiseAnd.mk.injEq,
      OpId.mk.injEq, ResultId.mk.injEq, forall_and, swap_iff, List.mem_cons, List.not_mem_nil, or_false, Option.some.injEq]
    exact two_iff a b c d id
  | OpIEqual op =>
    obtain ⟨⟨a⟩, ⟨b⟩, ⟨c⟩, ⟨d⟩⟩ := op
    simp only [codeInst, renameInst, valuesRead, otherIds, resultId, ren, Core.OpIEqual.injEq, OpIEqual.mk.injEq,
      OpId.mk.injEq, ResultId.mk.injEq, forall_and, swap_iff, List.mem_cons, List.not_mem_nil, or_false, Option.some.injEq]
    exact two_iff a b c d id
  | OpINotEqual op =>
    obtain ⟨⟨a⟩, ⟨b⟩, ⟨c⟩, ⟨d⟩⟩ := op
    simp only [codeInst, renameInst, valuesRead, otherIds, resultId, ren, Core.OpINotEqual.injEq, OpINotEqual.mk.injEq,
      OpId.mk.injEq, ResultId.mk.injEq, forall_and, swap_iff, List.mem_cons, List.not_mem_nil, or_false, Option.some.injEq]
    exact two_iff a b c d id
  | OpUGreaterThan op =>
    obtain ⟨⟨a⟩, ⟨b⟩, ⟨c⟩, ⟨d⟩⟩ := op
    simp only [codeInst, renameInst, valuesRead, otherIds, resultId, ren, Core.OpUGreaterThan.injEq, OpUGreaterThan.mk.injEq,
      OpId.mk.injEq, ResultId.mk.injEq, forall_and, swap_iff, List.mem_cons, List.not_mem_nil, or_false, Option.some.injEq]
    exact two_iff a b c d id
  | OpSGreaterThan op =>
    obtain ⟨⟨a⟩, ⟨b⟩, ⟨c⟩, ⟨d⟩⟩ := op
    simp only [codeInst, renameInst, valuesRead, otherIds, resultId, ren, Core.OpSGreaterThan.injEq, OpSGreaterThan.mk.injEq,
      OpId.mk.injEq, ResultId.mk.injEq, forall_and, swap_iff, List.mem_cons, List.not_mem_nil, or_false, Option.some.injEq]
    exact two_iff a b c d id
  | OpUGreaterThanEqual op =>
    obtain ⟨⟨a⟩, ⟨b⟩, ⟨c⟩, ⟨d⟩⟩ := op
    simp only [codeInst, renameInst, valuesRead, otherIds, resultId, ren, Core.OpUGreaterThanEqual.injEq, OpUGreaterThanEqual.mk.injEq,
      OpId.mk.injEq, ResultId.mk.injEq, forall_and, swap_iff, List.mem_cons, List.not_mem_nil, or_false, Option.some.injEq]
    exact two_iff a b c d id
  | OpSGreaterThanEqual op =>
    obtain ⟨⟨a⟩, ⟨b⟩, ⟨c⟩, ⟨d⟩⟩ := op
    simp only [codeInst, renameInst, valuesRead, otherIds, resultId, ren, Core.OpSGreaterThanEqual.injEq, OpSGreaterThanEqual.mk.injEq,
      OpId.mk.injEq, ResultId.mk.injEq, forall_and, swap_iff, List.mem_cons, List.not_mem_nil, or_false, Option.some.injEq]
    exact two_iff a b c d id
  | OpULessThan op =>
    obtain ⟨⟨a⟩, ⟨b⟩, ⟨c⟩, ⟨d⟩⟩ := op
    simp only [codeInst, renameInst, valuesRead, otherIds, resultId, ren, Core.OpULessThan.injEq, OpULessThan.mk.injEq,
      OpId.mk.injEq, ResultId.mk.injEq, forall_and, swap_iff, List.mem_cons, List.not_mem_nil, or_false, Option.some.injEq]
    exact two_iff a b c d id
  | OpSLessThan op =>
    obtain ⟨⟨a⟩, ⟨b⟩, ⟨c⟩, ⟨d⟩⟩ := op
    simp only [codeInst, renameInst, valuesRead, otherIds, resultId, ren, Core.OpSLessThan.injEq, OpSLessThan.mk.injEq,
      OpId.mk.injEq, ResultId.mk.injEq, forall_and, swap_iff, List.mem_cons, List.not_mem_nil, or_false, Option.some.injEq]
    exact two_iff a b c d id
  | OpULessThanEqual op =>
    obtain ⟨⟨a⟩, ⟨b⟩, ⟨c⟩, ⟨d⟩⟩ := op
    simp only [codeInst, renameInst, valuesRead, otherIds, resultId, ren, Core.OpULessThanEqual.injEq, OpULessThanEqual.mk.injEq,
      OpId.mk.injEq, ResultId.mk.injEq, forall_and, swap_iff, List.mem_cons, List.not_mem_nil, or_false, Option.some.injEq]
    exact two_iff a b c d id
  | OpSLessThanEqual op =>
    obtain ⟨⟨a⟩, ⟨b⟩, ⟨c⟩, ⟨d⟩⟩ := op
    simp only [codeInst, renameInst, valuesRead, otherIds, resultId, ren, Core.OpSLessThanEqual.injEq, OpSLessThanEqual.mk.injEq,
      OpId.mk.injEq, ResultId.mk.injEq, forall_and, swap_iff, List.mem_cons, List.not_mem_nil, or_false, Option.some.injEq]
    exact two_iff a b c d id
  | OpFOrdEqual op =>
    obtain ⟨⟨a⟩, ⟨b⟩, ⟨c⟩, ⟨d⟩⟩ := op
    simp only [codeInst, renameInst, valuesRead, otherIds, resultId, ren, Core.OpFOrdEqual.injEq, OpFOrdEqual.mk.injEq,
      OpId.mk.injEq, ResultId.mk.injEq, forall_and, swap_iff, List.mem_cons, List.not_mem_nil, or_false, Option.some.injEq]
    exact two_iff a b c d id
  | OpFUnordEqual op =>
    obtain ⟨⟨a⟩, ⟨b⟩, ⟨c⟩, ⟨d⟩⟩ := op
    simp only [codeInst, renameInst, valuesRead, otherIds, resultId, ren, Core.OpFUnordEqual.injEq, OpFUnordEqual.mk.injEq,
      OpId.mk.injEq, ResultId.mk.injEq, forall_and, swap_iff, List.mem_cons, List.not_mem_nil, or_false, Option.some.injEq]
    exact two_iff a b c d id
  | OpFOrdNotEqual op =>
    obtain ⟨⟨a⟩, ⟨b⟩, ⟨c⟩, ⟨d⟩⟩ := op
    simp only [codeInst, renameInst, valuesRead, otherIds, resultId, ren, Core.OpFOrdNotEqual.injEq, OpFOrdNotEqual.mk.injEq,
      OpId.mk.injEq, ResultId.mk.injEq, forall_and, swap_iff, List.mem_cons, List.not_mem_nil, or_false, Option.some.injEq]
    exact two_iff a b c d id
  | OpFUnordNotEqual op =>
    obtain ⟨⟨a⟩, ⟨b⟩, ⟨c⟩, ⟨d⟩⟩ := op
    simp only [codeInst, renameInst, valuesRead, otherIds, resultId, ren, Core.OpFUnordNotEqual.injEq, OpFUnordNotEqual.mk.injEq,
      OpId.mk.injEq, ResultId.mk.injEq, forall_and, swap_iff, List.mem_cons, List.not_mem_nil, or_false, Option.some.injEq]
    exact two_iff a b c d id
  | OpFOrdLessThan op =>
    obtain ⟨⟨a⟩, ⟨b⟩, ⟨c⟩, ⟨d⟩⟩ := op
    simp only [codeInst, renameInst, valuesRead, otherIds, resultId, ren, Core.OpFOrdLessThan.injEq, OpFOrdLessThan.mk.injEq,
      OpId.mk.injEq, ResultId.mk.injEq, forall_and, swap_iff, List.mem_cons, List.not_mem_nil, or_false, Option.some.injEq]
    exact two_iff a b c d id
  | OpFUnordLessThan op =>
    obtain ⟨⟨a⟩, ⟨b⟩, ⟨c⟩, ⟨d⟩⟩ := op
    simp only [codeInst, renameInst, valuesRead, otherIds, resultId, ren, Core.OpFUnordLessThan.injEq, OpFUnordLessThan.mk.injEq,
      OpId.mk.injEq, ResultId.mk.injEq, forall_and, swap_iff, List.mem_cons, List.not_mem_nil, or_false, Option.some.injEq]
    exact two_iff a b c d id
  | OpFOrdGreaterThan op =>
    obtain ⟨⟨a⟩, ⟨b⟩, ⟨c⟩, ⟨d⟩⟩ := op
    simp only [codeInst, renameInst, valuesRead, otherIds, resultId, ren, Core.OpFOrdGreaterThan.injEq, OpFOrdGreaterThan.mk.injEq,
      OpId.mk.injEq, ResultId.mk.injEq, forall_and, swap_iff, List.mem_cons, List.not_mem_nil, or_false, Option.some.injEq]
    exact two_iff a b c d id
  | OpFUnordGreaterThan op =>
    obtain ⟨⟨a⟩, ⟨b⟩, ⟨c⟩, ⟨d⟩⟩ := op
    simp only [codeInst, renameInst, valuesRead, otherIds, resultId, ren, Core.OpFUnordGreaterThan.injEq, OpFUnordGreaterThan.mk.injEq,
      OpId.mk.injEq, ResultId.mk.injEq, forall_and, swap_iff, List.mem_cons, List.not_mem_nil, or_false, Option.some.injEq]
    exact two_iff a b c d id
  | OpFOrdLessThanEqual op =>
    obtain ⟨⟨a⟩, ⟨b⟩, ⟨c⟩, ⟨d⟩⟩ := op
    simp only [codeInst, renameInst, valuesRead, otherIds, resultId, ren, Core.OpFOrdLessThanEqual.injEq, OpFOrdLessThanEqual.mk.injEq,
      OpId.mk.injEq, ResultId.mk.injEq, forall_and, swap_iff, List.mem_cons, List.not_mem_nil, or_false, Option.some.injEq]
    exact two_iff a b c d id
  | OpFUnordLessThanEqual op =>
    obtain ⟨⟨a⟩, ⟨b⟩, ⟨c⟩, ⟨d⟩⟩ := op
    simp only [codeInst, renameInst, valuesRead, otherIds, resultId, ren, Core.OpFUnordLessThanEqual.injEq, OpFUnordLessThanEqual.mk.injEq,
      OpId.mk.injEq, ResultId.mk.injEq, forall_and, swap_iff, List.mem_cons, List.not_mem_nil, or_false, Option.some.injEq]
    exact two_iff a b c d id
  | OpFOrdGreaterThanEqual op =>
    obtain ⟨⟨a⟩, ⟨b⟩, ⟨c⟩, ⟨d⟩⟩ := op
    simp only [codeInst, renameInst, valuesRead, otherIds, resultId, ren, Core.OpFOrdGreaterThanEqual.injEq, OpFOrdGreaterThanEqual.mk.injEq,
      OpId.mk.injEq, ResultId.mk.injEq, forall_and, swap_iff, List.mem_cons, List.not_mem_nil, or_false, Option.some.injEq]
    exact two_iff a b c d id
  | OpFUnordGreaterThanEqual op =>
    obtain ⟨⟨a⟩, ⟨b⟩, ⟨c⟩, ⟨d⟩⟩ := op
    simp only [codeInst, renameInst, valuesRead, otherIds, resultId, ren, Core.OpFUnordGreaterThanEqual.injEq, OpFUnordGreaterThanEqual.mk.injEq,
      OpId.mk.injEq, ResultId.mk.injEq, forall_and, swap_iff, List.mem_cons, List.not_mem_nil, or_false, Option.some.injEq]
    exact two_iff a b c d id

/-- C115: a machine that computes values reads and writes as said, whatever the values are. -/
theorem C115_right (D : Denotation W) : valueAccess.Right D.machine := by
  refine ⟨fun last i st v hv => ?_, fun last i st st' hr v hv => ?_, fun cond st st' hr => ?_⟩
  · simp only [valueAccess, List.mem_append, not_or] at hv
    cases v with
    | none =>
      have : stores i = false := by
        cases hs : stores i
        · rfl
        · exact absurd (by simp [hs]) hv.2
      simp [Denotation.machine, this]
    | some id =>
      have : resultId (codeInst i) ≠ some id := fun e => hv.1 (by simp [e])
      simp [Denotation.machine, this]
  · have ho : ((valuesRead i).map fun o => st (some o)) = (valuesRead i).map fun o => st' (some o) :=
      List.map_congr_left fun o ho => hr (some o) (by simp [valueAccess, ho])
    have hm : loads i = true → st none = st' none := fun h => hr none (by simp [valueAccess, h])
    cases v with
    | none =>
      have hs : stores i = true := by
        by_contra hs
        simp [valueAccess, hs] at hv
      have hl : loads i = true := by cases i <;> first | rfl | cases hs
      simp only [Denotation.machine, hs, if_true, ho, hm hl]
    | some id =>
      have hi : resultId (codeInst i) = some id := by
        simpa [valueAccess] using hv
      simp only [Denotation.machine, hi, if_true, ho]
      cases hl : loads i
      · rfl
      · rw [hm hl]
  · simp only [Denotation.machine, hr (some cond.val) (by simp [valueAccess])]

/-- C115: so for every meaning of the instructions, the blocks visited, the outcome, and the memory a function leaves when it
returns are the same without the instructions whose results do not come to memory. -/
theorem C115_memory {f : FunctionDefinition Glsl.Inst} {fuel : Nat} {chain : ControlFlowChain}
    (h : findControlFlow fuel f = .ok chain) {first : BasicBlock Glsl.Inst} {more : List (BasicBlock Glsl.Inst)}
    (hb : f.blocks = first :: more) (D : Denotation W) (n : Nat) (c : Config (Option UInt32 → W)) :
    findControlFlow fuel { f with blocks := memoryPruned chain f.blocks } = .ok chain ∧
    (runMachine D.machine f.blocks n ⟨labelId first⟩ c).1 =
      (runMachine D.machine (memoryPruned chain f.blocks) n ⟨labelId first⟩ c).1 ∧
    (runMachine D.machine f.blocks n ⟨labelId first⟩ c).2.2 =
      (runMachine D.machine (memoryPruned chain f.blocks) n ⟨labelId first⟩ c).2.2 ∧
    ((runMachine D.machine f.blocks n ⟨labelId first⟩ c).2.2 = .returned →
      (runMachine D.machine f.blocks n ⟨labelId first⟩ c).2.1.state none =
        (runMachine D.machine (memoryPruned chain f.blocks) n ⟨labelId first⟩ c).2.1.state none) := by
  obtain ⟨h1, h2, h3⟩ := C114_dead h hb (C115_right D) (· == none) (fun _ => false) (fun _ => false) n c
  exact ⟨(C114_same _ _ f fuel).trans h, h1, h2, fun hr => h3 hr none rfl⟩

/-! ### Examples -/

/-- Code that loads 5, adds to it, and stores the sum, and has a sine and a product nobody asks for -/
def storing : FunctionDefinition Glsl.Inst where
  function := ⟨⟨2⟩, ⟨12⟩, ⟨false, false, false, false⟩, ⟨3⟩⟩
  parameters := []
  blocks := [{ label := ⟨⟨10⟩⟩, merge := none, branch := .OpReturn {}
               code := [.OpLoad ⟨⟨2⟩, ⟨6⟩, ⟨5⟩, none⟩, .OpIMul ⟨⟨2⟩, ⟨9⟩, ⟨6⟩, ⟨6⟩⟩, .OpIAdd ⟨⟨2⟩, ⟨7⟩, ⟨6⟩, ⟨3⟩⟩,
                 .OpStore ⟨⟨5⟩, ⟨7⟩, none⟩, .OpExtInst ⟨⟨2⟩, ⟨8⟩, ⟨1⟩, .Sin ⟨⟨7⟩⟩⟩] }]

theorem storing_found : findControlFlow 9 storing = .ok (.Atom ⟨10⟩) := by rfl

/-- The load, the sum and the store are left. -/
example : (memoryPruned (.Atom ⟨10⟩) storing.blocks).map (·.code) =
    [[.OpLoad ⟨⟨2⟩, ⟨6⟩, ⟨5⟩, none⟩, .OpIAdd ⟨⟨2⟩, ⟨7⟩, ⟨6⟩, ⟨3⟩⟩, .OpStore ⟨⟨5⟩, ⟨7⟩, none⟩]] := by rfl

/-- Sums of numbers; memory is a number, which is what was stored last. -/
def summing : Denotation Nat where
  value _ _ args mem := args.sum + mem.getD 0
  memory _ _ args mem := args.getLastD mem
  truth n := n != 0

/-- From where memory has 40 and 3 has 2, the number of the load being that of pointer 5, which is 0, and memory -/
example : (runMachine summing.machine storing.blocks 3 ⟨10⟩ ⟨none, fun | none => 40 | some 3 => 2 | _ => 0⟩).2.1.state none = 42 ∧
    (runMachine summing.machine (memoryPruned (.Atom ⟨10⟩) storing.blocks) 3 ⟨10⟩
      ⟨none, fun | none => 40 | some 3 => 2 | _ => 0⟩).2.1.state none = 42 := by exact ⟨rfl, rfl⟩
/-- The same for every meaning and every start -/
example (D : Denotation W) (c : Config (Option UInt32 → W)) :
    (runMachine D.machine storing.blocks 3 ⟨10⟩ c).2.1.state none =
      (runMachine D.machine (memoryPruned (.Atom ⟨10⟩) storing.blocks) 3 ⟨10⟩ c).2.1.state none :=
  (C115_memory storing_found rfl D 3 c).2.2.2 rfl
/-- The ids in a store: a pointer and a value are read, there is no result. -/
example : Mentions 7 (codeInst (.OpStore ⟨⟨5⟩, ⟨7⟩, none⟩ : GroupCode Glsl.Inst)) :=
  (C115_mentions _ _).mpr (.inl (by decide))
example : ¬ Mentions 8 (codeInst (.OpStore ⟨⟨5⟩, ⟨7⟩, none⟩ : GroupCode Glsl.Inst)) := by
  rw [C115_mentions]
  decide

end Magma.Props
