import Verif.Proofs.ReaderErrors
import Verif.Model.Glsl
/-! Lemmas: the GLSL.std.450 instruction set. -/

namespace Magma.Glsl
open Spec

theorem readInst_cases (n : UInt32) (ws : List UInt32) :
    (n = 13 ∧ readInst n ws = readSin ws) ∨ (n = 14 ∧ readInst n ws = readCos ws) ∨
    (n ≠ 13 ∧ n ≠ 14 ∧ readInst n ws = fail (.UnknownExtInstOp setName n)) := by
  unfold readInst
  by_cases h1 : n = 13
  · left; simp [h1]
  · by_cases h2 : n = 14
    · right; left; simp [h2]
    · right; right; simp [h1, h2]

theorem readSin_ok {ws rest : List UInt32} {x : Inst} :
    readSin ws = .ok (rest, x) ↔ ∃ w, ws = w :: rest ∧ x = .Sin ⟨⟨w⟩⟩ := by
  simp only [readSin, Block.readOpId, bind_ok, Prod.exists, readWord_ok, pure_ok, Prod.mk.injEq]
  constructor
  · rintro ⟨_, _, ⟨_, _, rfl, rfl, rfl⟩, rfl, rfl⟩; exact ⟨_, rfl, rfl⟩
  · rintro ⟨w, rfl, rfl⟩; exact ⟨_, _, ⟨_, _, rfl, rfl, rfl⟩, rfl, rfl⟩

theorem readCos_ok {ws rest : List UInt32} {x : Inst} :
    readCos ws = .ok (rest, x) ↔ ∃ w, ws = w :: rest ∧ x = .Cos ⟨⟨w⟩⟩ := by
  simp only [readCos, Block.readOpId, bind_ok, Prod.exists, readWord_ok, pure_ok, Prod.mk.injEq]
  constructor
  · rintro ⟨_, _, ⟨_, _, rfl, rfl, rfl⟩, rfl, rfl⟩; exact ⟨_, rfl, rfl⟩
  · rintro ⟨w, rfl, rfl⟩; exact ⟨_, _, ⟨_, _, rfl, rfl, rfl⟩, rfl, rfl⟩

theorem readInst_ok {n : UInt32} {ws rest : List UInt32} {x : Inst} :
    readInst n ws = .ok (rest, x) ↔ ∃ w, ws = w :: rest ∧
      (n = 13 ∧ x = .Sin ⟨⟨w⟩⟩ ∨ n = 14 ∧ x = .Cos ⟨⟨w⟩⟩) := by
  rcases readInst_cases n ws with ⟨rfl, h⟩ | ⟨rfl, h⟩ | ⟨h1, h2, h⟩
  · rw [h, readSin_ok]; simp
  · rw [h, readCos_ok]; simp
  · rw [h]; simp [h1, h2]

theorem readInst_safe (n : UInt32) (ws : List UInt32) : Safe (readInst n ws) := by
  rcases readInst_cases n ws with ⟨rfl, h⟩ | ⟨rfl, h⟩ | ⟨h1, h2, h⟩
  · rw [h]
    exact Safe.bind (Safe.bind (readWord_safe _) fun _ _ => .pure _) fun _ _ => .pure _
  · rw [h]
    exact Safe.bind (Safe.bind (readWord_safe _) fun _ _ => .pure _) fun _ _ => .pure _
  · rw [h]; exact .fail _

theorem readInst_inner (n : UInt32) (ws : List UInt32) : Inner (readInst n ws) := by
  rcases readInst_cases n ws with ⟨rfl, h⟩ | ⟨rfl, h⟩ | ⟨h1, h2, h⟩
  · rw [h]
    exact Inner.bind (Inner.bind (readWord_inner _) fun _ => .pure _) fun _ => .pure _
  · rw [h]
    exact Inner.bind (Inner.bind (readWord_inner _) fun _ => .pure _) fun _ => .pure _
  · rw [h]; exact .fail rfl

end Magma.Glsl
