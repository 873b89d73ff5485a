import Verif.Spec.Writing
import Verif.Model.WritePrinter
/-! Lemmas: the printers that write piece by piece make the text of those that build it. -/

namespace Magma
open Spec
variable {σ : Type}

theorem handOver_append (w : Writer σ) (a b : List Text) : ∀ s, handOver w (a ++ b) s =
    match handOver w a s with
    | (true, s) => handOver w b s
    | (false, s) => (false, s) := by
  induction a with
  | nil => intro s; rfl
  | cons t a ih =>
    intro s
    rw [List.cons_append, handOver, handOver]
    cases h : w t s with
    | mk ok s' =>
      cases ok with
      | true => exact ih s'
      | false => rfl

/-- With these options the printer hands over pieces of this text, and ends well. -/
def Writes (o : Options) (p : PutM σ Unit) (t : Text) : Prop :=
  ∃ pieces : List Text, pieces.flatten = t ∧ ∀ w s, p w o s = ended (.ok ()) (handOver w pieces s)

theorem Writes.congr {o : Options} {p : PutM σ Unit} {t u : Text} (h : Writes o p t) (e : t = u) : Writes o p u :=
  e ▸ h

theorem Writes.bind {o : Options} {p q : PutM σ Unit} {t u : Text} (hp : Writes o p t) (hq : Writes o q u) :
    Writes o (p >>= fun _ => q) (t ++ u) := by
  obtain ⟨a, rfl, ha⟩ := hp
  obtain ⟨b, rfl, hb⟩ := hq
  refine ⟨a ++ b, List.flatten_append, fun w s => ?_⟩
  rw [handOver_append]
  show PutM.next p (fun _ => q) w o s = _
  rw [PutM.next, ha]
  cases h : handOver w a s with
  | mk ok s' =>
    cases ok with
    | true => exact hb w s'
    | false => rfl

theorem Writes.done (o : Options) : Writes o (pure () : PutM σ Unit) [] := ⟨[], rfl, fun _ _ => rfl⟩

theorem Writes.last {o : Options} {p : PutM σ Unit} {t : Text} (hp : Writes o p t) :
    Writes o (p >>= fun _ => pure ()) t :=
  (hp.bind (.done o)).congr (List.append_nil t)

theorem Writes.str (o : Options) (t : Text) : Writes o (writeStr t : PutM σ Unit) t := by
  refine ⟨[t], by simp, fun w s => ?_⟩
  rw [writeStr, handOver]
  cases h : w t s with
  | mk ok s' => cases ok <;> rfl

theorem Writes.lit (o : Options) (t : String) : Writes o (lit t : PutM σ Unit) t.toList := .str o _

theorem Writes.arg {o o' : Options} {p : PutM σ Unit} {t : Text} (h : Writes o' p t) : Writes o (arg p o') t := by
  obtain ⟨a, e, h⟩ := h
  exact ⟨a, e, fun w s => h w s⟩

theorem Writes.fill (o : Options) (n : Nat) : Writes o (writeFill n : PutM σ Unit) (List.replicate n o.fill) := by
  induction n with
  | zero => exact .done o
  | succ n ih =>
    have h1 : Writes o (fun w o s => writeStr [o.fill] w o s : PutM σ Unit) [o.fill] := by
      obtain ⟨a, e, h⟩ := Writes.str (σ := σ) o [o.fill]
      exact ⟨a, e, h⟩
    exact h1.bind ih

theorem Writes.pad {o : Options} (hp : o.precision = none) (hw : o.width = none) (t : Text) :
    Writes o (pad t : PutM σ Unit) t := by
  obtain ⟨a, e, h⟩ := Writes.str (σ := σ) o t
  refine ⟨a, e, fun w s => ?_⟩
  rw [Magma.pad]
  simp only [hp, hw]
  exact h w s

theorem Writes.integral {o : Options} (hp : o.plus = false) (hw : o.width = none) (t : Text) :
    Writes o (padIntegral t : PutM σ Unit) t := by
  have hs : Writes o (putSign : PutM σ Unit) [] := ⟨[], rfl, fun w s => by rw [putSign, hp]; rfl⟩
  obtain ⟨a, e, h⟩ := hs.bind (Writes.str (σ := σ) o t)
  refine ⟨a, e, fun w s => ?_⟩
  rw [padIntegral]
  simp only [hw]
  exact h w s

/-- Printed as it should be, without options -/
class LawfulTo (σ α : Type) [Display α] [DisplayTo σ α] : Prop where
  writes : ∀ x : α, Writes {} (fmtTo x : PutM σ Unit) (Display.fmt x)

/-- Printed as it should be, with any options -/
class StubbornTo (σ α : Type) [Display α] [DisplayTo σ α] : Prop where
  writes : ∀ (o : Options) (x : α), Writes o (fmtTo x : PutM σ Unit) (Display.fmt x)

instance {α : Type} [Display α] [DisplayTo σ α] [h : StubbornTo σ α] : LawfulTo σ α := ⟨h.writes {}⟩

theorem Writes.shown {α : Type} [Display α] [DisplayTo σ α] [h : LawfulTo σ α] (o : Options) (x : α) :
    Writes o (Magma.arg (fmtTo x) : PutM σ Unit) (Display.fmt x) := .arg (h.writes x)

theorem Writes.padded (o : Options) (t : Text) : Writes o (Magma.arg (Magma.pad t) : PutM σ Unit) t := .arg (.pad rfl rfl t)

instance : LawfulTo σ UInt32 := ⟨fun _ => .integral rfl rfl _⟩
instance : LawfulTo σ UInt16 := ⟨fun _ => .integral rfl rfl _⟩
instance : LawfulTo σ UInt8 := ⟨fun _ => .integral rfl rfl _⟩
instance : LawfulTo σ String := ⟨fun _ => .pad rfl rfl _⟩
instance : LawfulTo σ OpId := ⟨fun _ => .pad rfl rfl _⟩

theorem Writes.padRight (n : Nat) (t : Text) :
    Writes { width := some n, align := some .right } (Magma.pad t : PutM σ Unit) (padLeft n t) := by
  by_cases hn : n ≤ t.length
  · obtain ⟨a, e, h⟩ := Writes.str (σ := σ) { width := some n, align := some .right } t
    refine ⟨a, ?_, fun w s => ?_⟩
    · rw [e, padLeft, Nat.sub_eq_zero_of_le hn]
      rfl
    · rw [Magma.pad]
      simp only [if_pos hn]
      exact h w s
  · obtain ⟨a, e, h⟩ := (Writes.fill (σ := σ) { width := some n, align := some .right } (n - t.length)).bind
      ((Writes.str _ t).bind (Writes.fill _ 0))
    refine ⟨a, ?_, fun w s => ?_⟩
    · rw [e, padLeft]
      simp
    · rw [Magma.pad]
      simp only [if_neg hn, padding]
      exact h w s

theorem Writes.result (o : Options) (r : ResultId) :
    Writes o (Magma.arg (putResult r) : PutM σ Unit) (fmtResult r) :=
  .arg (.bind (.arg (.padRight 12 _)) (.lit _ _))

theorem Writes.noResult (o : Options) : Writes o (Magma.arg putNoResult : PutM σ Unit) fmtNoResult := .arg (.lit _ _)

/-- Printed as it should be, as an operand -/
class LawfulArg (σ α : Type) [DisplayArg α] [DisplayArgTo σ α] : Prop where
  writes : ∀ x : α, Writes {} (DisplayArgTo.displayArgTo x : PutM σ Unit) (DisplayArg.displayArg x)

instance : LawfulArg σ String := ⟨fun s => ((Writes.lit _ _).bind ((Writes.shown _ _).bind (.lit _ _))).congr (by
  simp only [DisplayArg.displayArg, List.append_assoc]; rfl)⟩

instance {α : Type} [Display α] [DisplayTo σ α] [h : LawfulTo σ α] : LawfulArg σ α := ⟨h.writes⟩

/-- Printed as it should be, as one or more operands -/
class LawfulArgs (σ α : Type) [FormatArg α] [FormatArgTo σ α] : Prop where
  writes : ∀ x : α, Writes {} (formatArgTo x : PutM σ Unit) (FormatArg.formatArg x)

instance (priority := low) {α : Type} [DisplayArg α] [DisplayArgTo σ α] [h : LawfulArg σ α] : LawfulArgs σ α :=
  ⟨fun x => (Writes.lit _ _).bind (h.writes x)⟩

instance {α : Type} [DisplayArg α] [DisplayArgTo σ α] [h : LawfulArg σ α] : LawfulArgs σ (Option α) :=
  ⟨fun x => match x with
    | some x => (Writes.lit _ _).bind (h.writes x)
    | none => .done _⟩

instance {α : Type} [DisplayArg α] [DisplayArgTo σ α] [h : LawfulArg σ α] : LawfulArgs σ (List α) := ⟨fun xs => by
  induction xs with
  | nil => exact .done _
  | cons x xs ih =>
    refine ((Writes.lit _ _).bind ((h.writes x).bind ih)).congr ?_
    show _ = List.flatMap _ _
    rw [List.flatMap_cons, List.append_assoc]
    rfl⟩

namespace Glsl
instance : StubbornTo σ Sin := ⟨fun o s => (Writes.lit _ _).bind (.shown o _)⟩
instance : StubbornTo σ Cos := ⟨fun o s => (Writes.lit _ _).bind (.shown o _)⟩
instance : StubbornTo σ Inst := ⟨fun o i => match i with
  | .Sin op => StubbornTo.writes o op
  | .Cos op => StubbornTo.writes o op⟩
end Glsl

end Magma
