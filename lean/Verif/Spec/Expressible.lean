import Verif.Spec.Structured
/-! Which structured programs make sense. -/

namespace Magma.Spec.Program

/-- Nothing is left. -/
def finished : Program → Bool
  | done => true
  | _ => false

/-- `more`: control goes on somewhere after the program, so it does not return; otherwise it has to return.
`tail`: after the program the innermost loop starts its next round. Only there blocks may leave the loop or
start the next round early. -/
def WellFormed (tail more : Bool) : Program → Prop
  | done => more = true
  | ret _ => more = false
  | atom _ rest => WellFormed tail more rest
  | sel _ left right _ _ rest =>
    WellFormed (tail && rest.finished) true left ∧ WellFormed (tail && rest.finished) true right ∧
    WellFormed tail more rest
  | loop _ body _ rest => WellFormed true true body ∧ WellFormed tail more rest
  | exit _ _ _ rest => tail = true ∧ WellFormed tail more rest

end Magma.Spec.Program
