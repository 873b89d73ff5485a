import Verif.Spec.Outline
/-! Functions as sequences of instructions. -/

namespace Magma.Spec
variable {X : Type}

/-- The instructions of one function: they start with `OpFunction` and go on up to the next `OpFunctionEnd`. -/
def IsFunction (f : List (Core X)) : Prop :=
  ∃ op body, f = .OpFunction op :: (body ++ [.OpFunctionEnd {}]) ∧
    ∀ c ∈ body, role c ≠ .function ∧ role c ≠ .functionEnd

/-- The functions of a module in order. A declaration is a function without blocks. -/
def functionsOf (m : LogicalModule X) : List (FunctionDefinition X) :=
  m.function_declarations.map (fun d => ⟨d.function, d.parameters, []⟩) ++ m.function_definitions

end Magma.Spec
