import Verif.Model.Glsl
/-! The words of GLSL.std.450 instructions, after the extended instruction set standard. -/

namespace Magma.Spec

/-- Number and operand words: Sin is 13, Cos is 14, each with one operand. -/
def glslWords : Glsl.Inst → UInt32 × List UInt32
  | .Sin op => (13, [op.x.val])
  | .Cos op => (14, [op.x.val])

end Magma.Spec
