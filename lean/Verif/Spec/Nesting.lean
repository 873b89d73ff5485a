import Verif.Spec.SearchDepth
/-! How deep the constructs of the control flow of a function can be nested, in terms of numbers that can be
read off the function. -/

namespace Magma.Spec

/-- The nesting of the control flow of a function, if `n` of its blocks start a construct. All others but one may be
conditional exits; with a single construct they are inside it once, with more they can be inside two loops. -/
def nestedMost (blocks n : Nat) : Nat :=
  if n = 0 then 0 else if n = 1 then blocks - 1 else 2 * (blocks - 1) - n

end Magma.Spec
