import Verif.Spec.SearchDepth
/-! How deep printing the control flow of a function can recurse, in terms of numbers that can be read off the
function. -/

namespace Magma.Spec

/-- The levels of the control flow of a function, if `n` of its blocks start a construct: without constructs, a list
and its atoms; with a single one, a level for every block but two, which are the construct, its list and an atom; with
more, two levels for every block but the last. -/
def levelsMost (blocks n : Nat) : Nat :=
  if n = 0 then min blocks 2 else if n = 1 then blocks + 1 else 2 * blocks - 1

end Magma.Spec
