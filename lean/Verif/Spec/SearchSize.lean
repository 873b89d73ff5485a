import Verif.Spec.SearchDepth
/-! How large recovered control flow can be and how long its recovery can take, in terms of numbers that are
read off a function. -/

namespace Magma.Spec

/-- The mentions of blocks in the control flow of a function, if `n` of its blocks start a construct: each of
these at most doubles them. -/
def largest (blocks n : Nat) : Nat := (blocks - n) * 2 ^ n

/-- The calls that recover it: two bodies of a construct take one call more each. -/
def longest (blocks n : Nat) : Nat := (blocks - n + 2) * 2 ^ n - 2

end Magma.Spec
