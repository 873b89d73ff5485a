import Verif.Spec.Execution
import Mathlib.Computability.RegularExpressions
/-! The executions of a structured program as a regular expression over its blocks. -/

namespace Magma.Spec
open RegularExpression

mutual
/-- The blocks visited by executions of a structured program that end in the way given, or are cut off
(`running`), as a regular expression -/
def ways : ControlFlowChain → Signal → RegularExpression BlockId
  | .Atom id, .next => char id
  | .Atom _, .running => 1
  | .Atom _, _ => 0
  | .Block chains, s => waysAll chains s
  | .Selection id left right _ _, .running => 1 + char id * (ways left .running + ways right .running)
  | .Selection id left right _ _, s => char id * (ways left s + ways right s)
  | .Loop id inner _ _, .next =>
    star (char id * (ways inner .next + ways inner .continues)) * (char id * ways inner .breaks)
  | .Loop id inner _ _, .running =>
    star (char id * (ways inner .next + ways inner .continues)) * (1 + char id * ways inner .running)
  | .Loop _ _ _ _, _ => 0
  | .Break, .breaks => 1
  | .Break, _ => 0
  | .Continue, .continues => 1
  | .Continue, _ => 0
/-- The same for structured programs one after the other -/
def waysAll : List ControlFlowChain → Signal → RegularExpression BlockId
  | [], .next => 1
  | [], _ => 0
  | chain :: chains, .next => ways chain .next * waysAll chains .next
  | chain :: chains, s => ways chain s + ways chain .next * waysAll chains s
end

end Magma.Spec
