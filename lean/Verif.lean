import Verif.Model.Printer
import Verif.Model.Parser
import Verif.Model.Glsl
import Verif.Props.Reader
import Verif.Props.Instructions
import Verif.Props.Header
import Verif.Props.Operands
import Verif.Props.Validate
import Verif.Props.ControlFlow
import Verif.Props.Disassembly
import Verif.Props.Joined
import Verif.Props.Printing
import Verif.Props.ExtInst
import Verif.Props.EndToEnd
import Verif.Props.Chains
import Verif.Props.Names
import Verif.Props.Errors
import Verif.Props.Rename
import Verif.Props.Concat
import Verif.Props.ErrorKinds
import Verif.Props.Places
import Verif.Props.Outline
import Verif.Props.Expressible
import Verif.Props.Dominance
import Verif.Props.Automaton
import Verif.Props.Glsl
import Verif.Props.FunctionText
import Verif.Props.FirstError
import Verif.Props.InOrder
import Verif.Props.Ids
import Verif.Props.Reference
import Verif.Props.Listing
import Verif.Props.FlowText
import Verif.Props.StackDepth
import Verif.Props.SearchCost
import Verif.Props.PrintCost
import Verif.Props.ReadCost
import Verif.Props.Assignment
import Verif.Props.TextSize
import Verif.Props.Writing
import Verif.Props.Indentation
import Verif.Props.SearchDepth
import Verif.Props.SearchSize
import Verif.Props.Nesting
import Verif.Props.PrintDepth
import Verif.Props.Slack
import Verif.Props.Forgets
import Verif.Props.ForgetsText
import Verif.Props.Utf8
import Verif.Props.Split
import Verif.Props.Sequence
import Verif.Props.Insert
import Verif.Props.Standard
import Verif.Props.StandardLayout
import Verif.Props.StandardFlow
import Verif.Props.Exchange
import Verif.Props.Dominators
import Verif.Props.Meaning
import Verif.Props.WordMeaning
import Verif.Props.Strip
import Verif.Props.Canonical
import Verif.Props.FromBinary
import Verif.Props.NaturalLoops
import Verif.Props.Excerpt
import Verif.Props.Replace
import Verif.Props.Hoare
import Verif.Props.Copies
import Verif.Props.Regular
import Verif.Props.Cost
import Verif.Props.TextMeaning
import Verif.Props.Monitor
import Verif.Props.Edit
import Verif.Props.Unfold
import Verif.Props.Debug
import Verif.Props.Odds
import Verif.Props.Census
import Verif.Props.LoopBound
import Verif.Props.Dataflow
import Verif.Props.Liveness
import Verif.Props.DeadCode
import Verif.Props.Values
import Verif.Props.Scope
import Verif.Props.Optimise
import Verif.Props.Arrange
import Verif.Props.Uniform
import Verif.Props.Shared
import Verif.Props.Simt
import Verif.Props.Phi
import Verif.Props.Unread
import Verif.Props.Settle
import Verif.Props.Proved
import Verif.Props.Own
import Verif.Props.Leave
import Verif.Props.Keep
import Verif.Props.OneTarget
import Verif.Conformance
