import Verif.Props.ActionText
import Verif.Props.Actions
import Verif.Props.ApplyAll
import Verif.Props.Arguments
import Verif.Props.Calls
import Verif.Props.CallsFactorial
import Verif.Props.CallsLess
import Verif.Props.CallsMore
import Verif.Props.CandidateText
import Verif.Props.Clues
import Verif.Props.Codec
import Verif.Props.Compare
import Verif.Props.Complement
import Verif.Props.Complete
import Verif.Props.DecodeArgs
import Verif.Props.Deterministic
import Verif.Props.Divisible
import Verif.Props.ErrorText
import Verif.Props.ExactCover
import Verif.Props.FewClues
import Verif.Props.FirstSolutions
import Verif.Props.Game
import Verif.Props.GameCommands
import Verif.Props.GameRun
import Verif.Props.Generate
import Verif.Props.GenerateArgs
import Verif.Props.GenerateCalls
import Verif.Props.Generators
import Verif.Props.Geometry
import Verif.Props.Help
import Verif.Props.HintOrder
import Verif.Props.IntBlanks
import Verif.Props.IntCoordinates
import Verif.Props.IntSizes
import Verif.Props.Interrupt
import Verif.Props.Lazy
import Verif.Props.Limits
import Verif.Props.Literals
import Verif.Props.Main
import Verif.Props.Messages
import Verif.Props.MoreClues
import Verif.Props.Needed
import Verif.Props.NewArgs
import Verif.Props.NewGame
import Verif.Props.NormalText
import Verif.Props.Notation
import Verif.Props.NotationLanguage
import Verif.Props.OddCopy
import Verif.Props.Rate
import Verif.Props.RateScore
import Verif.Props.Reach
import Verif.Props.Redraw
import Verif.Props.ScoreBound
import Verif.Props.ScoreMonotone
import Verif.Props.Scripts
import Verif.Props.SeparatedText
import Verif.Props.Shell
import Verif.Props.ShellCandidates
import Verif.Props.ShellErrors
import Verif.Props.ShellLib
import Verif.Props.ShellRun
import Verif.Props.ShellValues
import Verif.Props.Solve
import Verif.Props.Solvers
import Verif.Props.StepObjects
import Verif.Props.StepText
import Verif.Props.Store
import Verif.Props.Thin
import Verif.Props.Unavoidable
import Verif.Props.UniqueCalls
import Verif.Props.UnitOrder
import Verif.Props.Unsolvable
import Verif.Props.Upstream
import Verif.Props.View
import Verif.Props.ViewFaithful
import Verif.Props.Winning
import Verif.Audit
