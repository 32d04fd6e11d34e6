import Verif.Props.Moves
import Verif.Props.Geometry
import Verif.Props.PieceSet
import Verif.Props.Algs
import Verif.Props.Search
import Verif.Props.Stickers
import Verif.Props.Invariants
import Verif.Props.Heuristics
import Verif.Props.Detours
import Verif.Props.BigCubes
import Verif.Props.Mus
import Verif.Props.Parser
import Verif.Props.Orientable
import Verif.Model.Disk
import Verif.Spec.Disk
import Verif.Lemmas.Disk
import Verif.Props.Disk
import Verif.Props.DiskLoad
import Verif.Model.Shared
import Verif.Props.Shared
import Verif.Model.Playground
import Verif.Props.Playground
import Verif.Props.Named
import Verif.Props.Manhattan
import Verif.Props.ManhattanValues
import Verif.Spec.Reduction
import Verif.Props.Reduction
import Verif.Spec.Meaning
import Verif.Props.Meaning
import Verif.Spec.Reach
import Verif.Lemmas.Groups
import Verif.Lemmas.Reach
import Verif.Lemmas.ReachStates
import Verif.Props.Reach
import Verif.Props.Lower
import Verif.Model.Progress
import Verif.Props.Progress
import Verif.Spec.Surface
import Verif.Props.Surface
import Verif.Model.RandomAlg
import Verif.Props.RandomAlg
import Verif.Props.Depth
import Verif.Spec.LooksSolved
import Verif.Props.LooksSolved
import Verif.Model.Combined
import Verif.Model.Debug
import Verif.Props.Combined
import Verif.Props.Constructors
import Verif.Props.Convert
import Verif.Model.AnySize
import Verif.Props.AnySize
import Verif.Props.Effects
import Verif.Spec.FirstSolution
import Verif.Props.FirstSolution
import Verif.Model.Trace
import Verif.Props.TwoByTwo
import Verif.Props.Trace
import Verif.Spec.Indices
import Verif.Props.Indices
import Verif.Props.Cross
import Verif.Props.Changing
import Verif.Props.Layout
import Verif.Model.Float
import Verif.Model.FloatCode
import Verif.Spec.Float
import Verif.Lemmas.Float
import Verif.Lemmas.FloatCode
import Verif.Props.Float
import Verif.Props.FloatPicture
import Verif.Props.FloatStats
import Verif.Model.ProgressText
import Verif.Props.ProgressText
import Verif.Props.WholeCubes
import Verif.Spec.Symmetry
import Verif.Props.Symmetry
import Verif.Props.Orders
import Verif.Lemmas.CrossCount
import Verif.Props.CrossDistances
import Verif.Spec.Rewriting
import Verif.Lemmas.NormalForm
import Verif.Props.NormalForm
import Verif.Props.Errors
import Verif.Lemmas.Orders24
import Verif.Props.BigOrders
import Verif.Props.HalfTurns
import Verif.Props.TwoCounts
import Verif.Model.Messages
import Verif.Props.Messages
import Verif.Spec.ShortAlgs
import Verif.Lemmas.ShortTable
import Verif.Lemmas.ShortAlgs
import Verif.Props.ShortAlgs
import Verif.Model.Hashing
import Verif.Props.Hashing
import Verif.Model.Terminal
import Verif.Props.Terminal
import Verif.Props.Workflow
import Verif.Model.DepthErrors
import Verif.Props.DepthErrors
import Verif.Props.Conformance
import Verif.Props.RandomTwo
import Verif.Spec.Centre
import Verif.Props.Centre
import Verif.Props.Generators
import Verif.Props.BigFaces
import Verif.Props.TwoFaces
import Verif.Props.Depths
import Verif.Props.Amounts
import Verif.Props.Halves
import Verif.Props.Commutators
import Verif.Props.Independent
import Verif.Props.Common
import Verif.Props.NeverOne
import Verif.Props.Away
import Verif.Props.Vectors
