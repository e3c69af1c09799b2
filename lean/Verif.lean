import Verif.Model.Assembly
import Verif.Model.AttrsHeap
import Verif.Model.Base
import Verif.Model.Buttons
import Verif.Model.Chain
import Verif.Model.Coo
import Verif.Model.Cubic
import Verif.Model.Draw
import Verif.Model.Element
import Verif.Model.Export
import Verif.Model.Interp
import Verif.Model.InterpTypes
import Verif.Model.LiveSettings
import Verif.Model.Loads
import Verif.Model.Logo
import Verif.Model.Main
import Verif.Model.Mat
import Verif.Model.Mersenne
import Verif.Model.Mesh
import Verif.Model.Net
import Verif.Model.Notebook
import Verif.Model.Plot
import Verif.Model.Render
import Verif.Model.Rounded
import Verif.Model.RoundedAssembly
import Verif.Model.RoundedInterp
import Verif.Model.RoundedMat
import Verif.Model.RoundedNet
import Verif.Model.RoundedRender
import Verif.Model.Solver
import Verif.Model.Stack
import Verif.Model.Vtk
import Verif.Model.Widgets
import Verif.Spec.Assembly
import Verif.Spec.AttrsHeap
import Verif.Spec.Bound
import Verif.Spec.Broken
import Verif.Spec.Chance
import Verif.Spec.Checks
import Verif.Spec.Continuum
import Verif.Spec.Cover
import Verif.Spec.Cubic
import Verif.Spec.Curve
import Verif.Spec.Diagram
import Verif.Spec.Direction
import Verif.Spec.Draw
import Verif.Spec.Dropped
import Verif.Spec.Element
import Verif.Spec.Energy
import Verif.Spec.Export
import Verif.Spec.First
import Verif.Spec.Flow
import Verif.Spec.Frames
import Verif.Spec.Idle
import Verif.Spec.Kept
import Verif.Spec.LargeMats
import Verif.Spec.Limit
import Verif.Spec.Linked
import Verif.Spec.LiveSettings
import Verif.Spec.Loads
import Verif.Spec.Logo
import Verif.Spec.Main
import Verif.Spec.Mersenne
import Verif.Spec.MeshInit
import Verif.Spec.Mirror
import Verif.Spec.Neighbours
import Verif.Spec.Nested
import Verif.Spec.Net
import Verif.Spec.Notebook
import Verif.Spec.OpenBox
import Verif.Spec.Part
import Verif.Spec.Picture
import Verif.Spec.Piles
import Verif.Spec.Positions
import Verif.Spec.Pull
import Verif.Spec.Random
import Verif.Spec.Refined
import Verif.Spec.Relabel
import Verif.Spec.Render
import Verif.Spec.Restart
import Verif.Spec.Rounded
import Verif.Spec.RoundedAssembly
import Verif.Spec.RoundedInterp
import Verif.Spec.RoundedMain
import Verif.Spec.RoundedMat
import Verif.Spec.RoundedNet
import Verif.Spec.RoundedRender
import Verif.Spec.Section
import Verif.Spec.SelfSymmetric
import Verif.Spec.Solver
import Verif.Spec.Stack
import Verif.Spec.Stiffer
import Verif.Spec.Symmetry
import Verif.Spec.Units
import Verif.Spec.Vertex
import Verif.Spec.Vtk
import Verif.Spec.Widgets
import Verif.Lemmas.Assembly
import Verif.Lemmas.Base
import Verif.Lemmas.Binary
import Verif.Lemmas.Border
import Verif.Lemmas.Cell
import Verif.Lemmas.CellScale
import Verif.Lemmas.Chance
import Verif.Lemmas.Checks
import Verif.Lemmas.Constraint
import Verif.Lemmas.Coo
import Verif.Lemmas.CoverMesh
import Verif.Lemmas.CoverNet
import Verif.Lemmas.CoverSolver
import Verif.Lemmas.CoverSystem
import Verif.Lemmas.CoverTile
import Verif.Lemmas.Cubic
import Verif.Lemmas.Curve
import Verif.Lemmas.Deform
import Verif.Lemmas.DirectionAssembly
import Verif.Lemmas.DirectionMesh
import Verif.Lemmas.Draw
import Verif.Lemmas.Elimination
import Verif.Lemmas.Energy
import Verif.Lemmas.GaugeSolver
import Verif.Lemmas.Group
import Verif.Lemmas.Interp
import Verif.Lemmas.Kept
import Verif.Lemmas.Lapack
import Verif.Lemmas.Loads
import Verif.Lemmas.Mat
import Verif.Lemmas.MatInit
import Verif.Lemmas.MeshInit
import Verif.Lemmas.MeshMap
import Verif.Lemmas.MirrorMesh
import Verif.Lemmas.MirrorNet
import Verif.Lemmas.Multinomial
import Verif.Lemmas.Net
import Verif.Lemmas.Positions
import Verif.Lemmas.Refined
import Verif.Lemmas.RelabelMesh
import Verif.Lemmas.RelabelNet
import Verif.Lemmas.RenameSolver
import Verif.Lemmas.Restart
import Verif.Lemmas.Rounded
import Verif.Lemmas.RoundedAssembly
import Verif.Lemmas.RoundedExact
import Verif.Lemmas.RoundedInterp
import Verif.Lemmas.RoundedMat
import Verif.Lemmas.RoundedNet
import Verif.Lemmas.RoundedRun
import Verif.Lemmas.ScaleAssembly
import Verif.Lemmas.ScaleSolver
import Verif.Lemmas.Solver
import Verif.Lemmas.SolverAssembly
import Verif.Lemmas.SolverEnergy
import Verif.Lemmas.SolverSteps
import Verif.Lemmas.SolverStop
import Verif.Lemmas.Stack
import Verif.Lemmas.Stiffness
import Verif.Lemmas.Vertex
import Verif.Lemmas.Vtk
import Verif.Props.AttrsHeap
import Verif.Props.Body
import Verif.Props.BodyExamples
import Verif.Props.Border
import Verif.Props.BorderExamples
import Verif.Props.Borne
import Verif.Props.BorneExamples
import Verif.Props.Bound
import Verif.Props.BoundExamples
import Verif.Props.Broken
import Verif.Props.BrokenExamples
import Verif.Props.Buttons
import Verif.Props.Chance
import Verif.Props.ChanceExamples
import Verif.Props.ChanceLaw
import Verif.Props.ChanceVariance
import Verif.Props.Constraint
import Verif.Props.Continuum
import Verif.Props.ContinuumExamples
import Verif.Props.Cover
import Verif.Props.CoverExamples
import Verif.Props.Crossing
import Verif.Props.Cubic
import Verif.Props.Curve
import Verif.Props.CurveExamples
import Verif.Props.Diagram
import Verif.Props.DiagramExamples
import Verif.Props.Direction
import Verif.Props.DirectionExamples
import Verif.Props.DirectionNet
import Verif.Props.Draw
import Verif.Props.DrawExamples
import Verif.Props.Dropped
import Verif.Props.DroppedExamples
import Verif.Props.Element
import Verif.Props.Energy
import Verif.Props.EnergyExamples
import Verif.Props.Export
import Verif.Props.Extend
import Verif.Props.First
import Verif.Props.Flow
import Verif.Props.FlowExamples
import Verif.Props.FrameChecks
import Verif.Props.Greedy
import Verif.Props.Idle
import Verif.Props.IdleExamples
import Verif.Props.Interp
import Verif.Props.InterpTypes
import Verif.Props.Kept
import Verif.Props.KeptExamples
import Verif.Props.Lapack
import Verif.Props.LapackExamples
import Verif.Props.LargeMats
import Verif.Props.LargeMatsExamples
import Verif.Props.Limit
import Verif.Props.LimitExamples
import Verif.Props.Linked
import Verif.Props.LinkedExamples
import Verif.Props.LiveSettings
import Verif.Props.LiveSettingsExamples
import Verif.Props.LoadPicture
import Verif.Props.LoadTheorems
import Verif.Props.Loaded
import Verif.Props.LoadedExamples
import Verif.Props.Loads
import Verif.Props.Logo
import Verif.Props.Longer
import Verif.Props.LongerExamples
import Verif.Props.Main
import Verif.Props.MatCheck
import Verif.Props.MatInit
import Verif.Props.Mersenne
import Verif.Props.MeshInit
import Verif.Props.Mirror
import Verif.Props.MirrorExamples
import Verif.Props.Monotone
import Verif.Props.MoreFibers
import Verif.Props.MoreFibersExamples
import Verif.Props.NeighbourNodes
import Verif.Props.Neighbours
import Verif.Props.NeighboursExamples
import Verif.Props.Nested
import Verif.Props.NestedExamples
import Verif.Props.NestedRuns
import Verif.Props.NestedRunsExamples
import Verif.Props.Net
import Verif.Props.NetMesh
import Verif.Props.Notebook
import Verif.Props.NotebookExamples
import Verif.Props.OpenBox
import Verif.Props.OpenBoxExamples
import Verif.Props.Pairs
import Verif.Props.Picture
import Verif.Props.Piles
import Verif.Props.PilesExamples
import Verif.Props.Pipeline
import Verif.Props.PipelineExamples
import Verif.Props.Plate
import Verif.Props.PlateExamples
import Verif.Props.Plot
import Verif.Props.Positions
import Verif.Props.PositionsExamples
import Verif.Props.PositionsLaw
import Verif.Props.Pull
import Verif.Props.PullChain
import Verif.Props.PullExamples
import Verif.Props.Refined
import Verif.Props.RefinedExamples
import Verif.Props.Regular
import Verif.Props.RegularExamples
import Verif.Props.Relabel
import Verif.Props.RelabelExamples
import Verif.Props.Render
import Verif.Props.Replay
import Verif.Props.RepoTests
import Verif.Props.Restart
import Verif.Props.RestartExamples
import Verif.Props.Rounded
import Verif.Props.RoundedAssembly
import Verif.Props.RoundedExamples
import Verif.Props.RoundedInterp
import Verif.Props.RoundedInterpExamples
import Verif.Props.RoundedInterpSpecial
import Verif.Props.RoundedMain
import Verif.Props.RoundedMainExamples
import Verif.Props.RoundedMat
import Verif.Props.RoundedNet
import Verif.Props.RoundedNorm
import Verif.Props.RoundedProgram
import Verif.Props.RoundedRender
import Verif.Props.RoundedRenderExamples
import Verif.Props.RoundedResults
import Verif.Props.RoundedStack
import Verif.Props.RoundedStackExamples
import Verif.Props.Section
import Verif.Props.SectionExamples
import Verif.Props.SelfSymmetric
import Verif.Props.SelfSymmetricExamples
import Verif.Props.Solver
import Verif.Props.SolverEnergy
import Verif.Props.SolverExamples
import Verif.Props.SolverMore
import Verif.Props.SolverStop
import Verif.Props.SolverStopExamples
import Verif.Props.Stack
import Verif.Props.Stiffer
import Verif.Props.StifferExamples
import Verif.Props.Stiffness
import Verif.Props.Symmetry
import Verif.Props.SymmetryExamples
import Verif.Props.Timoshenko
import Verif.Props.Units
import Verif.Props.UnitsChain
import Verif.Props.UnitsExamples
import Verif.Props.Vertex
import Verif.Props.Vtk
import Verif.Props.VtkExamples
import Verif.Props.Widgets
import Verif.Props.WidgetsInit
