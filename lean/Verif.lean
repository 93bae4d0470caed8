import Verif.Model.Num
import Verif.Model.System
import Verif.Spec.Geometry
import Verif.Lemmas.Geometry
import Verif.Props.Distance
import Verif.Model.Store
import Verif.Spec.Periodic
import Verif.Lemmas.Store
import Verif.Props.Store
import Verif.Model.Neighbors
import Verif.Lemmas.Neighbors
import Verif.Spec.Neighbors
import Verif.Lemmas.FindNeighbors
import Verif.Props.Cutoff
import Verif.Lemmas.Cells
import Verif.Props.Cells
import Verif.Lemmas.Candidates
import Verif.Lemmas.Search
import Verif.Lemmas.Nearest
import Verif.Props.Number
import Verif.Props.NumberCells
import Verif.Lemmas.Sann
import Verif.Props.Sann
import Verif.Lemmas.History
import Verif.Props.History
import Verif.Model.Harmonics
import Verif.Spec.Harmonics
import Verif.Lemmas.Legendre
import Verif.Lemmas.Harmonics
import Verif.Lemmas.CalcQ
import Verif.Lemmas.QEquiv
import Verif.Props.Harmonics
import Verif.Model.Solids
import Verif.Model.Cna
import Verif.Model.OrderParams
import Verif.Model.Voronoi
import Verif.Spec.Clusters
import Verif.Lemmas.Dfs
import Verif.Lemmas.Clusters
import Verif.Props.Clusters
import Verif.Spec.Solids
import Verif.Lemmas.Solids
import Verif.Props.Solids
import Verif.Spec.Cna
import Verif.Spec.OrderParams
import Verif.Lemmas.Cna
import Verif.Lemmas.CnaCounts
import Verif.Lemmas.CnaRun
import Verif.Lemmas.CnaSpec
import Verif.Lemmas.IntSystem
import Verif.Lemmas.Diamond
import Verif.Lemmas.Centro
import Verif.Lemmas.Histogram
import Verif.Props.Cna
import Verif.Props.Diamond
import Verif.Props.Centro
import Verif.Props.Angles
import Verif.Props.Padded
import Verif.Props.Rdf
import Verif.Lemmas.Entropy
import Verif.Props.Entropy
import Verif.Props.Sro
import Verif.Props.Energy
import Verif.Spec.Voronoi
import Verif.Props.Voronoi
import Verif.Model.Crystal
import Verif.Spec.Crystal
import Verif.Props.Crystal
import Verif.Model.Text
import Verif.Lemmas.Text
import Verif.Model.Dump
import Verif.Model.Trajectory
import Verif.Model.Formats
import Verif.Spec.Dump
import Verif.Spec.Trajectory
import Verif.Spec.Formats
import Verif.Lemmas.Dump
import Verif.Lemmas.Trajectory
import Verif.Props.Dump
import Verif.Props.Trajectory
import Verif.Props.Formats
import Verif.Spec.Symmetry
import Verif.Lemmas.Motion
import Verif.Lemmas.MotionBuild
import Verif.Props.Symmetry
import Verif.Props.Relabel
import Verif.Props.Wrapping
import Verif.Props.WrapSmall
import Verif.Props.Surface
import Verif.Props.AtomApi
import Verif.Props.AtomDefaults
import Verif.Props.Misc
import Verif.Spec.History
import Verif.Lemmas.Frame
import Verif.Lemmas.Frame2
import Verif.Props.Frame
import Verif.Props.Voids
import Verif.Props.Repeat
import Verif.Props.CellsSkew
import Verif.Model.SearchState
import Verif.Lemmas.FailedSearch
import Verif.Props.Failure
import Verif.Props.Leftover
import Verif.Props.SolidClusters
import Verif.Props.Truncated
import Verif.Props.Locality
import Verif.Props.Monotone
import Verif.Props.MonotoneFalse
import Verif.Lemmas.Alike
import Verif.Props.Supercell
import Verif.Props.LargeSystems
import Verif.Model.AseTrajectory
import Verif.Props.AseTrajectory
import Verif.Props.TrajIter
import Verif.Props.AseSkewed
import Verif.Props.Embed
import Verif.Props.DumpErrors
import Verif.Props.Perfect
import Verif.Props.PerfectCna
import Verif.Props.PerfectHcp
import Verif.Props.PerfectDiamond
import Verif.Props.PerfectCentro
import Verif.Props.PerfectSolids
import Verif.Lemmas.Displaced
import Verif.Props.Noise
import Verif.Lemmas.QClose
import Verif.Props.Continuity
import Verif.Props.NoisySolids
import Verif.Props.NoisyCentro
import Verif.Props.PerfectChi
import Verif.Props.PerfectAngular
import Verif.Props.PerfectSro
import Verif.Props.BinaryAlloy
import Verif.Props.Sharing
import Verif.Props.Labels
import Verif.Props.Equivalent
import Verif.Props.Floating
import Verif.Props.FloatingCrystal
import Verif.Props.SupercellMore
import Verif.Lemmas.RelabSearch
import Verif.Props.RelabelMore
import Verif.Lemmas.SannSame
import Verif.Props.SannMore
import Verif.Props.Condition
import Verif.Props.Layout
import Verif.Props.Stricter
import Verif.Props.Again
import Verif.Props.LabelsSolids
import Verif.Props.NestedClusters
import Verif.Props.ClusterAgain
import Verif.Props.EntropyAgain
import Verif.Props.AnglesAgain
