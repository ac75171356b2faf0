import Verif.Base
import Verif.Model.Digraph
import Verif.Model.FindSeeds
import Verif.Spec.Digraph
import Verif.Proofs.DigraphLemmas
import Verif.Proofs.DigraphM
import Verif.Proofs.SeedsBasic
import Verif.Proofs.SeedsSort
import Verif.Proofs.SeedsInwards
import Verif.Proofs.SeedsExclusion
import Verif.Proofs.SeedsExclusionMain
import Verif.Props.Digraph
import Verif.Proofs.SeedsFind
import Verif.Props.Seeds
import Verif.Props.Stable
import Verif.Model.DistSearch
import Verif.Model.Options
import Verif.Model.NngCore
import Verif.Model.Batches
import Verif.Model.NngClustering
import Verif.Proofs.NngMake
import Verif.Proofs.NngSize
import Verif.Spec.Labels
import Verif.Spec.Nng
import Verif.Proofs.Labels
import Verif.Proofs.LabelsM
import Verif.Proofs.TypeCount
import Verif.Proofs.NngTypes
import Verif.Spec.Radius
import Verif.Proofs.Estimate
import Verif.Spec.Options
import Verif.Proofs.Options
import Verif.Proofs.NngRun
import Verif.Proofs.Run
import Verif.Spec.Clustering
import Verif.Proofs.Call
import Verif.Proofs.RunFacts
import Verif.Proofs.DistSearch
import Verif.Proofs.DistMetric
import Verif.Proofs.Nearest
import Verif.Props.DistSearch
import Verif.Props.Clustering
import Verif.Props.Options
import Verif.Proofs.RunOk
import Verif.Proofs.InwardsPairs
import Verif.Spec.Approx
import Verif.Props.Approx
import Verif.Spec.Batches
import Verif.Proofs.BatchSeq
import Verif.Proofs.BatchSteps
import Verif.Proofs.BatchRun
import Verif.Proofs.BatchCall
import Verif.Proofs.BatchOk
import Verif.Proofs.Undefined
import Verif.Props.Batches
import Verif.Spec.Check
import Verif.Proofs.Check
import Verif.Props.Check
import Verif.Spec.History
import Verif.Spec.Registration
import Verif.Proofs.Objects
import Verif.Proofs.History
import Verif.Props.Objects
import Verif.Props.AfterFailure
import Verif.Props.Assign
import Verif.Props.Histories
import Verif.Props.Registration
import Verif.Spec.Failures
import Verif.Proofs.Checked
import Verif.Proofs.Failing
import Verif.Props.Failures
import Verif.Model.Hierarchical
import Verif.Spec.Metric
import Verif.Spec.Hierarchical
import Verif.Spec.HiTree
import Verif.Proofs.HiEdges
import Verif.Proofs.HiSplit
import Verif.Proofs.HiBreak
import Verif.Proofs.HiCenters
import Verif.Proofs.HiRun
import Verif.Proofs.HiStack
import Verif.Proofs.HiCall
import Verif.Proofs.HiFacts
import Verif.Proofs.HiBuiltin
import Verif.Props.Hierarchical
import Verif.Model.Stats
import Verif.Spec.Stats
import Verif.Proofs.Stats
import Verif.Proofs.StatsPure
import Verif.Props.Stats
import Verif.Spec.Watch
import Verif.Proofs.Watch
import Verif.Proofs.WatchHi
import Verif.Props.SearchFailures
import Verif.Props.BatchesLexical
import Verif.Props.Pipeline
import Verif.Spec.Repeat
import Verif.Proofs.Repeat
import Verif.Proofs.RepeatSeeds
import Verif.Proofs.RepeatCore
import Verif.Proofs.RepeatApi
import Verif.Proofs.RepeatHi
import Verif.Spec.Rerun
import Verif.Proofs.Rerun
import Verif.Props.Repeat
import Verif.Model.Ann
import Verif.Spec.Ann
import Verif.Proofs.Ann
import Verif.Proofs.AnnAlike
import Verif.Props.Ann
import Verif.Model.DigraphDebug
import Verif.Proofs.DigraphDebug
import Verif.Props.DigraphDebug
import Verif.Proofs.NngSort
import Verif.Proofs.RunUnique
import Verif.Props.StableNng
import Verif.Spec.Separated
import Verif.Props.Separated
import Verif.Proofs.HiTree
import Verif.Props.HiTree
import Verif.Spec.Pressure
import Verif.Proofs.Calm
import Verif.Props.Pressure
import Verif.Spec.Compare
import Verif.Spec.Exact
import Verif.Proofs.Compare
import Verif.Proofs.CompareRun
import Verif.Proofs.CompareHi
import Verif.Proofs.CompareEst
import Verif.Props.Compare
import Verif.Proofs.Press
import Verif.Proofs.PressSeeds
import Verif.Proofs.PressCore
import Verif.Proofs.PressApi
import Verif.Proofs.PressSpi
import Verif.Props.PressureCalls
import Verif.Model.Assert
import Verif.Model.AssertHi
import Verif.Proofs.Assert
import Verif.Proofs.AssertHi
import Verif.Model.AssertBatches
import Verif.Proofs.AssertBatches
import Verif.Model.AssertDigraph
import Verif.Proofs.AssertDigraph
import Verif.Model.AssertSeeds
import Verif.Proofs.AssertSort
import Verif.Proofs.AssertSeeds
import Verif.Model.AssertNng
import Verif.Proofs.AssertNng
import Verif.Proofs.AssertNngTypes
import Verif.Proofs.AssertLabels
import Verif.Proofs.AssertLabelsM
import Verif.Spec.Assert
import Verif.Proofs.AssertCall
import Verif.Props.Assert
import Verif.Props.AssertSearch
import Verif.Model.AssertObjects
import Verif.Props.AssertObjects
import Verif.Proofs.AssertSpi
import Verif.Proofs.AssertBuiltin
import Verif.Props.AssertBuiltin
import Verif.Spec.Types
import Verif.Spec.FreeRadius
import Verif.Proofs.TypesUnique
import Verif.Proofs.RunSame
import Verif.Props.StableTypes
import Verif.Props.FreeRadius
import Verif.Spec.Equivalent
import Verif.Props.Equivalent
import Verif.Spec.Relax
import Verif.Props.Relax
import Verif.Spec.NearApprox
import Verif.Proofs.NearWeaken
import Verif.Props.NearApprox
import Verif.Props.RadiusDiameter
import Verif.Model.Double
import Verif.Spec.Double
import Verif.Proofs.Double
import Verif.Proofs.DoubleLaws
import Verif.Proofs.DoubleError
import Verif.Proofs.DoubleNear
import Verif.Proofs.DoubleExact
import Verif.Props.Double
import Verif.Spec.StatsDouble
import Verif.Proofs.DoubleSum
import Verif.Proofs.StatsDouble
import Verif.Props.StatsDouble
import Verif.Spec.DoubleMore
import Verif.Proofs.DoubleRadius
import Verif.Props.DoubleMore
import Verif.Spec.Renumber
import Verif.Spec.Local
import Verif.Proofs.Renumber
import Verif.Proofs.Pull
import Verif.Proofs.Local
import Verif.Proofs.LocalBatches
import Verif.Props.Renumber
import Verif.Props.Local
import Verif.Props.LocalDouble
import Verif.Proofs.Grow
import Verif.Spec.Shared
import Verif.Proofs.Shared
import Verif.Props.Shared
import Verif.Spec.HiClear
import Verif.Proofs.HiClear
import Verif.Props.HiClear
import Verif.Spec.HiClearDouble
import Verif.Proofs.HiClearDouble
import Verif.Props.HiClearDouble
import Verif.Spec.Consistent
import Verif.Proofs.Consistent
import Verif.Props.Consistent
import Verif.Spec.Rival
import Verif.Proofs.Rival
import Verif.Props.Rival
import Verif.Spec.Improve
import Verif.Proofs.Improve
import Verif.Props.Improve
import Verif.Props.RivalTight
import Verif.Spec.SaveLoad
import Verif.Props.SaveLoad
import Verif.Spec.Rescale
import Verif.Proofs.Rescale
import Verif.Proofs.RescaleStats
import Verif.Proofs.RescaleEst
import Verif.Props.Rescale
import Verif.Props.RescaleThree
import Verif.Spec.Constant
import Verif.Proofs.Constant
import Verif.Props.Constant
import Verif.Spec.Congruent
import Verif.Props.Congruent
import Verif.Spec.Mirror
import Verif.Props.Mirror
import Verif.Spec.Shift
import Verif.Props.Shift
import Verif.Props.SameAsserts
import Verif.Spec.Copies
import Verif.Props.Copies
