import Verif.Basic.Assoc
import Verif.Basic.Bytes
import Verif.Basic.ExFloat
import Verif.Basic.F32
import Verif.Basic.Res
import Verif.Basic.Round
import Verif.Basic.RoundNear
import Verif.Model.Again
import Verif.Model.Aligned
import Verif.Model.BinFile
import Verif.Model.Build
import Verif.Model.BuildFine
import Verif.Model.CachedIo
import Verif.Model.Centers
import Verif.Model.CommandLine
import Verif.Model.Convert
import Verif.Model.Distance
import Verif.Model.Driver
import Verif.Model.FiltProg
import Verif.Model.FilteredTruth
import Verif.Model.FloatArith
import Verif.Model.FloatKmeans
import Verif.Model.FloatLoops
import Verif.Model.FloatLsh
import Verif.Model.FloatMedoid
import Verif.Model.FloatProg
import Verif.Model.FloatReduce
import Verif.Model.FloatTable
import Verif.Model.FloatText
import Verif.Model.Generations
import Verif.Model.GraphFile
import Verif.Model.Greedy
import Verif.Model.GroundTruth
import Verif.Model.Hnsw
import Verif.Model.Ivf
import Verif.Model.IvfFile
import Verif.Model.Kmeans
import Verif.Model.KmeansRun
import Verif.Model.LabelFile
import Verif.Model.LabelMedoids
import Verif.Model.Lifecycle
import Verif.Model.Locks
import Verif.Model.Lsh
import Verif.Model.LshFile
import Verif.Model.LshPar
import Verif.Model.Medoid
import Verif.Model.MemProg
import Verif.Model.Mips
import Verif.Model.ParFor
import Verif.Model.ParLoops
import Verif.Model.ParMedoid
import Verif.Model.Params
import Verif.Model.Persist
import Verif.Model.Pipeline
import Verif.Model.PipelineHnsw
import Verif.Model.Pool
import Verif.Model.Pq
import Verif.Model.PqData
import Verif.Model.PqTrain
import Verif.Model.Prune
import Verif.Model.RamBudget
import Verif.Model.RandGen
import Verif.Model.RandProg
import Verif.Model.Recall
import Verif.Model.RecallTool
import Verif.Model.RelNG
import Verif.Model.Robin
import Verif.Model.Search
import Verif.Model.SearchProg
import Verif.Model.Shard
import Verif.Model.Stats
import Verif.Model.StdHeap
import Verif.Model.TempFile
import Verif.Model.TruthProg
import Verif.Model.Truthset
import Verif.Model.UtilLine
import Verif.Model.UtilTrain
import Verif.Model.VecTool
import Verif.Proofs.Atof
import Verif.Proofs.Build
import Verif.Proofs.BuildFine
import Verif.Proofs.Centers
import Verif.Proofs.FloatArith
import Verif.Proofs.FloatDart
import Verif.Proofs.FloatDouble
import Verif.Proofs.FloatExact
import Verif.Proofs.FloatLoops
import Verif.Proofs.FloatOrder
import Verif.Proofs.FloatPrint
import Verif.Proofs.FloatRound
import Verif.Proofs.FloatSum
import Verif.Proofs.FloatText
import Verif.Proofs.Greedy
import Verif.Proofs.GroundTruth
import Verif.Proofs.HnLife
import Verif.Proofs.Ivf
import Verif.Proofs.KNearest
import Verif.Proofs.Labels0
import Verif.Proofs.Lifecycle
import Verif.Proofs.Locks
import Verif.Proofs.LocksEnd
import Verif.Proofs.MapM
import Verif.Proofs.MemProg
import Verif.Proofs.Mips
import Verif.Proofs.ParAssign
import Verif.Proofs.ParDrive
import Verif.Proofs.ParFor
import Verif.Proofs.ParMedoid
import Verif.Proofs.ParWp
import Verif.Proofs.Persist
import Verif.Proofs.Pipeline
import Verif.Proofs.Pool
import Verif.Proofs.PoolInv
import Verif.Proofs.PqData
import Verif.Proofs.Prune
import Verif.Proofs.Robin
import Verif.Proofs.RobinOps
import Verif.Proofs.SaveFiles
import Verif.Proofs.Search
import Verif.Proofs.Shard
import Verif.Proofs.Sort
import Verif.Proofs.StdHeap
import Verif.Props.Again
import Verif.Props.Aligned
import Verif.Props.BinFile
import Verif.Props.Build
import Verif.Props.BuildReach
import Verif.Props.BuildRepeat
import Verif.Props.BuildStar
import Verif.Props.BuiltStart
import Verif.Props.CachedIo
import Verif.Props.Centers
import Verif.Props.Chain
import Verif.Props.CommandArgs
import Verif.Props.CommandLine
import Verif.Props.CommandRun
import Verif.Props.CommandRuns
import Verif.Props.CommandStop
import Verif.Props.Convert
import Verif.Props.ConvertAll
import Verif.Props.Crash
import Verif.Props.CutFile
import Verif.Props.Damage
import Verif.Props.Driver
import Verif.Props.Filler
import Verif.Props.FiltProg
import Verif.Props.FilterOrder
import Verif.Props.FilteredTruth
import Verif.Props.FloatCentre
import Verif.Props.FloatChain
import Verif.Props.FloatCmp
import Verif.Props.FloatDistance
import Verif.Props.FloatExpand
import Verif.Props.FloatGraph
import Verif.Props.FloatIvf
import Verif.Props.FloatKmeans
import Verif.Props.FloatKpp
import Verif.Props.FloatLsh
import Verif.Props.FloatMedoid
import Verif.Props.FloatMips
import Verif.Props.FloatPrune
import Verif.Props.FloatReduce
import Verif.Props.FloatStop
import Verif.Props.FloatSum
import Verif.Props.FloatTable
import Verif.Props.FloatText
import Verif.Props.FloatWrong
import Verif.Props.Generations
import Verif.Props.GraphFile
import Verif.Props.Greedy
import Verif.Props.GroundTruth
import Verif.Props.Hnsw
import Verif.Props.HnswDamage
import Verif.Props.InitCenters
import Verif.Props.IntDistance
import Verif.Props.Ivf
import Verif.Props.IvfCut
import Verif.Props.IvfFile
import Verif.Props.Kmeans
import Verif.Props.KmeansRun
import Verif.Props.KmeansUse
import Verif.Props.LabelFile
import Verif.Props.LabelMedoids
import Verif.Props.Lifecycle
import Verif.Props.Lsh
import Verif.Props.LshDamage
import Verif.Props.LshFile
import Verif.Props.LshMark
import Verif.Props.LshPar
import Verif.Props.LshProg
import Verif.Props.Medoid
import Verif.Props.MemEnds
import Verif.Props.MemProg
import Verif.Props.MinusOne
import Verif.Props.Mips
import Verif.Props.ParFor
import Verif.Props.ParMedoid
import Verif.Props.ParMore
import Verif.Props.ParRace
import Verif.Props.ParValues
import Verif.Props.Params
import Verif.Props.Persist
import Verif.Props.Pipeline
import Verif.Props.PipelineHnsw
import Verif.Props.PipelineIvf
import Verif.Props.PipelineLsh
import Verif.Props.PipelineRng
import Verif.Props.Pool
import Verif.Props.PoolLarge
import Verif.Props.Pq
import Verif.Props.PqData
import Verif.Props.PqTrain
import Verif.Props.Prune
import Verif.Props.Races
import Verif.Props.RamBudget
import Verif.Props.RandGen
import Verif.Props.RandProg
import Verif.Props.RangeTruth
import Verif.Props.Recall
import Verif.Props.RecallTool
import Verif.Props.RelNG
import Verif.Props.Robin
import Verif.Props.Sample
import Verif.Props.Search
import Verif.Props.SearchProg
import Verif.Props.SearchProgs
import Verif.Props.Shard
import Verif.Props.Stats
import Verif.Props.StdHeap
import Verif.Props.TempFile
import Verif.Props.TruthProg
import Verif.Props.Truthset
import Verif.Props.UtilBudget
import Verif.Props.UtilLine
import Verif.Props.UtilPart
import Verif.Props.UtilPq
import Verif.Props.UtilRam
import Verif.Props.UtilTrain
import Verif.Props.VecTool
import Verif.Spec.Aligned
import Verif.Spec.CommandLine
import Verif.Spec.Damage
import Verif.Spec.Float
import Verif.Spec.FloatDist
import Verif.Spec.FloatFile
import Verif.Spec.FloatKmeans
import Verif.Spec.FloatLsh
import Verif.Spec.FloatMedoid
import Verif.Spec.FloatReduce
import Verif.Spec.FloatSum
import Verif.Spec.Graph
import Verif.Spec.MemProg
import Verif.Spec.Probe
import Verif.Spec.Prune
import Verif.Spec.Search
