import Verif.Props.Time
import Verif.Props.TimeHeap
import Verif.Props.OffsetName
import Verif.Props.TimeInterp
import Verif.Props.Depth
import Verif.Props.DepthInterp
import Verif.Props.Cache
import Verif.Props.UGeom
import Verif.Props.Locate
import Verif.Props.UTopo
import Verif.Props.Verdat
import Verif.Props.UIO
import Verif.Props.SIndex
import Verif.Props.SCelltree
import Verif.Props.SInterp
import Verif.Props.GridR
import Verif.Props.Plane
import Verif.Props.SText
import Verif.Props.Util
import Verif.Props.GridType
import Verif.Props.Vector
import Verif.Props.Dataset
import Verif.Props.Var
import Verif.Props.UState
import Verif.Props.UVars
import Verif.Props.SFile
import Verif.Props.SAngle
import Verif.Props.SLoad
import Verif.Props.SSave
import Verif.Props.At
import Verif.Props.AtCells
import Verif.Props.Files
import Verif.Props.Regrid
import Verif.Props.Constant
import Verif.Props.DepthFile
import Verif.Props.SigmaAt
import Verif.Props.TimeFile
import Verif.Props.Names
import Verif.Props.VectorState
import Verif.Props.Plot
import Verif.Props.Superpose
import Verif.Props.CellChoice
import Verif.Props.Invariance
import Verif.Props.Rounded
import Verif.Props.RoundedAt
import Verif.Props.Comparison
import Verif.Props.Locality
import Verif.Props.Smooth
import Verif.Props.VerdatText
import Verif.Props.Accuracy
import Verif.Props.SigmaAccuracy
import Verif.Props.UConstruct
import Verif.Props.Path
import Verif.Props.Centers
import Verif.Props.Shared
import Verif.Props.TimeEq
import Verif.Props.UMesh
import Verif.Props.VerdatRead
import Verif.Props.Unmask
import Verif.Props.RoundedS
import Verif.Props.SFound
import Verif.Props.USaved
import Verif.Props.UWeights
import Verif.Props.SMemory
import Verif.Props.Evaluate
import Verif.Props.Query
import Verif.Props.FileEval
import Verif.Props.FileEvalS
import Verif.Props.TimeText
import Verif.Props.UFlex
import Verif.Props.LevelsUp
import Verif.Props.UQuads
import Verif.Props.DatasetCopy
import Verif.Props.UFlexIO
import Verif.Props.USimple
import Verif.Props.SaveDisk
import Verif.Props.UFlexFile
import Verif.Props.UTables
