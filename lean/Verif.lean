import Verif.Props.Affine
import Verif.Props.Bilinear
import Verif.Props.Cube
import Verif.Props.March
import Verif.Props.DtmMiss
import Verif.Props.DtmNan
import Verif.Props.GridNan
import Verif.Props.NanLine
import Verif.Props.BentLine
import Verif.Props.Rpc
import Verif.Props.RpcIter
import Verif.Props.RpcIterAny
import Verif.Props.RpcLoc
import Verif.Props.GridInverse
import Verif.Props.EpipolarTri
import Verif.Props.Baseline
import Verif.Props.Adaptive
import Verif.Props.EpipolarSize
import Verif.Props.RectGrid
import Verif.Props.Strip
import Verif.Props.EpipolarAngle
import Verif.Props.RpcShift
import Verif.Props.RpcReaders
import Verif.Props.RpcDispatch
import Verif.Props.RpcIoExamples
import Verif.Props.RpcWriters
import Verif.Props.Registry
import Verif.Props.Localization
import Verif.Props.RpcModel
import Verif.Props.DtmFill
import Verif.Props.Geoid
import Verif.Props.DtmRoi
import Verif.Props.DtmFiles
import Verif.Props.DirectDtm
import Verif.Props.DirectDtmCpp
import Verif.Props.DirectDtmReproj
import Verif.Props.DirectDtmExamples
import Verif.Props.Enclosed
import Verif.Props.GridDtm
import Verif.Props.GridBent
import Verif.Props.DtmRange
import Verif.Model.RectificationCpp
import Verif.Lemmas.StripCpp
import Verif.Props.StripCpp
import Verif.Model.Pipeline
import Verif.Lemmas.Pipeline
import Verif.Props.Pipeline
import Verif.Spec.AffineSensor
import Verif.Props.Epipolarity
import Verif.Props.Extent
import Verif.Model.Geos
import Verif.Model.GridGeo
import Verif.Props.RpcLocalization
import Verif.Props.GridLocalization
import Verif.Lemmas.Lipschitz
import Verif.Props.GridConverge
import Verif.Props.OptimDtmOther
import Verif.Props.RpcConverge
import Verif.Props.PipelineAdaptive
import Verif.Props.GridPredictor
import Verif.Props.RpcOptimCtor
import Verif.Props.ColocCpp
import Verif.Lemmas.Defined
import Verif.Props.PipelineDefined
import Verif.Props.FlatGround
import Verif.Props.TriangulationError
import Verif.Props.TriangulationFrame
import Verif.Props.NullDisparity
import Verif.Props.AffineStereo
import Verif.Props.CurvedSight
import Verif.Model.GridFile
import Verif.Props.GridFile
import Verif.Props.Float
import Verif.Props.FloatDtm
import Verif.Props.FloatFalsi
import Verif.Props.FloatMarch
import Verif.Props.FloatRoi
import Verif.Props.FloatCube
import Verif.Props.GridTurns
import Verif.Props.CppDtm
import Verif.Model.CppRpc
import Verif.Lemmas.CppRpc
import Verif.Props.CppRpc
import Verif.Model.FloatRect
import Verif.Props.FloatRect
import Verif.Model.FloatSize
import Verif.Props.FloatSize
import Verif.Props.Cpp32
import Verif.Props.FloatGridInverse
import Verif.Props.AltSizes
import Verif.Props.FloatRotation
import Verif.Props.FloatRectGrid
import Verif.Props.FloatTri
import Verif.Props.FloatResidue
import Verif.Props.FloatFalsiEnds
import Verif.Props.FloatGrid
import Verif.Props.FloatNodes
import Verif.Props.InPlace
import Verif.Props.Parallel
import Verif.Model.Crash
import Verif.Spec.Json
import Verif.Lemmas.Crash
import Verif.Lemmas.Json
import Verif.Props.Crash
import Verif.Model.Session
import Verif.Props.Session
import Verif.Model.Race
import Verif.Props.Race
import Verif.Model.Proj
import Verif.Props.Proj
import Verif.Validation.RpcGeom
import Verif.Validation.RpcDimap2
import Verif.Validation.GridPhr
import Verif.Validation.DtmGeoide
import Verif.Validation.RpcDimap1
import Verif.Validation.RectRpc
import Verif.Validation.Triangulation
import Verif.Props.GridNullDet
