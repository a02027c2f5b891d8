import Verif.Props.Str
import Verif.Props.Num
import Verif.Props.Raster
import Verif.Props.Coord
import Verif.Props.Layers
import Verif.Props.Time
import Verif.Props.SubsetData
import Verif.Props.Recls
import Verif.Props.MaskSubset
import Verif.Props.Stats
import Verif.Props.Dec
import Verif.Props.AscWrite
import Verif.Props.Output
import Verif.Props.Types
import Verif.Props.KeyValues
import Verif.Props.Bson
import Verif.Props.Array
import Verif.Props.Array1D
import Verif.Props.MathExpLn
import Verif.Props.MathSqrt
import Verif.Props.FsFind
import Verif.Props.Mask
import Verif.Props.Copy
import Verif.Props.Geotiff
import Verif.Props.Gfs
import Verif.Props.GfsRaster
import Verif.Props.FmtPaths
import Verif.Props.MongoDb
import Verif.Props.Array2D
import Verif.Props.GfsSubset
import Verif.Props.GfsMask
import Verif.Props.Basics
import Verif.Props.FileResult
import Verif.Props.AppMain
import Verif.Props.AppRun
import Verif.Props.AppBatch
import Verif.Props.FileRecls
import Verif.Props.AppRunAll
import Verif.Props.AppSkip
import Verif.Props.AppCom
import Verif.Props.FileFail
import Verif.Props.RasterLife
import Verif.Props.ArrayText
import Verif.Props.MongoLife
import Verif.Props.FloatStats
import Verif.Props.FloatCoord
import Verif.Props.ParMem
import Verif.Props.ParRed
import Verif.Props.AscCrash
import Verif.Props.AscCrash2
import Verif.Props.AppGfs
import Verif.Props.AppGfsJobs
import Verif.Props.AppGfsEx
import Verif.Props.AppGfsCom
import Verif.Props.AppGfsComJobs
import Verif.Props.AppGfsComEx
import Verif.Props.AscChar
import Verif.Props.NanCells
import Verif.Props.AppGfsDec
import Verif.Props.AppGfsDecJobs
import Verif.Props.AppGfsDecEx
import Verif.Props.AppGfsRun
import Verif.Props.AppGfsRunEx
import Verif.Props.AppLayers
import Verif.Props.AppLayersJob
import Verif.Props.AppLayersRun
import Verif.Props.AppLayersAsc
import Verif.Props.Int32
import Verif.Props.SubObj
import Verif.Props.SetHdr
import Verif.Props.Ftoa
import Verif.Props.AppMany
import Verif.Props.AppReclsWide
import Verif.Props.TimeLocal
import Verif.Props.AppGfsFew
import Verif.Props.AppGfsFewRead
import Verif.Props.AppGfsFewJobs
import Verif.Props.AppGfsFewEx
import Verif.Props.AppGfsFewRun
import Verif.Props.AppGfsFewRunEx
import Verif.Props.AppGfsFewComRun
import Verif.Props.AppGfsFewDec
import Verif.Props.AppGfsFewDecJobs
import Verif.Props.AppGfsFewDecEx
import Verif.Props.AppGfsFewDecRead
import Verif.Props.AppGfsFewDecReadEx
import Verif.Props.AppGfsToFile
import Verif.Props.AppGfsToFileEx
import Verif.Props.AppGfsToFileFew
import Verif.Props.AppGfsToFileFewEx
import Verif.Props.AppGfsMixed
import Verif.Props.AppGfsMixedEx
import Verif.Props.AppGfsLayers
import Verif.Props.AppGfsLayersRun
import Verif.Props.AppGfsLayersEx
import Verif.Spec.AppGfsReclsL
import Verif.Lemmas.AppGfsReclsL
import Verif.Props.AppGfsReclsL
import Verif.Spec.AppGfsStack
import Verif.Lemmas.AppGfsStack
import Verif.Props.AppGfsStack
import Verif.Spec.AppGfsReclsLRun
import Verif.Props.AppGfsReclsLRun
import Verif.Props.AppGfsReclsLEx
import Verif.Props.AppGfsStackEx
import Verif.Spec.AppGfsLayersFew
import Verif.Lemmas.AppGfsLayersFew
import Verif.Props.AppGfsLayersFew
import Verif.Props.AppGfsLayersFewEx
import Verif.Spec.AppGfsFewReclsL
import Verif.Lemmas.AppGfsFewReclsL
import Verif.Props.AppGfsFewReclsL
import Verif.Spec.AppGfsStackFew
import Verif.Lemmas.AppGfsStackFew
import Verif.Props.AppGfsStackFew
import Verif.Spec.AppGfsFewReclsLRun
import Verif.Props.AppGfsFewReclsLRun
import Verif.Props.AppGfsFewReclsLEx
import Verif.Props.CombRefuse
import Verif.Props.AppCrash
import Verif.Props.AppCrashEx
import Verif.Props.AppCrashCom
import Verif.Props.AppCrashComEx
import Verif.Props.AppCrashDb
import Verif.Props.AppCrashDbEx
import Verif.Props.SubsetSet
import Verif.Props.AppCrashDbCom
import Verif.Props.AppCrashDbComEx
import Verif.Props.AppCrashDbComFew
import Verif.Props.AppCrashDbFew
import Verif.Props.AppCrashDbFewEx
import Verif.Props.AppCrashDbComFewEx
import Verif.Props.AppCrashDbMaskFew
import Verif.Props.AppCrashDbMaskFewEx
import Verif.Props.AppCrashDbFull
import Verif.Props.AppCrashDbFullEx
import Verif.Props.AppCrashDbFewFull
import Verif.Props.AppCrashDbFewFullEx
import Verif.Props.AppCrashMany
import Verif.Props.AppCrashManyEx
