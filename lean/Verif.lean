import Verif.Examples.Coadd
import Verif.Examples.Composite
import Verif.Examples.Maker
import Verif.Lemmas.Basic
import Verif.Lemmas.CoaddFile
import Verif.Lemmas.CoaddNaN
import Verif.Lemmas.CoaddNaNSym
import Verif.Lemmas.Composite
import Verif.Lemmas.CompositeF
import Verif.Lemmas.Extract
import Verif.Lemmas.File
import Verif.Lemmas.Float32
import Verif.Lemmas.IntTypes
import Verif.Lemmas.Layout
import Verif.Lemmas.Machine
import Verif.Lemmas.MachineSim
import Verif.Lemmas.MakerHeap
import Verif.Lemmas.Memory
import Verif.Lemmas.NotANumber
import Verif.Lemmas.Number
import Verif.Lemmas.PixelNaN
import Verif.Lemmas.PixelNaNRead
import Verif.Lemmas.PixelTypes
import Verif.Lemmas.Reader
import Verif.Lemmas.Regions
import Verif.Lemmas.RejectF
import Verif.Lemmas.RejectFloat
import Verif.Lemmas.RejectFloatN
import Verif.Lemmas.RejectQ
import Verif.Lemmas.Relay
import Verif.Lemmas.Remake
import Verif.Lemmas.SameView
import Verif.Lemmas.StampTypes
import Verif.Lemmas.Steps
import Verif.Lemmas.Table
import Verif.Lemmas.TableInit
import Verif.Lemmas.TableLoop
import Verif.Lemmas.TableResize
import Verif.Lemmas.TableSim
import Verif.Lemmas.Temporary
import Verif.Lemmas.Total
import Verif.Lemmas.TreeMem
import Verif.Lemmas.Uberseg
import Verif.Lemmas.WcsState
import Verif.Lemmas.Writer
import Verif.Lemmas.Written
import Verif.Model.Basic
import Verif.Model.Bounds
import Verif.Model.CHeap
import Verif.Model.CMeta
import Verif.Model.CPrint
import Verif.Model.CReader
import Verif.Model.Coadd
import Verif.Model.CoaddFloat
import Verif.Model.CoaddNaN
import Verif.Model.Columns
import Verif.Model.Compare
import Verif.Model.CompareReport
import Verif.Model.Composite
import Verif.Model.CompositeF
import Verif.Model.Config
import Verif.Model.CsegType
import Verif.Model.Disk
import Verif.Model.Dtype
import Verif.Model.Extractor
import Verif.Model.Fits
import Verif.Model.Header
import Verif.Model.InputProgram
import Verif.Model.IntTypes
import Verif.Model.Joblib
import Verif.Model.Machine
import Verif.Model.MakeInput
import Verif.Model.Maker
import Verif.Model.MakerHeap
import Verif.Model.Makers
import Verif.Model.Memory
import Verif.Model.Noise
import Verif.Model.NotANumber
import Verif.Model.Paths
import Verif.Model.PixelNaN
import Verif.Model.PixelTypes
import Verif.Model.Preset
import Verif.Model.Programs
import Verif.Model.Reader
import Verif.Model.Reject
import Verif.Model.RejectF
import Verif.Model.RejectNaN
import Verif.Model.RoughCut
import Verif.Model.RoughCutF
import Verif.Model.Scripts
import Verif.Model.Sources
import Verif.Model.StampTypes
import Verif.Model.Steps
import Verif.Model.Stretch
import Verif.Model.Structs
import Verif.Model.Table
import Verif.Model.Tangent
import Verif.Model.Temporary
import Verif.Model.TreeMem
import Verif.Model.Uberseg
import Verif.Model.Vector
import Verif.Model.Viewer
import Verif.Model.WcsState
import Verif.Model.Workers
import Verif.Props.Access
import Verif.Props.Bounds
import Verif.Props.CHeap
import Verif.Props.CMeta
import Verif.Props.CPrint
import Verif.Props.CReader
import Verif.Props.CoaddC
import Verif.Props.CoaddEpochs
import Verif.Props.CoaddExtract
import Verif.Props.CoaddFile
import Verif.Props.CoaddFlags
import Verif.Props.CoaddFloat
import Verif.Props.CoaddMade
import Verif.Props.CoaddMask
import Verif.Props.CoaddNaN
import Verif.Props.CoaddObs
import Verif.Props.CoaddPixels
import Verif.Props.CoaddRange
import Verif.Props.ColumnShapes
import Verif.Props.Columns
import Verif.Props.Compare
import Verif.Props.CompareReport
import Verif.Props.CompareScript
import Verif.Props.CompareSubset
import Verif.Props.Completion
import Verif.Props.Composite
import Verif.Props.CompositeMosaic
import Verif.Props.Config
import Verif.Props.CopyAll
import Verif.Props.CsegType
import Verif.Props.Derived
import Verif.Props.Disk
import Verif.Props.Dtype
import Verif.Props.EpochTests
import Verif.Props.EpochsFloat
import Verif.Props.ExtractedC
import Verif.Props.Header
import Verif.Props.Images
import Verif.Props.Independent
import Verif.Props.InputProgram
import Verif.Props.Interrupted
import Verif.Props.Machine
import Verif.Props.MakeInput
import Verif.Props.MakerHeap
import Verif.Props.MakerLayout
import Verif.Props.Makers
import Verif.Props.MaskedValues
import Verif.Props.Memory
import Verif.Props.MemoryReject
import Verif.Props.Mosaic
import Verif.Props.NoCutouts
import Verif.Props.Noise
import Verif.Props.NotANumber
import Verif.Props.NumberExtract
import Verif.Props.Parallel
import Verif.Props.Parts
import Verif.Props.Paths
import Verif.Props.Photometry
import Verif.Props.PixelNaN
import Verif.Props.PixelTypes
import Verif.Props.Preset
import Verif.Props.Programs
import Verif.Props.RangeExtract
import Verif.Props.RangeTotal
import Verif.Props.Reject
import Verif.Props.RejectF
import Verif.Props.RejectMasked
import Verif.Props.RejectNaN
import Verif.Props.Reuse
import Verif.Props.ReuseTable
import Verif.Props.RoughCut
import Verif.Props.RoughCutF
import Verif.Props.RoundTrip
import Verif.Props.RoundedLabels
import Verif.Props.Scripts
import Verif.Props.Sources
import Verif.Props.StampTypes
import Verif.Props.StoredMasks
import Verif.Props.Stretch
import Verif.Props.Structs
import Verif.Props.Table
import Verif.Props.Tangent
import Verif.Props.Temporary
import Verif.Props.TreeMem
import Verif.Props.UbersegFast
import Verif.Props.UbersegLabels
import Verif.Props.UbersegSlow
import Verif.Props.Vector
import Verif.Props.View
import Verif.Props.Viewer
import Verif.Props.WcsChoice
import Verif.Props.WcsState
import Verif.Props.Workers
import Verif.Props.WriteTwice
import Verif.Spec.CPrint
import Verif.Spec.CReader
import Verif.Spec.Coadd
import Verif.Spec.CoaddFloat
import Verif.Spec.CoaddNaN
import Verif.Spec.CoaddPixels
import Verif.Spec.Composite
import Verif.Spec.Contig
import Verif.Spec.Cutout
import Verif.Spec.Disk
import Verif.Spec.Layout
import Verif.Spec.MakerHeap
import Verif.Spec.Memory
import Verif.Spec.Mosaic
import Verif.Spec.NotANumber
import Verif.Spec.PixelNaN
import Verif.Spec.Reject
import Verif.Spec.SameView
import Verif.Spec.Stored
import Verif.Spec.Table
import Verif.Spec.Temporary
import Verif.Spec.Uberseg
import Verif.Spec.Versions
import Verif.Spec.WcsState
