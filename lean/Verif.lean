import Verif.Props.Shape
import Verif.Props.Stream
import Verif.Props.Header
import Verif.Props.Time
import Verif.Props.Dims
import Verif.Props.Levels
import Verif.Props.Pixels
import Verif.Props.Runlength
import Verif.Props.Accuracy
import Verif.Props.Archive
import Verif.Props.Grid
import Verif.Props.Projection
import Verif.Props.RealProjection
import Verif.Props.Conversion
import Verif.Props.Image
import Verif.Props.Colors
import Verif.Props.Overlay
import Verif.Props.EndToEnd
import Verif.Props.Memory
import Verif.Props.Chunking
import Verif.Props.Reference
import Verif.Props.Conformal
import Verif.Props.FloatProjection
import Verif.Props.Files
import Verif.Props.FloatConversion
import Verif.Props.Plane
import Verif.Props.Conformance
import Verif.Model.Session
import Verif.Spec.Session
import Verif.Props.Session
import Verif.Props.Stall
import Verif.Spec.Accept
import Verif.Lemmas.Accept
import Verif.Props.Accept
import Verif.Spec.Palette
import Verif.Props.Palette
import Verif.Spec.Hue
import Verif.Lemmas.Hue
import Verif.Props.Hue
import Verif.Props.Gradients
import Verif.Props.Fusion
import Verif.Spec.Picture
import Verif.Props.Picture
import Verif.Props.Robust
import Verif.Props.Rvp
import Verif.Props.Drawing
import Verif.Props.Leftover
import Verif.Model.Conc
import Verif.Lemmas.Conc
import Verif.Lemmas.ConcParse
import Verif.Props.ConcSpec
import Verif.Lemmas.ConcComposite
import Verif.Props.Conc
import Verif.Spec.Clock
import Verif.Props.Clock
import Verif.Spec.Utf8
import Verif.Lemmas.Utf8
import Verif.Lemmas.Foreign
import Verif.Props.Foreign
import Verif.Props.Precision
import Verif.Props.Diagnosis
import Verif.Model.BorderTable
import Verif.Model.Border
import Verif.Lemmas.BorderPoints
import Verif.Lemmas.Border
import Verif.Props.Border
import Verif.Props.Addressing
import Verif.Props.Size
import Verif.Props.FusedColors
import Verif.Props.PictureColors
import Verif.Props.AnyPrecision
import Verif.Props.Lookup
import Verif.Props.Rainfall
import Verif.Props.FusedConversion
import Verif.Props.Printout
import Verif.Props.PictureLookup
import Verif.Props.MapLines
import Verif.Props.MeshMap
import Verif.Props.Distances
import Verif.Props.MapSpec
import Verif.Props.AnyInput
import Verif.Props.AnyContent
import Verif.Props.ExitStatus
import Verif.Props.AnyArchive
import Verif.Lemmas.FusedEnds
import Verif.Props.FusedPicture
import Verif.Props.FusedFile
import Verif.Props.LevelTexts
import Verif.Props.MapScale
import Verif.Props.TarBytes
import Verif.Props.Trig
import Verif.Props.Pow
import Verif.Props.Elem
import Verif.Props.RainRange
import Verif.Props.Sqrt
import Verif.Props.Bzip2
import Verif.Props.BzSafe
import Verif.Props.BzSums
import Verif.Props.BzAny
import Verif.Props.BzCut
