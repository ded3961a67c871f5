import Verif.Model.Convert
import Verif.Model.Color
import Verif.Model.Image
import Verif.Props.Bounds
import Verif.Props.Buffers
import Verif.Props.Crop
import Verif.Proofs.Scalar
import Verif.Proofs.ColorStages
import Verif.Proofs.Refine
import Verif.Props.Traversal
import Verif.Props.Convert
import Verif.Props.Chroma
import Verif.Props.Layouts
import Verif.Props.Backends
import Verif.Props.Threads
import Verif.Props.Exact
import Verif.Props.Lossless
import Verif.Props.AsRead
import Verif.Props.Stores
import Verif.Proofs.Rounding
import Verif.Proofs.Accuracy
import Verif.Spec.Ideal
import Verif.Proofs.Ideal
import Verif.Proofs.RoundTrip
import Verif.Props.Accuracy
import Verif.Props.Platforms
import Verif.Proofs.Copy
import Verif.Props.Copy
import Verif.Model.Resize
import Verif.Spec.Resize
import Verif.Proofs.Resize
import Verif.Props.Resize
import Verif.Proofs.AsRead
import Verif.Proofs.Confined
import Verif.Model.World
import Verif.Proofs.World
import Verif.Props.World
import Verif.Model.SimdMath
import Verif.Proofs.PolyBound
import Verif.Proofs.LogExp
import Verif.Proofs.Bits
import Verif.Proofs.SimdMath
import Verif.Proofs.SimdExp
import Verif.Props.SimdMath
import Verif.Props.Transfers
import Verif.Props.Change
import Verif.Props.HdrYuv
import Verif.Props.Ictcp
import Verif.Props.Recode
import Verif.Props.ChangeYuv
import Verif.Props.ChangeToYuv
import Verif.Props.IctcpStandard
import Verif.Props.IctcpAccuracy
import Verif.Props.Quantisation
import Verif.Props.Monotone
import Verif.Props.IctcpDecode
import Verif.Proofs.Window
import Verif.Props.Window
import Verif.Props.Flat
import Verif.Props.Nearest
import Verif.Props.Grey
import Verif.Proofs.Generations
import Verif.Props.Generations
import Verif.Proofs.Tiles
import Verif.Props.Tiles
import Verif.Props.ManyGenerations
import Verif.Model.Dispatch
import Verif.Spec.Cpu
import Verif.Props.Dispatch
import Verif.Spec.Possible
import Verif.Proofs.NoWrap
import Verif.Proofs.NoWrapMore
import Verif.Props.Builds
import Verif.Props.Copies
import Verif.Props.Returns
import Verif.Props.Wide
import Verif.Props.Paste
import Verif.Props.Locality
import Verif.Proofs.BlackWhite
import Verif.Props.BlackWhite
import Verif.Proofs.GreyOrder
import Verif.Proofs.GreyOrder2
import Verif.Proofs.GreyOrder3
import Verif.Proofs.GreyOrder4
import Verif.Proofs.GreyOrder5
import Verif.Proofs.GreyOrder6
import Verif.Props.GreyOrder
import Verif.Proofs.LumaFloats
import Verif.Proofs.GreySignals
import Verif.Proofs.GreySteep
import Verif.Props.YuvGrey
import Verif.Proofs.Ieee754
import Verif.Props.GreyOrderYuv
import Verif.Props.BlackWhiteYuv
import Verif.Props.VideoLevels
import Verif.Props.GreyOrderVideo
import Verif.Props.ChannelOrder
import Verif.Props.ToneCurve
import Verif.Props.Gamut
import Verif.Props.Detour
import Verif.Props.Orientation
import Verif.Props.Agreement
import Verif.Props.LinearTrip
import Verif.Props.Brighten
