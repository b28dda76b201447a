import Verif.Spec.Decoder
import Verif.Model.Go
import Verif.Model.BitReader
import Verif.Spec.Bits
import Verif.Proofs.Bits
import Verif.Spec.Reader
import Verif.Proofs.BitReader
import Verif.Proofs.Reads
import Verif.Proofs.Ints
import Verif.Model.BitWriter
import Verif.Proofs.BitWriter
import Verif.Proofs.Skip
import Verif.Props.BitReader
import Verif.Model.F16
import Verif.Spec.F16
import Verif.Props.F16
import Verif.Model.Util
import Verif.Props.Util
import Verif.Model.Pool
import Verif.Spec.Pool
import Verif.Proofs.Pool
import Verif.Props.Pool
import Verif.Model.VLC
import Verif.Model.Prefix
import Verif.Spec.Canonical
import Verif.Spec.PrefixDesc
import Verif.Proofs.ReadsPad
import Verif.Proofs.VLC
import Verif.Proofs.Prefix
import Verif.Proofs.PrefixDesc
import Verif.Props.VLC
import Verif.Model.ANS
import Verif.Model.Entropy
import Verif.Spec.Stream
import Verif.Proofs.Alias
import Verif.Proofs.Stream
import Verif.Proofs.Hybrid
import Verif.Proofs.LZ
import Verif.Proofs.Safe
import Verif.Proofs.ANSRead
import Verif.Proofs.Cluster
import Verif.Props.Entropy
import Verif.Model.Permutation
import Verif.Model.TOC
import Verif.Model.MATree
import Verif.Spec.Lehmer
import Verif.Spec.TOC
import Verif.Proofs.Permutation
import Verif.Proofs.TOC
import Verif.Proofs.MATree
import Verif.Props.TOC
import Verif.Props.MATree
import Verif.Model.Modular
import Verif.Spec.Modular
import Verif.Proofs.Modular
import Verif.Props.Modular
import Verif.Spec.WP
import Verif.Proofs.WP
import Verif.Props.WP
import Verif.Model.Transforms
import Verif.Spec.Transforms
import Verif.Proofs.Transforms
import Verif.Props.Transforms
import Verif.Model.ModularStream
import Verif.Spec.ModularStream
import Verif.Proofs.ModularStream
import Verif.Props.ModularStream
import Verif.Model.ImageHeader
import Verif.Spec.ImageHeader
import Verif.Proofs.ImageHeader
import Verif.Props.ImageHeader
import Verif.Model.ICC
import Verif.Spec.ICC
import Verif.Proofs.ICC
import Verif.Proofs.ICCShuffle
import Verif.Proofs.ICCHeader
import Verif.Proofs.ICCBody
import Verif.Proofs.ICCCmds
import Verif.Props.ICC
import Verif.Model.FrameHeader
import Verif.Spec.FrameHeader
import Verif.Proofs.FrameHeader
import Verif.Proofs.Passes
import Verif.Proofs.FrameHeaderSafe
import Verif.Props.FrameHeader
import Verif.Model.Boxes
import Verif.Spec.Boxes
import Verif.Proofs.Boxes
import Verif.Props.Boxes
import Verif.Model.F32
import Verif.Model.Image
import Verif.Spec.Image
import Verif.Proofs.Image
import Verif.Proofs.F32
import Verif.Proofs.Samples
import Verif.Props.Image
import Verif.Props.Samples
import Verif.Model.Copy
import Verif.Spec.Copy
import Verif.Props.Copy
import Verif.Model.JXLImage
import Verif.Model.Writers
import Verif.Proofs.JXLImage
import Verif.Spec.PFM
import Verif.Props.PFM
import Verif.Spec.PNG
import Verif.Proofs.Output
import Verif.Proofs.PNG
import Verif.Proofs.PNGSize
import Verif.Props.PNG
import Verif.Spec.ToImage
import Verif.Props.ToImage
import Verif.Model.Blend
import Verif.Spec.Blend
import Verif.Proofs.BlendLoops
import Verif.Proofs.Blend
import Verif.Proofs.BlendChannel
import Verif.Proofs.BlendFrame
import Verif.Props.Blend
import Verif.Model.Compose
import Verif.Spec.Compose
import Verif.Proofs.Compose
import Verif.Props.Compose
import Verif.Model.Groups
import Verif.Spec.Groups
import Verif.Proofs.Groups
import Verif.Proofs.Paste
import Verif.Props.Groups
import Verif.Model.TransformType
import Verif.Model.HFPass
import Verif.Model.HFMetadata
import Verif.Model.HFCoefficients
import Verif.Spec.Orders
import Verif.Proofs.Orders
import Verif.Proofs.OrdersNatural
import Verif.Props.Orders
import Verif.Spec.Blocks
import Verif.Proofs.Blocks
import Verif.Props.Blocks
import Verif.Spec.Coefficients
import Verif.Proofs.Coefficients
import Verif.Props.Coefficients
import Verif.Model.Workers
import Verif.Proofs.Workers
import Verif.Props.Workers
import Verif.Model.Arith
import Verif.Model.Filters
import Verif.Spec.Filters
import Verif.Proofs.Filters
import Verif.Proofs.FilterSteps
import Verif.Proofs.FilterEPF
import Verif.Proofs.FilterUp
import Verif.Props.Filters
import Verif.Model.DCT
import Verif.Spec.DCT
import Verif.Proofs.DCT
import Verif.Proofs.DCTReal
import Verif.Props.DCT
import Verif.Model.AFVBasis
import Verif.Model.VarDCT
import Verif.Spec.VarDCT
import Verif.Proofs.VarDCT
import Verif.Proofs.VarDCTBlocks
import Verif.Proofs.VarDCTAFV
import Verif.Props.VarDCT
import Verif.Props.VarDCTGroup
import Verif.Model.Dequant
import Verif.Spec.Dequant
import Verif.Spec.GroupBlocks
import Verif.Proofs.Dequant
import Verif.Proofs.Cfl
import Verif.Props.Dequant
import Verif.Props.DequantScale
import Verif.Proofs.GroupBlocks
import Verif.Props.ChromaLuma
import Verif.Proofs.BlockCongr
import Verif.Props.GroupSamples
import Verif.Spec.LFMeans
import Verif.Proofs.LFMeans
import Verif.Proofs.BlockMeans
import Verif.Props.LFMeans
import Verif.Model.LFCoefficients
import Verif.Spec.LFCoefficients
import Verif.Proofs.LFCoefficients
import Verif.Proofs.LFSmoothing
import Verif.Props.LFCoefficients
import Verif.Props.LFSmoothing
import Verif.Model.HFGlobal
import Verif.Spec.HFGlobal
import Verif.Proofs.HFGlobal
import Verif.Proofs.HFWeights
import Verif.Props.HFGlobal
import Verif.Props.HFWeights
import Verif.Spec.CoefficientCoding
import Verif.Proofs.CoefficientCoding
import Verif.Props.CoefficientCoding
import Verif.Model.Colour
import Verif.Spec.Colour
import Verif.Proofs.Colour
import Verif.Proofs.ColourSpaces
import Verif.Props.Colour
import Verif.Model.FrameDecode
import Verif.Spec.FrameDecode
import Verif.Proofs.Subsampling
import Verif.Proofs.ModularPlanes
import Verif.Proofs.UpWeights
import Verif.Props.FrameDecode
import Verif.Props.Upsampling
import Verif.Model.ModularFrame
import Verif.Model.FilterFrame
import Verif.Model.VarDCTFrame
import Verif.Proofs.FilterFrame
import Verif.Model.Decode
import Verif.Spec.TreeCoding
import Verif.Spec.CodeCoding
import Verif.Proofs.TreeCoding
import Verif.Proofs.CodeCoding
import Verif.Props.CodeCoding
import Verif.Proofs.CodesAt
import Verif.Props.TreeCoding
import Verif.Props.CodesAt
import Verif.Spec.ModularCoding
import Verif.Proofs.ModularCoding
import Verif.Proofs.ModularGroups
import Verif.Props.ModularCoding
import Verif.Props.ModularWitness
import Verif.Spec.Decode
import Verif.Proofs.Decode
import Verif.Proofs.DecodeFrame
import Verif.Proofs.DecodeCompose
import Verif.Proofs.DecodeFile
import Verif.Props.Decode
import Verif.Props.DecodeWitness
import Verif.Spec.VarDCTFrame
import Verif.Proofs.VarDCTRead
import Verif.Proofs.VarDCTGrid
import Verif.Proofs.VarDCTLF
import Verif.Proofs.VarDCTOrders
import Verif.Proofs.VarDCTGroup
import Verif.Proofs.VarDCTInvert
import Verif.Props.VarDCTFrame
import Verif.Props.VarDCTWitness
import Verif.Proofs.VarDCTComplete
import Verif.Proofs.ModularComplete
import Verif.Props.Complete
import Verif.Model.TransferFunction
import Verif.Spec.TransferFunction
import Verif.Proofs.TransferFunction
import Verif.Props.TransferFunction
import Verif.Model.ChannelImage
import Verif.Props.ChannelImage
import Verif.Spec.VarDCTFile
import Verif.Proofs.VarDCTFile
import Verif.Props.VarDCTFile
import Verif.Props.VarDCTAlpha
import Verif.Props.VarDCTAlphaFile
import Verif.Props.VarDCTFileWitness
import Verif.Props.WholeFile
import Verif.Model.ReaderStream
import Verif.Spec.ReaderStream
import Verif.Proofs.ReaderStream
import Verif.Proofs.IOHelper
import Verif.Props.ReaderStream
import Verif.Spec.Drawing
import Verif.Proofs.Drawing
import Verif.Props.Drawing
import Verif.Props.DrawingWitness
import Verif.Spec.Collage
import Verif.Proofs.Collage
import Verif.Proofs.ValueBytes
import Verif.Props.Collage
import Verif.Props.CollageWitness
import Verif.Model.Noise
import Verif.Spec.Noise
import Verif.Proofs.Noise
import Verif.Props.Noise
import Verif.Model.Compare
import Verif.Spec.Compare
import Verif.Proofs.Compare
import Verif.Props.Compare
import Verif.Props.Peak
import Verif.Spec.Enlarged
import Verif.Proofs.Enlarged
import Verif.Props.Enlarged
import Verif.Spec.VarDCTEnlarged
import Verif.Props.VarDCTEnlarged
import Verif.Spec.XybModular
import Verif.Props.XybModular
import Verif.Spec.NearPixels
import Verif.Props.NearPixels
import Verif.Spec.Binary32
import Verif.Props.Binary32
import Verif.Props.SampleBytes
