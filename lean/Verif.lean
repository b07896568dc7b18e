import Verif.Cpp.Core
import Verif.Cpp.Logic
import Verif.Cpp.Real
import Verif.Cpp.Threads
import Verif.Model.ArrayMemory
import Verif.Model.BinaryOps
import Verif.Model.Blocks
import Verif.Model.BlocksFloat
import Verif.Model.Blur
import Verif.Model.Border
import Verif.Model.Config
import Verif.Model.Contour
import Verif.Model.ContourMemory
import Verif.Model.Convolve
import Verif.Model.GrowArray
import Verif.Model.Image
import Verif.Model.ImageOps
import Verif.Model.Jni
import Verif.Model.Kernel
import Verif.Model.Loader
import Verif.Model.Native
import Verif.Model.NativeContour
import Verif.Model.NativeConvolve
import Verif.Model.NativeFilter
import Verif.Model.NativeObjects
import Verif.Model.Otsu
import Verif.Model.OtsuFloat
import Verif.Model.OutOfMemory
import Verif.Model.PackedMemory
import Verif.Model.PackedSet
import Verif.Model.Planar
import Verif.Model.Print
import Verif.Model.Rounded
import Verif.Model.RoundedBlocks
import Verif.Model.RoundedBlocksFloat
import Verif.Model.RoundedGauss
import Verif.Model.RoundedLocal
import Verif.Model.RoundedOtsu
import Verif.Model.RoundedOtsuFloat
import Verif.Model.Sanity
import Verif.Model.SpecialFloat
import Verif.Proofs.Algebra
import Verif.Proofs.Arith
import Verif.Proofs.ArrayMemory
import Verif.Proofs.Below
import Verif.Proofs.BlockMean
import Verif.Proofs.BlockMinMax
import Verif.Proofs.BlockOps
import Verif.Proofs.BlockOtsu
import Verif.Proofs.BlockOtsuF
import Verif.Proofs.Blocks
import Verif.Proofs.BlocksFloat
import Verif.Proofs.Blur
import Verif.Proofs.BlurMean
import Verif.Proofs.BlurRounding
import Verif.Proofs.BlurRun
import Verif.Proofs.Border
import Verif.Proofs.Boundary
import Verif.Proofs.Brightness
import Verif.Proofs.ContourMemory
import Verif.Proofs.ContourObject
import Verif.Proofs.ContourSpec
import Verif.Proofs.Convolve
import Verif.Proofs.ConvolveBorder
import Verif.Proofs.ConvolveInner
import Verif.Proofs.ConvolveRun
import Verif.Proofs.Counts
import Verif.Proofs.Crack
import Verif.Proofs.Determine
import Verif.Proofs.Gauss2D
import Verif.Proofs.GaussError
import Verif.Proofs.GaussRounding
import Verif.Proofs.Holes
import Verif.Proofs.Ieee
import Verif.Proofs.Image
import Verif.Proofs.ImageOps
import Verif.Proofs.IntRounding
import Verif.Proofs.Interleaved
import Verif.Proofs.Kernel
import Verif.Proofs.Loader
import Verif.Proofs.LoaderRun
import Verif.Proofs.LocalMean
import Verif.Proofs.Morphology
import Verif.Proofs.Moved
import Verif.Proofs.Native
import Verif.Proofs.NativeContour
import Verif.Proofs.NativeFilter
import Verif.Proofs.NativeObjects
import Verif.Proofs.Nearby
import Verif.Proofs.Normalized
import Verif.Proofs.NormalizedRun
import Verif.Proofs.OrUb
import Verif.Proofs.Order
import Verif.Proofs.Otsu
import Verif.Proofs.OtsuRounding
import Verif.Proofs.OutOfMemory
import Verif.Proofs.PackedMemory
import Verif.Proofs.PackedSet
import Verif.Proofs.Paint
import Verif.Proofs.Paints
import Verif.Proofs.Part
import Verif.Proofs.Planar
import Verif.Proofs.Points
import Verif.Proofs.Print
import Verif.Proofs.Process
import Verif.Proofs.Range
import Verif.Proofs.Region
import Verif.Proofs.RoundedBlocks
import Verif.Proofs.RoundedBlocksFloat
import Verif.Proofs.Rounding
import Verif.Proofs.RoundingRun
import Verif.Proofs.Rows
import Verif.Proofs.Scan
import Verif.Proofs.ScanPixel
import Verif.Proofs.SigmaRounding
import Verif.Proofs.SpecialFloat
import Verif.Proofs.Starts
import Verif.Proofs.Statistics
import Verif.Proofs.StepsFilters
import Verif.Proofs.Sum
import Verif.Proofs.Symmetry
import Verif.Proofs.Tame
import Verif.Proofs.ThreadContour
import Verif.Proofs.ThreadParts
import Verif.Proofs.Threads
import Verif.Proofs.Trace
import Verif.Proofs.TracePath
import Verif.Proofs.Tuned
import Verif.Proofs.TwoStage
import Verif.Proofs.Winding
import Verif.Proofs.World
import Verif.Props.Algebra
import Verif.Props.AlgebraInt
import Verif.Props.ArrayMemory
import Verif.Props.BinaryOps
import Verif.Props.BlockOtsuFloat
import Verif.Props.Blocks
import Verif.Props.BlocksFloat
import Verif.Props.BlocksSigned
import Verif.Props.Blur
import Verif.Props.BlurRounding
import Verif.Props.Border
import Verif.Props.BorderFar
import Verif.Props.Brightness
import Verif.Props.Config
import Verif.Props.Contour
import Verif.Props.ContourMemory
import Verif.Props.ContourTeam
import Verif.Props.Convolve
import Verif.Props.Counts
import Verif.Props.Determine
import Verif.Props.Domain
import Verif.Props.Extrema
import Verif.Props.FloatFilter
import Verif.Props.FloatOtsu
import Verif.Props.Gauss2D
import Verif.Props.GaussRounding
import Verif.Props.GrowArray
import Verif.Props.Holes
import Verif.Props.Images
import Verif.Props.IntRounding
import Verif.Props.Interleaved
import Verif.Props.Jni
import Verif.Props.Jobs
import Verif.Props.Kernel
import Verif.Props.KernelChange
import Verif.Props.KernelDomain
import Verif.Props.LargeKernel
import Verif.Props.Loader
import Verif.Props.LocalRounding
import Verif.Props.MeanBox
import Verif.Props.Memory
import Verif.Props.MiscOps
import Verif.Props.Morphology
import Verif.Props.Moved
import Verif.Props.Native
import Verif.Props.NativeContour
import Verif.Props.NativeConvolve
import Verif.Props.NativeFilter
import Verif.Props.NativeObjects
import Verif.Props.Nearby
import Verif.Props.NearbyOtsu
import Verif.Props.Normalized
import Verif.Props.Order
import Verif.Props.Otsu
import Verif.Props.OtsuFloat
import Verif.Props.OtsuFloatRounding
import Verif.Props.OtsuRounding
import Verif.Props.OutOfMemory
import Verif.Props.PackedMemory
import Verif.Props.PackedSet
import Verif.Props.Part
import Verif.Props.Pipeline
import Verif.Props.Planar
import Verif.Props.Points
import Verif.Props.Print
import Verif.Props.Range
import Verif.Props.Regions
import Verif.Props.RoundedBlocks
import Verif.Props.RoundedBlocksFloat
import Verif.Props.Rounding
import Verif.Props.Rows
import Verif.Props.SigmaRounding
import Verif.Props.SpecialArith
import Verif.Props.SpecialBlur
import Verif.Props.SpecialFloat
import Verif.Props.SpecialTwoPass
import Verif.Props.Statistics
import Verif.Props.Symmetry
import Verif.Props.TestingUtils
import Verif.Props.ThreadParts
import Verif.Props.Threads
import Verif.Props.ThreadsBlur
import Verif.Props.ThreadsCalls
import Verif.Props.ThreadsContour
import Verif.Props.ThreadsMore
import Verif.Props.ThreadsRounded
import Verif.Props.Tuned
import Verif.Props.Undefined
import Verif.Props.Windows
import Verif.Spec.Algebra
import Verif.Spec.ArrayMemory
import Verif.Spec.Binary
import Verif.Spec.Blocks
import Verif.Spec.BlocksFloat
import Verif.Spec.Blur
import Verif.Spec.Border
import Verif.Spec.Brightness
import Verif.Spec.Contour
import Verif.Spec.ContourMemory
import Verif.Spec.ContourTeam
import Verif.Spec.Convolve
import Verif.Spec.Counts
import Verif.Spec.FloatFilter
import Verif.Spec.Gauss
import Verif.Spec.Image
import Verif.Spec.Jni
import Verif.Spec.Jobs
import Verif.Spec.Kernel
import Verif.Spec.Loader
import Verif.Spec.Local
import Verif.Spec.Morphology
import Verif.Spec.Moved
import Verif.Spec.Native
import Verif.Spec.NativeContour
import Verif.Spec.NativeConvolve
import Verif.Spec.NativeFilter
import Verif.Spec.NativeObjects
import Verif.Spec.Nearby
import Verif.Spec.Otsu
import Verif.Spec.OtsuFloatRounding
import Verif.Spec.OutOfMemory
import Verif.Spec.PackedMemory
import Verif.Spec.PackedSet
import Verif.Spec.Part
import Verif.Spec.Planar
import Verif.Spec.Print
import Verif.Spec.Range
import Verif.Spec.RoundedBlocks
import Verif.Spec.RoundedBlocksFloat
import Verif.Spec.Rounding
import Verif.Spec.SignedBlocks
import Verif.Spec.SpecialArith
import Verif.Spec.SpecialFloat
import Verif.Spec.Sum
import Verif.Spec.Symmetry
import Verif.Spec.Tuned
import Verif.Spec.World
