import Verif.Core
import Verif.Mem
import Verif.Validation
import Verif.PropsValidation
import Verif.RowLoops
import Verif.Roi
import Verif.PixelFn
import Verif.PixelCopy
import Verif.PropsPixel
import Verif.Channel
import Verif.PropsChannel
import Verif.Reduce
import Verif.PropsReduce
import Verif.Alloc
import Verif.AllocInv
import Verif.AllocBuddy
import Verif.PropsAlloc
import Verif.Threads
import Verif.ThreadsInv
import Verif.ThreadsLive
import Verif.ThreadsHang
import Verif.PropsThreads
import Verif.Tiles
import Verif.Interleave
import Verif.Pool
import Verif.PoolLocal
import Verif.PoolChannel
import Verif.PoolMove
import Verif.PoolCalls
import Verif.PoolReduce
import Verif.PoolValue
import Verif.PropsPool
import Verif.Buffer
import Verif.BufferInv
import Verif.BufferStep
import Verif.PropsBuffer
import Verif.Blob
import Verif.BlobGraph
import Verif.BlobFind
import Verif.BlobAll
import Verif.PropsBlob
import Verif.Resize
import Verif.PropsResize
import Verif.Convert16
import Verif.PropsConvert16
import Verif.Dilate
import Verif.PropsDilate
import Verif.Rounding
import Verif.Normalize
import Verif.PropsNormalize
import Verif.Otsu
import Verif.PropsOtsu
import Verif.Simd
import Verif.SimdRows
import Verif.SimdLanes
import Verif.SimdSum
import Verif.SimdAdd
import Verif.SimdVec
import Verif.PropsSimd
import Verif.PropsSimdSum
import Verif.SimdPatch
import Verif.SimdMove
import Verif.SimdMoveRows
import Verif.PropsSimdMove
import Verif.Filter
import Verif.FilterLemmas
import Verif.FilterGrad
import Verif.PropsFilter
import Verif.Gauss
import Verif.PropsGauss
import Verif.PropsGaussFloat
import Verif.Haar
import Verif.PropsHaar
import Verif.HaarFloat
import Verif.PropsHaarFloat
import Verif.Arr
import Verif.Roots
import Verif.RootsLemmas
import Verif.PropsRoots
import Verif.Hough
import Verif.HoughLemmas
import Verif.PropsHough
import Verif.LoopInv
import Verif.Raw
import Verif.PropsRaw
import Verif.Light
import Verif.PropsLight
import Verif.Fft
import Verif.PropsFft
import Verif.Line
import Verif.PropsLine
import Verif.TypeManager
import Verif.PropsType
import Verif.Bmp
import Verif.BmpLemmas
import Verif.PropsBmp
import Verif.BmpAny
import Verif.PropsBmpAny
import Verif.Edge
import Verif.EdgeLemmas
import Verif.EdgeFind
import Verif.PropsEdge
import Verif.EdgeShape
import Verif.PropsEdgeFind
import Verif.Rotate
import Verif.RotateLemmas
import Verif.PropsRotate
import Verif.ShiftLemmas
import Verif.PropsShift
import Verif.Forms
import Verif.PropsForms
import Verif.PropsPoolMore
import Verif.GpuGrid
import Verif.Gpu
import Verif.GpuSeq
import Verif.GpuKernel
import Verif.Cuda
import Verif.CudaLemmas
import Verif.PropsGpuGrid
import Verif.PropsCuda
import Verif.GpuAtomic
import Verif.GpuReduce
import Verif.CudaReduce
import Verif.PropsCudaReduce
import Verif.OpenCl
import Verif.OpenClLemmas
import Verif.PropsOpenCl
import Verif.GpuTransfer
import Verif.PropsGpuTransfer
import Verif.CudaSetPixel
import Verif.PropsCudaSetPixel
import Verif.DeviceAlloc
import Verif.PropsDeviceAlloc
import Verif.BlobOuter
import Verif.BlobMeasure
import Verif.PropsBlobMeasure
import Verif.PropsBlobCentre
import Verif.PropsBlobFilter
import Verif.PropsFormats
import Verif.PropsFormatsUse
import Verif.PropsKiss
import Verif.PropsDevArray
import Verif.PropsDevType
import Verif.PropsCudaDevice
import Verif.PropsClDevice
import Verif.PropsClFill
import Verif.PropsCplxData
import Verif.PropsCudaFft
import Verif.PropsFftExec
import Verif.PropsSimdBuild
import Verif.Ui
import Verif.UiLemmas
import Verif.PropsUi
import Verif.PoolLife
import Verif.PoolLifeInv
import Verif.PropsPoolLife
import Verif.UiHist
import Verif.PropsUiHist
import Verif.BufDev
import Verif.BufDevInv
import Verif.PropsBufDev
import Verif.CudaGauss
import Verif.CudaGaussLemmas
import Verif.CudaGaussSums
import Verif.PropsCudaGauss
import Verif.ProvLife
import Verif.PropsProvLife
import Verif.Races
import Verif.PropsRaces
import Verif.Library
import Verif.PropsLibrary
import Verif.FormsMore
import Verif.PropsFormsMore
import Verif.Detectors
import Verif.PropsDetectors
import Verif.Points
import Verif.PropsPoints
import Verif.FilterForms
import Verif.PropsFilterForms
import Verif.BlobParams
import Verif.GridRim
import Verif.PropsBlobParams
import Verif.Rounding24
import Verif.CudaRotate
import Verif.PropsCudaRotate
import Verif.ClSetPixel
import Verif.PropsClSetPixel
import Verif.DeviceForms
import Verif.PropsDeviceForms
import Verif.PoolForms
import Verif.PropsPoolForms
import Verif.ApiForms
import Verif.PropsApiForms
import Verif.PropsApiHost
import Verif.PoolNumbers
import Verif.PropsPoolNumbers
import Verif.ClHandles
import Verif.PropsClHandles
import Verif.PropsHoughFloat
import Verif.ClSupport
import Verif.PropsClSupport
import Verif.LineFl
import Verif.PropsLineFl
import Verif.KissFl
import Verif.KissFlLemmas
import Verif.PropsKissFl
import Verif.EdgeFl
import Verif.EdgeFlLemmas
import Verif.PropsEdgeFl
import Verif.Morph
import Verif.PropsMorph
import Verif.PropsLaws
import Verif.PropsBlobMove
import Verif.PropsSteps
import Verif.PropsFilterLaws
import Verif.PropsNormalizeLaws
import Verif.PropsBmpFile
import Verif.PropsColourLaws
import Verif.PropsEdgeShift
import Verif.PropsParts
import Verif.PropsTiles
