import Verif.Props.Index
import Verif.Props.Tensor
import Verif.Props.View
import Verif.Props.Einsum
import Verif.Props.LinAlg
import Verif.Props.Dispatch
import Verif.Props.TensorAlgebra
import Verif.Props.Tiled
import Verif.Props.TiledLinAlg
import Verif.Props.Block
import Verif.Props.Stl
import Verif.Props.Print
import Verif.Props.Timer
import Verif.Props.ElementOps
import Verif.Props.Utilities
import Verif.Props.Decomposition
import Verif.Props.Als
import Verif.Props.Laguerre
import Verif.Props.FunctionTensor
import Verif.Props.ArithmeticTensor
import Verif.Props.PythonIndices
import Verif.Props.RuntimeTensor
import Verif.Props.PythonPlan
import Verif.Props.PythonTensor
import Verif.Props.TileAlgebra
import Verif.Props.BlockAlgebra
import Verif.Props.BlockSpectral
import Verif.Props.MixedAlgebra
import Verif.Props.Lapack
import Verif.Props.Inverse
import Verif.Props.Spectral
import Verif.Props.Truncated
import Verif.Props.Geev
import Verif.Props.Generic
import Verif.Props.Disk
import Verif.Props.Fft
import Verif.Props.BlockSort
import Verif.Props.BlockGesv
import Verif.Props.Gpu
import Verif.Props.GpuElement
import Verif.Props.GpuContract
import Verif.Props.GpuLinear
import Verif.Props.GpuMatrix
import Verif.Props.GpuView
import Verif.Props.PyGpu
import Verif.Props.PyGpuBlas
import Verif.Props.HipBlas
import Verif.Props.HipSolver
import Verif.Props.Heev
import Verif.Props.Random
import Verif.Props.WeightedAls
import Verif.Props.Tucker
import Verif.Props.ViewAssign
import Verif.Props.InitCp
import Verif.Props.TileLocks
import Verif.Props.Locks
import Verif.Props.BufferFormat
import Verif.Props.SelfCheck
import Verif.Props.PrintTensor
import Verif.Props.PrintParts
import Verif.Props.DeviceRef
import Verif.Props.DeviceMemory
import Verif.Props.Shutdown
import Verif.Props.HostMemory
import Verif.Props.PrintRuntime
import Verif.Props.GpuStreams
import Verif.Props.GpuErrors
import Verif.Props.OmpScope
import Verif.Props.DeviceViews
import Verif.Props.DeviceScalar
import Verif.Props.BlasFront
import Verif.Props.GpuCast
import Verif.Props.ViewOptions
import Verif.Props.PythonRandom
import Verif.Props.ShapeText
import Verif.Props.BitsetEnum
import Verif.Props.BlockNames
import Verif.Props.GaussLaguerre
import Verif.Props.DeviceTransfer
import Verif.Props.TiledDevice
