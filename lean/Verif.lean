import Verif.Props.IndexRanges
import Verif.Props.LocalOps
import Verif.Props.LocalExtents
import Verif.Props.NAry
import Verif.Props.Select
import Verif.Props.If
import Verif.Props.NoDataAlgebra
import Verif.Props.Boole
import Verif.Props.Compress
import Verif.Props.Copy
import Verif.Props.Offset
import Verif.Props.Clamp
import Verif.Props.Arith
import Verif.Props.ResultValue
import Verif.Props.Aggregate
import Verif.Props.Accumulators
import Verif.Props.Strings
import Verif.Props.DataName
import Verif.Props.Types
import Verif.Props.Scope
import Verif.Props.Arrays
import Verif.Props.ThreadPool
import Verif.Props.ThreadSafeQueue
import Verif.Props.Identify
import Verif.Props.InOut
import Verif.Props.Annotate
import Verif.Props.Validate
import Verif.Props.Execute
import Verif.Props.Thread
import Verif.Props.Optimize
import Verif.Props.Print
import Verif.Props.Convolve
import Verif.Props.FocalAverage
import Verif.Props.Gradient
import Verif.Props.InPlace
import Verif.Props.Vector
import Verif.Props.Sizes
import Verif.Props.Slope
import Verif.Props.Interpreter
import Verif.Props.Variance
import Verif.Props.FernDataset
import Verif.Props.Drivers
import Verif.Props.CommandLine
import Verif.Props.Compile
import Verif.Props.Script
import Verif.Props.Domains
import Verif.Props.Features
import Verif.Props.Gdal
import Verif.Props.PyOps
import Verif.Props.Messages
import Verif.Props.Command
import Verif.Props.Cast
import Verif.Props.Accepted
import Verif.Props.Shell
import Verif.Props.ShellExact
import Verif.Props.FloatArith
import Verif.Props.FloatCount
import Verif.Props.FloatSum
import Verif.Props.Whole
import Verif.Props.Programs
import Verif.Props.Dot
import Verif.Props.Flow
import Verif.Props.DotText
import Verif.Props.Clients
import Verif.Props.Parsing
import Verif.Props.PathNames
import Verif.Props.Trees
import Verif.Props.Handles
import Verif.Props.Headers
import Verif.Props.Netcdf
import Verif.Props.StdOps
import Verif.Props.PrintValue
import Verif.Props.Kernel
import Verif.Props.Smooth
import Verif.Props.FileTypes
import Verif.Props.Compiler
import Verif.Props.PySession
import Verif.Props.PoolRun
import Verif.Props.Descriptions
import Verif.Props.Futures
import Verif.Props.IntRaster
import Verif.Props.FloatRaster
import Verif.Props.PyFloat
import Verif.Props.PySlope
import Verif.Props.FloatVector
import Verif.Props.FloatConvolve
import Verif.Props.FloatSpread
import Verif.Props.FloatGradient
import Verif.Props.FloatOrder
import Verif.Props.FloatFocal
import Verif.Props.SlopeError
import Verif.Props.DeviationError
import Verif.Props.FloatMode
import Verif.Props.IntUnary
import Verif.Props.Errno
import Verif.Props.Library
