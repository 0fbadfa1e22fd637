import Verif.Model.Base
import Verif.Model.Types
import Verif.Model.Core
import Verif.Model.Double
import Verif.Model.Basic
import Verif.Model.NN
import Verif.Model.Math
import Verif.Spec.Tensor
import Verif.Spec.Example
import Verif.Proof.Mem
import Verif.Proof.Core
import Verif.Proof.Tensor
import Verif.Proof.Elem
import Verif.Proof.Bytes
import Verif.Proof.Grows
import Verif.Props.Core
import Verif.Spec.Arith
import Verif.Proof.Unary
import Verif.Proof.Arith
import Verif.Props.Elementwise
import Verif.Spec.Index
import Verif.Proof.Index
import Verif.Proof.Broadcast
import Verif.Props.Index
import Verif.Spec.Squeeze
import Verif.Proof.Squeeze
import Verif.Props.Squeeze
import Verif.Spec.Double
import Verif.Proof.Double
import Verif.Spec.Slice
import Verif.Proof.Temp
import Verif.Proof.Slice
import Verif.Proof.Duplicate
import Verif.Props.Slice
import Verif.Spec.NN
import Verif.Proof.Array
import Verif.Proof.Dropout
import Verif.Proof.Softmax
import Verif.Proof.SoftmaxTop
import Verif.Props.NN
import Verif.Spec.Math
import Verif.Proof.Binary
import Verif.Props.Math
import Verif.Model.Matmul
import Verif.Spec.Matmul
import Verif.Proof.Matmul
import Verif.Proof.MatmulTop
import Verif.Proof.BatchIndex
import Verif.Proof.MatmulBatch
import Verif.Proof.MatmulTV
import Verif.Proof.MatmulTT
import Verif.Proof.MatmulBig
import Verif.Proof.MatmulMixed
import Verif.Props.Matmul
import Verif.Model.Dot
import Verif.Proof.Dot
import Verif.Proof.DotFill
import Verif.Proof.DotTop
import Verif.Props.Dot
import Verif.Model.Pooling
import Verif.Spec.Pooling
import Verif.Proof.Pooling
import Verif.Proof.PoolingFill
import Verif.Proof.PoolingTop
import Verif.Proof.PoolingModes
import Verif.Props.Pooling
import Verif.Model.Conv
import Verif.Model.BatchNorm
import Verif.Spec.Conv
import Verif.Proof.Scratch
import Verif.Proof.Conv
import Verif.Proof.ConvFill
import Verif.Proof.ConvTop
import Verif.Props.Conv
import Verif.Spec.BatchNorm
import Verif.Proof.Pool
import Verif.Proof.BatchNorm
import Verif.Proof.BatchNorm2
import Verif.Proof.BatchNorm3
import Verif.Proof.BatchNorm4
import Verif.Proof.BatchNorm5
import Verif.Proof.BatchNorm6
import Verif.Proof.BatchNorm7
import Verif.Proof.BatchNorm8
import Verif.Proof.BatchNormTop
import Verif.Props.BatchNorm
import Verif.Proof.Quiet
import Verif.Proof.QuietOps
import Verif.Proof.Own
import Verif.Proof.OwnOp
import Verif.Proof.OwnOps
import Verif.Proof.OwnMat
import Verif.Proof.OwnNN
import Verif.Proof.OwnBn
import Verif.Spec.Frame
import Verif.Props.Frame
import Verif.Spec.Oom
import Verif.Proof.Served
import Verif.Props.Oom
import Verif.Proof.Unknown
import Verif.Proof.PoolingUnknown
import Verif.Proof.DotUnknown
import Verif.Props.Unknown
import Verif.Spec.History
import Verif.Props.History
import Verif.Spec.Meets
import Verif.Props.Live
import Verif.Model.AutoTest
import Verif.Spec.AutoTest
import Verif.Proof.AutoTest
import Verif.Proof.AutoTest2
import Verif.Props.AutoTest
import Verif.Spec.Local
import Verif.Proof.Local
import Verif.Proof.LocalOps
import Verif.Props.Local
import Verif.Spec.Statuses
import Verif.Proof.Gives
import Verif.Proof.GivesOps
import Verif.Proof.GivesTop
import Verif.Props.Statuses
import Verif.Model.Harness
import Verif.Spec.Harness
import Verif.Proof.Harness
import Verif.Props.Harness
import Verif.Proof.Keeps
import Verif.Proof.SqueezeAll
import Verif.Spec.Ieee
import Verif.Proof.Ieee
import Verif.Test.Lib
import Verif.Test.Basic
import Verif.Test.Math
import Verif.Test.Conv
import Verif.Test.Pooling
import Verif.Test.NN
import Verif.Spec.Exact
import Verif.Proof.IeeeVal
import Verif.Props.Exact
import Verif.Proof.IeeeOrd
import Verif.Proof.IeeeSqrt
import Verif.Props.Ieee
import Verif.Spec.Range
import Verif.Proof.IeeeRound
import Verif.Proof.IeeeRange
import Verif.Proof.IeeeAct
import Verif.Props.Range
import Verif.Spec.Commute
import Verif.Proof.Commute
import Verif.Props.Commute
import Verif.Proof.Batch
import Verif.Props.Batch
import Verif.Spec.Calc
import Verif.Proof.Calc
import Verif.Proof.IeeeLaws
import Verif.Props.Calc
import Verif.Spec.MatCalc
import Verif.Proof.MatCalc
import Verif.Props.MatCalc
import Verif.Proof.IeeeSelect
import Verif.Props.Select
import Verif.Props.Holds
import Verif.Spec.Neutral
import Verif.Proof.Neutral
import Verif.Props.Neutral
import Verif.Spec.Casts
import Verif.Proof.Casts
import Verif.Props.Casts
import Verif.Spec.Alloc
import Verif.Spec.AllocProg
import Verif.Proof.Alloc
import Verif.Props.Alloc
import Verif.Proof.Relabel
import Verif.Spec.ReadOnly
import Verif.Props.ReadOnly
import Verif.Spec.Regroup
import Verif.Props.Regroup
import Verif.Spec.Overlap
import Verif.Props.Overlap
import Verif.Spec.Invalid
import Verif.Proof.Invalid
import Verif.Props.Invalid
import Verif.Spec.Nearest
import Verif.Proof.IeeeNear
import Verif.Proof.IeeeRoot
import Verif.Props.Nearest
import Verif.Spec.Error
import Verif.Proof.IeeeFma
import Verif.Proof.IeeeMac
import Verif.Proof.Error
import Verif.Proof.ErrorAvg
import Verif.Props.Error
import Verif.Props.ErrorAvg
import Verif.Spec.Order
import Verif.Proof.IeeeMono
import Verif.Proof.OrderVal
import Verif.Props.Order
import Verif.Spec.Norm
import Verif.Proof.NormVal
import Verif.Props.Norm
import Verif.Spec.Share
import Verif.Proof.ShareVal
import Verif.Props.Share
import Verif.Spec.PoolLaws
import Verif.Proof.PoolVal
import Verif.Proof.PoolLaws
import Verif.Props.PoolLaws
import Verif.Spec.Border
import Verif.Proof.Border
import Verif.Props.Border
import Verif.Spec.Columns
import Verif.Props.Columns
import Verif.Spec.Tiles
import Verif.Proof.Tiles
import Verif.Props.Tiles
import Verif.Spec.Mirror
import Verif.Proof.Mirror
import Verif.Props.Mirror
import Verif.Spec.Scale
import Verif.Proof.Scale
import Verif.Proof.ScaleRoot
import Verif.Props.Scale
import Verif.Spec.Maxima
import Verif.Spec.Cancel
import Verif.Proof.Maxima
import Verif.Proof.Cancel
import Verif.Proof.PoolRoot
import Verif.Props.Maxima
import Verif.Props.Cancel
import Verif.Props.PoolRoot
import Verif.Props.SquareRoot
import Verif.Props.Parts
import Verif.Props.Larger
import Verif.Props.Crash
import Verif.Props.CrashNorm
