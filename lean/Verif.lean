import Verif.Model.Base
import Verif.Model.Bincode
import Verif.Model.Convolution
import Verif.Model.IEEE
import Verif.Model.Layers
import Verif.Model.Network
import Verif.Model.Random
import Verif.Model.Tensor
import Verif.Model.Unwind
import Verif.Model.UnwindRun
import Verif.Spec.Accuracy
import Verif.Spec.AnyLayer
import Verif.Spec.Balance
import Verif.Spec.Batch
import Verif.Spec.BatchAccuracy
import Verif.Spec.Beside
import Verif.Spec.Breaks
import Verif.Spec.Channels
import Verif.Spec.Client
import Verif.Spec.Convex
import Verif.Spec.Convolution
import Verif.Spec.CrossEntropy
import Verif.Spec.Custom
import Verif.Spec.CutNet
import Verif.Spec.CutShort
import Verif.Spec.Damage
import Verif.Spec.DeadUnits
import Verif.Spec.Derivative
import Verif.Spec.Descent
import Verif.Spec.Drift
import Verif.Spec.FileSize
import Verif.Spec.Folding
import Verif.Spec.Form
import Verif.Spec.Gaussian
import Verif.Spec.GradCheck
import Verif.Spec.GradCheckReal
import Verif.Spec.Grid
import Verif.Spec.Homogeneous
import Verif.Spec.IEEE
import Verif.Spec.Identity
import Verif.Spec.Index
import Verif.Spec.Infinity
import Verif.Spec.Influence
import Verif.Spec.Layers
import Verif.Spec.Leak
import Verif.Spec.LoadMemory
import Verif.Spec.Locality
import Verif.Spec.LossScale
import Verif.Spec.Memory
import Verif.Spec.Merge
import Verif.Spec.Monotone
import Verif.Spec.NaNLoss
import Verif.Spec.NaNParameter
import Verif.Spec.Network
import Verif.Spec.Operations
import Verif.Spec.Opposite
import Verif.Spec.Pieces
import Verif.Spec.Platform
import Verif.Spec.PoolTwice
import Verif.Spec.Pooling
import Verif.Spec.Pruning
import Verif.Spec.Raising
import Verif.Spec.ReadOff
import Verif.Spec.Real
import Verif.Spec.RealGradient
import Verif.Spec.Renumber
import Verif.Spec.Repeated
import Verif.Spec.Rescaling
import Verif.Spec.Robust
import Verif.Spec.Rounding
import Verif.Spec.Scaling
import Verif.Spec.Serialization
import Verif.Spec.Shifting
import Verif.Spec.Shorten
import Verif.Spec.SignedZero
import Verif.Spec.StepDown
import Verif.Spec.Stride
import Verif.Spec.Tensor
import Verif.Spec.Toy
import Verif.Spec.Turned
import Verif.Spec.Twins
import Verif.Spec.Uniform
import Verif.Spec.Units
import Verif.Spec.Unrolled
import Verif.Spec.UnwindRun
import Verif.Spec.Windows
import Verif.Lemmas.AnyLayer
import Verif.Lemmas.Assembled
import Verif.Lemmas.Backward
import Verif.Lemmas.Balance
import Verif.Lemmas.Basic
import Verif.Lemmas.Batch
import Verif.Lemmas.BatchError
import Verif.Lemmas.Bincode
import Verif.Lemmas.Channels
import Verif.Lemmas.Classifier
import Verif.Lemmas.Constructors
import Verif.Lemmas.ConvLayer
import Verif.Lemmas.Convex
import Verif.Lemmas.Convolution
import Verif.Lemmas.ConvolutionBackward
import Verif.Lemmas.ConvolutionHuge
import Verif.Lemmas.ConvolutionUnsafe
import Verif.Lemmas.CrossEntropy
import Verif.Lemmas.Custom
import Verif.Lemmas.CutNet
import Verif.Lemmas.CutNoticed
import Verif.Lemmas.CutShort
import Verif.Lemmas.Damage
import Verif.Lemmas.DeadClass
import Verif.Lemmas.DeadUnits
import Verif.Lemmas.Derivative
import Verif.Lemmas.Descent
import Verif.Lemmas.Drift
import Verif.Lemmas.Elementwise
import Verif.Lemmas.ExactConditions
import Verif.Lemmas.FileKinds
import Verif.Lemmas.FileSize
import Verif.Lemmas.Fitting
import Verif.Lemmas.Folding
import Verif.Lemmas.Form
import Verif.Lemmas.FreshStart
import Verif.Lemmas.FullyConnected
import Verif.Lemmas.Gaussian
import Verif.Lemmas.Geometry
import Verif.Lemmas.GradCheck
import Verif.Lemmas.GradCheckNet
import Verif.Lemmas.GradCheckReal
import Verif.Lemmas.GradientNear
import Verif.Lemmas.Homogeneous
import Verif.Lemmas.IEEE
import Verif.Lemmas.IEEEAccuracy
import Verif.Lemmas.IEEEError
import Verif.Lemmas.IEEEExact
import Verif.Lemmas.IEEEGate
import Verif.Lemmas.IEEEIdentity
import Verif.Lemmas.IEEEIdle
import Verif.Lemmas.IEEELaws
import Verif.Lemmas.IEEEMono
import Verif.Lemmas.IEEEMonotone
import Verif.Lemmas.IEEENetwork
import Verif.Lemmas.IEEEPruning
import Verif.Lemmas.IEEERaising
import Verif.Lemmas.IEEERounding
import Verif.Lemmas.IEEEScaling
import Verif.Lemmas.IEEEShifting
import Verif.Lemmas.IEEESoftmax
import Verif.Lemmas.IEEESqrt
import Verif.Lemmas.IEEESum
import Verif.Lemmas.IEEEVoid
import Verif.Lemmas.IEEEZero
import Verif.Lemmas.Infer
import Verif.Lemmas.Infinity
import Verif.Lemmas.Influence
import Verif.Lemmas.Laws
import Verif.Lemmas.LayerDerivative
import Verif.Lemmas.Layout
import Verif.Lemmas.Leak
import Verif.Lemmas.Linear
import Verif.Lemmas.LoadMemory
import Verif.Lemmas.Loading
import Verif.Lemmas.LoadingDebug
import Verif.Lemmas.Locality
import Verif.Lemmas.LogSoftmax
import Verif.Lemmas.LossGradient
import Verif.Lemmas.LossScale
import Verif.Lemmas.Matrix
import Verif.Lemmas.Memory
import Verif.Lemmas.Merge
import Verif.Lemmas.Misuse
import Verif.Lemmas.NaNInput
import Verif.Lemmas.NaNLoss
import Verif.Lemmas.NaNParameter
import Verif.Lemmas.Network
import Verif.Lemmas.NetworkDerivative
import Verif.Lemmas.NormLaws
import Verif.Lemmas.Opposite
import Verif.Lemmas.Order
import Verif.Lemmas.Passing
import Verif.Lemmas.Pieces
import Verif.Lemmas.Platform
import Verif.Lemmas.PlatformFiles
import Verif.Lemmas.PlatformLayers
import Verif.Lemmas.PlatformNaN
import Verif.Lemmas.PlatformZero
import Verif.Lemmas.PoolRelu
import Verif.Lemmas.PoolTwice
import Verif.Lemmas.Pooling
import Verif.Lemmas.Profiles
import Verif.Lemmas.ReadOff
import Verif.Lemmas.Real
import Verif.Lemmas.RealGradient
import Verif.Lemmas.Renumber
import Verif.Lemmas.Repeated
import Verif.Lemmas.Rescaling
import Verif.Lemmas.Robust
import Verif.Lemmas.Saturation
import Verif.Lemmas.Scatter
import Verif.Lemmas.Serialization
import Verif.Lemmas.Shorten
import Verif.Lemmas.Softmax
import Verif.Lemmas.SoftmaxGradient
import Verif.Lemmas.Split
import Verif.Lemmas.StepDown
import Verif.Lemmas.Stride
import Verif.Lemmas.Switch
import Verif.Lemmas.Tensor
import Verif.Lemmas.Turned
import Verif.Lemmas.Twins
import Verif.Lemmas.Uniform
import Verif.Lemmas.Unrolled
import Verif.Lemmas.Unwind
import Verif.Lemmas.UnwindNet
import Verif.Lemmas.UnwindRun
import Verif.Lemmas.Weighted
import Verif.Lemmas.Windows
import Verif.Props.Assembled
import Verif.Props.Balance
import Verif.Props.Batch
import Verif.Props.BatchAccuracy
import Verif.Props.Beside
import Verif.Props.Breaks
import Verif.Props.Channels
import Verif.Props.Checkpoint
import Verif.Props.Classifier
import Verif.Props.Constructors
import Verif.Props.ConvLayer
import Verif.Props.Convex
import Verif.Props.Convolution
import Verif.Props.CrossEntropy
import Verif.Props.Custom
import Verif.Props.CutNet
import Verif.Props.CutShort
import Verif.Props.Damage
import Verif.Props.DeadClass
import Verif.Props.DeadClassTraining
import Verif.Props.DeadUnits
import Verif.Props.Derivative
import Verif.Props.Descent
import Verif.Props.Drift
import Verif.Props.Elementwise
import Verif.Props.Equality
import Verif.Props.Exact
import Verif.Props.ExactConditions
import Verif.Props.FileKinds
import Verif.Props.FileSize
import Verif.Props.FinalSoftmax
import Verif.Props.Fitting
import Verif.Props.Folding
import Verif.Props.Form
import Verif.Props.FreshStart
import Verif.Props.FullyConnected
import Verif.Props.Gaussian
import Verif.Props.Geometry
import Verif.Props.GradCheck
import Verif.Props.GradCheckReal
import Verif.Props.GradientAccuracy
import Verif.Props.GradientRounding
import Verif.Props.Homogeneous
import Verif.Props.IEEE
import Verif.Props.Identity
import Verif.Props.Infinity
import Verif.Props.Influence
import Verif.Props.Laws
import Verif.Props.Layout
import Verif.Props.Leak
import Verif.Props.Linear
import Verif.Props.LoadMemory
import Verif.Props.LoadedExact
import Verif.Props.Loading
import Verif.Props.Locality
import Verif.Props.LossScale
import Verif.Props.Matrix
import Verif.Props.Memory
import Verif.Props.Merge
import Verif.Props.Misuse
import Verif.Props.Modes
import Verif.Props.Monotone
import Verif.Props.NaNInput
import Verif.Props.NaNLoss
import Verif.Props.NaNParameter
import Verif.Props.Network
import Verif.Props.NetworkDerivative
import Verif.Props.NetworkFiles
import Verif.Props.NetworkRounding
import Verif.Props.Norm
import Verif.Props.NormLaws
import Verif.Props.Passing
import Verif.Props.Pieces
import Verif.Props.Platform
import Verif.Props.PoolRelu
import Verif.Props.PoolTwice
import Verif.Props.Pooling
import Verif.Props.Portable
import Verif.Props.PowerOfTwo
import Verif.Props.Profiles
import Verif.Props.Pruning
import Verif.Props.Raising
import Verif.Props.Random
import Verif.Props.ReadOff
import Verif.Props.ReluBits
import Verif.Props.Renumber
import Verif.Props.Repeated
import Verif.Props.Rescaling
import Verif.Props.Robust
import Verif.Props.Rounding
import Verif.Props.Saturation
import Verif.Props.Scores
import Verif.Props.ScoresF32
import Verif.Props.Serialization
import Verif.Props.Setters
import Verif.Props.Shifting
import Verif.Props.Shorten
import Verif.Props.SignedZero
import Verif.Props.Softmax
import Verif.Props.SoftmaxGradient
import Verif.Props.Split
import Verif.Props.StepDown
import Verif.Props.Stride
import Verif.Props.Temperature
import Verif.Props.TensorAccess
import Verif.Props.Turned
import Verif.Props.Twins
import Verif.Props.Uniform
import Verif.Props.Units
import Verif.Props.Unrolled
import Verif.Props.Unseen
import Verif.Props.Unwind
import Verif.Props.UnwindRun
import Verif.Props.Windows
import Verif.Props.ZeroGradient
import Verif.Tests.Base
import Verif.Tests.Convolution
import Verif.Tests.Layers
import Verif.Tests.Network
import Verif.Tests.Tensor
