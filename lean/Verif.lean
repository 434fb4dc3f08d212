import Verif.Basic
import Verif.Tensor
import Verif.TensorLemmas
import Verif.Manips
import Verif.Group
import Verif.Wallpaper
import Verif.Space
import Verif.Stack
import Verif.SPerm
import Verif.GridAction
import Verif.OhAction
import Verif.Sym
import Verif.ManipsLemmas
import Verif.Spec
import Verif.GroupLemmas
import Verif.MatrixLemmas
import Verif.GridErrors
import Verif.ActionLemmas
import Verif.Props.Groups
import Verif.Props.Actions
import Verif.Derived
import Verif.Props.Derived
import Verif.Props.Manips
import Verif.Props.ManipsExact
import Verif.Padding
import Verif.Keras
import Verif.PaddingLemmas
import Verif.Read
import Verif.Props.Padding
import Verif.Transforms
import Verif.Layers
import Verif.Layout
import Verif.KernelLemmas
import Verif.TransformLemmas
import Verif.SignalLemmas
import Verif.LayerSpec
import Verif.BuildLemmas
import Verif.NegativeLemmas
import Verif.Props.NegativeAxis
import Verif.ConvLemmas
import Verif.PadAmounts
import Verif.WeightLemmas
import Verif.Props.Conv
import Verif.EquivLemmas
import Verif.ConvEquiv
import Verif.Props.Equivariance
import Verif.ConvFirst
import Verif.FirstEquiv
import Verif.Props.Format
import Verif.ShapeLemmas
import Verif.Props.Shape
import Verif.Props.ShapeExact
import Verif.Props.Stable
import Verif.Props.State
import Verif.TransposeLemmas
import Verif.TransposeEquiv
import Verif.Props.Transpose
import Verif.Pooling
import Verif.PoolSpec
import Verif.PoolLemmas
import Verif.PoolEquiv
import Verif.GlobalPoolLemmas
import Verif.Props.Pooling
import Verif.Equiv
import Verif.StackSpec
import Verif.CheckLemmas
import Verif.BatchLemmas
import Verif.Props.Check
import Verif.StackLemmas
import Verif.Props.Stack
import Verif.Props.Config
import Verif.Props.Options
import Verif.AssertLemmas
import Verif.TotalLemmas
import Verif.Props.Build
import Verif.Props.Slices
import Verif.Raw
import Verif.RawLemmas
import Verif.Props.Arguments
import Verif.MovedLemmas
import Verif.Props.FormatLayers
import Verif.Grouped
import Verif.GroupedLemmas
import Verif.Props.Grouped
import Verif.CallsLemmas
import Verif.Props.Calls
import Verif.Traced
import Verif.TracedLemmas
import Verif.Props.Traced
import Verif.Props.Dictionary
import Verif.GroupAxisLemmas
import Verif.Props.GroupAxis
import Verif.Training
import Verif.Props.Training
import Verif.Relational
import Verif.PoolRelational
import Verif.Props.Linear
import Verif.Props.Range
import Verif.TranslateLemmas
import Verif.Props.Translate
import Verif.Props.TranslateWindows
import Verif.Props.SubgroupLayer
import Verif.ChainLemmas
import Verif.Props.Chain
import Verif.Props.Subgroups
import Verif.Props.Axes
import Verif.SpatialLemmas
import Verif.Props.SpatialAxes
import Verif.Props.Dimension
import Verif.Props.Documentation
import Verif.MovedSpec
import Verif.RectLemmas
import Verif.Props.Rectangles
import Verif.AdjointLemmas
import Verif.Props.Adjoint
import Verif.CompleteLemmas
import Verif.Props.Complete
import Verif.ExactLemmas
import Verif.Props.Exact
import Verif.ExactTLemmas
import Verif.Props.ExactTranspose
import Verif.PoolMovedSpec
import Verif.PoolExactLemmas
import Verif.Props.ExactPool
import Verif.NetSpec
import Verif.NetLemmas
import Verif.Props.Network
import Verif.UserGroup
import Verif.Props.UserGroup
import Verif.Props.Usual
import Verif.Props.Errors
import Verif.Concurrent
import Verif.Props.Concurrent
import Verif.Props.Local
import Verif.Notebook
import Verif.NotebookLemmas
import Verif.Props.Notebook
import Verif.Sequential
import Verif.SequentialLemmas
import Verif.Props.Sequential
import Verif.AugmentSpec
import Verif.Props.Augment
import Verif.GroupedExactLemmas
import Verif.Props.GroupedExact
import Verif.OutputPadding
import Verif.OutputPaddingLemmas
import Verif.Props.OutputPadding
import Verif.BuildErrorLemmas
import Verif.Props.BuildErrors
import Verif.WindowLemmas
import Verif.Props.ExactConfig
import Verif.FirstMovedSpec
import Verif.FirstMovedLemmas
import Verif.Props.FormatMoved
import Verif.Props.FormatTwin
import Verif.Props.FirstFormat
import Verif.Props.FirstLocal
import Verif.Props.FirstMaximum
import Verif.Props.FirstStack
import Verif.Props.FirstSlice
import Verif.Props.FirstAdjoint
import Verif.Props.FirstComplete
import Verif.Props.TransposeKernel
import Verif.Props.DilatedTranspose
import Verif.Props.FirstShape
import Verif.Props.Transformed
import Verif.Props.Determined
import Verif.Props.DeterminedTransposed
import Verif.Props.FirstDeterminedTransposed
import Verif.Props.FirstSequential
import Verif.Props.TranslateMaximum
import Verif.Props.FirstDetermined
import Verif.Props.DimensionGroup
import Verif.Props.FirstOutputPadding
import Verif.Props.RangeExact
import Verif.Binding
import Verif.BindingLemmas
import Verif.Props.CallArguments
