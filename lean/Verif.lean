import Verif.CMem.Basic
import Verif.CMem.Lemmas
import Verif.CMem.Spec
import Verif.Graph.Model
import Verif.Graph.Spec
import Verif.Graph.Sort
import Verif.Graph.Live
import Verif.Graph.CstAlloc
import Verif.Graph.Exec
import Verif.Graph.Refine
import Verif.Graph.Facts
import Verif.CMem.Loops
import Verif.CMem.Eval
import Verif.Layers.Numpy
import Verif.Layers.Linear
import Verif.Props.Linear
import Verif.Props.Graph
import Verif.Layers.Broadcast
import Verif.Layers.Move
import Verif.Props.Broadcast
import Verif.Props.Move
import Verif.Props.Pad
import Verif.CMem.Rows
import Verif.Layers.Conv
import Verif.Layers.Pooling
import Verif.CMem.Addr
import Verif.Layers.Layout
import Verif.CMem.Cell
import Verif.CMem.Fresh
import Verif.Layers.Reduce
import Verif.Props.Conv
import Verif.Props.Pooling
import Verif.Props.Layout
import Verif.Props.Reduce
import Verif.Layers.Activations
import Verif.Layers.Norm
import Verif.Props.Activations
import Verif.Props.Norm
import Verif.Layers.Resize
import Verif.Props.Resize
import Verif.Props.Resize2
import Verif.Props.Resize3
import Verif.CMem.Writes
import Verif.Layers.Direct
import Verif.Props.Direct
import Verif.Props.Winograd
import Verif.Gen.Padding
import Verif.Gen.Sizes
import Verif.Props.Padding
import Verif.Props.Sizes
import Verif.Graph.Adjacent
import Verif.Opt.Model
import Verif.Opt.Lemmas
import Verif.Opt.Inv
import Verif.Opt.Pass
import Verif.Opt.Load
import Verif.Opt.NoRaise
import Verif.Opt.Fold
import Verif.Opt.RealSem
import Verif.Opt.Renumber
import Verif.Opt.Code
import Verif.Opt.Safe
import Verif.Opt.LoadSafe
import Verif.Opt.Run
import Verif.Opt.Interp
import Verif.Opt.Examples
import Verif.Props.Fusion
import Verif.Props.Opt
import Verif.Gen.Registry
import Verif.Props.Registry
import Verif.Gen.Driver
import Verif.Props.Driver
import Verif.Gen.DriverRows
import Verif.Gen.Files
import Verif.Props.Files
import Verif.Gen.Text
import Verif.Props.Text
import Verif.Gen.PyFloat
import Verif.Gen.Normalize
import Verif.Gen.Nnet
import Verif.Gen.Compare
import Verif.Gen.Quantize
import Verif.Gen.Debug
import Verif.Props.Normalize
import Verif.Props.Nnet
import Verif.Props.Compare
import Verif.Props.Quantize
import Verif.Props.Debug
import Verif.Net.Model
import Verif.Net.Ops
import Verif.Net.Ops2
import Verif.Net.Run
import Verif.Net.Examples
import Verif.Net.Keeps
import Verif.Net.TestRun
import Verif.Net.TestRunExamples
import Verif.CText.Templates
import Verif.CText.Lex
import Verif.CText.Syntax
import Verif.CText.Sem
import Verif.CText.Sim
import Verif.CText.Tac
import Verif.CText.Act
import Verif.CText.Std
import Verif.CText.Rules
import Verif.CText.Linear
import Verif.CText.Move
import Verif.CText.Gather
import Verif.CText.Pad
import Verif.CText.Io
import Verif.CText.Norm
import Verif.CText.Conv
import Verif.CText.LinearCode
import Verif.CText.MoveCode
import Verif.CText.GatherCode
import Verif.CText.PadCode
import Verif.CText.IoCode
import Verif.CText.NormCode
import Verif.CText.ConvCode
import Verif.CText.Parse
import Verif.CText.Gemm
import Verif.CText.Reduce
import Verif.CText.StdGemm
import Verif.CText.Concat
import Verif.CText.GemmCode
import Verif.CText.ReduceCode
import Verif.CText.StdGemmCode
import Verif.CText.ConcatCode
import Verif.CText.BroadcastCode
import Verif.CText.Broadcast
import Verif.CText.ResizeCode
import Verif.CText.ResizeTf
import Verif.CText.Resize
import Verif.CText.Concatenation
import Verif.CText.SourceCode
import Verif.CText.ActLayer
import Verif.CText.Emits
import Verif.CText.Compiles
import Verif.CText.Source
import Verif.CText.SourceExamples
import Verif.CText.Grammar
import Verif.Onnx.Tensor
import Verif.Onnx.Proto
import Verif.Onnx.Create
import Verif.Onnx.Load
import Verif.Onnx.TensorFacts
import Verif.Onnx.Spec
import Verif.Onnx.Local
import Verif.Onnx.LocalBin
import Verif.Onnx.LocalWin
import Verif.Onnx.LocalLin
import Verif.Onnx.LocalMove
import Verif.Onnx.LocalPad
import Verif.Onnx.Supported
import Verif.Onnx.NodeOk
import Verif.Onnx.Wire
import Verif.Onnx.Inv
import Verif.Onnx.Link
import Verif.Onnx.Import
import Verif.Onnx.LocalConst
import Verif.Onnx.Wiring
import Verif.Onnx.OpsProps
import Verif.Onnx.NodeProps
import Verif.Onnx.Examples
import Verif.Onnx.Sizes
import Verif.Onnx.Generated
import Verif.Onnx.GeneratedExamples
import Verif.Onnx.Program
import Verif.Onnx.ProgramExamples
import Verif.CText.FileTemplates
import Verif.CText.Files
import Verif.CText.Header
import Verif.CText.Arrays
import Verif.CText.Linked
import Verif.CText.Project
import Verif.CText.Unique
import Verif.CText.ProjectExamples
import Verif.Keras.Load
import Verif.Keras.Spec
import Verif.Keras.Proto
import Verif.Keras.Values
import Verif.Keras.Local
import Verif.Keras.Local2
import Verif.Keras.Supported
import Verif.Keras.Coded
import Verif.Keras.Wire
import Verif.Keras.Import
import Verif.Keras.Wiring
import Verif.Keras.Program
import Verif.Keras.Examples
import Verif.Keras.Defects
import Verif.Torch.Proto
import Verif.Torch.Load
import Verif.Torch.Spec
import Verif.Torch.Flow
import Verif.Torch.Listed
import Verif.Torch.Fuse
import Verif.Torch.Local
import Verif.Torch.Local2
import Verif.Torch.Supported
import Verif.Torch.Inv
import Verif.Torch.Moves
import Verif.Torch.Calls
import Verif.Torch.Step
import Verif.Torch.Import
import Verif.Torch.Program
import Verif.Torch.Examples
import Verif.Torch.Defects
import Verif.Export.Export
import Verif.Export.Names
import Verif.Export.Local
import Verif.Export.Local2
import Verif.Export.Local3
import Verif.Export.LocalPad
import Verif.Export.Supported
import Verif.Export.Eval
import Verif.Export.Main
import Verif.Export.Typed
import Verif.Export.Examples
import Verif.Export.Defects
import Verif.OptNet.Follow
import Verif.OptNet.Model
import Verif.OptNet.Sem
import Verif.OptNet.Layer
import Verif.OptNet.Layer2
import Verif.OptNet.Main
import Verif.OptNet.Main2
import Verif.OptNet.Examples
import Verif.CText.DirectText
import Verif.CText.NormalizeText
import Verif.CText.Transfer
import Verif.Net.RefLength
import Verif.CText.NormalSource
import Verif.CText.NnetText
import Verif.CText.NormalFiles
import Verif.CText.NnetExamples
import Verif.CText.ConvForms
import Verif.CText.IndirectForms
import Verif.CText.ConvFormsExample
import Verif.Layers.PoolHWC
import Verif.Layers.Indirect
import Verif.Props.Indirect
import Verif.Props.PoolHWC
import Verif.CText.PoolForms
import Verif.CText.PoolFormsExample
import Verif.CText.Casts
import Verif.CText.PoolTextCode
import Verif.CText.PoolText
import Verif.CText.DepthwiseCode
import Verif.CText.Depthwise
