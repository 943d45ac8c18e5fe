import Verif.Props.LinComb
import Verif.Props.Interp
import Verif.Props.Field
import Verif.Props.Solvers
import Verif.Props.Display
import Verif.Props.Flat
import Verif.Props.Optimizer
import Verif.Props.OptimizerExamples
import Verif.Props.Gadgets
import Verif.Props.Compile
import Verif.Props.CompileExamples
import Verif.Props.Propagator
import Verif.Props.Abi
import Verif.Props.SerializeExamples
import Verif.Props.ExportExamples
import Verif.Props.UintOptExamples
import Verif.Props.Complete
import Verif.Props.EndToEnd
import Verif.Props.EndToEndExamples
import Verif.Props.NoWrap
import Verif.Props.PanicsExamples
import Verif.Props.DeadCodeExamples
import Verif.Props.TypeSound
import Verif.Props.Assembly
import Verif.Props.AssemblyExamples
import Verif.Props.PipelineExamples
import Verif.Props.FlattenTypesExamples
import Verif.Props.VariableWrite
import Verif.Props.ConditionRedefiner
import Verif.Props.BooleanArray
import Verif.Props.Checkers
import Verif.Props.Analysis
import Verif.Props.AnalysisExamples
import Verif.Props.TypedPropagator
import Verif.Props.TypedPropagatorExamples
import Verif.Props.AnalysisFull
import Verif.Props.AnalysisFullExamples
import Verif.Props.Reducer
import Verif.Props.ReducerExamples
import Verif.Props.Whole
import Verif.Props.WholeExamples
import Verif.Props.StdPack
import Verif.Props.StdEcc
import Verif.Props.StdSha
import Verif.Props.StdEddsa
import Verif.Props.StdKeccak
import Verif.Props.StdBlake
import Verif.Props.StdMimc
import Verif.Props.StdPoseidon
import Verif.Props.StdPedersen
import Verif.Props.Semantics
import Verif.Props.Source
import Verif.Props.SourceExamples
import Verif.Props.Nova
import Verif.Props.NovaExamples
import Verif.Props.Bellperson
import Verif.Props.ProofJson
import Verif.Props.Solidity
import Verif.Props.SolidityGm17
