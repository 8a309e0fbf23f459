import Verif.Lemmas.Friction
import Verif.Lemmas.FrictionRate
import Verif.Lemmas.Report
import Verif.Model.Checks
import Verif.Model.ChemExergy
import Verif.Model.CombRows
import Verif.Model.CompressorMap
import Verif.Model.ConnResults
import Verif.Model.DefaultChars
import Verif.Model.DesignFiles
import Verif.Model.DocEqs
import Verif.Model.Engine
import Verif.Model.EngineRows
import Verif.Model.EntropyBal
import Verif.Model.FluidCat
import Verif.Model.Friction
import Verif.Model.HeatTransfer
import Verif.Model.HexSpec
import Verif.Model.IterInfo
import Verif.Model.Iterate
import Verif.Model.Lookup
import Verif.Model.MixInverse
import Verif.Model.MovingBoundary
import Verif.Model.NetBalance
import Verif.Model.NewtonStep
import Verif.Model.NumRows
import Verif.Model.OptimRun
import Verif.Model.ParamTables
import Verif.Model.Plotting
import Verif.Model.Printing
import Verif.Model.ReactionSetup
import Verif.Model.Reactors
import Verif.Model.Report
import Verif.Model.ResultTables
import Verif.Model.Sankey
import Verif.Model.Solar
import Verif.Model.SpecDrift
import Verif.Model.StartValues
import Verif.Model.SteamTurbine
import Verif.Model.UserEq
import Verif.Model.WrapperBranches
import Verif.Model.Wrappers
import Verif.Props.Assembly
import Verif.Props.Balance
import Verif.Props.Branches
import Verif.Props.Bus
import Verif.Props.BusLoad
import Verif.Props.Carnot
import Verif.Props.CarnotInternal
import Verif.Props.CharLine
import Verif.Props.CharMap
import Verif.Props.CharMeaning
import Verif.Props.CheckFlue
import Verif.Props.CheckLimits
import Verif.Props.CheckMachines
import Verif.Props.CheckMore
import Verif.Props.Checks
import Verif.Props.ChemExergy
import Verif.Props.Columns
import Verif.Props.CombRows
import Verif.Props.CombSpec
import Verif.Props.Combustion
import Verif.Props.CompAttr
import Verif.Props.CompDof
import Verif.Props.CompressorMap
import Verif.Props.CondenserKA
import Verif.Props.ConeLaw
import Verif.Props.ConnAttr
import Verif.Props.ConnDof
import Verif.Props.ConnFlags
import Verif.Props.ConnJacobian
import Verif.Props.ConnResults
import Verif.Props.Connectors
import Verif.Props.DefaultChars
import Verif.Props.Deriv
import Verif.Props.DesignFiles
import Verif.Props.DictHeap
import Verif.Props.DocEqs
import Verif.Props.DocEqs2
import Verif.Props.DocEqs3
import Verif.Props.Engine
import Verif.Props.EngineRows
import Verif.Props.EntropyBal
import Verif.Props.EqCount
import Verif.Props.Exergy
import Verif.Props.ExergyEff
import Verif.Props.ExergyNet
import Verif.Props.Export
import Verif.Props.FinalState
import Verif.Props.FlameTemp
import Verif.Props.Flatten
import Verif.Props.FluidCat
import Verif.Props.FluidHeap
import Verif.Props.FluidPresolve
import Verif.Props.Friction
import Verif.Props.FrictionRate
import Verif.Props.HexSpec
import Verif.Props.IterInfo
import Verif.Props.Jacobian
import Verif.Props.JacobianExamples
import Verif.Props.LocalConvergence
import Verif.Props.Lookup
import Verif.Props.MergeDicts
import Verif.Props.MergeMix
import Verif.Props.MixInverse
import Verif.Props.Mixture
import Verif.Props.MixtureProps
import Verif.Props.MixtureRules
import Verif.Props.ModeValues
import Verif.Props.Modes
import Verif.Props.MovingBoundary
import Verif.Props.MovingBoundaryExact
import Verif.Props.MovingBoundaryReversed
import Verif.Props.NetBalance
import Verif.Props.NetworkAttr
import Verif.Props.Newton
import Verif.Props.NumRows
import Verif.Props.NumericDeriv
import Verif.Props.NumericError
import Verif.Props.OffDesign
import Verif.Props.Optim
import Verif.Props.OptimRun
import Verif.Props.ParallelFlow
import Verif.Props.PipeFlow
import Verif.Props.PipeSections
import Verif.Props.Plotting
import Verif.Props.Presolve
import Verif.Props.Printing
import Verif.Props.PumpPoint
import Verif.Props.ReactionSetup
import Verif.Props.Reactors
import Verif.Props.Repeat
import Verif.Props.Report
import Verif.Props.Reported
import Verif.Props.ResultTables
import Verif.Props.Sankey
import Verif.Props.Separation
import Verif.Props.SeriesKA
import Verif.Props.SharedFlow
import Verif.Props.SimpleKA
import Verif.Props.Simplify
import Verif.Props.Solar
import Verif.Props.SolarSpec
import Verif.Props.SolveLoop
import Verif.Props.SpecDrift
import Verif.Props.Stages
import Verif.Props.StartMore
import Verif.Props.StartRuns
import Verif.Props.StartValues
import Verif.Props.SteamTurbine
import Verif.Props.StepInvariance
import Verif.Props.Tables
import Verif.Props.TablesCalls
import Verif.Props.TdLog
import Verif.Props.Topology
import Verif.Props.TwoStream
import Verif.Props.Units
import Verif.Props.Update
import Verif.Props.UserEq
import Verif.Props.WrapperExamples
import Verif.Props.WrapperFluids
import Verif.Props.WrapperGroups
import Verif.Props.WrapperSearch
import Verif.Props.Wrappers
import Verif.Props.ZetaFlow
import Verif.Spec.WrapperBranches
