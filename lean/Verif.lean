import Verif.Model.Ode
import Verif.Model.Scaling
import Verif.Spec.Residuals
import Verif.Spec.Mhd
import Verif.Props.OdeResiduals
import Verif.Props.Unit
import Verif.Props.MhdPde
import Verif.Props.Electric
import Verif.Props.Formulations
import Verif.Props.Midplane
import Verif.Props.Taylor
import Verif.Props.Containers
import Verif.Props.Rhs
import Verif.Model.Slice
import Verif.Model.Solution
import Verif.Props.Solution
import Verif.Model.Waves
import Verif.Props.Waves
import Verif.Model.Arrays
import Verif.Props.Arrays
import Verif.Model.Shock
import Verif.Props.Shock
import Verif.Props.Scaling
import Verif.Model.Text
import Verif.Model.Inputs
import Verif.Props.Inputs
import Verif.Model.ConfigFile
import Verif.Props.ConfigFile
import Verif.Spec.ConfigDoc
import Verif.Props.ConfigDoc
import Verif.Model.SingleRun
import Verif.Spec.EndToEnd
import Verif.Props.EndToEnd
import Verif.Spec.Resolve
import Verif.Props.Resolve
import Verif.Model.TaylorScan
import Verif.Props.TaylorScan
import Verif.Model.Stepper
import Verif.Props.Acceptance
import Verif.Props.Search
import Verif.Props.Stepper
import Verif.Props.Steps
import Verif.Model.FastCrosser
import Verif.Props.FastCrosser
import Verif.Model.Mcmc
import Verif.Props.Mcmc
import Verif.Model.TaylorSpace
import Verif.Props.TaylorSpace
import Verif.Model.Csv
import Verif.Props.Csv
import Verif.Model.Runners
import Verif.Model.SonicRoot
import Verif.Props.Runners
import Verif.Props.SonicRoot
import Verif.Props.CsvRunner
import Verif.Model.Hydro
import Verif.Model.ModHydro
import Verif.Model.HydroRun
import Verif.Props.Hydro
import Verif.Props.ModHydro
import Verif.Spec.HydroRun
import Verif.Props.HydroDrift
import Verif.Props.HydroFaraday
import Verif.Props.HydroRun
import Verif.Model.ValidatePlot
import Verif.Props.ValidatePlot
import Verif.Props.ValidateRows
import Verif.Model.Trajectory
import Verif.Props.Trajectory
import Verif.Model.Streams
import Verif.Props.Streams
import Verif.Model.Logging
import Verif.Props.Logging
import Verif.Model.Stats
import Verif.Props.Stats
import Verif.Model.Plots
import Verif.Props.Plots
import Verif.Model.FileFormat
import Verif.Spec.FileFormat
import Verif.Props.FileFormat
import Verif.Props.OldFiles
import Verif.Model.AnalysisPlots
import Verif.Props.AnalysisPlots
import Verif.Model.Info
import Verif.Props.Info
import Verif.Props.Slice
import Verif.Model.SonicPoint
import Verif.Spec.SonicPoint
import Verif.Lemmas.SonicPoint
import Verif.Props.SonicPoint
import Verif.Model.Jacobian
import Verif.Spec.Jacobian
import Verif.Lemmas.Jacobian
import Verif.Props.Jacobian
import Verif.Model.StatsValues
import Verif.Props.StatsValues
import Verif.Model.Cli
import Verif.Spec.Cli
import Verif.Lemmas.Cli
import Verif.Props.Cli
import Verif.Model.CliSolve
import Verif.Spec.CliSolve
import Verif.Props.CliSolve
import Verif.Model.ShockRun
import Verif.Model.ShockFiles
import Verif.Props.ShockRun
import Verif.Props.ShockFiles
import Verif.Model.Flow
import Verif.Props.Flow
import Verif.Model.CliDump
import Verif.Spec.CliDump
import Verif.Props.CliDump
import Verif.Spec.Units
import Verif.Lemmas.Units
import Verif.Props.Units
import Verif.Props.Hdf5Runner
import Verif.Model.StepRun
import Verif.Model.CrosserRun
import Verif.Model.MemRun
import Verif.Model.McmcRun
import Verif.Model.HydroMethods
import Verif.Spec.StepRun
import Verif.Spec.CrosserRun
import Verif.Spec.McmcRun
import Verif.Props.StepRun
import Verif.Props.CrosserRun
import Verif.Props.MemRun
import Verif.Props.McmcRun
import Verif.Props.HydroMethods
import Verif.Props.SolutionInternal
import Verif.Model.SonicRootRun
import Verif.Model.Hdf5Run
import Verif.Spec.SonicRootRun
import Verif.Spec.Hdf5Run
import Verif.Props.SonicRootRun
import Verif.Props.Hdf5Run
import Verif.Spec.Sessions
import Verif.Props.Sessions
import Verif.Spec.Saving
import Verif.Props.Saving
import Verif.Props.ShockHistory
import Verif.Model.Approx
import Verif.Spec.Approx
import Verif.Props.Approx
