import Verif.Model.Basic
import Verif.Model.Components
import Verif.Model.Controls
import Verif.Model.Crab
import Verif.Model.Deprecated
import Verif.Model.Dump
import Verif.Model.DumpLevel
import Verif.Model.DumpPlace
import Verif.Model.DynReset
import Verif.Model.DynUpdate
import Verif.Model.Dynamics
import Verif.Model.Errors
import Verif.Model.Flt
import Verif.Model.General
import Verif.Model.Grape
import Verif.Model.GrapePlot
import Verif.Model.Io
import Verif.Model.Life
import Verif.Model.LoadParams
import Verif.Model.Logging
import Verif.Model.Memory
import Verif.Model.OptimSetup
import Verif.Model.Optimizer
import Verif.Model.Params
import Verif.Model.PhaseSettings
import Verif.Model.PulseGen
import Verif.Model.PulseOptim
import Verif.Model.Reconfig
import Verif.Model.Reuse
import Verif.Model.SaveAmps
import Verif.Model.Settings
import Verif.Model.Spectral
import Verif.Model.Stats
import Verif.Model.StatsReport
import Verif.Model.Symplectic
import Verif.Model.TDApprox
import Verif.Model.Timeslots
import Verif.Model.UnitCheck
import Verif.Model.Unitary
import Verif.Model.Verbose
import Verif.Model.ViewLists
import Verif.Model.Views
import Verif.Proofs.Components
import Verif.Proofs.Counting
import Verif.Proofs.Crab
import Verif.Proofs.CrabSeries
import Verif.Proofs.DExp
import Verif.Proofs.Deprecated
import Verif.Proofs.Descent
import Verif.Proofs.DrivenGrowth
import Verif.Proofs.Dump
import Verif.Proofs.DumpFiles
import Verif.Proofs.DumpHist
import Verif.Proofs.DumpPlace
import Verif.Proofs.DumpSections
import Verif.Proofs.DynReset
import Verif.Proofs.DynUpdate
import Verif.Proofs.Equivalent
import Verif.Proofs.Evolution
import Verif.Proofs.Flags
import Verif.Proofs.GenPhase
import Verif.Proofs.Gradient
import Verif.Proofs.Grape
import Verif.Proofs.GrapeAdaptive
import Verif.Proofs.GrapeGrad
import Verif.Proofs.GrapePlot
import Verif.Proofs.GrapeQubit
import Verif.Proofs.GrapeRun
import Verif.Proofs.GrapeWitness
import Verif.Proofs.Growth
import Verif.Proofs.Io
import Verif.Proofs.Kinds
import Verif.Proofs.Life
import Verif.Proofs.Linear
import Verif.Proofs.LinearODE
import Verif.Proofs.LoadParams
import Verif.Proofs.Logging
import Verif.Proofs.Loop
import Verif.Proofs.Machine
import Verif.Proofs.MatExp
import Verif.Proofs.Motion
import Verif.Proofs.OpenBounds
import Verif.Proofs.OpenSystem
import Verif.Proofs.Optimizer
import Verif.Proofs.Params
import Verif.Proofs.PulseEffect
import Verif.Proofs.PulseForward
import Verif.Proofs.PulseGauss
import Verif.Proofs.PulseGen
import Verif.Proofs.PulseHistory
import Verif.Proofs.PulseInit
import Verif.Proofs.PulseKinds
import Verif.Proofs.PulseOptim
import Verif.Proofs.Recompute
import Verif.Proofs.Reuse
import Verif.Proofs.Robust
import Verif.Proofs.SameSystem
import Verif.Proofs.SaveAmps
import Verif.Proofs.Settings
import Verif.Proofs.Spectral
import Verif.Proofs.Stages
import Verif.Proofs.Stats
import Verif.Proofs.StatsReport
import Verif.Proofs.StatsReport2
import Verif.Proofs.Symmetry
import Verif.Proofs.Symmetry2
import Verif.Proofs.Symplectic
import Verif.Proofs.Timeslots
import Verif.Proofs.UnitCheck
import Verif.Proofs.Unitary
import Verif.Proofs.Verbose
import Verif.Proofs.ViewLists
import Verif.Proofs.Views
import Verif.Proofs.Waves
import Verif.Props.Belongs
import Verif.Props.Components
import Verif.Props.Continuum
import Verif.Props.Controls
import Verif.Props.Crab
import Verif.Props.CrabSeries
import Verif.Props.Deprecated
import Verif.Props.Descent
import Verif.Props.Dump
import Verif.Props.DumpFiles
import Verif.Props.DumpLevel
import Verif.Props.DumpPlace
import Verif.Props.DynReset
import Verif.Props.DynUpdate
import Verif.Props.Equivalent
import Verif.Props.Errors
import Verif.Props.Evolution
import Verif.Props.Fidelity
import Verif.Props.GenPhase
import Verif.Props.Gradient
import Verif.Props.Grape
import Verif.Props.GrapePlot
import Verif.Props.GrapeTimes
import Verif.Props.Growth
import Verif.Props.Io
import Verif.Props.Kinds
import Verif.Props.Life
import Verif.Props.LoadParams
import Verif.Props.Logging
import Verif.Props.Memory
import Verif.Props.Motion
import Verif.Props.OpenSystem
import Verif.Props.OptimSetup
import Verif.Props.Optimizer
import Verif.Props.OptimizerCases
import Verif.Props.Optimum
import Verif.Props.Params
import Verif.Props.PerSlot
import Verif.Props.PhaseSettings
import Verif.Props.Pulse
import Verif.Props.PulseDefaults
import Verif.Props.PulseDicts
import Verif.Props.PulseForward
import Verif.Props.PulseGauss
import Verif.Props.PulseOptim
import Verif.Props.PulseWaves
import Verif.Props.Reconfig
import Verif.Props.Reuse
import Verif.Props.Robust
import Verif.Props.Sampling
import Verif.Props.SaveAmps
import Verif.Props.Settings
import Verif.Props.Spectral
import Verif.Props.SpeedLimit
import Verif.Props.Stages
import Verif.Props.Stationary
import Verif.Props.Stats
import Verif.Props.StatsReport
import Verif.Props.Symmetry
import Verif.Props.Symplectic
import Verif.Props.TDApprox
import Verif.Props.TDApproxLimit
import Verif.Props.Timeslots
import Verif.Props.UnitCheck
import Verif.Props.Verbose
import Verif.Props.ViewLists
import Verif.Props.Views
import Verif.Spec.Components
import Verif.Spec.Counting
import Verif.Spec.CrabSeries
import Verif.Spec.Derivative
import Verif.Spec.Descent
import Verif.Spec.Dump
import Verif.Spec.DumpPlace
import Verif.Spec.DynReset
import Verif.Spec.Equivalent
import Verif.Spec.Evolution
import Verif.Spec.Gradient
import Verif.Spec.Grape
import Verif.Spec.Growth
import Verif.Spec.Io
import Verif.Spec.Kinds
import Verif.Spec.Life
import Verif.Spec.LoadParams
import Verif.Spec.Motion
import Verif.Spec.OpenSystem
import Verif.Spec.Optimizer
import Verif.Spec.Params
import Verif.Spec.Pulse
import Verif.Spec.PulseDefaults
import Verif.Spec.PulseGauss
import Verif.Spec.PulseOptim
import Verif.Spec.Reconfig
import Verif.Spec.Reuse
import Verif.Spec.Robust
import Verif.Spec.SaveAmps
import Verif.Spec.Settings
import Verif.Spec.Stages
import Verif.Spec.Stats
import Verif.Spec.StatsReport
import Verif.Spec.Symmetry
import Verif.Spec.Symplectic
import Verif.Spec.TDApprox
import Verif.Spec.Timeslots
import Verif.Spec.UnitCheck
import Verif.Spec.Unitary
import Verif.Spec.Verbose
import Verif.Spec.ViewLists
