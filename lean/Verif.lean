import Verif.Scalar
import Verif.Model.Dense
import Verif.Spec.Linear
import Verif.Proofs.Dense
import Verif.Props.Linear
import Verif.RealInst
import Verif.Model.Newton
import Verif.Model.Norm
import Verif.Spec.Newton
import Verif.Proofs.Newton
import Verif.Proofs.Norm
import Verif.Props.Newton
import Verif.Props.Norm
import Verif.Model.State
import Verif.Model.Interp
import Verif.Model.Step
import Verif.Model.Root
import Verif.Model.Solve
import Verif.Model.Nls
import Verif.Model.Io
import Verif.Spec.Interp
import Verif.Proofs.Interp
import Verif.Spec.Reach
import Verif.Proofs.Frame
import Verif.Proofs.Machine
import Verif.Proofs.StepRules
import Verif.Proofs.Reach
import Verif.Proofs.Order
import Verif.Proofs.Attempts
import Verif.Proofs.NoPanic
import Verif.Spec.Nls
import Verif.Proofs.Nls
import Verif.Props.Interp
import Verif.Witness
import Verif.Conformance
import Verif.Conform
import Verif.ConformLin
import Verif.Proofs.FirstCall
import Verif.Proofs.AttOrd
import Verif.Props.Step
import Verif.Proofs.Control
import Verif.Spec.Trace
import Verif.Proofs.Trace
import Verif.Props.Control
import Verif.Spec.History
import Verif.Proofs.Coef
import Verif.Proofs.History
import Verif.Proofs.InitRec
import Verif.Proofs.FirstStep
import Verif.Proofs.Retry
import Verif.Props.History
import Verif.Proofs.Solve
import Verif.Proofs.Outcome
import Verif.Proofs.InitStep
import Verif.Props.Solve
import Verif.Props.FirstCall
import Verif.Proofs.SolveExact
import Verif.Props.Stop
import Verif.Props.Stuck
import Verif.Proofs.RootScan
import Verif.Spec.Root
import Verif.Proofs.Root
import Verif.Proofs.RootInv
import Verif.Props.Root
import Verif.Proofs.RootEnd
import Verif.Props.Refused
import Verif.Spec.Calls
import Verif.Proofs.CallLog
import Verif.Proofs.NewtonLog
import Verif.Proofs.NewtonPanic
import Verif.Props.Nls
import Verif.Model.Samples
import Verif.Props.Samples
import Verif.Proofs.Ghost
import Verif.Spec.Conserve
import Verif.Proofs.Conserve
import Verif.Proofs.NewtonLin
import Verif.Props.Accepted
import Verif.Props.Conserve
import Verif.Proofs.Affine
import Verif.Props.Affine
import Verif.Spec.Units
import Verif.Proofs.Units
import Verif.Proofs.UnitsNewton
import Verif.Proofs.UnitsSolve
import Verif.Proofs.UnitsFirst
import Verif.Proofs.UnitsDky
import Verif.Proofs.UnitsExec
import Verif.Props.Units
import Verif.Spec.Select
import Verif.Proofs.Estimate
import Verif.Proofs.Select
import Verif.Proofs.SelectInv
import Verif.Props.Select
import Verif.Spec.Later
import Verif.Proofs.Blind
import Verif.Proofs.Outputs
import Verif.Props.Outputs
import Verif.Props.Returns
import Verif.Props.Converge
import Verif.Props.Cost
import Verif.Model.Ls
import Verif.Spec.Ls
import Verif.Proofs.Swap
import Verif.Proofs.SwapExec
import Verif.Proofs.LsSim
import Verif.Proofs.LsAny
import Verif.Props.Ls
import Verif.Spec.LocalErr
import Verif.Proofs.LocalErr
import Verif.Props.LocalErr
import Verif.Props.RootValue
import Verif.Spec.Forward
import Verif.Proofs.Monotone
import Verif.Props.Monotone
import Verif.Model.Driver
import Verif.Spec.Driver
import Verif.Proofs.Driver
import Verif.Props.Driver
import Verif.FloatRun
import Verif.Props.Bench
import Verif.Spec.Rounding
import Verif.Proofs.Rounding
import Verif.Proofs.RoundSolve
import Verif.FlInst
import Verif.Props.Rounding
import Verif.Proofs.RoundNorm
import Verif.Props.RoundNorm
import Verif.Proofs.Weights
import Verif.Props.Weights
import Verif.Spec.Correct
import Verif.BinInst
import Verif.Proofs.FlControl
import Verif.Proofs.FlDirection
import Verif.Props.FlControl
import Verif.Proofs.RootTrue
import Verif.Props.RootTrue
import Verif.Spec.Nan
import Verif.NanInst
import Verif.Proofs.Nan
import Verif.Props.Nan
import Verif.B64
import Verif.Spec.FlRoot
import Verif.Proofs.FlTrial
import Verif.Proofs.FlRoot
import Verif.Proofs.FlSide
import Verif.Props.FlRoot
import Verif.Proofs.RootFuel
import Verif.Proofs.NanRoot
import Verif.Props.NanRoot
import Verif.Spec.Errors
import Verif.Proofs.Errors
import Verif.Props.Errors
import Verif.Spec.FlInterp
import Verif.Proofs.FlInterp
import Verif.Proofs.FlCoef
import Verif.Proofs.FlPsi
import Verif.Props.FlInterp
import Verif.Props.FlCoef
import Verif.Props.Poly
import Verif.Spec.Smooth
import Verif.Proofs.InterpErr
import Verif.Props.Smooth
import Verif.Spec.TolFactor
import Verif.Props.TolFactor
import Verif.Spec.WithRoots
import Verif.Proofs.WithRoots
import Verif.Props.WithRoots
import Verif.Spec.FarStop
import Verif.Proofs.FarStop
import Verif.Props.FarStop
import Verif.Props.Cases
import Verif.Props.CasesB
import Verif.Props.Answers
import Verif.Proofs.AnswersFl
import Verif.Props.AnswersFl
import Verif.Spec.RootChange
import Verif.Proofs.RootChange
import Verif.Proofs.RootChangeStep
import Verif.Proofs.RootChangeRun
import Verif.Props.RootChange
import Verif.Spec.Rescale
import Verif.Proofs.RescaleDense
import Verif.Proofs.RescaleNewton
import Verif.Proofs.RescaleStep
import Verif.Proofs.RescaleRoot
import Verif.Proofs.RescaleRun
import Verif.Props.Rescale
import Verif.Spec.Mirror
import Verif.Proofs.MirrorStep
import Verif.Proofs.MirrorRoot
import Verif.Proofs.MirrorRun
import Verif.Props.Mirror
import Verif.Spec.Clock
import Verif.Proofs.ClockStep
import Verif.Proofs.ClockRoot
import Verif.Proofs.ClockRun
import Verif.Proofs.ClockStop
import Verif.Props.Clock
import Verif.Spec.NearSingular
import Verif.Proofs.FlSingular
import Verif.Proofs.PanicAny
import Verif.Proofs.FlPanic
import Verif.Props.NearSingular
import Verif.Spec.Copies
import Verif.Proofs.CopyNewton
import Verif.Proofs.CopyStep
import Verif.Proofs.CopyRoot
import Verif.Proofs.CopyRun
import Verif.Props.Copies
import Verif.Proofs.CallCost
import Verif.Props.CallCost
import Verif.Proofs.Doubling
import Verif.Props.Doubling
import Verif.Spec.Still
import Verif.Proofs.Still
import Verif.Props.Still
import Verif.Props.Again
import Verif.Props.Inside
