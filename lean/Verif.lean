import Verif.Eigen
import Verif.Model.Dynamics
import Verif.Spec.Motion
import Verif.Lemmas.Dynamics
import Verif.Lemmas.Inverse
import Verif.Props.Dynamics
import Verif.Props.Interpolator
import Verif.Props.QP
import Verif.Model.Trajectory
import Verif.Lemmas.LeastSquares
import Verif.Props.Trajectory
import Verif.Props.Polygon
import Verif.Props.Hull
import Verif.Props.Timeline
import Verif.Props.Phases
import Verif.Props.Humanoid
import Verif.Props.HumCost
import Verif.Props.Lip
import Verif.Props.HumSolver
import Verif.Props.Params
import Verif.Model.Zebulon
import Verif.Lemmas.ZebBlocks
import Verif.Lemmas.ZebOps
import Verif.Lemmas.ZebObj
import Verif.Lemmas.ZebCop
import Verif.Lemmas.ZebCtr
import Verif.Lemmas.ZebTilt
import Verif.Lemmas.ZebSet
import Verif.Lemmas.ZebPart
import Verif.Lemmas.ZebQP
import Verif.Lemmas.ZebPrep
import Verif.Lemmas.ZebInv
import Verif.Lemmas.ZebStep
import Verif.Spec.ZebulonQP
import Verif.Lemmas.ZebMeaning
import Verif.Lemmas.ZebTiltEq
import Verif.Lemmas.ZebGives
import Verif.Lemmas.ZebQuad
import Verif.Lemmas.ZebEval
import Verif.Props.Zebulon
import Verif.Props.ZebTilt
import Verif.Spec.Expansion
import Verif.Props.ZebObjectives
import Verif.Props.ZebFresh
import Verif.Spec.Recede
import Verif.Lemmas.Recede
import Verif.Props.Recede
import Verif.Props.HumNonempty
import Verif.Spec.HumRun
import Verif.Props.HumCycle
import Verif.Lemmas.HumConvex
import Verif.Props.HumConvex
import Verif.Props.HumRest
import Verif.Spec.ZebRecede
import Verif.Lemmas.ZebRecede
import Verif.Lemmas.ZebShift
import Verif.Props.ZebRest
import Verif.Spec.HumSafe
import Verif.Lemmas.HumSafe
import Verif.Lemmas.HumSolveTotal
import Verif.Lemmas.HumBegin
import Verif.Props.HumSafe
import Verif.Tests.Upstream
import Verif.Spec.HumShift
import Verif.Lemmas.HumShiftSup
import Verif.Lemmas.HumShiftFeet
import Verif.Lemmas.HumShiftQP
import Verif.Lemmas.HumShift
import Verif.Lemmas.HumShiftSolve
import Verif.Lemmas.HumShiftCall
import Verif.Lemmas.HumShiftGrid
import Verif.Props.HumShift
import Verif.Spec.Between
import Verif.Lemmas.Between
import Verif.Props.Between
import Verif.Spec.CopRun
import Verif.Lemmas.CopRun
import Verif.Props.CopRun
import Verif.Props.CopWitness
import Verif.Spec.Config
import Verif.Lemmas.Config
import Verif.Props.Config
import Verif.Spec.Hold
import Verif.Lemmas.Hold
import Verif.Lemmas.HoldJerk
import Verif.Props.Hold
import Verif.Props.HoldWitness
import Verif.Spec.Swing
import Verif.Lemmas.Glide
import Verif.Lemmas.Swing
import Verif.Props.Swing
import Verif.Spec.ZebCycle
import Verif.Lemmas.ZebCycle
import Verif.Props.ZebCycle
import Verif.Lemmas.QPExist
import Verif.Props.Independent
import Verif.Spec.HumUnique
import Verif.Lemmas.HumUnique
import Verif.Props.HumUnique
import Verif.Lemmas.Riccati
import Verif.Lemmas.Converge
import Verif.Props.Converge
import Verif.Model.Programs
import Verif.Spec.Programs
import Verif.Lemmas.ZebUninit
import Verif.Lemmas.Programs
import Verif.Props.Programs
import Verif.Model.SupportRef
import Verif.Lemmas.SupportRef
import Verif.Props.SupportRef
import Verif.Model.Rounded
import Verif.Spec.Rounded
import Verif.Lemmas.Rounded
import Verif.Lemmas.RoundedLoop
import Verif.Lemmas.RoundedSelect
import Verif.Lemmas.RoundedCycle
import Verif.Lemmas.RoundedFeet
import Verif.Lemmas.RoundedHistory
import Verif.Lemmas.FloatRound
import Verif.Props.Rounded
import Verif.Lemmas.RoundedRest
import Verif.Props.RoundedCalls
import Verif.Lemmas.RoundedLanding
import Verif.Props.RoundedLanding
import Verif.Spec.Units
import Verif.Lemmas.Units
import Verif.Props.Units
import Verif.Lemmas.ZebConverge
import Verif.Props.ZebConverge
import Verif.Model.RoundedState
import Verif.Spec.RoundedState
import Verif.Lemmas.RoundedState
import Verif.Props.RoundedState
import Verif.Spec.Turn
import Verif.Lemmas.Turn
import Verif.Props.Turn
import Verif.Spec.Fall
import Verif.Lemmas.Fall
import Verif.Props.Fall
import Verif.Spec.Superpose
import Verif.Lemmas.Superpose
import Verif.Props.Superpose
import Verif.Spec.Gains
import Verif.Lemmas.Gains
import Verif.Props.Gains
import Verif.Spec.Return
import Verif.Lemmas.Return
import Verif.Props.Return
import Verif.Spec.Every
import Verif.Lemmas.Integrator
import Verif.Props.Every
import Verif.Spec.ZebEvery
import Verif.Lemmas.ZebEvery
import Verif.Props.ZebEvery
import Verif.Spec.Rate
import Verif.Lemmas.Rate
import Verif.Props.Rate
import Verif.Spec.Room
import Verif.Lemmas.Room
import Verif.Props.Room
import Verif.Spec.ZebOutside
import Verif.Props.ZebOutside
import Verif.Spec.Line
import Verif.Props.Line
import Verif.Spec.Boost
import Verif.Props.Boost
import Verif.Spec.ZebBoost
import Verif.Lemmas.ZebBoost
import Verif.Props.ZebBoost
import Verif.Spec.ZebSuper
import Verif.Lemmas.ZebSuper
import Verif.Props.ZebSuper
import Verif.Lemmas.ZebConvex
import Verif.Props.ZebConvex
import Verif.Spec.Convex
import Verif.Lemmas.Convex
import Verif.Props.Convex
