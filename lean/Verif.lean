import Verif.Eigen
import Verif.Spec
import Verif.SpecHist
import Verif.Model.PreviewSystem
import Verif.Model.AutoSpan
import Verif.Model.Constraints
import Verif.Model.Costs
import Verif.Model.LMPC
import Verif.Model.Solvers
import Verif.Model.Messages
import Verif.Proofs.Base
import Verif.Proofs.PreviewSystem
import Verif.Proofs.AutoSpan
import Verif.Proofs.Rows
import Verif.Proofs.Constraints
import Verif.Proofs.ConstrSem
import Verif.Proofs.ConstrHist
import Verif.Proofs.Costs
import Verif.Proofs.CostSem
import Verif.Proofs.CostHist
import Verif.Proofs.Frames
import Verif.Proofs.Registry
import Verif.Proofs.World
import Verif.Proofs.Assemble
import Verif.Proofs.MakeQP
import Verif.Proofs.Solve
import Verif.Proofs.Compat
import Verif.Proofs.Changes
import Verif.Proofs.HistInv
import Verif.Props.PreviewSystem
import Verif.Props.AutoSpan
import Verif.Props.Constraints
import Verif.Props.ConstrSpan
import Verif.Props.ConstrExamples
import Verif.Props.Costs
import Verif.Props.CostSpan
import Verif.Props.CostExamples
import Verif.Props.MixedSpan
import Verif.Props.Applied
import Verif.Props.Registry
import Verif.Props.System
import Verif.Props.Results
import Verif.Proofs.Determined
import Verif.Proofs.Determined2
import Verif.Props.Same
import Verif.Props.ExWorld
import Verif.Props.WorldExamples
import Verif.SpecSolvers
import Verif.Props.Solvers
import Verif.Props.Messages
import Verif.Props.InitState
import Verif.Props.InitState2
import Verif.Props.InitExamples
import Verif.Props.Bounds
import Verif.Props.BoundExamples
import Verif.Props.Order
import Verif.Props.OrderExamples
import Verif.Props.Dimension
import Verif.Props.DimExamples
import Verif.Proofs.Mask
import Verif.SpecJunk
import Verif.Proofs.Twin
import Verif.Proofs.Lockstep
import Verif.Props.Junk
import Verif.Props.EndToEnd
import Verif.Props.InitJoint
import Verif.Props.EndToEndExamples
import Verif.Model.Multi
import Verif.SpecMulti
import Verif.Proofs.Multi
import Verif.Proofs.Declared
import Verif.Props.Frame
import Verif.Props.Multi
import Verif.Props.MultiExamples
import Verif.Props.XInit
import Verif.Props.Blocks
import Verif.Props.Drift
import Verif.Props.Answer
import Verif.Props.AnswerExamples
import Verif.Props.Weights
import Verif.Props.Replan
import Verif.Props.ReplanExamples
import Verif.SpecTol
import Verif.Proofs.Tolerance
import Verif.Props.Tolerance
import Verif.Props.Tighter
import Verif.Props.Solvable
import Verif.Props.Meaning
import Verif.Props.Accessors
import Verif.Props.SpanBound
import Verif.Props.InitVariants
import Verif.Model.Lifetime
import Verif.SpecLife
import Verif.Proofs.Lifetime
import Verif.Props.Lifetime
import Verif.SpecSafe
import Verif.Props.Safe
import Verif.Model.Warnings
import Verif.Props.Warnings
import Verif.Model.Notices
import Verif.Props.Notices
import Verif.Props.Messages2
import Verif.Props.Recursive
import Verif.Props.RecursiveExamples
import Verif.Props.Convex
import Verif.Props.ConvexExamples
import Verif.SpecSched
import Verif.Proofs.Interleave
import Verif.Props.Interleave
import Verif.Props.InterleaveExamples
import Verif.Model.Abort
import Verif.SpecAbort
import Verif.Proofs.Abort
import Verif.Props.Abort
import Verif.Props.AbortExamples
import Verif.Props.CtlData
import Verif.Props.AppliedWorld
import Verif.Proofs.Existence
import Verif.Props.WellPosed
import Verif.Props.Decrease
import Verif.Props.DecreaseExamples
import Verif.Props.Lipschitz
import Verif.Props.LipschitzExamples
import Verif.SpecDecl
import Verif.Props.Refine
import Verif.Props.RefineExamples
import Verif.Model.UserDefined
import Verif.SpecUser
import Verif.Proofs.UserDefined
import Verif.Proofs.UserSolve
import Verif.Proofs.UserHist
import Verif.Proofs.UserQP
import Verif.Proofs.UserReturns
import Verif.Props.UserDefined
import Verif.Props.UserOptimum
import Verif.Props.UserExamples
import Verif.SpecRep
import Verif.Props.Representation
import Verif.Props.RepresentationExamples
import Verif.Props.AffineLaw
import Verif.Props.AffineLawExamples
import Verif.Props.Inactive
import Verif.Props.InactiveExamples
import Verif.Model.Fields
import Verif.SpecFields
import Verif.Proofs.Fields
import Verif.Props.Fields
import Verif.Props.FieldsExamples
import Verif.SpecParam
import Verif.Proofs.Param
import Verif.Proofs.Param2
import Verif.Proofs.Param3
import Verif.Proofs.Shadow
import Verif.Props.AnyArith
import Verif.Props.AnyArithExamples
import Verif.SpecRound
import Verif.SpecIeee
import Verif.Proofs.Round
import Verif.Proofs.RoundExist
import Verif.Props.Rounding
import Verif.Props.Ieee
import Verif.Props.RoundingExamples
import Verif.Model.UserAbort
import Verif.SpecUserAbort
import Verif.Proofs.UserAbort
import Verif.Props.UserAbort
import Verif.Props.UserAbortExamples
import Verif.Model.Copies
import Verif.SpecCopies
import Verif.Proofs.Copies
import Verif.Proofs.Copies2
import Verif.Proofs.Copies3
import Verif.Props.Copies
import Verif.Props.CopiesExamples
import Verif.Model.Slice
import Verif.SpecSlice
import Verif.Proofs.Slice
import Verif.Props.Slice
import Verif.Props.SliceExamples
import Verif.Model.Supplied
import Verif.SpecSupply
import Verif.Proofs.Supplied
import Verif.Props.Supplied
import Verif.Props.SuppliedExamples
import Verif.Props.SuppliedInit
import Verif.Props.SuppliedInitExamples
import Verif.SpecAssign
import Verif.Proofs.Now
import Verif.Proofs.Assign
import Verif.Props.Assign
import Verif.Props.AssignFresh
import Verif.Props.AssignExamples
import Verif.Props.AssignThen
import Verif.Props.AssignThenExamples
import Verif.Proofs.Now2
import Verif.Props.NowMore
import Verif.Props.NowMoreExamples
import Verif.Props.InitRemoval
import Verif.Props.InitRemovalExamples
import Verif.Props.MeaningInit
import Verif.Props.MeaningInitExamples
import Verif.SpecScale
import Verif.Props.Scale
import Verif.Props.ScaleExamples
import Verif.SpecPlants
import Verif.Props.Plants
import Verif.Props.PlantsExamples
import Verif.Props.PlantsInitExamples
import Verif.Model.MultiAbort
import Verif.SpecMultiAbort
import Verif.Proofs.MultiAbort
import Verif.Props.MultiAbort
import Verif.Props.MultiAbortExamples
import Verif.SpecHorizon
import Verif.Props.Horizon
import Verif.Props.HorizonExamples
import Verif.SpecMirror
import Verif.Props.Mirror
import Verif.Props.MirrorExamples
import Verif.SpecTune
import Verif.Props.Tune
import Verif.Props.TuneExamples
import Verif.SpecLoosen
import Verif.Props.Loosen
import Verif.Props.LoosenExamples
import Verif.SpecRetarget
import Verif.Props.Retarget
import Verif.Props.RetargetExamples
import Verif.SpecLimits
import Verif.Props.Limits
import Verif.Props.LimitsExamples
import Verif.SpecBackTol
import Verif.Props.BackTol
import Verif.Props.BackTolExamples
import Verif.Model.Calls
import Verif.SpecCalls
import Verif.Proofs.Calls
import Verif.Props.Calls
import Verif.Props.CallsExamples
import Verif.Model.UserThrow
import Verif.SpecUserThrow
import Verif.Proofs.UserThrow
import Verif.Props.UserThrow
import Verif.Props.UserThrowExamples
import Verif.Props.UserRetry
import Verif.Props.UserRetryExamples
import Verif.SpecIdle
import Verif.Props.Idle
import Verif.Props.IdleExamples
