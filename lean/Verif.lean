import Verif.Model.AlgoDiff
import Verif.Model.AlgoDiffSpline
import Verif.Model.Algorithms
import Verif.Model.Alias
import Verif.Model.AnyRounding
import Verif.Model.Arith
import Verif.Model.Base64
import Verif.Model.Basic
import Verif.Model.Bernstein
import Verif.Model.Binomial
import Verif.Model.Box
import Verif.Model.CMathReal
import Verif.Model.Compose
import Verif.Model.Crash
import Verif.Model.Dual
import Verif.Model.Elevate
import Verif.Model.Expr
import Verif.Model.FloatArith
import Verif.Model.Fused
import Verif.Model.History
import Verif.Model.Ieee
import Verif.Model.Logger
import Verif.Model.Messages
import Verif.Model.Microstructure
import Verif.Model.Move
import Verif.Model.Point
import Verif.Model.RExpr
import Verif.Model.RHistory
import Verif.Model.Rational
import Verif.Model.RationalDeriv
import Verif.Model.Release
import Verif.Model.Rounded
import Verif.Model.Size64
import Verif.Model.Spline
import Verif.Model.Split
import Verif.Model.Text
import Verif.Model.Threads
import Verif.Model.ThreadsMixed
import Verif.Model.ThreadsRational
import Verif.Model.Wide
import Verif.Proofs.Affine
import Verif.Proofs.AlgoDiff
import Verif.Proofs.AlgoDiffSpline
import Verif.Proofs.AlgoDiffStatic
import Verif.Proofs.Algorithms
import Verif.Proofs.AnyArith
import Verif.Proofs.AnyArithREval
import Verif.Proofs.AnyArithRational
import Verif.Proofs.AnyRoundApprox
import Verif.Proofs.AnyRoundCalls
import Verif.Proofs.AnyRoundMembers
import Verif.Proofs.AnyRoundOps
import Verif.Proofs.AnyRoundProducts
import Verif.Proofs.AnyRoundPrograms
import Verif.Proofs.AnyRoundRuns
import Verif.Proofs.AnyRoundSingle
import Verif.Proofs.AnyRoundSteps
import Verif.Proofs.AnyRoundTri
import Verif.Proofs.Arith
import Verif.Proofs.Ball
import Verif.Proofs.Base64
import Verif.Proofs.Basic
import Verif.Proofs.Basis
import Verif.Proofs.Bend
import Verif.Proofs.BernDeriv
import Verif.Proofs.Bernstein
import Verif.Proofs.Bezier
import Verif.Proofs.Binomial
import Verif.Proofs.Box
import Verif.Proofs.Casteljau
import Verif.Proofs.Chain
import Verif.Proofs.Compose
import Verif.Proofs.ComposeCost
import Verif.Proofs.ComposeLimit
import Verif.Proofs.ComposeRational
import Verif.Proofs.Computes
import Verif.Proofs.Consistent
import Verif.Proofs.Converge
import Verif.Proofs.Coordinates
import Verif.Proofs.Crash
import Verif.Proofs.Cuts
import Verif.Proofs.CutsExact
import Verif.Proofs.CutsFloat
import Verif.Proofs.CutsNarrow
import Verif.Proofs.Deriv
import Verif.Proofs.DerivAbove
import Verif.Proofs.DerivFar
import Verif.Proofs.DerivSpline
import Verif.Proofs.Dual
import Verif.Proofs.Elevate
import Verif.Proofs.Evaluate
import Verif.Proofs.Expr
import Verif.Proofs.FacesCompose
import Verif.Proofs.FacesDeriv
import Verif.Proofs.FacesElevate
import Verif.Proofs.FacesExpr
import Verif.Proofs.FacesNet
import Verif.Proofs.FacesOps
import Verif.Proofs.FacesRational
import Verif.Proofs.FacesRationalDeriv
import Verif.Proofs.FacesRationalOps
import Verif.Proofs.FitIeee
import Verif.Proofs.FloatApprox
import Verif.Proofs.FloatArith
import Verif.Proofs.FloatCalls
import Verif.Proofs.FloatCompose
import Verif.Proofs.FloatComposePrograms
import Verif.Proofs.FloatForward
import Verif.Proofs.FloatOps
import Verif.Proofs.FloatProducts
import Verif.Proofs.FloatPrograms
import Verif.Proofs.FloatRational
import Verif.Proofs.FloatRound
import Verif.Proofs.FloatRuns
import Verif.Proofs.FloatSingle
import Verif.Proofs.FloatSplit
import Verif.Proofs.FloatSteps
import Verif.Proofs.FloatTri
import Verif.Proofs.Graded
import Verif.Proofs.GradedDeriv
import Verif.Proofs.GradedOps
import Verif.Proofs.History
import Verif.Proofs.Homogeneous
import Verif.Proofs.Hull
import Verif.Proofs.HullOps
import Verif.Proofs.Ieee
import Verif.Proofs.Jet
import Verif.Proofs.Joint
import Verif.Proofs.Leibniz
import Verif.Proofs.LocalMap
import Verif.Proofs.Logger
import Verif.Proofs.Lossless
import Verif.Proofs.MapMap
import Verif.Proofs.MapOps
import Verif.Proofs.Messages
import Verif.Proofs.MessagesClimb
import Verif.Proofs.MessagesRest
import Verif.Proofs.MicroTiles
import Verif.Proofs.Microstructure
import Verif.Proofs.Mirror
import Verif.Proofs.Move
import Verif.Proofs.Nets
import Verif.Proofs.NetsDeriv
import Verif.Proofs.NetsProduct
import Verif.Proofs.NoAssert
import Verif.Proofs.NoOverflow
import Verif.Proofs.NonFinite
import Verif.Proofs.Param
import Verif.Proofs.ParamArith
import Verif.Proofs.ParamExpr
import Verif.Proofs.ParamOps
import Verif.Proofs.ParamREval
import Verif.Proofs.ParamRExpr
import Verif.Proofs.ParamRational
import Verif.Proofs.Parameter
import Verif.Proofs.PderivLaws
import Verif.Proofs.Point
import Verif.Proofs.PointNorm
import Verif.Proofs.Power
import Verif.Proofs.Product
import Verif.Proofs.PropsAux
import Verif.Proofs.RExpr
import Verif.Proofs.Rational
import Verif.Proofs.RationalBounds
import Verif.Proofs.RationalBoundsConv
import Verif.Proofs.RationalBox
import Verif.Proofs.RationalComposeBounds
import Verif.Proofs.RationalDeriv
import Verif.Proofs.RationalSums
import Verif.Proofs.Reject
import Verif.Proofs.Release
import Verif.Proofs.ReleaseOnly
import Verif.Proofs.ReleaseRational
import Verif.Proofs.ReleaseTable
import Verif.Proofs.Ring
import Verif.Proofs.RingSegments
import Verif.Proofs.Rounded
import Verif.Proofs.RoundedBox
import Verif.Proofs.RoundedEval
import Verif.Proofs.ScalarMap
import Verif.Proofs.Sensitivity
import Verif.Proofs.Shape
import Verif.Proofs.Size64
import Verif.Proofs.Spline
import Verif.Proofs.Split
import Verif.Proofs.SplitJoin
import Verif.Proofs.SplitMany
import Verif.Proofs.SumsAgree
import Verif.Proofs.Text
import Verif.Proofs.Threads
import Verif.Proofs.ThreadsLogger
import Verif.Proofs.ThreadsMixed
import Verif.Proofs.ThreadsOps
import Verif.Proofs.ThreadsRational
import Verif.Proofs.TiesToEven
import Verif.Proofs.Unique
import Verif.Proofs.Variation
import Verif.Proofs.VariationOps
import Verif.Proofs.Wide
import Verif.Props.Affine
import Verif.Props.AlgoDiff
import Verif.Props.AlgoDiffSpline
import Verif.Props.Algorithms
import Verif.Props.AnyArith
import Verif.Props.AnyArithRational
import Verif.Props.AnyRounding
import Verif.Props.Arith
import Verif.Props.Ball
import Verif.Props.Base64
import Verif.Props.Basics
import Verif.Props.Bend
import Verif.Props.Box
import Verif.Props.Chain
import Verif.Props.Changes
import Verif.Props.ComposeLaws
import Verif.Props.ComposeLimit
import Verif.Props.Consistent
import Verif.Props.Converge
import Verif.Props.Coordinates
import Verif.Props.Crash
import Verif.Props.CrashRational
import Verif.Props.Cuts
import Verif.Props.Deriv
import Verif.Props.Examples
import Verif.Props.ExchangeRational
import Verif.Props.Faces
import Verif.Props.FacesRational
import Verif.Props.FitIeee
import Verif.Props.FloatArith
import Verif.Props.FloatBounds
import Verif.Props.FloatCompose
import Verif.Props.FloatComposed
import Verif.Props.FloatMore
import Verif.Props.Formulas
import Verif.Props.History
import Verif.Props.Homogeneous
import Verif.Props.Hull
import Verif.Props.HullArith
import Verif.Props.Ieee
import Verif.Props.Joint
import Verif.Props.Laws
import Verif.Props.Logger
import Verif.Props.LoggerLayout
import Verif.Props.Lossless
import Verif.Props.Messages
import Verif.Props.Microstructure
import Verif.Props.Mirror
import Verif.Props.MirrorCompose
import Verif.Props.MirrorDerivRational
import Verif.Props.MirrorRational
import Verif.Props.Move
import Verif.Props.Near
import Verif.Props.NearArith
import Verif.Props.NearPower
import Verif.Props.NonFinite
import Verif.Props.NonFiniteRational
import Verif.Props.Parameter
import Verif.Props.Points
import Verif.Props.Positive
import Verif.Props.Promotion
import Verif.Props.RConverge
import Verif.Props.RExpr
import Verif.Props.RHullArith
import Verif.Props.RLaws
import Verif.Props.RLawsCompose
import Verif.Props.RVariation
import Verif.Props.Rational
import Verif.Props.RationalBounds
import Verif.Props.RationalBox
import Verif.Props.RationalCompose
import Verif.Props.RationalComposeBounds
import Verif.Props.RationalCuts
import Verif.Props.RationalDeriv
import Verif.Props.RationalOfSplines
import Verif.Props.Reject
import Verif.Props.Release
import Verif.Props.ReleaseAssert
import Verif.Props.ReleaseRational
import Verif.Props.Rounded
import Verif.Props.RoundedEval
import Verif.Props.ScalarMap
import Verif.Props.Seed
import Verif.Props.Sensitivity
import Verif.Props.SensitivityLaws
import Verif.Props.SensitivityMirror
import Verif.Props.SensitivityPartition
import Verif.Props.SensitivityPoints
import Verif.Props.Shape
import Verif.Props.Size64
import Verif.Props.Smooth
import Verif.Props.Split
import Verif.Props.Tangent
import Verif.Props.TangentOrder
import Verif.Props.Text
import Verif.Props.Threads
import Verif.Props.ThreadsMixed
import Verif.Props.ThreadsRational
import Verif.Props.Units
import Verif.Props.Variation
import Verif.Props.Wide
import Verif.Spec.Affine
import Verif.Spec.AlgoDiff
import Verif.Spec.AnyArith
import Verif.Spec.AnyArithRational
import Verif.Spec.AnyRounding
import Verif.Spec.Ball
import Verif.Spec.Base64
import Verif.Spec.Bend
import Verif.Spec.Bezier
import Verif.Spec.Casteljau
import Verif.Spec.Chain
import Verif.Spec.Changes
import Verif.Spec.Computes
import Verif.Spec.Converge
import Verif.Spec.Coordinates
import Verif.Spec.Coords
import Verif.Spec.Crash
import Verif.Spec.CrashRational
import Verif.Spec.Cuts
import Verif.Spec.Deriv
import Verif.Spec.DerivFormula
import Verif.Spec.Expr
import Verif.Spec.Faces
import Verif.Spec.FacesRational
import Verif.Spec.FloatArith
import Verif.Spec.FloatBounds
import Verif.Spec.Homogeneous
import Verif.Spec.Ieee
import Verif.Spec.Logger
import Verif.Spec.Messages
import Verif.Spec.Microstructure
import Verif.Spec.Mirror
import Verif.Spec.Move
import Verif.Spec.Near
import Verif.Spec.Parameter
import Verif.Spec.ProductFormula
import Verif.Spec.Promotion
import Verif.Spec.RComputes
import Verif.Spec.RConverge
import Verif.Spec.RExpr
import Verif.Spec.RVariation
import Verif.Spec.RationalBounds
import Verif.Spec.RationalFace
import Verif.Spec.Release
import Verif.Spec.Rounded
import Verif.Spec.ScalarMap
import Verif.Spec.Shape
import Verif.Spec.Smooth
import Verif.Spec.Spline
import Verif.Spec.SumsAgree
import Verif.Spec.Text
import Verif.Spec.Threads
import Verif.Spec.UnitAt
import Verif.Spec.Variation
import Verif.Spec.Wide
