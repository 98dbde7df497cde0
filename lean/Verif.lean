import Verif.Model.Arith
import Verif.Model.Binary32
import Verif.Model.Binary53
import Verif.Model.Binary64
import Verif.Model.Dipole
import Verif.Model.JacobianLengths
import Verif.Model.Lengths
import Verif.Model.NumbaPow
import Verif.Model.Parallel
import Verif.Model.Point
import Verif.Model.PrismGravity
import Verif.Model.PrismKernels
import Verif.Model.PrismMagnetic
import Verif.Model.PrismUtils
import Verif.Model.UserGuide
import Verif.Model.Utils
import Verif.Model.Signed.Arith
import Verif.Model.Signed.Dipole
import Verif.Model.Signed.Point
import Verif.Model.Signed.PrismGravity
import Verif.Model.Signed.PrismKernels
import Verif.Model.Signed.PrismMagnetic
import Verif.Model.Signed.PrismUtils
import Verif.Model.Signed.Utils
import Verif.Model.Typed.Arith
import Verif.Model.Typed.Dipole
import Verif.Model.Typed.Point
import Verif.Model.Typed.PrismGravity
import Verif.Model.Typed.PrismKernels
import Verif.Model.Typed.PrismMagnetic
import Verif.Model.Typed.PrismUtils
import Verif.Model.Typed.Utils
import Verif.Model.Interp.Arith
import Verif.Model.Interp.Dipole
import Verif.Model.Interp.Point
import Verif.Model.Interp.PrismGravity
import Verif.Model.Interp.PrismKernels
import Verif.Model.Interp.PrismMagnetic
import Verif.Model.Interp.Utils
import Verif.Spec.Ball
import Verif.Spec.Basic
import Verif.Spec.Depth
import Verif.Spec.FaceCharge
import Verif.Spec.Flux
import Verif.Spec.Grid
import Verif.Spec.GuideSingle
import Verif.Spec.HalfSpace
import Verif.Spec.Integral
import Verif.Spec.Interp
import Verif.Spec.KernelSteps
import Verif.Spec.Lengths
import Verif.Spec.Mixed
import Verif.Spec.MixedPrism
import Verif.Spec.Models
import Verif.Spec.Moments
import Verif.Spec.NpInt
import Verif.Spec.Offsets
import Verif.Spec.Parallel
import Verif.Spec.Path
import Verif.Spec.Point
import Verif.Spec.Prism
import Verif.Spec.PrismKernels
import Verif.Spec.PrismSym
import Verif.Spec.PyInt
import Verif.Spec.Python
import Verif.Spec.Reversed
import Verif.Spec.Rounding
import Verif.Spec.Scaling
import Verif.Spec.Shape
import Verif.Spec.Signed
import Verif.Spec.Smooth
import Verif.Spec.Spectrum
import Verif.Spec.Sphere
import Verif.Spec.Spherical
import Verif.Spec.Stability
import Verif.Spec.Survey
import Verif.Spec.TwoD
import Verif.Spec.Typed
import Verif.Spec.Unsigned
import Verif.Spec.UserGuide
import Verif.Lemmas.Absorb
import Verif.Lemmas.Analytic
import Verif.Lemmas.Ball
import Verif.Lemmas.Ball2
import Verif.Lemmas.BallBound
import Verif.Lemmas.Blowup
import Verif.Lemmas.Bodies
import Verif.Lemmas.Calc
import Verif.Lemmas.Cast
import Verif.Lemmas.CastPrism
import Verif.Lemmas.Continuation
import Verif.Lemmas.Continuity
import Verif.Lemmas.Continuity2
import Verif.Lemmas.Decay
import Verif.Lemmas.EquivSource
import Verif.Lemmas.ErrorBound
import Verif.Lemmas.ErrorDipole
import Verif.Lemmas.ErrorPoint
import Verif.Lemmas.ErrorPrism
import Verif.Lemmas.ErrorPrism2
import Verif.Lemmas.ErrorPrism3
import Verif.Lemmas.ErrorPrism4
import Verif.Lemmas.ErrorSph
import Verif.Lemmas.Eval
import Verif.Lemmas.FaceCharge
import Verif.Lemmas.FaceLimit
import Verif.Lemmas.Family
import Verif.Lemmas.FarField
import Verif.Lemmas.Flux
import Verif.Lemmas.Flux2
import Verif.Lemmas.Generic
import Verif.Lemmas.HalfSpace
import Verif.Lemmas.HalfSpace2
import Verif.Lemmas.Infinite
import Verif.Lemmas.Integral
import Verif.Lemmas.Integral2
import Verif.Lemmas.Integral3
import Verif.Lemmas.Interp
import Verif.Lemmas.KernelAlg
import Verif.Lemmas.Kernels
import Verif.Lemmas.Laplace
import Verif.Lemmas.Layer
import Verif.Lemmas.Lengths
import Verif.Lemmas.Mag
import Verif.Lemmas.MagCalc
import Verif.Lemmas.MagCalc2
import Verif.Lemmas.MagEval
import Verif.Lemmas.Mixed
import Verif.Lemmas.MixedError
import Verif.Lemmas.MixedField
import Verif.Lemmas.MixedGuide
import Verif.Lemmas.MixedNaN
import Verif.Lemmas.MixedNoRaise
import Verif.Lemmas.MixedPrism
import Verif.Lemmas.MixedPrism2
import Verif.Lemmas.MixedPrism3
import Verif.Lemmas.MixedPrism4
import Verif.Lemmas.MixedSigns
import Verif.Lemmas.MixedSph
import Verif.Lemmas.Moments
import Verif.Lemmas.Mutual
import Verif.Lemmas.NaN
import Verif.Lemmas.NoRaise
import Verif.Lemmas.NpInt
import Verif.Lemmas.NumbaPow
import Verif.Lemmas.NumbaPow32
import Verif.Lemmas.Parallel
import Verif.Lemmas.Plane
import Verif.Lemmas.PointEval
import Verif.Lemmas.PrismEval
import Verif.Lemmas.PyInt
import Verif.Lemmas.PyInt2
import Verif.Lemmas.PyInt3
import Verif.Lemmas.Python
import Verif.Lemmas.Python2
import Verif.Lemmas.Python3
import Verif.Lemmas.Python4
import Verif.Lemmas.Quadrupole
import Verif.Lemmas.Quadrupole2
import Verif.Lemmas.Range
import Verif.Lemmas.Refine
import Verif.Lemmas.Reversed
import Verif.Lemmas.Scaling
import Verif.Lemmas.Shape
import Verif.Lemmas.Signed
import Verif.Lemmas.Signs
import Verif.Lemmas.SinCos
import Verif.Lemmas.Slab
import Verif.Lemmas.Smooth
import Verif.Lemmas.Spectrum
import Verif.Lemmas.Spectrum2
import Verif.Lemmas.SqrtSq
import Verif.Lemmas.Survey
import Verif.Lemmas.Taylor
import Verif.Lemmas.TensorSigns
import Verif.Lemmas.TwoD
import Verif.Lemmas.Typed
import Verif.Lemmas.TypedPrism
import Verif.Lemmas.Unroll
import Verif.Lemmas.Unsigned
import Verif.Lemmas.UserGuide
import Verif.Lemmas.Vc
import Verif.Lemmas.Vc2
import Verif.Lemmas.VcCalc
import Verif.Props.Absorbed
import Verif.Props.Ball
import Verif.Props.Bits
import Verif.Props.Bits2
import Verif.Props.Bits3
import Verif.Props.Bodies
import Verif.Props.Decay
import Verif.Props.Depth
import Verif.Props.Design
import Verif.Props.Dipole
import Verif.Props.DistanceDouble
import Verif.Props.EdgeField
import Verif.Props.EdgeGradient
import Verif.Props.EquivSource
import Verif.Props.ErrorBound
import Verif.Props.ErrorKernels
import Verif.Props.ErrorPrism
import Verif.Props.Euler
import Verif.Props.FaceCharge
import Verif.Props.FaceValues
import Verif.Props.FarField
import Verif.Props.FieldTriples
import Verif.Props.FiniteDiff
import Verif.Props.Flux
import Verif.Props.ForwardDouble
import Verif.Props.ForwardNumba
import Verif.Props.ForwardSingle
import Verif.Props.Grid
import Verif.Props.GuideSingle
import Verif.Props.HalfSpace
import Verif.Props.Independence
import Verif.Props.Independence2
import Verif.Props.Infinite
import Verif.Props.Infinite2
import Verif.Props.Infinite3
import Verif.Props.Interp
import Verif.Props.Jacobian
import Verif.Props.JacobianDouble
import Verif.Props.JacobianLengths
import Verif.Props.JitOff
import Verif.Props.LawsDouble
import Verif.Props.Layer
import Verif.Props.Lengths
import Verif.Props.Mixed
import Verif.Props.MixedBits
import Verif.Props.MixedBits2
import Verif.Props.MixedNaN
import Verif.Props.Models
import Verif.Props.Moments
import Verif.Props.Mutual
import Verif.Props.NaN
import Verif.Props.NaN2
import Verif.Props.NoRaise
import Verif.Props.NoRaise32
import Verif.Props.NpInt
import Verif.Props.NumbaPow
import Verif.Props.Ordering
import Verif.Props.Overflow32
import Verif.Props.Path
import Verif.Props.Peak
import Verif.Props.Plane
import Verif.Props.Point
import Verif.Props.PrismBounds
import Verif.Props.PrismCalc
import Verif.Props.PrismIntegral
import Verif.Props.PrismLaplace
import Verif.Props.PrismMagCalc
import Verif.Props.PrismPoints
import Verif.Props.PrismSym
import Verif.Props.PyInt
import Verif.Props.PyIntDouble
import Verif.Props.Python
import Verif.Props.PythonDouble
import Verif.Props.PythonRaise
import Verif.Props.Quadrupole
import Verif.Props.RangeDouble
import Verif.Props.Reversed
import Verif.Props.Scaling
import Verif.Props.Shape
import Verif.Props.Signed
import Verif.Props.SinglePrecision
import Verif.Props.SinglePrism
import Verif.Props.Slab
import Verif.Props.Smooth
import Verif.Props.Spectrum
import Verif.Props.Sphere
import Verif.Props.Spherical
import Verif.Props.SphericalSingle
import Verif.Props.Stability
import Verif.Props.SumError
import Verif.Props.Survey
import Verif.Props.TensorSigns
import Verif.Props.TwoD
import Verif.Props.Typed
import Verif.Props.Uniqueness
import Verif.Props.Uniqueness2
import Verif.Props.Uniqueness3
import Verif.Props.Unsigned
import Verif.Props.UserGuide
import Verif.Props.Utils
import Verif.Props.Warranted
import Verif.Props.Witness
import Verif.Props.Witness2
import Verif.Props.Witness3
import Verif.Props.Witness4
import Verif.Props.Witness5
import Verif.Props.Witness6
import Verif.Props.Witness7
import Verif.Props.Witness8
