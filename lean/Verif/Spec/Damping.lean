import Mathlib.Analysis.SpecialFunctions.Pow.Real

/-!
# Specification: damping functions of the documentation

`R` is the distance of two atoms, `R0` their critical radius. Each `f` is the factor which
multiplies the undamped interaction `1/R^n`.
-/

namespace TadDftd4.Spec

/-- Class documentation of `RationalDamping` (Becke-Johnson). -/
noncomputable def fRational (n : ℕ) (R0 R : ℝ) : ℝ := R ^ n / (R ^ n + R0 ^ n)

/-- Class documentation of `ZeroDamping` (Chai-Head-Gordon). -/
noncomputable def fZero (a R0 R : ℝ) : ℝ := 1 / (1 + 6 * (R / R0) ^ (-a))

/-- Optimised-power damping (Witte et al., JCTC 13, 2043 (2017)): damped `1/R^n`. -/
noncomputable def gOptPower (n : ℕ) (bet R0 R : ℝ) : ℝ :=
  R ^ bet / (R ^ bet * R ^ n + R0 ^ bet * R0 ^ n)

/-- Modified zero damping (Smith et al., JPCL 7, 2197 (2016)). -/
noncomputable def fMZero (a rs bet R0 R : ℝ) : ℝ := 1 / (1 + 6 * (R / (rs * R0) + bet * R0) ^ (-a))

end TadDftd4.Spec
