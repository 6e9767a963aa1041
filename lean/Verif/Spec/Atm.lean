import Verif.Spec.Energy
import Mathlib.Geometry.Euclidean.Triangle

/-!
# Specification: Axilrod-Teller-Muto energy of three points
-/

open scoped Classical EuclideanGeometry

namespace TadDftd4.Spec

/-- `s9 C9 f (3 cos α cos β cos γ + 1) / (r_ab r_bc r_ca)³` with the interior angles of the triangle
and `f = 1 / (1 + 6 (R0 / (r_ab r_bc r_ca))^(alp/3))`, `R0` the product of the critical radii. -/
noncomputable def atm (s9 C9 alp R0 : ℝ) (a b c : E3) : ℝ :=
  C9 * s9 * (1 / (1 + 6 * (R0 / (dist a b * dist a c * dist b c)) ^ (alp / 3))) *
    (3 * Real.cos (∠ b a c) * Real.cos (∠ a b c) * Real.cos (∠ a c b) + 1) /
    (dist a b * dist a c * dist b c) ^ 3

theorem cosSides_eq_cos {a b c : E3} (hb : b ≠ a) (hc : c ≠ a) :
    cosSides (dist a b) (dist a c) (dist b c) = Real.cos (∠ b a c) := by
  have h := EuclideanGeometry.dist_sq_eq_dist_sq_add_dist_sq_sub_two_mul_dist_mul_dist_mul_cos_angle
    b a c
  have h1 : dist a b ≠ 0 := dist_ne_zero.2 hb.symm
  have h2 : dist a c ≠ 0 := dist_ne_zero.2 hc.symm
  rw [dist_comm b a, dist_comm c a] at h
  unfold cosSides
  rw [div_eq_iff (by positivity)]
  nlinarith

/-- The term does not depend on the order of the points. -/
theorem atm_swap12 (s9 C9 alp R0 : ℝ) (a b c : E3) :
    atm s9 C9 alp R0 a b c = atm s9 C9 alp R0 b a c := by
  unfold atm
  rw [dist_comm b a, EuclideanGeometry.angle_comm b c a,
    show dist a b * dist b c * dist a c = dist a b * dist a c * dist b c by ring]
  ring

theorem atm_swap23 (s9 C9 alp R0 : ℝ) (a b c : E3) :
    atm s9 C9 alp R0 a b c = atm s9 C9 alp R0 a c b := by
  unfold atm
  rw [dist_comm c b, EuclideanGeometry.angle_comm c a b,
    show dist a c * dist a b * dist b c = dist a b * dist a c * dist b c by ring]
  ring

end TadDftd4.Spec
