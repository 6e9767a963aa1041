import Verif.Lemmas.C6Props
import Verif.Lemmas.Alpha
import Mathlib.Analysis.SpecialFunctions.Integrals.Basic

/-!
# C21: the Casimir-Polder quadrature is the trapezoidal rule on the D4 frequency grid
-/

set_option linter.unusedSimpArgs false

open scoped Classical

namespace TadDftd4

open Tensor

/-- The frequencies at which the D4 reference polarizabilities are tabulated. -/
noncomputable def Spec.grid (k : ℕ) : ℝ :=
  [0.000001, 0.05, 0.1, 0.2, 0.3, 0.4, 0.5, 0.6, 0.7, 0.8, 0.9, 1.0, 1.2, 1.4, 1.6, 1.8, 2.0, 2.5,
   3.0, 4.0, 5.0, 7.5, 10.0].getD k 0

/-- Trapezoidal rule for the values `f k` at the points `x k`, `k ≤ N`. -/
noncomputable def Spec.trapezoid (x f : ℕ → ℝ) (N : ℕ) : ℝ :=
  ∑ k ∈ Finset.range N, (x (k + 1) - x k) * ((f k + f (k + 1)) / 2)

/-- The quadrature used by the three functions is the trapezoidal rule, up to the digit `1e-17` in the
third weight (`7.5000000000000010e-002`). -/
theorem C21_rule (f : ℕ → ℝ) :
    ∑ k ∈ Finset.range nfreq, trapzWeights.getD k 0 * f k =
      Spec.trapezoid Spec.grid f 22 + 1e-17 * f 2 := by
  unfold Spec.trapezoid Spec.grid trapzWeights nfreq
  simp only [Finset.sum_range_succ, Finset.sum_range_zero, List.getD_cons_zero, List.getD_cons_succ,
    zero_add, Nat.reduceAdd]
  norm_num
  ring

/-- All weights are positive. -/
theorem C21_positive {k : ℕ} (hk : k < nfreq) : 0 < trapzWeights.getD k 0 := trapzWeights_pos hk

/-- Their sum is the length of the integration interval (up to `1e-17`). -/
theorem C21_length : ∑ k ∈ Finset.range nfreq, trapzWeights.getD k 0 =
    (Spec.grid 22 - Spec.grid 0) + 1e-17 := by
  have := C21_rule fun _ => 1
  simp only [mul_one] at this
  rw [this]
  unfold Spec.trapezoid
  simp only [add_self_div_two, mul_one]
  rw [Finset.sum_range_sub]

/-- `f` is a straight line between `a` and `b`. -/
def LinearOn (f : ℝ → ℝ) (a b : ℝ) : Prop :=
  ∀ x ∈ Set.Icc a b, f x = f a + (f b - f a) / (b - a) * (x - a)

theorem integral_linear {f : ℝ → ℝ} {a b : ℝ} (hab : a < b) (h : LinearOn f a b) :
    IntervalIntegrable f MeasureTheory.volume a b ∧
    ∫ x in a..b, f x = (b - a) * ((f a + f b) / 2) := by
  have hc : Continuous fun x => f a + (f b - f a) / (b - a) * (x - a) := by fun_prop
  have heq : Set.EqOn f (fun x => f a + (f b - f a) / (b - a) * (x - a)) (Set.uIcc a b) := by
    rw [Set.uIcc_of_le hab.le]; exact h
  constructor
  · refine (hc.intervalIntegrable a b).congr ?_
    intro x hx
    exact (heq (Set.uIoc_subset_uIcc hx)).symm
  · rw [intervalIntegral.integral_congr heq]
    have hd : b - a ≠ 0 := by linarith
    rw [intervalIntegral.integral_add (by simp) (by
      exact (Continuous.intervalIntegrable (by fun_prop) _ _)), intervalIntegral.integral_const_mul,
      intervalIntegral.integral_sub (by simp) (by simp), integral_id,
      intervalIntegral.integral_const, intervalIntegral.integral_const]
    simp only [smul_eq_mul]
    field_simp
    ring

theorem grid_lt {k : ℕ} (hk : k < 22) : Spec.grid k < Spec.grid (k + 1) := by
  unfold Spec.grid
  interval_cases k <;> norm_num

/-- Exact for integrands that are straight lines between the grid points. -/
theorem C21_exact {f : ℝ → ℝ} (h : ∀ k < 22, LinearOn f (Spec.grid k) (Spec.grid (k + 1))) :
    ∑ k ∈ Finset.range nfreq, trapzWeights.getD k 0 * f (Spec.grid k) =
      (∫ x in (0.000001 : ℝ)..10, f x) + 1e-17 * f 0.1 := by
  have h1 := C21_rule fun k => f (Spec.grid k)
  rw [h1]
  have hint := intervalIntegral.sum_integral_adjacent_intervals (μ := MeasureTheory.volume) (f := f)
    (a := Spec.grid) (n := 22) (fun k hk => (integral_linear (grid_lt hk) (h k hk)).1)
  have e0 : Spec.grid 0 = 0.000001 := by simp [Spec.grid]
  have e22 : Spec.grid 22 = 10 := by norm_num [Spec.grid]
  have e2 : Spec.grid 2 = 0.1 := by simp [Spec.grid]
  rw [e0, e22] at hint
  rw [← hint, e2]
  congr 1
  refine Finset.sum_congr rfl fun k hk => ?_
  have hk := Finset.mem_range.1 hk
  exact (integral_linear (grid_lt hk) (h k hk)).2.symm

section
variable {n n2 : ℕ} {B : Shape}

/-- `trapzd` integrates products of polarizabilities of reference `a` of atom `i` and reference `b` of
atom `j`. -/
theorem C21_trapzd {p1 p2 : Tensor ℝ} (h1 : p1.Ok (nfreq :: nref :: n :: B))
    (h2 : p2.Ok (nfreq :: nref :: n2 :: B)) {e : Idx} {i j a b : ℕ} (he : InB B e) (hi : i < n)
    (hj : j < n2) (ha : a < nref) (hb : b < nref) :
    (trapzd p1 (some p2)).Ok (nref :: nref :: n2 :: n :: B) ∧
    (trapzd p1 (some p2)).get (b :: a :: j :: i :: e) = 3 / Real.pi *
      (Spec.trapezoid Spec.grid (fun w => p1.get (w :: a :: i :: e) * p2.get (w :: b :: j :: e)) 22 +
        1e-17 * (p1.get (2 :: a :: i :: e) * p2.get (2 :: b :: j :: e))) := by
  refine ⟨trapzd_ok h1 h2, ?_⟩
  rw [trapzd_get h1 h2 he hi hj ha hb, C21_rule fun w =>
    p1.get (w :: a :: i :: e) * p2.get (w :: b :: j :: e)]
  rfl

theorem C21_trapzd_noref {p1 p2 : Tensor ℝ} (h1 : p1.Ok (nfreq :: n :: B))
    (h2 : p2.Ok (nfreq :: n2 :: B)) {e : Idx} {i j : ℕ} (he : InB B e) (hi : i < n) (hj : j < n2) :
    (trapzdNoref p1 (some p2)).Ok (n2 :: n :: B) ∧
    (trapzdNoref p1 (some p2)).get (j :: i :: e) = 3 / Real.pi *
      (Spec.trapezoid Spec.grid (fun w => p1.get (w :: i :: e) * p2.get (w :: j :: e)) 22 +
        1e-17 * (p1.get (2 :: i :: e) * p2.get (2 :: j :: e))) := by
  refine ⟨trapzdNoref_ok h1 h2, ?_⟩
  rw [trapzdNoref_get h1 h2 he hi hj, C21_rule fun w => p1.get (w :: i :: e) * p2.get (w :: j :: e)]
  rfl

/-- With one argument, products of polarizabilities of the same system are integrated. -/
theorem C21_one_argument {p p' : Tensor ℝ} (h : p.Ok (nfreq :: nref :: n :: B))
    (h' : p'.Ok (nfreq :: n :: B)) {e : Idx} {i j a b : ℕ} (he : InB B e) (hi : i < n) (hj : j < n)
    (ha : a < nref) (hb : b < nref) :
    (trapzd p none).get (b :: a :: j :: i :: e) = 3 / Real.pi *
      (Spec.trapezoid Spec.grid (fun w => p.get (w :: a :: i :: e) * p.get (w :: b :: j :: e)) 22 +
        1e-17 * (p.get (2 :: a :: i :: e) * p.get (2 :: b :: j :: e))) ∧
    (trapzdNoref p' none).get (j :: i :: e) = 3 / Real.pi *
      (Spec.trapezoid Spec.grid (fun w => p'.get (w :: i :: e) * p'.get (w :: j :: e)) 22 +
        1e-17 * (p'.get (2 :: i :: e) * p'.get (2 :: j :: e))) :=
  ⟨(C21_trapzd h h he hi hj ha hb).2, (C21_trapzd_noref h' h' he hi hj).2⟩

theorem C21_trapzd_atm {p : Tensor ℝ} (h : p.Ok (nfreq :: n :: n :: n :: B)) {e : Idx} {i j k : ℕ}
    (he : InB B e) (hi : i < n) (hj : j < n) (hk : k < n) :
    (trapzdAtm p).Ok (n :: n :: n :: B) ∧
    (trapzdAtm p).get (k :: j :: i :: e) = 3 / Real.pi *
      (Spec.trapezoid Spec.grid (fun w => p.get (w :: k :: j :: i :: e)) 22 +
        1e-17 * p.get (2 :: k :: j :: i :: e)) := by
  refine ⟨trapzdAtm_ok h, ?_⟩
  rw [trapzdAtm_get h he hi hj hk, Finset.sum_congr rfl fun w _ => mul_comm _ _,
    C21_rule fun w => p.get (w :: k :: j :: i :: e)]
  rfl

end

/-- A piecewise linear integrand: the identity. -/
example : ∑ k ∈ Finset.range nfreq, trapzWeights.getD k 0 * Spec.grid k =
    (∫ x in (0.000001 : ℝ)..10, x) + 1e-17 * 0.1 :=
  C21_exact (f := fun x => x) fun k hk x _ => by
    have := grid_lt hk
    have hd : Spec.grid (k + 1) - Spec.grid k ≠ 0 := by linarith
    beta_reduce
    field_simp
    ring

/-- Two atoms with seven references each and constant polarizability 1. -/
example : (trapzd (full [nfreq, nref, 2] 1) (some (full [nfreq, nref, 2] 1))).get [3, 2, 1, 0] =
    3 / Real.pi * (Spec.trapezoid Spec.grid (fun _ => 1 * 1) 22 + 1e-17 * (1 * 1)) :=
  (C21_trapzd (B := []) (e := []) ⟨rfl, rfl⟩ ⟨rfl, rfl⟩ InB_nil (by norm_num) (by norm_num)
    (by norm_num) (by norm_num)).2

example := C21_rule Spec.grid

example : 0 < trapzWeights.getD 5 0 := C21_positive (by norm_num)

example := C21_trapzd_atm (p := full [nfreq, 2, 2, 2, 3] 1) (n := 2) (B := [3]) (e := [1]) (i := 0)
  (j := 1) (k := 1) ⟨rfl, rfl⟩ (by simp [InB]) (by norm_num) (by norm_num) (by norm_num)

example := C21_trapzd_noref (p1 := full [nfreq, 2, 3] 1) (p2 := full [nfreq, 4, 3] 2) (n := 2)
  (n2 := 4) (B := [3]) (e := [1]) (i := 1) (j := 3) ⟨rfl, rfl⟩ ⟨rfl, rfl⟩ (by simp [InB])
  (by norm_num) (by norm_num)

example := C21_one_argument (p := full [nfreq, nref, 2, 3] 1) (p' := full [nfreq, 2, 3] 1) (n := 2)
  (B := [3]) (e := [1]) (i := 0) (j := 1) (a := 2) (b := 3) ⟨rfl, rfl⟩ ⟨rfl, rfl⟩ (by simp [InB])
  (by norm_num) (by norm_num) (by norm_num) (by norm_num)

end TadDftd4
