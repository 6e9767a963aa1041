import Verif.Lemmas.Local
import Verif.Lemmas.Textbook

/-!
# Coordination numbers are local

What the displacement of an atom changes coordination numbers by does not grow with the system.
-/

open Filter Topology
open scoped Classical

namespace TadDftd4

section
variable {n : ℕ} {C : Spec.CNPar} {δ : ℝ}

theorem along_tendsto {f : (Fin n → Spec.E3) → ℝ} {x : Fin n → Spec.E3} (h : DifferentiableAt ℝ f x)
    (v : Fin n → Spec.E3) : Tendsto (fun t : ℝ => t⁻¹ * (f (x + t • v) - f x)) (𝓝[≠] 0) (𝓝 (fderiv ℝ f x v)) := by
  have h1 : HasDerivAt (fun t : ℝ => f (x + t • v)) (fderiv ℝ f x v) 0 := by
    have hl : HasDerivAt (fun t : ℝ => x + t • v) v 0 := by
      simpa using ((hasDerivAt_id (0 : ℝ)).smul_const v).const_add x
    exact HasFDerivAt.comp_hasDerivAt (0 : ℝ) (by simpa using h.hasFDerivAt) hl
  simpa using hasDerivAt_iff_tendsto_slope_zero.1 h1

theorem gauss_decay {k s r : ℝ} (hk : k ≠ 0) (hs : 0 < s) (hr : 0 < r) :
    Real.exp (-(-k * (r / s - 1)) ^ 2) ≤ s ^ 6 * (64 * (1 + 6 / k ^ 6)) / r ^ 6 := by
  set w := |r / s - 1| with hw
  have hw0 : 0 ≤ w := abs_nonneg _
  have hu : (-k * (r / s - 1)) ^ 2 = k ^ 2 * w ^ 2 := by rw [hw, sq_abs]; ring
  have hk6 : 0 < k ^ 6 := by positivity
  have h1 : r ≤ s * (1 + w) := by
    have h2 : r / s ≤ 1 + w := by linarith [le_abs_self (r / s - 1)]
    rwa [div_le_iff₀' hs] at h2
  have h2 : r ^ 6 ≤ s ^ 6 * (64 * (1 + w ^ 6)) := by
    have h3 : (1 + w) ^ 6 ≤ 64 * (1 + w ^ 6) := by
      rcases le_total w 1 with h | h
      · have : (1 + w) ^ 6 ≤ (2 : ℝ) ^ 6 := pow_le_pow_left₀ (by linarith) (by linarith) 6
        have h6 : 0 ≤ w ^ 6 := by positivity
        linarith
      · have : (1 + w) ^ 6 ≤ (2 * w) ^ 6 := pow_le_pow_left₀ (by linarith) (by linarith) 6
        rw [mul_pow] at this
        linarith
    calc r ^ 6 ≤ (s * (1 + w)) ^ 6 := pow_le_pow_left₀ hr.le h1 6
      _ = s ^ 6 * (1 + w) ^ 6 := by ring
      _ ≤ _ := mul_le_mul_of_nonneg_left h3 (by positivity)
  have h4 : (k ^ 2 * w ^ 2) ^ 3 / 6 ≤ Real.exp (k ^ 2 * w ^ 2) := by
    have := Real.pow_div_factorial_le_exp (k ^ 2 * w ^ 2) (by positivity) 3
    norm_num [Nat.factorial] at this
    exact this
  have h5 : w ^ 6 ≤ 6 / k ^ 6 * Real.exp (k ^ 2 * w ^ 2) := by
    rw [div_mul_eq_mul_div, le_div_iff₀ hk6]
    nlinarith
  have h7 : 1 ≤ Real.exp (k ^ 2 * w ^ 2) := Real.one_le_exp (by positivity)
  rw [hu, Real.exp_neg, le_div_iff₀ (by positivity), inv_mul_le_iff₀ (Real.exp_pos _)]
  calc r ^ 6 ≤ s ^ 6 * (64 * (1 + w ^ 6)) := h2
    _ ≤ s ^ 6 * (64 * (Real.exp (k ^ 2 * w ^ 2) * (1 + 6 / k ^ 6))) := by
        refine mul_le_mul_of_nonneg_left (mul_le_mul_of_nonneg_left ?_ (by norm_num)) (by positivity)
        linarith
    _ = _ := by ring

theorem count_deriv (hk : C.steep ≠ 0) {Z Z' : ℕ} (hs : 0 < C.rcov Z + C.rcov Z') :
    ∃ A : ℝ, 0 ≤ A ∧ ∀ r, 0 < r → ∃ d, HasDerivAt (C.count Z Z') d r ∧ |d| ≤ A / r ^ 6 := by
  set s := C.rcov Z + C.rcov Z' with hsd
  set B := |C.factor Z Z'| * (2 / √Real.pi * |-C.steep * (1 / s)| / 2) with hB
  have hB0 : 0 ≤ B := by positivity
  have hk6 : 0 < C.steep ^ 6 := by positivity
  refine ⟨B * (s ^ 6 * (64 * (1 + 6 / C.steep ^ 6))), by positivity, fun r hr => ?_⟩
  have hu : HasDerivAt (fun r : ℝ => -C.steep * (r / s - 1)) (-C.steep * (1 / s)) r :=
    (((hasDerivAt_id r).div_const s).sub_const 1).const_mul (-C.steep)
  have hd := (((Spec.erf_hasDerivAt (-C.steep * (r / s - 1))).comp r hu).const_add 1).div_const 2 |>.const_mul (C.factor Z Z')
  refine ⟨_, hd, ?_⟩
  rw [abs_mul, abs_div, abs_mul, abs_mul, abs_of_nonneg (by positivity : (0 : ℝ) ≤ 2 / √Real.pi), Real.abs_exp,
    abs_of_pos (by norm_num : (0 : ℝ) < 2), mul_div_assoc B]
  have := mul_le_mul_of_nonneg_left (gauss_decay hk hs hr) hB0
  refine le_trans (le_of_eq ?_) this
  rw [hB]
  ring

theorem dist_along {x : Fin n → Spec.E3} {i j : Fin n} (h : x i ≠ x j) (v : Fin n → Spec.E3) :
    |fderiv ℝ (fun y : Fin n → Spec.E3 => dist (y i) (y j)) x v| ≤ ‖v i‖ + ‖v j‖ := by
  have hd : DifferentiableAt ℝ (fun y : Fin n → Spec.E3 => dist (y i) (y j)) x :=
    (Spec.dist_contDiffAt (m := 1) h).differentiableAt (by norm_num)
  refine le_of_tendsto (along_tendsto hd v).abs ?_
  filter_upwards [self_mem_nhdsWithin] with t ht
  have ht0 : 0 < |t| := abs_pos.2 ht
  have h1 : ∀ i, dist ((x + t • v) i) (x i) = |t| * ‖v i‖ := by
    intro i
    rw [dist_eq_norm, Pi.add_apply, add_sub_cancel_left, Pi.smul_apply, norm_smul, Real.norm_eq_abs]
  have h2 := dist_dist_dist_le ((x + t • v) i) ((x + t • v) j) (x i) (x j)
  rw [h1, h1, Real.dist_eq] at h2
  rw [abs_mul, abs_inv, inv_mul_le_iff₀ ht0]
  linarith

/-- Derivatives of coordination numbers. -/
theorem cnErf_along (hk : C.steep ≠ 0) (N : ℕ) (hs : ∀ Z < N, ∀ Z' < N, Z ≠ 0 → Z' ≠ 0 → 0 < C.rcov Z + C.rcov Z') :
    ∃ A : ℝ, 0 ≤ A ∧ ∀ (n : ℕ) (Z : Fin n → ℕ) (x v : Fin n → Spec.E3) (cutoff : ℝ), (∀ i, Z i < N) →
      (∀ i j, Z i ≠ 0 → Z j ≠ 0 → i ≠ j → x i ≠ x j ∧ dist (x i) (x j) ≠ cutoff) → ∀ i, Z i ≠ 0 →
      |fderiv ℝ (fun y => Spec.cnErf C cutoff n Z y i) x v| ≤ A * ∑ j, (‖v i‖ + ‖v j‖) * invSix Z x i j := by
  have hA : ∀ Z Z' : ℕ, ∃ A : ℝ, 0 ≤ A ∧ (0 < C.rcov Z + C.rcov Z' →
      ∀ r, 0 < r → ∃ d, HasDerivAt (C.count Z Z') d r ∧ |d| ≤ A / r ^ 6) := by
    intro Z Z'
    by_cases h : 0 < C.rcov Z + C.rcov Z'
    · obtain ⟨A, h0, hA⟩ := count_deriv hk h
      exact ⟨A, h0, fun _ => hA⟩
    · exact ⟨0, le_rfl, fun h' => absurd h' h⟩
  choose A hA0 hA using hA
  refine ⟨∑ Z ∈ Finset.range N, ∑ Z' ∈ Finset.range N, A Z Z',
    Finset.sum_nonneg fun _ _ => Finset.sum_nonneg fun _ _ => hA0 _ _, fun n Z x v cutoff hZ hx i hi => ?_⟩
  have hAle : ∀ Z < N, ∀ Z' < N, A Z Z' ≤ ∑ Z ∈ Finset.range N, ∑ Z' ∈ Finset.range N, A Z Z' := by
    intro Z hZ Z' hZ'
    refine (Finset.single_le_sum (f := fun Z' => A Z Z') (fun _ _ => hA0 _ _) (Finset.mem_range.2 hZ')).trans ?_
    exact Finset.single_le_sum (f := fun Z => ∑ Z' ∈ Finset.range N, A Z Z')
      (fun _ _ => Finset.sum_nonneg fun _ _ => hA0 _ _) (Finset.mem_range.2 hZ)
  set S := ∑ Z ∈ Finset.range N, ∑ Z' ∈ Finset.range N, A Z Z' with hSd
  have term : ∀ j, ∃ L : (Fin n → Spec.E3) →L[ℝ] ℝ, HasFDerivAt (fun y : Fin n → Spec.E3 =>
      if Z i ≠ 0 ∧ Z j ≠ 0 ∧ i ≠ j ∧ dist (y i) (y j) ≤ cutoff then C.count (Z i) (Z j) (dist (y i) (y j)) else 0) L x ∧
      |L v| ≤ S * ((‖v i‖ + ‖v j‖) * invSix Z x i j) := by
    intro j
    have hS0 : 0 ≤ S * ((‖v i‖ + ‖v j‖) * invSix Z x i j) := mul_nonneg
      (Finset.sum_nonneg fun _ _ => Finset.sum_nonneg fun _ _ => hA0 _ _) (mul_nonneg (by positivity) (invSix_nonneg _ _ _ _))
    have h0 : ∀ {f : (Fin n → Spec.E3) → ℝ}, f =ᶠ[𝓝 x] (fun _ => 0) → ∃ L : (Fin n → Spec.E3) →L[ℝ] ℝ, HasFDerivAt f L x ∧
        |L v| ≤ S * ((‖v i‖ + ‖v j‖) * invSix Z x i j) := fun hf =>
      ⟨0, (hasFDerivAt_const (0 : ℝ) x).congr_of_eventuallyEq hf, by simpa using hS0⟩
    by_cases hc : Z i ≠ 0 ∧ Z j ≠ 0 ∧ i ≠ j
    · obtain ⟨h1, h2⟩ := hx i j hi hc.2.1 hc.2.2
      have hcont : Tendsto (fun y : Fin n → Spec.E3 => dist (y i) (y j)) (𝓝 x) (𝓝 (dist (x i) (x j))) :=
        (Continuous.dist (continuous_apply i) (continuous_apply j)).continuousAt
      rcases lt_or_gt_of_ne h2 with hlt | hgt
      · obtain ⟨d, hd, hdle⟩ := hA (Z i) (Z j) (hs _ (hZ i) _ (hZ j) hi hc.2.1) _ (dist_pos.2 h1)
        have hdist : DifferentiableAt ℝ (fun y : Fin n → Spec.E3 => dist (y i) (y j)) x :=
          (Spec.dist_contDiffAt (m := 1) h1).differentiableAt (by norm_num)
        have hcomp := hd.comp_hasFDerivAt x hdist.hasFDerivAt
        refine ⟨_, hcomp.congr_of_eventuallyEq ?_, ?_⟩
        · filter_upwards [hcont.eventually (gt_mem_nhds hlt)] with y hy
          exact if_pos ⟨hc.1, hc.2.1, hc.2.2, le_of_lt hy⟩
        · rw [ContinuousLinearMap.smul_apply, smul_eq_mul, abs_mul]
          have e6 : invSix Z x i j = 1 / dist (x i) (x j) ^ 6 := if_pos hc
          have h3 : |d| ≤ S * invSix Z x i j := by
            rw [e6, mul_one_div]
            exact hdle.trans (div_le_div_of_nonneg_right (hAle _ (hZ i) _ (hZ j)) (by positivity))
          calc _ ≤ (S * invSix Z x i j) * (‖v i‖ + ‖v j‖) :=
                mul_le_mul h3 (dist_along h1 v) (abs_nonneg _) ((abs_nonneg _).trans h3)
            _ = _ := by ring
      · refine h0 ?_
        filter_upwards [hcont.eventually (lt_mem_nhds hgt)] with y hy
        exact if_neg fun hh => absurd hh.2.2.2 (not_le.2 hy)
    · exact h0 (Eventually.of_forall fun y => if_neg fun hh => hc ⟨hh.1, hh.2.1, hh.2.2.1⟩)
  choose L hL hLle using term
  have hsum : HasFDerivAt (fun y => Spec.cnErf C cutoff n Z y i) (∑ j, L j) x := by
    unfold Spec.cnErf
    exact HasFDerivAt.fun_sum fun j _ => hL j
  rw [hsum.fderiv, ContinuousLinearMap.sum_apply, Finset.mul_sum]
  exact (Finset.abs_sum_le_sum_abs _ _).trans (Finset.sum_le_sum fun j _ => hLle j)

/-- Sum over the system. -/
theorem cnErf_along_sum (hδ : 0 < δ) (hk : C.steep ≠ 0) (N : ℕ)
    (hs : ∀ Z < N, ∀ Z' < N, Z ≠ 0 → Z' ≠ 0 → 0 < C.rcov Z + C.rcov Z') :
    ∃ A : ℝ, 0 ≤ A ∧ ∀ (n : ℕ) (Z : Fin n → ℕ) (x v : Fin n → Spec.E3) (cutoff : ℝ), (∀ i, Z i < N) →
      Spec.Spaced δ Z x → (∀ i j, Z i ≠ 0 → Z j ≠ 0 → i ≠ j → dist (x i) (x j) ≠ cutoff) →
      Spec.sumReal Z (fun i => |fderiv ℝ (fun y => Spec.cnErf C cutoff n Z y i) x v|) ≤
        A * Spec.sumReal Z fun j => ‖v j‖ := by
  obtain ⟨A, hA0, hA⟩ := cnErf_along hk N hs
  refine ⟨A * (2 * (5488 / δ ^ 6)), by positivity, fun n Z x v cutoff hZ hsp hx => ?_⟩
  have hu : ∀ i, 0 ≤ (if Z i ≠ 0 then ‖v i‖ else 0) := fun i => by
    split_ifs
    · exact norm_nonneg _
    · exact le_rfl
  have h1 := mul_le_mul_of_nonneg_left (sum_invSix Z x hδ hsp hu) hA0
  rw [← mul_assoc] at h1
  refine le_trans ?_ h1
  unfold Spec.sumReal
  rw [Finset.mul_sum]
  refine Finset.sum_le_sum fun i _ => ?_
  by_cases hi : Z i ≠ 0
  · rw [if_pos hi]
    refine (hA n Z x v cutoff hZ (fun i j h1 h2 h3 => ⟨fun he => ?_, hx i j h1 h2 h3⟩) i hi).trans (le_of_eq ?_)
    · have := hsp i j h3 h1 h2
      rw [he, dist_self] at this
      linarith
    · refine congrArg _ (Finset.sum_congr rfl fun j _ => ?_)
      by_cases hj : Z i ≠ 0 ∧ Z j ≠ 0 ∧ i ≠ j
      · rw [if_pos hi, if_pos hj.2.1]
      · have : invSix Z x i j = 0 := if_neg hj
        rw [this, mul_zero, mul_zero]
  · rw [if_neg hi]
    exact mul_nonneg hA0 (Finset.sum_nonneg fun j _ => mul_nonneg (add_nonneg (hu i) (hu j)) (invSix_nonneg _ _ _ _))

end

end TadDftd4
