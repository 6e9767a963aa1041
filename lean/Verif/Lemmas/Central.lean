import Mathlib.Analysis.Calculus.ContDiff.RCLike
import Mathlib.Analysis.Calculus.ContDiff.Comp
import Mathlib.Analysis.Calculus.MeanValue
import Mathlib.Analysis.SpecialFunctions.Pow.Real

/-!
# Central differences
-/

open Filter Topology Set

namespace TadDftd4

/-- Central difference quotient with step `h`. -/
noncomputable def Spec.central (f : ℝ → ℝ) (h : ℝ) : ℝ := (f h - f (-h)) / (2 * h)

/-- A function whose derivative is at most `L |t| ^ k` changes by at most `L t ^ (k + 1)`. -/
theorem abs_sub_zero_le {F F' : ℝ → ℝ} {L δ : ℝ} {k : ℕ} (hL : 0 ≤ L)
    (hF : ∀ t, 0 ≤ t → t < δ → HasDerivAt F (F' t) t) (hb : ∀ t, 0 ≤ t → t < δ → |F' t| ≤ L * t ^ k)
    {t : ℝ} (h0 : 0 ≤ t) (ht : t < δ) : |F t - F 0| ≤ L * t ^ (k + 1) := by
  have h := Convex.norm_image_sub_le_of_norm_hasDerivWithin_le (f := F) (f' := F') (s := Icc 0 t)
    (C := L * t ^ k) (x := 0) (y := t)
    (fun s hs => (hF s hs.1 (lt_of_le_of_lt hs.2 ht)).hasDerivWithinAt)
    (fun s hs => by
      rw [Real.norm_eq_abs]
      refine (hb s hs.1 (lt_of_le_of_lt hs.2 ht)).trans ?_
      exact mul_le_mul_of_nonneg_left (pow_le_pow_left₀ hs.1 hs.2 k) hL)
    (convex_Icc 0 t) ⟨le_rfl, h0⟩ ⟨h0, le_rfl⟩
  rw [Real.norm_eq_abs, Real.norm_eq_abs, sub_zero, abs_of_nonneg h0] at h
  calc |F t - F 0| ≤ L * t ^ k * t := h
    _ = L * t ^ (k + 1) := by ring

theorem contDiffAt_deriv {f : ℝ → ℝ} {x : ℝ} {m : ℕ} (hf : ContDiffAt ℝ (m + 1 : ℕ) f x) :
    ContDiffAt ℝ m (deriv f) x := by
  have h := hf.fderiv_right (m := m) (by push_cast; exact le_rfl)
  have h2 : ContDiffAt ℝ m (fun y => fderiv ℝ f y 1) x := h.clm_apply contDiffAt_const
  exact h2

/-- The central difference of a function with three continuous derivatives differs from the
derivative by at most a constant times the square of the step. -/
theorem central_le {f : ℝ → ℝ} (hf : ContDiffAt ℝ 3 f 0) :
    ∃ K δ : ℝ, 0 ≤ K ∧ 0 < δ ∧ ∀ h, 0 < h → h < δ →
      |Spec.central f h - deriv f 0| ≤ K * h ^ 2 := by
  have h1 : ContDiffAt ℝ (2 : ℕ) (deriv f) 0 := contDiffAt_deriv (m := 2) (by exact_mod_cast hf)
  have h2 : ContDiffAt ℝ (1 : ℕ) (deriv (deriv f)) 0 := contDiffAt_deriv (m := 1) h1
  obtain ⟨L, s, hs, hL⟩ := ContDiffAt.exists_lipschitzOnWith (by exact_mod_cast h2)
  have e1 : ∀ᶠ t in 𝓝 (0 : ℝ), DifferentiableAt ℝ f t :=
    (hf.eventually (by simp)).mono fun t ht => ht.differentiableAt (by norm_num)
  have e2 : ∀ᶠ t in 𝓝 (0 : ℝ), DifferentiableAt ℝ (deriv f) t :=
    (h1.eventually (by simp)).mono fun t ht => ht.differentiableAt (by norm_num)
  obtain ⟨δ, hδ, hall⟩ := Metric.eventually_nhds_iff.1 (e1.and (e2.and hs))
  have hn : ∀ t : ℝ, 0 ≤ t → t < δ → dist t 0 < δ ∧ dist (-t) 0 < δ := fun t h0 ht => by
    simp [abs_of_nonneg h0, ht]
  have hneg : ∀ {g : ℝ → ℝ} {t : ℝ}, DifferentiableAt ℝ g (-t) →
      HasDerivAt (fun s => g (-s)) (-deriv g (-t)) t := fun {g t} hg => by
    have := hg.hasDerivAt.comp t (hasDerivAt_neg t)
    rw [mul_neg_one] at this
    exact this
  -- even part of the derivative
  have hψ : ∀ t, 0 ≤ t → t < δ →
      |(deriv f t + deriv f (-t)) - (deriv f 0 + deriv f (-0))| ≤ 2 * L * t ^ 2 := by
    intro t h0 ht
    refine abs_sub_zero_le (F := fun t => deriv f t + deriv f (-t))
      (F' := fun t => deriv (deriv f) t + -deriv (deriv f) (-t)) (k := 1) (by positivity)
      (fun s hs0 hsδ => ?_) (fun s hs0 hsδ => ?_) h0 ht
    · exact ((hall (hn s hs0 hsδ).1).2.1.hasDerivAt).add (hneg (hall (hn s hs0 hsδ).2).2.1)
    · have := hL.dist_le_mul s (hall (hn s hs0 hsδ).1).2.2 (-s) (hall (hn s hs0 hsδ).2).2.2
      rw [Real.dist_eq, Real.dist_eq] at this
      rw [← sub_eq_add_neg]
      refine this.trans (le_of_eq ?_)
      rw [sub_neg_eq_add, abs_of_nonneg (by linarith)]
      ring
  refine ⟨L, δ, L.2, hδ, fun h h0 hlt => ?_⟩
  have hG : |(f h - f (-h) - 2 * h * deriv f 0) - (f 0 - f (-0) - 2 * 0 * deriv f 0)| ≤
      2 * L * h ^ 3 := by
    refine abs_sub_zero_le (F := fun t => f t - f (-t) - 2 * t * deriv f 0)
      (F' := fun t => deriv f t - -deriv f (-t) - 2 * deriv f 0) (k := 2) (by positivity)
      (fun s hs0 hsδ => ?_) (fun s hs0 hsδ => ?_) h0.le hlt
    · refine ((((hall (hn s hs0 hsδ).1).1.hasDerivAt).sub (hneg (hall (hn s hs0 hsδ).2).1))).sub ?_
      have := ((hasDerivAt_id s).const_mul 2).mul_const (deriv f 0)
      simpa using this
    · have := hψ s hs0 hsδ
      rw [neg_zero] at this
      rw [show deriv f s - -deriv f (-s) - 2 * deriv f 0 =
        deriv f s + deriv f (-s) - (deriv f 0 + deriv f 0) by ring]
      exact this
  rw [neg_zero] at hG
  have hz : f 0 - f 0 - 2 * 0 * deriv f 0 = 0 := by ring
  rw [hz, sub_zero] at hG
  have hq : Spec.central f h - deriv f 0 = (f h - f (-h) - 2 * h * deriv f 0) / (2 * h) := by
    unfold Spec.central
    field_simp
  rw [hq, abs_div, abs_of_pos (by positivity : (0 : ℝ) < 2 * h), div_le_iff₀ (by positivity)]
  refine hG.trans (le_of_eq ?_)
  ring

/-- Central difference of values with errors. -/
theorem central_noise {f g : ℝ → ℝ} {h η : ℝ} (h0 : 0 < h) (hp : |g h - f h| ≤ η)
    (hm : |g (-h) - f (-h)| ≤ η) : |Spec.central g h - Spec.central f h| ≤ η / h := by
  have e : Spec.central g h - Spec.central f h = ((g h - f h) - (g (-h) - f (-h))) / (2 * h) := by
    unfold Spec.central
    field_simp
    ring
  rw [e, abs_div, abs_of_pos (by positivity : (0 : ℝ) < 2 * h), div_le_div_iff₀ (by positivity) h0]
  have := (abs_sub (g h - f h) (g (-h) - f (-h))).trans (add_le_add hp hm)
  nlinarith

end TadDftd4
