import Verif.Lemmas.Textbook
import Mathlib.Analysis.Matrix.Order
import Mathlib.Analysis.Calculus.Deriv.MeanValue

/-!
# The interaction of Gaussian charges is positive definite

The Coulomb interaction of charges with Gaussian shape is a positive semidefinite form: widening all
Gaussians lowers the energy, down to zero. With positive hardness the charge equations of EEQ therefore have
exactly one solution for every molecule.
-/

open scoped Classical

namespace TadDftd4.Spec

section
variable {n : ℕ}

/-- Overlap of two Gaussians of widths `√α` and `√β` centred at `a` and `b`, up to a factor. -/
theorem gauss_overlap {α β : ℝ} (hα : 0 < α) (hβ : 0 < β) (a b : ℝ) :
    MeasureTheory.Integrable (fun y : ℝ => (√α)⁻¹ * Real.exp (-(y - a) ^ 2 / α) *
      ((√β)⁻¹ * Real.exp (-(y - b) ^ 2 / β))) ∧
    ∫ y : ℝ, (√α)⁻¹ * Real.exp (-(y - a) ^ 2 / α) * ((√β)⁻¹ * Real.exp (-(y - b) ^ 2 / β)) =
      √Real.pi * ((√(α + β))⁻¹ * Real.exp (-(a - b) ^ 2 / (α + β))) := by
  set B : ℝ := 1 / α + 1 / β with hB
  set M : ℝ := (a / α + b / β) / B with hM
  have hBpos : 0 < B := by positivity
  have hab : 0 < α + β := by linarith
  have e : ∀ y : ℝ, (√α)⁻¹ * Real.exp (-(y - a) ^ 2 / α) * ((√β)⁻¹ * Real.exp (-(y - b) ^ 2 / β)) =
      (√α)⁻¹ * (√β)⁻¹ * Real.exp (-(a - b) ^ 2 / (α + β)) * Real.exp (-B * (y - M) ^ 2) := by
    intro y
    have hexp : -(y - a) ^ 2 / α + -(y - b) ^ 2 / β = -(a - b) ^ 2 / (α + β) + -B * (y - M) ^ 2 := by
      rw [hM, hB]
      field_simp
      ring
    rw [show (√α)⁻¹ * Real.exp (-(y - a) ^ 2 / α) * ((√β)⁻¹ * Real.exp (-(y - b) ^ 2 / β)) =
      (√α)⁻¹ * (√β)⁻¹ * (Real.exp (-(y - a) ^ 2 / α) * Real.exp (-(y - b) ^ 2 / β)) by ring,
      ← Real.exp_add, hexp, Real.exp_add]
    ring
  simp only [e]
  have hi := (integrable_exp_neg_mul_sq hBpos).comp_sub_right M
  refine ⟨hi.const_mul _, ?_⟩
  rw [MeasureTheory.integral_const_mul]
  have := MeasureTheory.integral_sub_right_eq_self (μ := MeasureTheory.volume)
    (fun y : ℝ => Real.exp (-B * y ^ 2)) M
  rw [this, integral_gaussian]
  have hs : √(Real.pi / B) = √Real.pi * (√α * √β * (√(α + β))⁻¹) := by
    rw [← Real.sqrt_mul hα.le, ← Real.sqrt_inv, ← Real.sqrt_mul (by positivity), ← Real.sqrt_mul Real.pi_pos.le]
    congr 1
    rw [hB]
    field_simp
    ring
  rw [hs]
  have h1 := (Real.sqrt_pos.2 hα).ne'
  have h2 := (Real.sqrt_pos.2 hβ).ne'
  field_simp

/-- Matrix of the overlaps of Gaussians on a line. -/
noncomputable def overlap1 (α a : Fin n → ℝ) : Matrix (Fin n) (Fin n) ℝ := fun i j =>
  (√(α i + α j))⁻¹ * Real.exp (-(a i - a j) ^ 2 / (α i + α j))

theorem overlap1_posSemidef {α : Fin n → ℝ} (hα : ∀ i, 0 < α i) (a : Fin n → ℝ) :
    (overlap1 α a).PosSemidef := by
  refine .of_dotProduct_mulVec_nonneg ?_ fun q => ?_
  · refine Matrix.IsHermitian.ext fun i j => ?_
    simp only [overlap1, star_trivial]
    rw [add_comm (α j), ← neg_sub (a i) (a j), neg_sq]
  · set g : Fin n → ℝ → ℝ := fun i y => (√(α i))⁻¹ * Real.exp (-(y - a i) ^ 2 / α i) with hg
    have e : star q ⬝ᵥ (overlap1 α a).mulVec q =
        (√Real.pi)⁻¹ * ∫ y : ℝ, (∑ i, q i * g i y) ^ 2 := by
      have h1 : ∀ y, (∑ i, q i * g i y) ^ 2 = ∑ i, ∑ j, q i * q j * (g i y * g j y) := by
        intro y
        rw [sq, Finset.sum_mul_sum]
        exact Finset.sum_congr rfl fun i _ => Finset.sum_congr rfl fun j _ => by ring
      simp only [h1]
      have hint : ∀ i j, MeasureTheory.Integrable fun y => q i * q j * (g i y * g j y) := fun i j =>
        (gauss_overlap (hα i) (hα j) (a i) (a j)).1.const_mul _
      rw [MeasureTheory.integral_finset_sum _ fun i _ =>
        MeasureTheory.integrable_finset_sum _ fun j _ => hint i j]
      simp only [MeasureTheory.integral_finset_sum _ fun j _ => hint _ j,
        MeasureTheory.integral_const_mul]
      have h2 : ∀ i j, ∫ y, g i y * g j y = √Real.pi * overlap1 α a i j := fun i j =>
        (gauss_overlap (hα i) (hα j) (a i) (a j)).2
      simp only [h2, dotProduct, Matrix.mulVec, star_trivial, Finset.mul_sum]
      have hp : √Real.pi ≠ 0 := (Real.sqrt_pos.2 Real.pi_pos).ne'
      refine Finset.sum_congr rfl fun i _ => Finset.sum_congr rfl fun j _ => ?_
      rw [show (√Real.pi)⁻¹ * (q i * q j * (√Real.pi * overlap1 α a i j)) =
        ((√Real.pi)⁻¹ * √Real.pi) * (q i * (overlap1 α a i j * q j)) by ring, inv_mul_cancel₀ hp, one_mul]
    rw [e]
    exact mul_nonneg (inv_nonneg.2 (Real.sqrt_nonneg _))
      (MeasureTheory.integral_nonneg fun y => sq_nonneg _)

/-- Overlaps of Gaussians in space. -/
theorem overlap3_nonneg {α : Fin n → ℝ} (hα : ∀ i, 0 < α i) (x : Fin n → E3) (q : Fin n → ℝ) :
    0 ≤ ∑ i, ∑ j, q i * q j *
      ((√(α i + α j))⁻¹ ^ 3 * Real.exp (-(dist (x i) (x j)) ^ 2 / (α i + α j))) := by
  have h := ((overlap1_posSemidef hα fun i => x i 0).hadamard
    ((overlap1_posSemidef hα fun i => x i 1).hadamard (overlap1_posSemidef hα fun i => x i 2)))
  have h1 := h.dotProduct_mulVec_nonneg q
  refine h1.trans_eq ?_
  simp only [dotProduct, Matrix.mulVec, star_trivial, Finset.mul_sum]
  refine Finset.sum_congr rfl fun i _ => Finset.sum_congr rfl fun j _ => ?_
  have hd : dist (x i) (x j) ^ 2 = (x i 0 - x j 0) ^ 2 + (x i 1 - x j 1) ^ 2 + (x i 2 - x j 2) ^ 2 := by
    rw [EuclideanSpace.dist_eq, Real.sq_sqrt (Finset.sum_nonneg fun _ _ => sq_nonneg _),
      Fin.sum_univ_three]
    simp only [Real.dist_eq, sq_abs]
  rw [hd]
  simp only [Matrix.hadamard_apply, overlap1]
  rw [show -((x i 0 - x j 0) ^ 2 + (x i 1 - x j 1) ^ 2 + (x i 2 - x j 2) ^ 2) / (α i + α j) =
    -(x i 0 - x j 0) ^ 2 / (α i + α j) + (-(x i 1 - x j 1) ^ 2 / (α i + α j) +
      -(x i 2 - x j 2) ^ 2 / (α i + α j)) by ring, Real.exp_add, Real.exp_add]
  ring

/-- Coulomb interaction of two Gaussian charges at distance `r`. -/
noncomputable def gaussCoulomb (s r : ℝ) : ℝ :=
  2 / √Real.pi * ∫ t in (0 : ℝ)..(√s)⁻¹, Real.exp (-(r * t) ^ 2)

theorem gaussCoulomb_zero (s : ℝ) : gaussCoulomb s 0 = 2 / √Real.pi * (√s)⁻¹ := by
  simp [gaussCoulomb]

theorem gaussCoulomb_pos {s r : ℝ} (hr : 0 < r) : gaussCoulomb s r = erf (r / √s) / r := by
  unfold gaussCoulomb erf
  have := intervalIntegral.integral_comp_mul_left (a := 0) (b := (√s)⁻¹)
    (fun t : ℝ => Real.exp (-t ^ 2)) hr.ne'
  rw [this]
  simp only [mul_zero, smul_eq_mul]
  rw [← div_eq_mul_inv]
  field_simp

theorem gaussCoulomb_hasDerivAt {s r : ℝ} (hs : 0 < s) : HasDerivAt (fun s => gaussCoulomb s r)
    (-(1 / √Real.pi) * ((√s)⁻¹ ^ 3 * Real.exp (-r ^ 2 / s))) s := by
  have hc : Continuous fun t : ℝ => Real.exp (-(r * t) ^ 2) := by fun_prop
  have h1 : HasDerivAt (fun u => ∫ t in (0 : ℝ)..u, Real.exp (-(r * t) ^ 2))
      (Real.exp (-(r * (√s)⁻¹) ^ 2)) (√s)⁻¹ :=
    intervalIntegral.integral_hasDerivAt_right (hc.intervalIntegrable _ _)
      (hc.stronglyMeasurableAtFilter _ _) hc.continuousAt
  have hq : 0 < √s := Real.sqrt_pos.2 hs
  have h2 : HasDerivAt (fun s => (√s)⁻¹) (-(1 / (2 * √s)) / √s ^ 2) s :=
    (Real.hasDerivAt_sqrt hs.ne').inv hq.ne'
  have h3 := (h1.comp s h2).const_mul (2 / √Real.pi)
  refine h3.congr_deriv ?_
  have e : (r * (√s)⁻¹) ^ 2 = r ^ 2 / s := by
    rw [mul_pow, inv_pow, Real.sq_sqrt hs.le, div_eq_mul_inv]
  rw [e, neg_div]
  field_simp

theorem gaussCoulomb_le {s r : ℝ} : |gaussCoulomb s r| ≤ 2 / √Real.pi * (√s)⁻¹ := by
  unfold gaussCoulomb
  rw [abs_mul, abs_of_nonneg (by positivity : (0 : ℝ) ≤ 2 / √Real.pi)]
  refine mul_le_mul_of_nonneg_left ?_ (by positivity)
  have := intervalIntegral.norm_integral_le_of_norm_le_const (a := 0) (b := (√s)⁻¹) (C := 1)
    (f := fun t : ℝ => Real.exp (-(r * t) ^ 2)) fun t _ => by
      rw [Real.norm_eq_abs, abs_of_pos (Real.exp_pos _)]
      exact Real.exp_le_one_iff.2 (neg_nonpos.2 (sq_nonneg _))
  rw [Real.norm_eq_abs, one_mul, sub_zero, abs_of_nonneg (inv_nonneg.2 (Real.sqrt_nonneg s))] at this
  exact this

/-- The interaction energy of Gaussian charges is not negative. -/
theorem gaussCoulomb_nonneg {α : Fin n → ℝ} (hα : ∀ i, 0 < α i) (x : Fin n → E3) (q : Fin n → ℝ) :
    0 ≤ ∑ i, ∑ j, q i * q j * gaussCoulomb (α i + α j) (dist (x i) (x j)) := by
  set Φ : ℝ → ℝ := fun τ => ∑ i, ∑ j, q i * q j * gaussCoulomb (α i + α j + τ) (dist (x i) (x j)) with hΦ
  have hd : ∀ τ, 0 ≤ τ → HasDerivAt Φ (-(1 / √Real.pi) * ∑ i, ∑ j, q i * q j *
      ((√(α i + α j + τ))⁻¹ ^ 3 * Real.exp (-(dist (x i) (x j)) ^ 2 / (α i + α j + τ)))) τ := by
    intro τ hτ
    have h1 : ∀ i j, HasDerivAt (fun τ => q i * q j * gaussCoulomb (α i + α j + τ) (dist (x i) (x j)))
        (q i * q j * (-(1 / √Real.pi) * ((√(α i + α j + τ))⁻¹ ^ 3 *
          Real.exp (-(dist (x i) (x j)) ^ 2 / (α i + α j + τ))))) τ := by
      intro i j
      have := (gaussCoulomb_hasDerivAt (r := dist (x i) (x j))
        (show 0 < α i + α j + τ by linarith [hα i, hα j])).comp τ
        ((hasDerivAt_id τ).const_add (α i + α j))
      simpa using this.const_mul (q i * q j)
    have h2 := HasDerivAt.fun_sum (u := Finset.univ) fun i (_ : i ∈ Finset.univ) =>
      HasDerivAt.fun_sum (u := Finset.univ) fun j (_ : j ∈ Finset.univ) => h1 i j
    refine h2.congr_deriv ?_
    rw [Finset.mul_sum]
    refine Finset.sum_congr rfl fun i _ => ?_
    rw [Finset.mul_sum]
    exact Finset.sum_congr rfl fun j _ => by ring
  have hanti : AntitoneOn Φ (Set.Ici 0) := by
    refine antitoneOn_of_deriv_nonpos (convex_Ici 0)
      (fun τ hτ => (hd τ hτ).continuousAt.continuousWithinAt) ?_ ?_
    · intro τ hτ
      rw [interior_Ici] at hτ
      exact (hd τ (le_of_lt hτ)).differentiableAt.differentiableWithinAt
    · intro τ hτ
      rw [interior_Ici] at hτ
      have hτ' : 0 ≤ τ := le_of_lt hτ
      rw [(hd τ hτ').deriv]
      have := overlap3_nonneg (α := fun i => α i + τ / 2) (fun i => by linarith [hα i]) x q
      simp only [show ∀ i j, α i + τ / 2 + (α j + τ / 2) = α i + α j + τ from fun i j => by ring] at this
      have hp : 0 ≤ 1 / √Real.pi := by positivity
      nlinarith
  have hlim : Filter.Tendsto Φ Filter.atTop (nhds 0) := by
    have h0 : ∀ i j, Filter.Tendsto (fun τ => q i * q j * gaussCoulomb (α i + α j + τ) (dist (x i) (x j)))
        Filter.atTop (nhds 0) := by
      intro i j
      have hs : Filter.Tendsto (fun τ : ℝ => √(α i + α j + τ)) Filter.atTop Filter.atTop :=
        Real.tendsto_sqrt_atTop.comp (Filter.tendsto_atTop_add_const_left _ _ Filter.tendsto_id)
      have h1 : Filter.Tendsto (fun τ : ℝ => 2 / √Real.pi * (√(α i + α j + τ))⁻¹) Filter.atTop (nhds 0) := by
        simpa using hs.inv_tendsto_atTop.const_mul (2 / √Real.pi)
      have h2 : Filter.Tendsto (fun τ => gaussCoulomb (α i + α j + τ) (dist (x i) (x j)))
          Filter.atTop (nhds 0) :=
        squeeze_zero_norm (fun τ => gaussCoulomb_le) h1
      simpa using h2.const_mul (q i * q j)
    have := tendsto_finset_sum Finset.univ fun i (_ : i ∈ (Finset.univ : Finset (Fin n))) =>
      tendsto_finset_sum Finset.univ fun j (_ : j ∈ (Finset.univ : Finset (Fin n))) => h0 i j
    simpa using this
  have : (0 : ℝ) ≤ Φ 0 := by
    refine le_of_tendsto hlim (Filter.eventually_atTop.2 ⟨0, fun τ hτ => ?_⟩)
    exact hanti (Set.mem_Ici.2 le_rfl) (Set.mem_Ici.2 hτ) hτ
  simpa [hΦ] using this

/-- Positive hardness and radii make the interaction of the charges of distinct atoms positive definite. -/
theorem EEQPar.stable_of_hardness {E : EEQPar} {Z : Fin n → ℕ} {x : Fin n → E3}
    (heta : ∀ i, Z i ≠ 0 → 0 < E.eta (Z i)) (hrad : ∀ i, Z i ≠ 0 → 0 < E.rad (Z i))
    (hx : ∀ i j, Z i ≠ 0 → Z j ≠ 0 → i ≠ j → x i ≠ x j) : E.Stable Z x := by
  intro q h0 hq
  set α : Fin n → ℝ := fun i => if Z i ≠ 0 then E.rad (Z i) ^ 2 else 1 with hα
  have hαp : ∀ i, 0 < α i := fun i => by
    simp only [hα]
    split_ifs with h
    · exact pow_pos (hrad i h) 2
    · exact one_pos
  have key : ∀ i j, q i * E.coulomb Z x i j * q j =
      q i * q j * gaussCoulomb (α i + α j) (dist (x i) (x j)) + if i = j then E.eta (Z i) * q i ^ 2 else 0 := by
    intro i j
    by_cases hi : Z i = 0
    · simp [h0 i hi]
    by_cases hj : Z j = 0
    · rw [h0 j hj]
      have : i ≠ j := fun h => hi (h ▸ hj)
      simp [this]
    unfold EEQPar.coulomb
    by_cases hij : i = j
    · subst hij
      rw [if_pos rfl, if_pos rfl, dist_self, gaussCoulomb_zero]
      have e : 2 / √Real.pi * (√(α i + α i))⁻¹ = √(2 / Real.pi) / E.rad (Z i) := by
        simp only [hα, if_pos hi, ← two_mul]
        rw [Real.sqrt_mul (by norm_num), Real.sqrt_sq (hrad i hi).le, Real.sqrt_div (by norm_num)]
        have h2 : √2 * √2 = 2 := Real.mul_self_sqrt (by norm_num)
        have h2p : 0 < √2 := Real.sqrt_pos.2 (by norm_num)
        have hr := hrad i hi
        have hp := Real.sqrt_pos.2 Real.pi_pos
        field_simp
        linarith
      rw [e]
      ring
    · rw [if_neg hij, if_neg hij, add_zero,
        gaussCoulomb_pos (dist_pos.2 (hx i j hi hj hij))]
      simp only [hα, if_pos hi, if_pos hj]
      ring
  simp only [key, Finset.sum_add_distrib, Finset.sum_ite_eq, Finset.mem_univ, if_true]
  refine add_pos_of_nonneg_of_pos (gaussCoulomb_nonneg hαp x q) ?_
  obtain ⟨k, hk⟩ := Function.ne_iff.1 hq
  have hk' : q k ≠ 0 := hk
  refine Finset.sum_pos' (fun i _ => ?_) ⟨k, Finset.mem_univ _, ?_⟩
  · by_cases hi : Z i = 0
    · simp [h0 i hi]
    · exact mul_nonneg (heta i hi).le (sq_nonneg _)
  · have hz : Z k ≠ 0 := fun h => hk' (h0 k h)
    exact mul_pos (heta k hz) (by positivity)

end

end TadDftd4.Spec
