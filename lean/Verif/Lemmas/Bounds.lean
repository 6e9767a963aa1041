import Verif.Lemmas.C6Props
import Verif.Lemmas.Setup
import Verif.Props.C15

/-!
# Bounds that hold for all geometries, coordination numbers and charges
-/

set_option linter.unusedSimpArgs false

open scoped Classical

namespace TadDftd4

open Tensor

section
variable {env : Env} {T : Tables} {R : RefCfg}

theorem zetaAt_le {ga gc : ℝ} {rq : String} (hT : T.Physical rq) (hga : 0 ≤ ga) (hgc : 0 < gc) {Z : ℕ}
    (hZ : Z < T.nZ) {r : ℕ} (hr : r < nref) (q : ℝ) :
    zetaAt env T ga gc rq Z q r ≤ Real.exp ga := by
  unfold zetaAt
  split_ifs with h
  · obtain ⟨v, h1, -, h3⟩ := C15_bounds (eps := env.eps) (z := q + T.zeff Z) hga
      (mul_pos (hT.gam Z hZ r hr h) hgc) (hT.qref Z hZ r hr h)
    rw [h1]
    exact h3
  · exact (Real.exp_pos _).le

/-- Normalised weights are at most one. -/
theorem gwOf_le_one {Z : ℕ} {E : ℕ → ℝ} (hE : ∀ r, 0 ≤ E r) (hm : ∀ r, T.refc Z r = 0 → E r = 0)
    {r : ℕ} (hr : r < nref) : (gwOf env T Z E r).toReal ≤ 1 := by
  have hS : E r ≤ ∑ s ∈ Finset.range nref, E s :=
    Finset.single_le_sum (f := E) (fun s _ => hE s) (Finset.mem_range.2 hr)
  unfold gwOf
  split_ifs
  · norm_num [FP.toReal]
  · norm_num [FP.toReal]
  · unfold gwTempOf
    by_cases hc : 0 < T.refc Z r
    · simp only [hc, if_true]
      unfold FP.div
      simp only []
      split_ifs <;> simp only [FP.toReal, zero_le_one]
      exact div_le_one_of_le₀ hS ((hE r).trans hS)
    · rw [hm r (by omega)]
      unfold FP.div
      simp only []
      split_ifs <;> simp [FP.toReal]

theorem wtAt_le (hT : T.Physical R.rq) (hga : 0 ≤ R.ga) (hgc : 0 < R.gc) (A : Spec.AtomData)
    (hZ : A.Z < T.nZ) (Zp : ℕ) {r : ℕ} (hr : r < nref) : wtAt env T R A Zp r ≤ Real.exp R.ga := by
  unfold wtAt wtOf
  have h1 := zetaAt_le (env := env) hT hga hgc hZ hr A.q
  have h2 := gwOf_le_one (env := env) (T := T) (Z := A.Z)
    (E := expwSel env T R.kind (R.wf A.Z Zp) A.Z A.cn) (expwSel_nonneg _ _ _ _)
    (fun r h => expwSel_missing h) hr
  have h3 := gwOf_nonneg (env := env) (T := T) (Z := A.Z)
    (expwSel_nonneg (env := env) (T := T) R.kind (R.wf A.Z Zp) A.Z A.cn) r
  calc _ ≤ Real.exp R.ga * 1 := mul_le_mul h1 h2 h3 (Real.exp_pos _).le
    _ = _ := mul_one _

/-- Bound of the polarizabilities of all elements. -/
noncomputable def polMax (env : Env) (T : Tables) (R : RefCfg) (w : ℕ) : ℝ :=
  Real.exp R.ga * ∑ Z ∈ Finset.range T.nZ, ∑ r ∈ Finset.range nref,
    alphaAt env T R.ga R.gc R.rq Z r w

/-- Bound of the C6 coefficients of all elements. -/
noncomputable def c6Max (env : Env) (T : Tables) (R : RefCfg) : ℝ :=
  thopi * ∑ w ∈ Finset.range nfreq, trapzWeights.getD w 0 * (polMax env T R w * polMax env T R w)

theorem polOf_le (hT : T.Physical R.rq) (hga : 0 ≤ R.ga) (hgc : 0 < R.gc) (A : Spec.AtomData)
    (hZ : A.Z < T.nZ) (Zp w : ℕ) :
    polOf env T R.ga R.gc R.rq A.Z (wtAt env T R A Zp) w ≤ polMax env T R w := by
  unfold polOf polMax
  have h1 : ∑ r ∈ Finset.range nref, wtAt env T R A Zp r * alphaAt env T R.ga R.gc R.rq A.Z r w ≤
      ∑ r ∈ Finset.range nref, Real.exp R.ga * alphaAt env T R.ga R.gc R.rq A.Z r w :=
    Finset.sum_le_sum fun r hr => mul_le_mul_of_nonneg_right
      (wtAt_le hT hga hgc A hZ Zp (Finset.mem_range.1 hr)) (alphaAt_nonneg _ _ _ _ _ _)
  refine h1.trans ?_
  rw [← Finset.mul_sum]
  refine mul_le_mul_of_nonneg_left ?_ (Real.exp_pos _).le
  exact Finset.single_le_sum
    (f := fun Z => ∑ r ∈ Finset.range nref, alphaAt env T R.ga R.gc R.rq Z r w)
    (fun Z _ => Finset.sum_nonneg fun r _ => alphaAt_nonneg _ _ _ _ _ _) (Finset.mem_range.2 hZ)

theorem c6At_le (hT : T.Physical R.rq) (hga : 0 ≤ R.ga) (hgc : 0 < R.gc) (A A' : Spec.AtomData)
    (hZ : A.Z < T.nZ) (hZ' : A'.Z < T.nZ) : c6At env T R A A' ≤ c6Max env T R := by
  rw [c6At_integral]
  refine mul_le_mul_of_nonneg_left (Finset.sum_le_sum fun w _ => ?_) thopi_pos.le
  refine mul_le_mul_of_nonneg_left ?_ (trapzWeights_nonneg w)
  exact mul_le_mul (polOf_le hT hga hgc A hZ _ w) (polOf_le hT hga hgc A' hZ' _ w)
    (polOf_nonneg (wtAt_nonneg _ _) _) ((polOf_nonneg (wtAt_nonneg A A'.Z) _).trans
      (polOf_le hT hga hgc A hZ _ w))

end

namespace Spec

/-- Regularised distances are positive and satisfy the triangle inequality. -/
theorem r_pos {n : ℕ} {M : Mol n} {ε : ℝ} (hε : 0 < ε) (i j : Fin n) : 0 < M.r ε i j :=
  Real.sqrt_pos.2 (lt_max_of_lt_right hε)

theorem r_eq_max {n : ℕ} {M : Mol n} {ε : ℝ} (hε : 0 < ε) (i j : Fin n) :
    M.r ε i j = max (dist (M.pos i) (M.pos j)) √ε := by
  unfold Mol.r rsqrt
  rcases le_total (dist (M.pos i) (M.pos j) ^ 2) ε with h | h
  · rw [max_eq_right h, max_eq_right]
    rw [← Real.sqrt_sq (dist_nonneg (x := M.pos i) (y := M.pos j))]
    exact Real.sqrt_le_sqrt h
  · rw [max_eq_left h, Real.sqrt_sq dist_nonneg, max_eq_left]
    rw [← Real.sqrt_sq (dist_nonneg (x := M.pos i) (y := M.pos j))]
    exact Real.sqrt_le_sqrt h

theorem r_triangle {n : ℕ} {M : Mol n} {ε : ℝ} (hε : 0 < ε) (i j k : Fin n) :
    M.r ε i k ≤ M.r ε i j + M.r ε j k := by
  rw [r_eq_max hε, r_eq_max hε, r_eq_max hε]
  have h0 := Real.sqrt_nonneg ε
  refine max_le ((dist_triangle _ (M.pos j) _).trans (add_le_add (le_max_left _ _)
    (le_max_left _ _))) ((le_max_right (dist (M.pos i) (M.pos j)) _).trans
      (le_add_of_nonneg_right (h0.trans (le_max_right _ _))))

theorem r_symm {n : ℕ} {M : Mol n} {ε : ℝ} (i j : Fin n) : M.r ε i j = M.r ε j i := by
  unfold Mol.r; rw [dist_comm]

theorem cosSides_abs {x y z : ℝ} (hx : 0 < x) (hy : 0 < y) (h1 : z ≤ x + y) (h2 : x ≤ y + z)
    (h3 : y ≤ x + z) : |cosSides x y z| ≤ 1 := by
  unfold cosSides
  have hxy : 0 < 2 * x * y := by positivity
  rw [abs_div, abs_of_pos hxy, div_le_one hxy, abs_le]
  constructor <;> nlinarith [mul_nonneg (sub_nonneg.2 h1) (add_nonneg (add_nonneg hx.le hy.le)
    (show 0 ≤ z by linarith)), mul_nonneg (sub_nonneg.2 h2) (sub_nonneg.2 h3)]

/-- The damped inverse cube of the product of the distances. -/
theorem f9_le {a Rr r : ℝ} (ha : 3 ≤ a) (hR : 0 < Rr) (hr : 0 < r) :
    1 / (1 + 6 * (Rr / r) ^ a) / r ^ 3 ≤ 1 / Rr ^ 3 := by
  have hq : 0 < Rr / r := div_pos hR hr
  have hp : 0 < (Rr / r) ^ a := Real.rpow_pos_of_pos hq a
  rw [div_div]
  refine one_div_le_one_div_of_le (by positivity) ?_
  rcases le_total Rr r with h | h
  · calc Rr ^ 3 ≤ r ^ 3 := pow_le_pow_left₀ hR.le h 3
      _ ≤ (1 + 6 * (Rr / r) ^ a) * r ^ 3 := le_mul_of_one_le_left (by positivity) (by linarith)
  · have h1 : (Rr / r) ^ (3 : ℕ) ≤ (Rr / r) ^ a := by
      rw [← Real.rpow_natCast]
      exact Real.rpow_le_rpow_of_exponent_le ((one_le_div hr).2 h) (by exact_mod_cast ha)
    calc Rr ^ 3 = (Rr / r) ^ 3 * r ^ 3 := by rw [div_pow]; field_simp
      _ ≤ (1 + 6 * (Rr / r) ^ a) * r ^ 3 :=
        mul_le_mul_of_nonneg_right (by linarith) (by positivity)

end Spec
end TadDftd4
