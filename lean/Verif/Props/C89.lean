import Verif.Props.C87
import Verif.Data.ChecksCN
import Mathlib.Analysis.SpecialFunctions.Log.Deriv

/-!
# C89: errors of coordination numbers change coefficients and energies by a bounded factor

Coordination numbers are approximate too: they depend on the counting function and on radii, and neural or periodic
variants are supplied by users. If every coordination number changes by at most `δ`, every C6 coefficient is multiplied
by a factor between `exp (-2 K δ)` and `exp (2 K δ)`; `K` depends on the exponents of the Gaussians and on the spread of
the reference coordination numbers of an element only, and is at most 200 for the tables of the package.
-/

set_option linter.unusedSimpArgs false

open scoped Classical

namespace TadDftd4

open Tensor

/-- Relative change of a weight per change of the coordination number: exponents up to `w`, reference coordination
numbers of an element at most `D` apart. -/
noncomputable def Spec.cnSlope (w D : ℝ) : ℝ := 2 * w * D + 6 * √w

theorem Spec.cnSlope_nonneg {w D : ℝ} (hw : 0 ≤ w) (hD : 0 ≤ D) : 0 ≤ Spec.cnSlope w D := by
  unfold Spec.cnSlope; positivity

/-! ## Gaussians -/

section
variable {w x : ℝ} {N : ℕ}

private theorem gauss_pos (hN : 0 < N) : 0 < Spec.gaussians w N x := by
  unfold Spec.gaussians
  exact Finset.sum_pos (fun _ _ => Real.exp_pos _) ⟨0, Finset.mem_range.2 hN⟩

private theorem gauss_nonneg : 0 ≤ Spec.gaussians w N x :=
  Finset.sum_nonneg fun _ _ => (Real.exp_pos _).le

private theorem gauss_deriv (w : ℝ) (N : ℕ) (a c : ℝ) : HasDerivAt (fun c => Spec.gaussians w N (c - a))
    (-(2 * w * (c - a)) * Spec.gaussians w N (c - a) -
      2 * w * (c - a) * ∑ k ∈ Finset.range N, (k : ℝ) * Real.exp (-((k + 1 : ℕ) * w * (c - a) ^ 2))) c := by
  have h : ∀ k ∈ Finset.range N, HasDerivAt (fun c : ℝ => Real.exp (-((k + 1 : ℕ) * w * (c - a) ^ 2)))
      (Real.exp (-((k + 1 : ℕ) * w * (c - a) ^ 2)) * (-((k + 1 : ℕ) * w * (2 * (c - a))))) c := by
    intro k _
    have h1 : HasDerivAt (fun c : ℝ => (c - a) ^ 2) (2 * (c - a)) c := by
      have := ((hasDerivAt_id c).sub_const a).pow 2
      exact this.congr_deriv (by simp)
    exact ((h1.const_mul (((k + 1 : ℕ) : ℝ) * w)).neg).exp
  refine (HasDerivAt.fun_sum h).congr_deriv ?_
  unfold Spec.gaussians
  rw [Finset.mul_sum, Finset.mul_sum, ← Finset.sum_sub_distrib]
  refine Finset.sum_congr rfl fun k _ => ?_
  push_cast
  ring

/-- The Gaussians beyond the first add a bounded amount to the logarithmic derivative. -/
private theorem gauss_extra (hw : 0 ≤ w) (hN : N ≤ 3) :
    |2 * w * x * ∑ k ∈ Finset.range N, (k : ℝ) * Real.exp (-((k + 1 : ℕ) * w * x ^ 2))| ≤
      3 * √w * Spec.gaussians w N x := by
  rcases Nat.eq_zero_or_pos N with rfl | hN0
  · simp [Spec.gaussians]
  have hs := Real.sqrt_nonneg w
  set y := √w * |x| with hy
  have hy0 : 0 ≤ y := by positivity
  have hy2 : y ^ 2 = w * x ^ 2 := by rw [hy, mul_pow, Real.sq_sqrt hw, sq_abs]
  have hk : ∀ k : ℕ, 1 ≤ k → y * Real.exp (-(k * (w * x ^ 2))) ≤ 1 / 2 := by
    intro k hk
    have hk' : (1 : ℝ) ≤ k := by exact_mod_cast hk
    rw [← hy2, Real.exp_neg, ← div_eq_mul_inv, div_le_iff₀ (Real.exp_pos _)]
    have := Real.add_one_le_exp (k * y ^ 2)
    nlinarith [sq_nonneg (y - 1), mul_nonneg (sub_nonneg.2 hk') (sq_nonneg y)]
  have h0 : Real.exp (-(w * x ^ 2)) ≤ Spec.gaussians w N x := by
    unfold Spec.gaussians
    refine le_trans (le_of_eq ?_) (Finset.single_le_sum
      (f := fun k : ℕ => Real.exp (-((k + 1 : ℕ) * w * x ^ 2))) (fun _ _ => (Real.exp_pos _).le)
      (Finset.mem_range.2 hN0))
    norm_num
  have h1 : ∀ k : ℕ, y * ((k : ℝ) * Real.exp (-((k + 1 : ℕ) * w * x ^ 2))) ≤ k / 2 * Real.exp (-(w * x ^ 2)) := by
    intro k
    rcases Nat.eq_zero_or_pos k with rfl | hk0
    · simp
    have e : Real.exp (-((k + 1 : ℕ) * w * x ^ 2)) = Real.exp (-(k * (w * x ^ 2))) * Real.exp (-(w * x ^ 2)) := by
      rw [← Real.exp_add]; congr 1; push_cast; ring
    rw [e]
    calc _ = k * Real.exp (-(w * x ^ 2)) * (y * Real.exp (-(k * (w * x ^ 2)))) := by ring
      _ ≤ k * Real.exp (-(w * x ^ 2)) * (1 / 2) := mul_le_mul_of_nonneg_left (hk k hk0) (by positivity)
      _ = _ := by ring
  have hS0 : 0 ≤ ∑ k ∈ Finset.range N, (k : ℝ) * Real.exp (-((k + 1 : ℕ) * w * x ^ 2)) :=
    Finset.sum_nonneg fun k _ => by positivity
  have hsum : y * ∑ k ∈ Finset.range N, (k : ℝ) * Real.exp (-((k + 1 : ℕ) * w * x ^ 2)) ≤
      3 / 2 * Real.exp (-(w * x ^ 2)) := by
    rw [Finset.mul_sum]
    refine (Finset.sum_le_sum fun k _ => h1 k).trans ?_
    rw [← Finset.sum_mul]
    refine mul_le_mul_of_nonneg_right ?_ (Real.exp_pos _).le
    refine (Finset.sum_le_sum_of_subset_of_nonneg (Finset.range_mono hN) fun k _ _ => by positivity).trans ?_
    norm_num [Finset.sum_range_succ]
  rw [abs_mul, abs_of_nonneg hS0]
  have e : |2 * w * x| = 2 * √w * y := by
    rw [abs_mul, abs_mul, abs_of_pos (by norm_num : (0 : ℝ) < 2), abs_of_nonneg hw, hy]
    nth_rewrite 1 [← Real.mul_self_sqrt hw]
    ring
  rw [e, mul_assoc]
  calc _ ≤ 2 * √w * (3 / 2 * Real.exp (-(w * x ^ 2))) := mul_le_mul_of_nonneg_left hsum (by positivity)
    _ = 3 * √w * Real.exp (-(w * x ^ 2)) := by ring
    _ ≤ _ := mul_le_mul_of_nonneg_left h0 (by positivity)

/-- Ratios of Gaussian sums. -/
theorem gauss_ratio {N N' : ℕ} {a a' D W : ℝ} (hw : 0 ≤ w) (hW : w ≤ W) (hN : 0 < N) (hN3 : N ≤ 3) (hN' : 0 < N') (hN3' : N' ≤ 3)
    (hD : |a - a'| ≤ D) (c c' : ℝ) :
    Spec.gaussians w N (c' - a) * Spec.gaussians w N' (c - a') ≤
      Real.exp (Spec.cnSlope W D * |c' - c|) * (Spec.gaussians w N (c - a) * Spec.gaussians w N' (c' - a')) := by
  have hd : ∀ x ∈ (Set.univ : Set ℝ), HasDerivWithinAt
      (fun c => Real.log (Spec.gaussians w N (c - a)) - Real.log (Spec.gaussians w N' (c - a')))
      ((-(2 * w * (x - a)) * Spec.gaussians w N (x - a) -
          2 * w * (x - a) * ∑ k ∈ Finset.range N, (k : ℝ) * Real.exp (-((k + 1 : ℕ) * w * (x - a) ^ 2))) /
            Spec.gaussians w N (x - a) -
        (-(2 * w * (x - a')) * Spec.gaussians w N' (x - a') -
          2 * w * (x - a') * ∑ k ∈ Finset.range N', (k : ℝ) * Real.exp (-((k + 1 : ℕ) * w * (x - a') ^ 2))) /
            Spec.gaussians w N' (x - a')) Set.univ x := fun x _ =>
    (((gauss_deriv w N a x).log (gauss_pos hN).ne').sub ((gauss_deriv w N' a' x).log (gauss_pos hN').ne')).hasDerivWithinAt
  have hb : ∀ x ∈ (Set.univ : Set ℝ), ‖(-(2 * w * (x - a)) * Spec.gaussians w N (x - a) -
          2 * w * (x - a) * ∑ k ∈ Finset.range N, (k : ℝ) * Real.exp (-((k + 1 : ℕ) * w * (x - a) ^ 2))) /
            Spec.gaussians w N (x - a) -
        (-(2 * w * (x - a')) * Spec.gaussians w N' (x - a') -
          2 * w * (x - a') * ∑ k ∈ Finset.range N', (k : ℝ) * Real.exp (-((k + 1 : ℕ) * w * (x - a') ^ 2))) /
            Spec.gaussians w N' (x - a')‖ ≤ Spec.cnSlope W D := by
    intro x _
    have g := gauss_pos (w := w) (x := x - a) hN
    have g' := gauss_pos (w := w) (x := x - a') hN'
    have e := gauss_extra (x := x - a) hw hN3
    have e' := gauss_extra (x := x - a') hw hN3'
    generalize 2 * w * (x - a) * ∑ k ∈ Finset.range N, (k : ℝ) * Real.exp (-((k + 1 : ℕ) * w * (x - a) ^ 2)) = s at e ⊢
    generalize 2 * w * (x - a') * ∑ k ∈ Finset.range N', (k : ℝ) * Real.exp (-((k + 1 : ℕ) * w * (x - a') ^ 2)) = s' at e' ⊢
    generalize Spec.gaussians w N (x - a) = G at *
    generalize Spec.gaussians w N' (x - a') = G' at *
    have t : |s / G| ≤ 3 * √w := by rw [abs_div, abs_of_pos g, div_le_iff₀ g]; exact e
    have t' : |s' / G'| ≤ 3 * √w := by rw [abs_div, abs_of_pos g', div_le_iff₀ g']; exact e'
    have q : (-(2 * w * (x - a)) * G - s) / G - (-(2 * w * (x - a')) * G' - s') / G' =
        2 * w * (a - a') - s / G + s' / G' := by
      field_simp
      ring
    rw [q, Real.norm_eq_abs]
    have hs : √w ≤ √W := Real.sqrt_le_sqrt hW
    have hD0 : 0 ≤ D := (abs_nonneg _).trans hD
    calc |2 * w * (a - a') - s / G + s' / G'| ≤ |2 * w * (a - a')| + |s / G| + |s' / G'| :=
          (abs_add_le _ _).trans (add_le_add_left (abs_sub _ _) _)
      _ ≤ 2 * W * D + 3 * √w + 3 * √w := by
          refine add_le_add (add_le_add ?_ t) t'
          rw [abs_mul, abs_of_nonneg (by positivity)]
          exact mul_le_mul (by linarith) hD (abs_nonneg _) (by linarith)
      _ ≤ _ := by unfold Spec.cnSlope; linarith
  have := convex_univ.norm_image_sub_le_of_norm_hasDerivWithin_le hd hb (Set.mem_univ c) (Set.mem_univ c')
  rw [Real.norm_eq_abs, Real.norm_eq_abs] at this
  have h1 := (abs_le.1 this).2
  have p1 := gauss_pos (w := w) (x := c - a) hN
  have p2 := gauss_pos (w := w) (x := c' - a) hN
  have p3 := gauss_pos (w := w) (x := c - a') hN'
  have p4 := gauss_pos (w := w) (x := c' - a') hN'
  rw [← Real.log_le_log_iff (by positivity) (by positivity), Real.log_mul p2.ne' p3.ne',
    Real.log_mul (Real.exp_pos _).ne' (by positivity), Real.log_exp, Real.log_mul p1.ne' p4.ne']
  linarith

end

/-! ## Weights and coefficients -/

section
variable {C : Spec.C6Settings} {w D : ℝ}

/-- What is needed of an element: one to three Gaussians per reference, reference coordination numbers at most `D`
apart. -/
def Spec.RefSpread (T : Tables) (D : ℝ) (Z : ℕ) : Prop :=
  (∀ r < nref, T.refc Z r ≤ 3) ∧
    ∀ r < nref, ∀ s < nref, 0 < T.refc Z r → 0 < T.refc Z s → |T.refcn Z r - T.refcn Z s| ≤ D

private theorem weight_nonneg (Z : ℕ) (c : ℝ) (r : ℕ) : 0 ≤ Spec.weight C w Z c r :=
  div_nonneg gauss_nonneg (Finset.sum_nonneg fun _ _ => gauss_nonneg)

theorem weight_factor {W : ℝ} (hw : 0 ≤ w) (hW : w ≤ W) {Z : ℕ} (h : Spec.RefSpread C.T D Z) (c c' : ℝ) {r : ℕ} (hr : r < nref) :
    Spec.weight C w Z c' r ≤ Real.exp (Spec.cnSlope W D * |c' - c|) * Spec.weight C w Z c r := by
  rcases Nat.eq_zero_or_pos (C.T.refc Z r) with h0 | h0
  · have e : ∀ c, Spec.weight C w Z c r = 0 := fun c => by
      simp [Spec.weight, Spec.gaussRef, h0, Spec.gaussians]
    rw [e, e, mul_zero]
  · have pos : ∀ c, 0 < ∑ s ∈ Finset.range nref, Spec.gaussRef C w Z c s := fun c =>
      Finset.sum_pos' (fun _ _ => gauss_nonneg) ⟨r, Finset.mem_range.2 hr, gauss_pos h0⟩
    unfold Spec.weight
    rw [div_le_iff₀ (pos c'), mul_assoc, div_mul_eq_mul_div, mul_div_assoc', le_div_iff₀ (pos c), Finset.mul_sum,
      Finset.mul_sum, Finset.mul_sum]
    refine Finset.sum_le_sum fun s hs => ?_
    have hs := Finset.mem_range.1 hs
    rcases Nat.eq_zero_or_pos (C.T.refc Z s) with h1 | h1
    · simp [Spec.gaussRef, h1, Spec.gaussians]
    · exact gauss_ratio hw hW h0 (h.1 r hr) h1 (h.1 s hs) (h.2 r hr s hs h0 h1) c c'

private theorem zetaRef_pos (A : Spec.AtomData) (r : ℕ) : 0 < Spec.zetaRef C A r := by
  unfold Spec.zetaRef Spec.zeta
  split_ifs <;> exact Real.exp_pos _

private theorem alphaRef_nonneg (Z r ω : ℕ) : 0 ≤ Spec.alphaRef C Z r ω := le_max_left _ _

private theorem alpha_nonneg (A : Spec.AtomData) (Zp ω : ℕ) : 0 ≤ Spec.alpha C A Zp ω :=
  Finset.sum_nonneg fun _ _ => mul_nonneg (mul_nonneg (zetaRef_pos _ _).le (weight_nonneg _ _ _)) (alphaRef_nonneg _ _ _)

theorem alpha_factor {W : ℝ} {Z Zp : ℕ} (hw : 0 ≤ C.wf Z Zp) (hW : C.wf Z Zp ≤ W) (h : Spec.RefSpread C.T D Z)
    (c c' q : ℝ) (ω : ℕ) :
    Spec.alpha C ⟨Z, c', q⟩ Zp ω ≤ Real.exp (Spec.cnSlope W D * |c' - c|) * Spec.alpha C ⟨Z, c, q⟩ Zp ω := by
  unfold Spec.alpha
  rw [Finset.mul_sum]
  refine Finset.sum_le_sum fun r hr => ?_
  have e : Real.exp (Spec.cnSlope W D * |c' - c|) *
      (Spec.zetaRef C ⟨Z, c, q⟩ r * Spec.weight C (C.wf Z Zp) Z c r * Spec.alphaRef C Z r ω) =
      Spec.zetaRef C ⟨Z, c, q⟩ r * (Real.exp (Spec.cnSlope W D * |c' - c|) * Spec.weight C (C.wf Z Zp) Z c r) *
        Spec.alphaRef C Z r ω := by ring
  show Spec.zetaRef C ⟨Z, c, q⟩ r * Spec.weight C (C.wf Z Zp) Z c' r * Spec.alphaRef C Z r ω ≤ _
  rw [e]
  exact mul_le_mul_of_nonneg_right (mul_le_mul_of_nonneg_left (weight_factor hw hW h c c' (Finset.mem_range.1 hr))
    (zetaRef_pos _ _).le) (alphaRef_nonneg _ _ _)

private theorem spec_c6_nonneg (hq : ∀ ω, 0 ≤ C.quad ω) (A A' : Spec.AtomData) : 0 ≤ Spec.c6 C A A' :=
  mul_nonneg (by positivity) (Finset.sum_nonneg fun ω _ =>
    mul_nonneg (hq ω) (mul_nonneg (alpha_nonneg _ _ _) (alpha_nonneg _ _ _)))

theorem c6_factor {W : ℝ} (hq : ∀ ω, 0 ≤ C.quad ω) {Z Z' : ℕ} (hw : 0 ≤ C.wf Z Z' ∧ C.wf Z Z' ≤ W)
    (hw' : 0 ≤ C.wf Z' Z ∧ C.wf Z' Z ≤ W) (h : Spec.RefSpread C.T D Z) (h' : Spec.RefSpread C.T D Z') (c d c' d' q q' : ℝ) :
    Spec.c6 C ⟨Z, d, q⟩ ⟨Z', d', q'⟩ ≤
      Real.exp (Spec.cnSlope W D * (|d - c| + |d' - c'|)) * Spec.c6 C ⟨Z, c, q⟩ ⟨Z', c', q'⟩ := by
  unfold Spec.c6
  rw [mul_left_comm, Finset.mul_sum _ _ (Real.exp _)]
  refine mul_le_mul_of_nonneg_left (Finset.sum_le_sum fun ω _ => ?_) (by positivity)
  rw [mul_left_comm (Real.exp _)]
  refine mul_le_mul_of_nonneg_left ?_ (hq ω)
  rw [mul_add, Real.exp_add]
  refine (mul_le_mul (alpha_factor hw.1 hw.2 h c d q ω) (alpha_factor hw'.1 hw'.2 h' c' d' q' ω) (alpha_nonneg _ _ _)
    (mul_nonneg (Real.exp_pos _).le (alpha_nonneg _ _ _))).trans (le_of_eq ?_)
  ring

end

section
variable {env : Env} {T : Tables} {R : RefCfg} {w D : ℝ}

/-- What is needed of the tables and of the model: for every element reference coordination numbers at most `D` apart,
and exponents of Gaussians between 0 and `w`. -/
structure Spec.CNBounds (T : Tables) (R : RefCfg) (w D : ℝ) : Prop where
  cn : ∀ Z < T.nZ, ∀ r < nref, ∀ s < nref, 0 < T.refc Z r → 0 < T.refc Z s → |T.refcn Z r - T.refcn Z s| ≤ D
  wf : ∀ Z < T.nZ, ∀ Z' < T.nZ, 0 ≤ R.wf Z Z' ∧ R.wf Z Z' ≤ w

private theorem spread (hT : T.Physical R.rq) (h : Spec.CNBounds T R w D) {Z : ℕ} (hZ : Z < T.nZ) :
    Spec.RefSpread T D Z :=
  ⟨fun r hr => by rcases hT.refc Z hZ r hr with h | h | h <;> omega, h.cn Z hZ⟩

private theorem at_nonneg (hfl : env.fl = id) (hT : T.Physical R.rq) (hgc : 0 < R.gc) {A A' : Spec.AtomData}
    (hA : A.Z < T.nZ) (hA' : A'.Z < T.nZ) : 0 ≤ c6At env T R A A' := by
  rw [c6At_spec hfl hT hgc hA hA']
  exact spec_c6_nonneg (fun ω => trapzWeights_nonneg ω) _ _

theorem c6At_cn_factor (hfl : env.fl = id) (hT : T.Physical R.rq) (hgc : 0 < R.gc) (h : Spec.CNBounds T R w D)
    {Z Z' : ℕ} (hZ : Z < T.nZ) (hZ' : Z' < T.nZ) (c d c' d' q q' : ℝ) :
    c6At env T R ⟨Z, d, q⟩ ⟨Z', d', q'⟩ ≤
      Real.exp (Spec.cnSlope w D * (|d - c| + |d' - c'|)) * c6At env T R ⟨Z, c, q⟩ ⟨Z', c', q'⟩ := by
  rw [c6At_spec hfl hT hgc hZ hZ', c6At_spec hfl hT hgc hZ hZ']
  exact c6_factor (C := R.spec T env.eps) (fun ω => trapzWeights_nonneg ω) (h.wf Z hZ Z' hZ') (h.wf Z' hZ' Z hZ)
    (spread hT h hZ) (spread hT h hZ') c d c' d' q q'

/-- **C89**: the C6 coefficients computed with two sets of coordination numbers differ by a factor that is bounded by
the changes at the two atoms (the two sets can be exchanged, so this bounds the factor from both sides). -/
theorem C89_c6 {m : RefModel} {numbers : Tensor ℕ} {n : ℕ} {B : Shape} (hm : m.IsFor env T numbers R n B)
    (hfl : env.fl = id) (hT : T.Physical R.rq) (hgc : 0 < R.gc) (hB : Spec.CNBounds T R w D)
    {cn cn' q : Tensor ℝ} (hc : cn.Ok (n :: B)) (hc' : cn'.Ok (n :: B)) (hq : q.Ok (n :: B)) {b : Idx} (hb : InB B b)
    {i j : ℕ} (hi : i < n) (hj : j < n) :
    (m.atomicC6 (m.weights env T (some cn) (some q))).Ok (n :: n :: B) ∧
    (m.atomicC6 (m.weights env T (some cn') (some q))).Ok (n :: n :: B) ∧
    (m.atomicC6 (m.weights env T (some cn') (some q))).get (j :: i :: b) ≤
      Real.exp (Spec.cnSlope w D *
        (|cn'.get (i :: b) - cn.get (i :: b)| + |cn'.get (j :: b) - cn.get (j :: b)|)) *
      (m.atomicC6 (m.weights env T (some cn) (some q))).get (j :: i :: b) := by
  obtain ⟨h1, g1⟩ := model_c6_eval hm (Or.inr ⟨cn, rfl, hc, rfl⟩) (Or.inr ⟨q, rfl, hq, rfl⟩)
  obtain ⟨h2, g2⟩ := model_c6_eval hm (Or.inr ⟨cn', rfl, hc', rfl⟩) (Or.inr ⟨q, rfl, hq, rfl⟩)
  have hlt := hm.good.lt
  have hsh := hm.good.num.shape
  rw [hm.num] at hlt hsh
  refine ⟨h1, h2, ?_⟩
  rw [g1 b i j hb hi hj, g2 b i j hb hi hj]
  exact c6At_cn_factor hfl hT hgc hB (hlt _ (by simp [InB, hsh, hi, hb]))
    (hlt _ (by simp [InB, hsh, hj, hb])) _ _ _ _ _ _

end

/-! ## Energies -/

/-- Sum of the magnitudes of the terms of the energy of an atom. -/
noncomputable def Spec.magnitude {n : ℕ} (S : Spec.Settings) (M : Spec.Mol n) (i : Fin n) : ℝ :=
  (1 / 2) * (∑ j, if M.Z i ≠ 0 ∧ M.Z j ≠ 0 ∧ i ≠ j ∧ M.r S.ε i j ≤ S.cut2 then |Spec.pairTerm S M M.atom i j| else 0) +
  (1 / 6) * ∑ j, ∑ k, if M.Z i ≠ 0 ∧ M.Z j ≠ 0 ∧ M.Z k ≠ 0 ∧ i ≠ j ∧ i ≠ k ∧ j ≠ k ∧ Spec.withinCut3 S M i j k then
    |Spec.tripleTerm S M (Spec.c9 S M.neutral) (Spec.R0 S M) i j k| else 0

section
variable {n : ℕ} {P : Spec.D4Par} {c : Cutoff} {env : Env} {T : Tables} {R : RefCfg} {δ w D : ℝ}

/-- Two systems that differ in the coordination numbers only. -/
structure SameButCN (M M' : Spec.Mol n) : Prop where
  Z : M'.Z = M.Z
  pos : M'.pos = M.pos
  q : M'.q = M.q
  Q : M'.Q = M.Q
  rvdw : M'.rvdw = M.rvdw

theorem abs_sub_le_of_factor {x y F f : ℝ} (hF : 1 ≤ F) (hx : 0 ≤ x) (h1 : y ≤ F * x) (h2 : x ≤ F * y) :
    |f * y - f * x| ≤ (F - 1) * |f * x| := by
  have hy : 0 ≤ y := by
    by_contra hc
    push Not at hc
    nlinarith
  rw [← mul_sub, abs_mul, abs_mul, abs_of_nonneg hx, mul_left_comm]
  refine mul_le_mul_of_nonneg_left ?_ (abs_nonneg _)
  rw [abs_le]
  constructor
  · by_cases hxy : x ≤ y
    · nlinarith
    · push Not at hxy
      nlinarith
  · linarith

theorem c9_factor {S : Spec.Settings} {F : ℝ} (hF : 1 ≤ F) {A A' : Fin n → Spec.AtomData}
    (h0 : ∀ i j, 0 ≤ S.c6 (A i) (A j)) (h0' : ∀ i j, 0 ≤ S.c6 (A' i) (A' j)) {i j k : Fin n}
    (hij : S.c6 (A' i) (A' j) ≤ F ^ 2 * S.c6 (A i) (A j)) (hik : S.c6 (A' i) (A' k) ≤ F ^ 2 * S.c6 (A i) (A k))
    (hjk : S.c6 (A' j) (A' k) ≤ F ^ 2 * S.c6 (A j) (A k)) (hε : 0 ≤ S.ε) :
    Spec.c9 S A' i j k ≤ F ^ 3 * Spec.c9 S A i j k := by
  have hF0 : 0 ≤ F := by linarith
  unfold Spec.c9 Spec.rsqrt
  rw [abs_of_nonneg (mul_nonneg (mul_nonneg (h0 _ _) (h0 _ _)) (h0 _ _)),
    abs_of_nonneg (mul_nonneg (mul_nonneg (h0' _ _) (h0' _ _)) (h0' _ _))]
  rw [← Real.sqrt_sq (show 0 ≤ F ^ 3 by positivity), ← Real.sqrt_mul (by positivity)]
  refine Real.sqrt_le_sqrt (max_le ?_ ?_)
  · calc _ ≤ (F ^ 2 * S.c6 (A i) (A j)) * (F ^ 2 * S.c6 (A i) (A k)) * (F ^ 2 * S.c6 (A j) (A k)) :=
        mul_le_mul (mul_le_mul hij hik (h0' _ _) (mul_nonneg (by positivity) (h0 _ _))) hjk (h0' _ _)
          (mul_nonneg (mul_nonneg (by positivity) (h0 _ _)) (mul_nonneg (by positivity) (h0 _ _)))
      _ = (F ^ 3) ^ 2 * (S.c6 (A i) (A j) * S.c6 (A i) (A k) * S.c6 (A j) (A k)) := by ring
      _ ≤ _ := mul_le_mul_of_nonneg_left (le_max_left _ _) (by positivity)
  · calc S.ε ≤ 1 * max (S.c6 (A i) (A j) * S.c6 (A i) (A k) * S.c6 (A j) (A k)) S.ε := by
          rw [one_mul]; exact le_max_right _ _
      _ ≤ _ := mul_le_mul_of_nonneg_right (by nlinarith [one_le_pow₀ hF (n := 3)]) (hε.trans (le_max_right _ _))

private theorem pair_eq (S : Spec.Settings) (M : Spec.Mol n) (A : Fin n → Spec.AtomData) (i j : Fin n) :
    Spec.pairTerm S M A i j = (S.s6 * S.f6 (M.r S.ε i j) (Spec.rad S M i j) +
      S.s8 * ((3 * M.Q i * M.Q j) * S.f8 (M.r S.ε i j) (Spec.rad S M i j)) +
      S.s10 * ((3 * M.Q i * M.Q j) ^ 2 * 49 / 40 * S.f10 (M.r S.ε i j) (Spec.rad S M i j))) * S.c6 (A i) (A j) := by
  simp only [Spec.pairTerm]
  ring

private theorem triple_eq (S : Spec.Settings) (M : Spec.Mol n) (C : Fin n → Fin n → Fin n → ℝ) (R : Fin n → Fin n → ℝ)
    (i j k : Fin n) : Spec.tripleTerm S M C R i j k =
      Spec.tripleTerm S M (fun _ _ _ => 1) R i j k * C i j k := by
  simp only [Spec.tripleTerm]
  ring

private theorem energy_factor {S : Spec.Settings} (hε : 0 ≤ S.ε) {F : ℝ} (hF : 1 ≤ F) {M M' : Spec.Mol n}
    (hM : SameButCN M M') (h0 : ∀ A A' : Spec.AtomData, A.Z < T.nZ → A'.Z < T.nZ → 0 ≤ S.c6 A A')
    (hZ : ∀ i, M.Z i < T.nZ)
    (ha : ∀ i j, M.Z i ≠ 0 → M.Z j ≠ 0 → S.c6 (M'.atom i) (M'.atom j) ≤ F ^ 2 * S.c6 (M.atom i) (M.atom j) ∧
      S.c6 (M.atom i) (M.atom j) ≤ F ^ 2 * S.c6 (M'.atom i) (M'.atom j))
    (hn : ∀ i j, M.Z i ≠ 0 → M.Z j ≠ 0 → S.c6 (M'.neutral i) (M'.neutral j) ≤ F ^ 2 * S.c6 (M.neutral i) (M.neutral j) ∧
      S.c6 (M.neutral i) (M.neutral j) ≤ F ^ 2 * S.c6 (M'.neutral i) (M'.neutral j)) (i : Fin n) :
    |Spec.e2 S M' M'.atom i - Spec.e2 S M M.atom i| ≤ (F ^ 2 - 1) * ((1 / 2) *
      ∑ j, if M.Z i ≠ 0 ∧ M.Z j ≠ 0 ∧ i ≠ j ∧ M.r S.ε i j ≤ S.cut2 then |Spec.pairTerm S M M.atom i j| else 0) ∧
    |Spec.e3 S M' (Spec.c9 S M'.neutral) (Spec.R0 S M') i - Spec.e3 S M (Spec.c9 S M.neutral) (Spec.R0 S M) i| ≤
      (F ^ 3 - 1) * ((1 / 6) * ∑ j, ∑ k,
        if M.Z i ≠ 0 ∧ M.Z j ≠ 0 ∧ M.Z k ≠ 0 ∧ i ≠ j ∧ i ≠ k ∧ j ≠ k ∧ Spec.withinCut3 S M i j k then
          |Spec.tripleTerm S M (Spec.c9 S M.neutral) (Spec.R0 S M) i j k| else 0) := by
  have er : ∀ i j, M'.r S.ε i j = M.r S.ε i j := fun i j => by unfold Spec.Mol.r; rw [hM.pos]
  have erad : ∀ i j, Spec.rad S M' i j = Spec.rad S M i j := fun i j => by unfold Spec.rad; rw [hM.Q, hM.rvdw]
  have eR : Spec.R0 S M' = Spec.R0 S M := by funext i j; unfold Spec.R0; rw [hM.Q]
  have z : ∀ i, (M.atom i).Z < T.nZ := hZ
  have z' : ∀ i, (M'.atom i).Z < T.nZ := fun i => by show M'.Z i < _; rw [hM.Z]; exact hZ i
  have y : ∀ i, (M.neutral i).Z < T.nZ := hZ
  have y' : ∀ i, (M'.neutral i).Z < T.nZ := z'
  have hF2 : 1 ≤ F ^ 2 := one_le_pow₀ hF
  have hF3 : 1 ≤ F ^ 3 := one_le_pow₀ hF
  constructor
  · unfold Spec.e2
    rw [← mul_sub, ← Finset.sum_sub_distrib, abs_mul, show |(-(1 / 2) : ℝ)| = 1 / 2 by norm_num, mul_left_comm,
      Finset.mul_sum]
    refine mul_le_mul_of_nonneg_left ((Finset.abs_sum_le_sum_abs _ _).trans (Finset.sum_le_sum fun j _ => ?_)) (by norm_num)
    rw [hM.Z, er]
    split_ifs with h
    · rw [pair_eq, pair_eq, hM.Q, er, erad]
      exact abs_sub_le_of_factor hF2 (h0 _ _ (z i) (z j)) (ha i j h.1 h.2.1).1 (ha i j h.1 h.2.1).2
    · simp
  · unfold Spec.e3
    rw [← mul_sub, ← Finset.sum_sub_distrib, abs_mul, show |(1 / 6 : ℝ)| = 1 / 6 by norm_num, mul_left_comm, Finset.mul_sum]
    refine mul_le_mul_of_nonneg_left ((Finset.abs_sum_le_sum_abs _ _).trans (Finset.sum_le_sum fun j _ => ?_)) (by norm_num)
    rw [← Finset.sum_sub_distrib, Finset.mul_sum]
    refine (Finset.abs_sum_le_sum_abs _ _).trans (Finset.sum_le_sum fun k _ => ?_)
    rw [hM.Z]
    have ew : Spec.withinCut3 S M' i j k = Spec.withinCut3 S M i j k := by unfold Spec.withinCut3; rw [er, er]
    rw [ew]
    split_ifs with h
    · have et : Spec.tripleTerm S M' (fun _ _ _ => 1) (Spec.R0 S M) i j k =
          Spec.tripleTerm S M (fun _ _ _ => 1) (Spec.R0 S M) i j k := by
        simp only [Spec.tripleTerm, er]
      rw [triple_eq, triple_eq S M (Spec.c9 S M.neutral), eR, et]
      obtain ⟨hi, hj, hk, -⟩ := h
      exact abs_sub_le_of_factor hF3 (Spec.rsqrt_nonneg _ _)
        (c9_factor hF (fun i j => h0 _ _ (y i) (y j)) (fun i j => h0 _ _ (y' i) (y' j)) (hn i j hi hj).1 (hn i k hi hk).1
          (hn j k hj hk).1 hε)
        (c9_factor hF (fun i j => h0 _ _ (y' i) (y' j)) (fun i j => h0 _ _ (y i) (y j)) (hn i j hi hj).2 (hn i k hi hk).2
          (hn j k hj hk).2 hε)
    · simp

/-- The two systems of a comparison. -/
theorem system_factor (hfl : env.fl = id) (hT : T.Physical R.rq) (hgc : 0 < R.gc) (hB : Spec.CNBounds T R w D)
    (hK : 0 ≤ Spec.cnSlope w D) (hδ : 0 ≤ δ) {M M' : Spec.Mol n} (hM : SameButCN M M') (hZ : ∀ i, M.Z i < T.nZ)
    (hc : ∀ i, M.Z i ≠ 0 → |M'.cn i - M.cn i| ≤ δ) (i : Fin n) :
    |Spec.e2 (d4Computed env T R P c) M' M'.atom i - Spec.e2 (d4Computed env T R P c) M M.atom i| ≤
      (Real.exp (2 * Spec.cnSlope w D * δ) - 1) * ((1 / 2) * ∑ j,
        if M.Z i ≠ 0 ∧ M.Z j ≠ 0 ∧ i ≠ j ∧ M.r (d4Computed env T R P c).ε i j ≤ (d4Computed env T R P c).cut2 then
          |Spec.pairTerm (d4Computed env T R P c) M M.atom i j| else 0) ∧
    |Spec.energy (d4Computed env T R P c) M' i - Spec.energy (d4Computed env T R P c) M i| ≤
      (Real.exp (3 * Spec.cnSlope w D * δ) - 1) * Spec.magnitude (d4Computed env T R P c) M i := by
  set S := d4Computed env T R P c with hS
  set F := Real.exp (Spec.cnSlope w D * δ) with hFdef
  have hF : 1 ≤ F := Real.one_le_exp (by positivity)
  have e2 : Real.exp (2 * Spec.cnSlope w D * δ) = F ^ 2 := by rw [hFdef, ← Real.exp_nat_mul]; congr 1; push_cast; ring
  have e3 : Real.exp (3 * Spec.cnSlope w D * δ) = F ^ 3 := by rw [hFdef, ← Real.exp_nat_mul]; congr 1; push_cast; ring
  have key : ∀ (i j : Fin n) (q q' : ℝ) (f g : Fin n → ℝ), |f i - g i| ≤ δ → |f j - g j| ≤ δ →
      c6At env T R ⟨M.Z i, f i, q⟩ ⟨M.Z j, f j, q'⟩ ≤ F ^ 2 * c6At env T R ⟨M.Z i, g i, q⟩ ⟨M.Z j, g j, q'⟩ := by
    intro i j q q' f g h1 h2
    refine (c6At_cn_factor hfl hT hgc hB (hZ i) (hZ j) (g i) (f i) (g j) (f j) q q').trans ?_
    refine mul_le_mul_of_nonneg_right ?_ (at_nonneg hfl hT hgc (hZ i) (hZ j))
    rw [← e2]
    refine Real.exp_le_exp.2 ?_
    nlinarith
  have hc' : ∀ i, M.Z i ≠ 0 → |M.cn i - M'.cn i| ≤ δ := fun i hi => by rw [abs_sub_comm]; exact hc i hi
  have ea : ∀ i, M'.atom i = ⟨M.Z i, M'.cn i, M.q i⟩ := fun i => by unfold Spec.Mol.atom; rw [hM.Z, hM.q]
  have en : ∀ i, M'.neutral i = ⟨M.Z i, M'.cn i, 0⟩ := fun i => by unfold Spec.Mol.neutral; rw [hM.Z]
  obtain ⟨h2, h3⟩ := energy_factor (S := S) (T := T) env.eps_pos.le hF hM (fun A A' h h' => at_nonneg hfl hT hgc h h') hZ
    (fun i j hi hj => by
      rw [ea, ea]
      exact ⟨key i j _ _ M'.cn M.cn (hc i hi) (hc j hj), key i j _ _ M.cn M'.cn (hc' i hi) (hc' j hj)⟩)
    (fun i j hi hj => by
      rw [en, en]
      exact ⟨key i j _ _ M'.cn M.cn (hc i hi) (hc j hj), key i j _ _ M.cn M'.cn (hc' i hi) (hc' j hj)⟩) i
  rw [e2, e3]
  refine ⟨h2, ?_⟩
  unfold Spec.energy Spec.magnitude
  rw [add_sub_add_comm, mul_add]
  refine (abs_add_le _ _).trans (add_le_add (h2.trans ?_) h3)
  refine mul_le_mul_of_nonneg_right ?_ (mul_nonneg (by norm_num) (Finset.sum_nonneg fun j _ => ?_))
  · have : F ^ 2 ≤ F ^ 3 := pow_le_pow_right₀ hF (by norm_num)
    linarith
  · split_ifs
    · exact abs_nonneg _
    · exact le_rfl

variable {ext : Ext} {numbers : Tensor ℕ} {positions charge : Tensor ℝ} {p : Param} {o o' : DftOpts} {B : Shape}
  {cn cn' : Spec.CN} {eeq : Spec.EEQ}

private theorem same (ho : o'.opts = o.opts) (b : Idx) : SameButCN (system T cn eeq numbers positions charge o.opts n b)
    (system T cn' eeq numbers positions charge o'.opts n b) := by
  rw [ho]
  exact ⟨rfl, rfl, rfl, rfl, rfl⟩

theorem cnSlope_nonneg_of_bounds (h : Spec.CNBounds T R w D) {Z Z' : ℕ} (hZ : Z < T.nZ) (hZ' : Z' < T.nZ) (hD : 0 ≤ D) :
    0 ≤ Spec.cnSlope w D :=
  Spec.cnSlope_nonneg ((h.wf Z hZ Z' hZ').1.trans (h.wf Z hZ Z' hZ').2) hD

/-- **C89**: two calls of `dftd4` that differ in the function for coordination numbers. If the coordination numbers of
real atoms differ by at most `δ`, the energy of an atom changes by at most `exp (3 K δ) - 1` times the magnitude of the
pair and triple terms that it consists of. -/
theorem C89_energy (hfl : env.fl = id) (hT : T.Physical R.rq) (hgc : 0 < R.gc) (hD : 0 ≤ D) (hB : Spec.CNBounds T R w D)
    (h : Call env T ext numbers positions charge p o n B R cn eeq P)
    (h' : Call env T ext numbers positions charge p o' n B R cn' eeq P) (ho : o'.opts = o.opts) :
    ∃ e e', dftd4 env T ext numbers positions charge p o = .ok e ∧
      dftd4 env T ext numbers positions charge p o' = .ok e' ∧
      ∀ b, InB B b → ∀ δ, 0 ≤ δ →
        (∀ j, elements numbers n b j ≠ 0 → |cn' n (elements numbers n b) (coords positions n b) j -
          cn n (elements numbers n b) (coords positions n b) j| ≤ δ) →
        ∀ i : Fin n, |e'.get (i.1 :: b) - e.get (i.1 :: b)| ≤ (Real.exp (3 * Spec.cnSlope w D * δ) - 1) *
          Spec.magnitude (Spec.d4Settings (R.spec T env.eps) env.eps P (o.opts.cutoff.getD {}).disp2
            (o.opts.cutoff.getD {}).disp3) (system T cn eeq numbers positions charge o.opts n b) i := by
  obtain ⟨e, he, -, hv⟩ := h.eval
  obtain ⟨e', he', -, hv'⟩ := h'.eval
  refine ⟨e, e', he, he', fun b hb δ hδ hc i => ?_⟩
  have hZ := h.args.Z_lt (cn := cn) (eeq := eeq) hb
  rw [hv b hb i, hv' b hb i]
  have := (system_factor (P := P) (c := o.opts.cutoff.getD {}) hfl hT hgc hB (cnSlope_nonneg_of_bounds hB (hZ i) (hZ i) hD) hδ
    (same (cn := cn) (cn' := cn') (T := T) (eeq := eeq) (numbers := numbers) (positions := positions) (charge := charge)
      ho b) hZ hc i).2
  rw [ho] at this ⊢
  refine this.trans (le_of_eq ?_)
  congr 1
  set M := system T cn eeq numbers positions charge o.opts n b with hM
  have c6eq : ∀ (i j : Fin n) (q q' : ℝ), c6At env T R ⟨M.Z i, M.cn i, q⟩ ⟨M.Z j, M.cn j, q'⟩ =
      Spec.c6 (R.spec T env.eps) ⟨M.Z i, M.cn i, q⟩ ⟨M.Z j, M.cn j, q'⟩ := fun i j q q' =>
    c6At_spec hfl hT hgc (hZ i) (hZ j)
  have ep : ∀ j, Spec.pairTerm (d4Computed env T R P (o.opts.cutoff.getD {})) M M.atom i j =
      Spec.pairTerm (Spec.d4Settings (R.spec T env.eps) env.eps P (o.opts.cutoff.getD {}).disp2
        (o.opts.cutoff.getD {}).disp3) M M.atom i j := by
    intro j
    simp only [Spec.pairTerm, d4Computed, Spec.d4Settings, Spec.Mol.atom, c6eq]
    rfl
  have ec : Spec.c9 (d4Computed env T R P (o.opts.cutoff.getD {})) M.neutral =
      Spec.c9 (Spec.d4Settings (R.spec T env.eps) env.eps P (o.opts.cutoff.getD {}).disp2
        (o.opts.cutoff.getD {}).disp3) M.neutral := by
    funext i j k
    simp only [Spec.c9, d4Computed, Spec.d4Settings, Spec.Mol.neutral, c6eq]
  unfold Spec.magnitude
  simp only [ep, ec]
  rfl

/-- **C89**: without the three-body term and with the usual signs of the parameters (all pairs attract each other) the
energy of every atom changes by a factor between `2 - exp (2 K δ)` and `exp (2 K δ)`. -/
theorem C89_pairs (hfl : env.fl = id) (hT : T.Physical R.rq) (hgc : 0 < R.gc) (hD : 0 ≤ D) (hB : Spec.CNBounds T R w D)
    (h : Call env T ext numbers positions charge p o n B R cn eeq P)
    (h' : Call env T ext numbers positions charge p o' n B R cn' eeq P) (ho : o'.opts = o.opts)
    (hr4 : o.opts.r4r2 = none) (hQ : ∀ Z < T.nZ, 0 ≤ T.r4r2 Z)
    (h6 : 0 ≤ P.s6) (h8 : 0 ≤ P.s8) (h10 : 0 ≤ P.s10) (h9 : P.s9 = 0) (ha1 : 0 ≤ P.a1) (ha2 : 0 ≤ P.a2) :
    ∃ e e', dftd4 env T ext numbers positions charge p o = .ok e ∧
      dftd4 env T ext numbers positions charge p o' = .ok e' ∧
      ∀ b, InB B b → ∀ δ, 0 ≤ δ →
        (∀ j, elements numbers n b j ≠ 0 → |cn' n (elements numbers n b) (coords positions n b) j -
          cn n (elements numbers n b) (coords positions n b) j| ≤ δ) →
        (∀ i < n, |e'.get (i :: b) - e.get (i :: b)| ≤ (Real.exp (2 * Spec.cnSlope w D * δ) - 1) * |e.get (i :: b)|) ∧
        |∑ i : Fin n, e'.get (i.1 :: b) - ∑ i : Fin n, e.get (i.1 :: b)| ≤
          (Real.exp (2 * Spec.cnSlope w D * δ) - 1) * |∑ i : Fin n, e.get (i.1 :: b)| := by
  obtain ⟨e, he, -, hv⟩ := h.eval
  obtain ⟨e', he', -, hv'⟩ := h'.eval
  refine ⟨e, e', he, he', fun b hb δ hδ hc => ?_⟩
  have hZ := h.args.Z_lt (cn := cn) (eeq := eeq) hb
  set M := system T cn eeq numbers positions charge o.opts n b with hM
  set S := d4Computed env T R P (o.opts.cutoff.getD {}) with hS
  have hMQ : ∀ j, 0 ≤ M.Q j := by
    intro j
    have : M.Q j = T.r4r2 (elements numbers n b j) := by
      show (match o.opts.r4r2 with
        | some x => x.get (j.1 :: b)
        | none => T.r4r2 (elements numbers n b j)) = _
      rw [hr4]
    rw [this]
    exact hQ _ (hZ j)
  have hp : ∀ i j, 0 ≤ Spec.pairTerm S M M.atom i j := by
    intro i j
    have h1 : 0 ≤ S.c6 (M.atom i) (M.atom j) := at_nonneg hfl hT hgc (hZ i) (hZ j)
    have h2 := hMQ i
    have h3 := hMQ j
    have h4 := M.r_pos (ε := S.ε) env.eps_pos i j
    have h5 : 0 ≤ P.a1 * √(3 * M.Q i * M.Q j) + P.a2 := by positivity
    rw [pair_eq]
    refine mul_nonneg ?_ h1
    simp only [hS, d4Computed, Spec.d4Settings, Spec.rad] at h4 ⊢
    positivity
  have z3 : ∀ (M : Spec.Mol n) i, Spec.e3 S M (Spec.c9 S M.neutral) (Spec.R0 S M) i = 0 := by
    intro M i
    have : S.s9 = 0 := h9
    simp [Spec.e3, Spec.tripleTerm, this]
  have ev : ∀ i : Fin n, e.get (i.1 :: b) = -((1 / 2) * ∑ j,
        if M.Z i ≠ 0 ∧ M.Z j ≠ 0 ∧ i ≠ j ∧ M.r S.ε i j ≤ S.cut2 then |Spec.pairTerm S M M.atom i j| else 0) := by
    intro i
    rw [hv b hb i, Spec.energy, z3, add_zero, Spec.e2, neg_mul]
    simp only [abs_of_nonneg (hp i _)]
    rfl
  have hs0 : ∀ i : Fin n, 0 ≤ (1 / 2) * ∑ j,
        if M.Z i ≠ 0 ∧ M.Z j ≠ 0 ∧ i ≠ j ∧ M.r S.ε i j ≤ S.cut2 then |Spec.pairTerm S M M.atom i j| else 0 := fun i =>
    mul_nonneg (by norm_num) (Finset.sum_nonneg fun j _ => by
      split_ifs
      · exact abs_nonneg _
      · exact le_rfl)
  have hi : ∀ i : Fin n, |e'.get (i.1 :: b) - e.get (i.1 :: b)| ≤
      (Real.exp (2 * Spec.cnSlope w D * δ) - 1) * |e.get (i.1 :: b)| := by
    intro i
    have := (system_factor (P := P) (c := o.opts.cutoff.getD {}) hfl hT hgc hB (cnSlope_nonneg_of_bounds hB (hZ i) (hZ i) hD) hδ
      (same (cn := cn) (cn' := cn') (T := T) (eeq := eeq) (numbers := numbers) (positions := positions) (charge := charge)
        ho b) hZ hc i).1
    have e1 : |e.get (i.1 :: b)| = (1 / 2) * ∑ j,
        if M.Z i ≠ 0 ∧ M.Z j ≠ 0 ∧ i ≠ j ∧ M.r S.ε i j ≤ S.cut2 then |Spec.pairTerm S M M.atom i j| else 0 := by
      rw [ev i, abs_neg, abs_of_nonneg (hs0 i)]
    rw [e1, hv' b hb i, hv b hb i, Spec.energy, Spec.energy, ho, z3, z3, add_zero, add_zero]
    rw [ho] at this
    exact this
  refine ⟨fun i h => hi ⟨i, h⟩, ?_⟩
  rw [← Finset.sum_sub_distrib]
  refine (Finset.abs_sum_le_sum_abs _ _).trans ((Finset.sum_le_sum fun i _ => hi i).trans (le_of_eq ?_))
  rw [← Finset.mul_sum]
  congr 1
  have hneg : ∀ i : Fin n, e.get (i.1 :: b) ≤ 0 := fun i => by rw [ev i]; linarith [hs0 i]
  rw [abs_of_nonpos (Finset.sum_nonpos fun i _ => hneg i), ← Finset.sum_neg_distrib]
  exact Finset.sum_congr rfl fun i _ => abs_of_nonpos (hneg i)

end

/-! ## A constant for all systems -/

section
variable {n : ℕ} {P : Spec.D4Par} {c : Cutoff} {env : Env} {T : Tables} {R : RefCfg} {δ w D : ℝ}

/-- Magnitudes of terms do not grow with the system. -/
theorem magnitude_le (hT : T.Physical R.rq) (hga : 0 ≤ R.ga) (hgc : 0 < R.gc) (ha1 : 0 ≤ P.a1) (ha2 : 0 ≤ P.a2)
    (hδ : √env.eps ≤ δ) : ∃ K : ℝ, 0 ≤ K ∧ ∀ (n : ℕ) (M : Spec.Mol n) (c : Cutoff), (∀ i, M.Z i < T.nZ) →
      (∀ i, M.Q i = T.r4r2 (M.Z i)) → Spec.Spaced δ M.Z M.pos →
      ∀ i, Spec.magnitude (d4Computed env T R P c) M i ≤ K := by
  have hδ0 : 0 < δ := (Real.sqrt_pos.2 env.eps_pos).trans_le hδ
  have hC : 0 ≤ c6Max env T R := mul_nonneg thopi_pos.le (Finset.sum_nonneg fun w _ =>
    mul_nonneg (trapzWeights_nonneg w) (mul_self_nonneg _))
  set C := c6Max env T R with hCdef
  set Q := ∑ Z ∈ Finset.range T.nZ, |T.r4r2 Z| with hQdef
  have hQ0 : 0 ≤ Q := Finset.sum_nonneg fun _ _ => abs_nonneg _
  have hQ : ∀ Z < T.nZ, |T.r4r2 Z| ≤ Q := fun Z hZ =>
    Finset.single_le_sum (f := fun Z => |T.r4r2 Z|) (fun _ _ => abs_nonneg _) (Finset.mem_range.2 hZ)
  set A := (|P.s6| + |P.s8| * (3 * Q * Q) / δ ^ 2 + |P.s10| * ((3 * Q * Q) ^ 2 * 49 / 40) / δ ^ 4) * C with hA
  set A3 := 4 * |P.s9| * √(max (C * C * C) env.eps) with hA3
  have hA0 : 0 ≤ A := by positivity
  have hA30 : 0 ≤ A3 := by positivity
  refine ⟨1 / 2 * (A * (5488 / δ ^ 6)) +
    1 / 6 * (A3 * (6 * (5488 / (δ / 2) ^ 4 * (5488 / ((δ / 2) ^ 3 * (δ / 2) ^ 2))))), by positivity,
    fun n M c hZ hMQ hsp i => ?_⟩
  have hr : ∀ j k, j ≠ k → M.Z j ≠ 0 → M.Z k ≠ 0 → M.r env.eps j k = dist (M.pos j) (M.pos k) := by
    intro j k hjk hj hk
    rw [Spec.r_eq_max env.eps_pos]
    exact max_eq_left (hδ.trans (hsp j k hjk hj hk))
  have hc6 : ∀ a a' : Spec.AtomData, a.Z < T.nZ → a'.Z < T.nZ → c6At env T R a a' ≤ C :=
    fun a a' hA hA' => c6At_le hT hga hgc a a' hA hA'
  have n6 := c6At_nonneg (env := env) (T := T) (R := R)
  unfold Spec.magnitude
  refine add_le_add (mul_le_mul_of_nonneg_left ?_ (by norm_num)) (mul_le_mul_of_nonneg_left ?_ (by norm_num))
  · have h1 : ∀ j, (if M.Z i ≠ 0 ∧ M.Z j ≠ 0 ∧ i ≠ j ∧ M.r (d4Computed env T R P c).ε i j ≤ (d4Computed env T R P c).cut2 then
        |Spec.pairTerm (d4Computed env T R P c) M M.atom i j| else 0) ≤
        A * (if M.Z i ≠ 0 ∧ M.Z j ≠ 0 ∧ i ≠ j then 1 / dist (M.pos i) (M.pos j) ^ 6 else 0) := by
      intro j
      by_cases h : M.Z i ≠ 0 ∧ M.Z j ≠ 0 ∧ i ≠ j
      · rw [if_pos h]
        obtain ⟨hi, hj, hij⟩ := h
        have hd := hsp i j hij hi hj
        have hd0 : 0 < dist (M.pos i) (M.pos j) := hδ0.trans_le hd
        split_ifs with hc
        · rw [pairFactor_eq, hr i j hij hi hj, abs_mul, abs_of_nonneg (n6 _ _)]
          have h1 := pairFactor_le (P := P) ha1 ha2 hδ0 hd (x := 3 * M.Q i * M.Q j) (X := 3 * Q * Q) (by
            rw [abs_mul, abs_mul, abs_of_pos (by norm_num : (0 : ℝ) < 3), hMQ, hMQ]
            exact mul_le_mul (mul_le_mul_of_nonneg_left (hQ _ (hZ i)) (by norm_num)) (hQ _ (hZ j)) (abs_nonneg _)
              (by positivity))
          refine (mul_le_mul h1 (hc6 _ _ (hZ i) (hZ j)) (n6 _ _) (by positivity)).trans (le_of_eq ?_)
          rw [hA]
          ring
        · positivity
      · rw [if_neg h, if_neg fun h' => h ⟨h'.1, h'.2.1, h'.2.2.1⟩, mul_zero]
    refine (Finset.sum_le_sum fun j _ => h1 j).trans ?_
    rw [← Finset.mul_sum]
    exact mul_le_mul_of_nonneg_left (spaced_sum_six hδ0 hsp i) hA0
  · by_cases hi : M.Z i = 0
    · rw [Finset.sum_eq_zero fun j _ => Finset.sum_eq_zero fun k _ => if_neg fun h => h.1 hi]
      positivity
    set s : Finset (Fin n) := Finset.univ.filter fun j => M.Z j ≠ 0 with hs
    have his : i ∈ s := Finset.mem_filter.2 ⟨Finset.mem_univ _, hi⟩
    have hss : ∀ i ∈ s, ∀ j ∈ s, i ≠ j → δ / 2 ≤ dist (M.pos i) (M.pos j) := fun i hi j hj hij => by
      have := hsp i j hij (Finset.mem_filter.1 hi).2 (Finset.mem_filter.1 hj).2
      linarith
    have h2' := Packing.sum_triangles_le (s := s) (x := M.pos) (δ := δ / 2) (R := δ / 2) (by positivity) le_rfl hss his
    have h1 : ∀ j k, (if M.Z i ≠ 0 ∧ M.Z j ≠ 0 ∧ M.Z k ≠ 0 ∧ i ≠ j ∧ i ≠ k ∧ j ≠ k ∧
          Spec.withinCut3 (d4Computed env T R P c) M i j k then
        |Spec.tripleTerm (d4Computed env T R P c) M (Spec.c9 (d4Computed env T R P c) M.neutral)
          (Spec.R0 (d4Computed env T R P c) M) i j k| else 0) ≤
        if M.Z j ≠ 0 ∧ M.Z k ≠ 0 then A3 * (if i ≠ j ∧ i ≠ k ∧ j ≠ k ∧ (2 * (δ / 2) ≤ dist (M.pos i) (M.pos j) ∨
            2 * (δ / 2) ≤ dist (M.pos j) (M.pos k)) then
          1 / (dist (M.pos i) (M.pos j) * dist (M.pos i) (M.pos k) * dist (M.pos j) (M.pos k)) ^ 3 else 0) else 0 := by
      intro j k
      by_cases hc : M.Z i ≠ 0 ∧ M.Z j ≠ 0 ∧ M.Z k ≠ 0 ∧ i ≠ j ∧ i ≠ k ∧ j ≠ k ∧
          Spec.withinCut3 (d4Computed env T R P c) M i j k
      · rw [if_pos hc]
        obtain ⟨za, zj, zk, h1, h2, h3, -⟩ := hc
        have hd := hsp i j h1 za zj
        rw [if_pos ⟨zj, zk⟩, if_pos ⟨h1, h2, h3, Or.inl (by linarith)⟩]
        have ht := d4_triple_le (env := env) (T := T) (R := R) (c := c) ha1 ha2 M i j k
        simp only at ht
        rw [hr i j h1 za zj, hr i k h2 za zk, hr j k h3 zj zk] at ht
        refine ht.trans ?_
        rw [div_eq_mul_one_div]
        refine mul_le_mul_of_nonneg_right (mul_le_mul_of_nonneg_left ?_ (by positivity)) (by positivity)
        show √(max |c6At env T R (M.neutral i) (M.neutral j) * c6At env T R (M.neutral i) (M.neutral k) *
          c6At env T R (M.neutral j) (M.neutral k)| env.eps) ≤ _
        rw [abs_of_nonneg (mul_nonneg (mul_nonneg (n6 _ _) (n6 _ _)) (n6 _ _))]
        refine Real.sqrt_le_sqrt (max_le_max ?_ le_rfl)
        exact mul_le_mul (mul_le_mul (hc6 _ _ (hZ i) (hZ j)) (hc6 _ _ (hZ i) (hZ k)) (n6 _ _) hC)
          (hc6 _ _ (hZ j) (hZ k)) (n6 _ _) (mul_nonneg hC hC)
      · rw [if_neg hc]
        split_ifs
        · positivity
        · simp
        · exact le_rfl
    refine (Finset.sum_le_sum fun j _ => Finset.sum_le_sum fun k _ => h1 j k).trans ?_
    have e : ∀ f : Fin n → Fin n → ℝ, ∑ j, ∑ k, (if M.Z j ≠ 0 ∧ M.Z k ≠ 0 then f j k else 0) =
        ∑ j ∈ s, ∑ k ∈ s, f j k := by
      intro f
      rw [hs, Finset.sum_filter]
      refine Finset.sum_congr rfl fun j _ => ?_
      by_cases hj : M.Z j ≠ 0
      · rw [if_pos hj, Finset.sum_filter]
        exact Finset.sum_congr rfl fun k _ => by simp [hj]
      · rw [if_neg hj]
        exact Finset.sum_eq_zero fun k _ => if_neg fun h => hj h.1
    rw [e]
    simp only [← Finset.mul_sum]
    exact mul_le_mul_of_nonneg_left (le_of_eq_of_le (Finset.sum_congr rfl fun _ _ => Finset.sum_congr rfl
      fun _ _ => by split_ifs <;> rfl) h2') hA30

/-- **C89**: for systems of any size whose atoms are at least `δ` apart: coordination numbers that are wrong by at most
`d` make the energy of every atom wrong by at most `K (exp (3 K' d) - 1)`, which tends to zero with `d`. -/
theorem C89_uniform (hfl : env.fl = id) (hT : T.Physical R.rq) (hga : 0 ≤ R.ga) (hgc : 0 < R.gc) (hD : 0 ≤ D)
    (hB : Spec.CNBounds T R w D) (ha1 : 0 ≤ P.a1) (ha2 : 0 ≤ P.a2) (hδ : √env.eps ≤ δ) :
    ∃ K : ℝ, ∀ (ext : Ext) (n : ℕ) (B : Shape) (numbers : Tensor ℕ) (positions charge : Tensor ℝ) (p : Param)
      (o o' : DftOpts) (cn cn' : Spec.CN) (eeq : Spec.EEQ),
      Call env T ext numbers positions charge p o n B R cn eeq P →
      Call env T ext numbers positions charge p o' n B R cn' eeq P → o'.opts = o.opts → o.opts.r4r2 = none →
      ∃ e e', dftd4 env T ext numbers positions charge p o = .ok e ∧
        dftd4 env T ext numbers positions charge p o' = .ok e' ∧
        ∀ b, InB B b → Spec.Spaced δ (elements numbers n b) (coords positions n b) → ∀ d, 0 ≤ d →
          (∀ j, elements numbers n b j ≠ 0 → |cn' n (elements numbers n b) (coords positions n b) j -
            cn n (elements numbers n b) (coords positions n b) j| ≤ d) →
          ∀ i < n, |e'.get (i :: b) - e.get (i :: b)| ≤ K * (Real.exp (3 * Spec.cnSlope w D * d) - 1) := by
  obtain ⟨K, hK0, hK⟩ := magnitude_le (env := env) (T := T) (R := R) (P := P) hT hga hgc ha1 ha2 hδ
  refine ⟨K, fun ext n B numbers positions charge p o o' cn cn' eeq h h' ho hr4 => ?_⟩
  obtain ⟨e, he, -, hv⟩ := h.eval
  obtain ⟨e', he', -, hv'⟩ := h'.eval
  refine ⟨e, e', he, he', fun b hb hsp d hd hc i hi => ?_⟩
  have hZ := h.args.Z_lt (cn := cn) (eeq := eeq) hb
  have hs := cnSlope_nonneg_of_bounds hB (hZ ⟨i, hi⟩) (hZ ⟨i, hi⟩) hD
  rw [hv b hb ⟨i, hi⟩, hv' b hb ⟨i, hi⟩]
  have := (system_factor (P := P) (c := o.opts.cutoff.getD {}) hfl hT hgc hB hs hd
    (same (cn := cn) (cn' := cn') (T := T) (eeq := eeq) (numbers := numbers) (positions := positions) (charge := charge)
      ho b) hZ hc ⟨i, hi⟩).2
  rw [ho] at this ⊢
  refine this.trans ?_
  rw [mul_comm]
  refine mul_le_mul_of_nonneg_right ?_ (sub_nonneg.2 (Real.one_le_exp (by positivity)))
  refine hK n _ _ hZ (fun j => ?_) hsp _
  show (match o.opts.r4r2 with
    | some x => x.get (j.1 :: b)
    | none => T.r4r2 (elements numbers n b j)) = _
  rw [hr4]
  rfl

end

/-! ## The tables of the package -/

section
variable {nExt : ℕ} {gam zeff : ℕ → ℝ} {vdw : ℕ → ℕ → ℝ}

/-- Exponents are at most 6, in D4 and in D4S, and reference coordination numbers at most 15.2. -/
theorem shipped_cnBounds {R : RefCfg} (hR : R = .d4 ∨ R = .d4s (shipped nExt gam zeff vdw)) :
    Spec.CNBounds (shipped nExt gam zeff vdw) R 6 15.2 where
  cn Z hZ r hr s hs _ _ := by
    have h1 : ((at2 Data.refcn Z r : ℕ) : ℝ) ≤ 152 * 10 ^ 13 := by
      have := forall_of_all2 Data.check_refcn_le Z hZ r hr
      exact_mod_cast Nat.le_of_ble_eq_true this
    have h2 : ((at2 Data.refcn Z s : ℕ) : ℝ) ≤ 152 * 10 ^ 13 := by
      have := forall_of_all2 Data.check_refcn_le Z hZ s hs
      exact_mod_cast Nat.le_of_ble_eq_true this
    have h1' : (0 : ℝ) ≤ ((at2 Data.refcn Z r : ℕ) : ℝ) := Nat.cast_nonneg _
    have h2' : (0 : ℝ) ≤ ((at2 Data.refcn Z s : ℕ) : ℝ) := Nat.cast_nonneg _
    show |((at2 Data.refcn Z r : ℕ) : ℝ) / 10 ^ 14 - ((at2 Data.refcn Z s : ℕ) : ℝ) / 10 ^ 14| ≤ 15.2
    rw [← sub_div, abs_div, abs_of_pos (by norm_num : (0 : ℝ) < 10 ^ 14), div_le_iff₀ (by norm_num), abs_le]
    rw [show (15.2 : ℝ) * 10 ^ 14 = 152 * 10 ^ 13 by norm_num]
    constructor <;> linarith
  wf Z _ Z' _ := by
    rcases hR with rfl | rfl
    · norm_num [RefCfg.d4]
    · show (0 : ℝ) ≤ ((at2 Data.wfpair Z Z' : ℕ) : ℝ) / 10 ^ 9 ∧ ((at2 Data.wfpair Z Z' : ℕ) : ℝ) / 10 ^ 9 ≤ 6
      refine ⟨by positivity, ?_⟩
      rw [div_le_iff₀ (by norm_num)]
      have := Data.wfpair_le Z Z'
      have h : ((at2 Data.wfpair Z Z' : ℕ) : ℝ) ≤ 6000000000 := by exact_mod_cast this
      norm_num at h ⊢
      exact h

theorem slope_le : Spec.cnSlope 6 15.2 ≤ 200 := by
  have : √(6 : ℝ) ≤ 2.5 := Real.sqrt_le_iff.2 ⟨by norm_num, by norm_num⟩
  unfold Spec.cnSlope
  linarith

/-- **C89**: with the tables of the package, with D4 or D4S, coordination numbers that are wrong by at most `δ` change
pairwise additive energies by a relative error of at most `exp (400 δ) - 1`. -/
theorem C89_shipped {env : Env} {ext : Ext} {numbers : Tensor ℕ} {positions charge : Tensor ℝ} {p : Param}
    {o o' : DftOpts} {n : ℕ} {B : Shape} {cn cn' : Spec.CN} {eeq : Spec.EEQ} {P : Spec.D4Par} {R : RefCfg}
    (hext : ExtTables nExt gam zeff) (hfl : env.fl = id)
    (hR : R = .d4 ∨ R = .d4s (shipped nExt gam zeff vdw))
    (h : Call env (shipped nExt gam zeff vdw) ext numbers positions charge p o n B R cn eeq P)
    (h' : Call env (shipped nExt gam zeff vdw) ext numbers positions charge p o' n B R cn' eeq P) (ho : o'.opts = o.opts)
    (hr4 : o.opts.r4r2 = none) (h6 : 0 ≤ P.s6) (h8 : 0 ≤ P.s8) (h10 : 0 ≤ P.s10) (h9 : P.s9 = 0) (ha1 : 0 ≤ P.a1)
    (ha2 : 0 ≤ P.a2) :
    ∃ e e', dftd4 env (shipped nExt gam zeff vdw) ext numbers positions charge p o = .ok e ∧
      dftd4 env (shipped nExt gam zeff vdw) ext numbers positions charge p o' = .ok e' ∧
      ∀ b, InB B b → ∀ δ, 0 ≤ δ →
        (∀ j, elements numbers n b j ≠ 0 → |cn' n (elements numbers n b) (coords positions n b) j -
          cn n (elements numbers n b) (coords positions n b) j| ≤ δ) →
        ∀ i < n, |e'.get (i :: b) - e.get (i :: b)| ≤ (Real.exp (400 * δ) - 1) * |e.get (i :: b)| := by
  have hrq : R.rq = "eeq" := by rcases hR with rfl | rfl <;> rfl
  have hgc : 0 < R.gc := by rcases hR with rfl | rfl <;> norm_num [RefCfg.d4, RefCfg.d4s]
  obtain ⟨e, e', he, he', hx⟩ := C89_pairs hfl (by rw [hrq]; exact shipped_physical hext (Or.inl rfl)) hgc (by norm_num)
    (shipped_cnBounds hR) h h' ho hr4 (fun Z _ => Real.sqrt_nonneg _) h6 h8 h10 h9 ha1 ha2
  refine ⟨e, e', he, he', fun b hb δ hδ hc i hi => ((hx b hb δ hδ hc).1 i hi).trans ?_⟩
  refine mul_le_mul_of_nonneg_right ?_ (abs_nonneg _)
  have : Real.exp (2 * Spec.cnSlope 6 15.2 * δ) ≤ Real.exp (400 * δ) :=
    Real.exp_le_exp.2 (mul_le_mul_of_nonneg_right (by linarith [slope_le]) hδ)
  linarith

end

/-! ## Concrete cases: water and hydrogen fluoride with different counting functions -/

namespace Demo

/-- Coordination numbers that are larger by 0.001 on real atoms. -/
noncomputable def cnOff : Spec.CN := fun n Z pos i => cn n Z pos i + if Z i ≠ 0 then 1 / 1000 else 0

theorem callOff : Call env T ext numbers positions charge param { cnFunction := some (.ofSpec cnOff) } 3 [2] .d4 cnOff eeq
    par :=
  { call with cn := CNFunc.ofSpec_perSystem _ _ _ }

theorem cnOff_sub (Z : Fin 3 → ℕ) (x : Fin 3 → Spec.E3) (j : Fin 3) : |cnOff 3 Z x j - cn 3 Z x j| ≤ 1 / 1000 := by
  unfold cnOff
  rw [add_sub_cancel_left]
  split_ifs <;> norm_num

/-- With the three-body term. -/
example : ∃ e e', dftd4 env T ext numbers positions charge param {} = .ok e ∧
    dftd4 env T ext numbers positions charge param { cnFunction := some (.ofSpec cnOff) } = .ok e' ∧
    |e'.get [0, 0] - e.get [0, 0]| ≤ (Real.exp (3 * Spec.cnSlope 6 15.2 * (1 / 1000)) - 1) *
      Spec.magnitude (Spec.d4Settings (RefCfg.d4.spec T env.eps) env.eps par 60 40)
        (system T cn eeq numbers positions charge {} 3 [0]) 0 := by
  obtain ⟨e, e', he, he', hx⟩ := C89_energy (D := 15.2) (w := 6) rfl physical (by norm_num [RefCfg.d4]) (by norm_num)
    (shipped_cnBounds (Or.inl rfl)) call callOff rfl
  exact ⟨e, e', he, he', hx [0] (by simp [InB]) (1 / 1000) (by norm_num) (fun j _ => cnOff_sub _ _ j) 0⟩

/-- Without it. -/
noncomputable def param0 : Param := { param with s9 := .val 0 }
noncomputable def par0 : Spec.D4Par := { par with s9 := 0 }

theorem reads0 : param0.Reads par0 := { reads with s9 := Or.inl rfl }

example : ∃ e e', dftd4 env T ext numbers positions charge param0 {} = .ok e ∧
    dftd4 env T ext numbers positions charge param0 { cnFunction := some (.ofSpec cnOff) } = .ok e' ∧
    ∀ i < 3, |e'.get [i, 0] - e.get [i, 0]| ≤ (Real.exp (400 * (1 / 1000)) - 1) * |e.get [i, 0]| := by
  obtain ⟨e, e', he, he', hx⟩ := C89_shipped (vdw := fun _ _ => 3) (R := .d4) (P := par0) (p := param0) extTables rfl (Or.inl rfl)
    { call with par := reads0 } { callOff with par := reads0 } rfl rfl (by norm_num [par0, par]) (by norm_num [par0, par])
    (by norm_num [par0, par]) rfl (by norm_num [par0, par]) (by norm_num [par0, par])
  exact ⟨e, e', he, he', hx [0] (by simp [InB]) (1 / 1000) (by norm_num) (fun j _ => cnOff_sub _ _ j)⟩

example := C89_pairs (D := 15.2) (w := 6) (env := env) (R := .d4) (P := par0) (p := param0) rfl physical
  (by norm_num [RefCfg.d4]) (by norm_num) (shipped_cnBounds (Or.inl rfl))
  { call with par := reads0 } { callOff with par := reads0 } rfl rfl (fun Z _ => Real.sqrt_nonneg _)
  (by norm_num [par0, par]) (by norm_num [par0, par]) (by norm_num [par0, par]) rfl (by norm_num [par0, par])
  (by norm_num [par0, par])

/-- Coefficients of two oxygen-hydrogen pairs. -/
example := C89_c6 (D := 15.2) (w := 6) (R := .d4) (mkModel_isFor_d4 (env := env) validArgs.num validArgs.lt fits) rfl physical
  (by norm_num [RefCfg.d4]) (shipped_cnBounds (Or.inl rfl)) (cn := ⟨none, [3, 2], fun _ => 1⟩)
  (cn' := ⟨none, [3, 2], fun _ => 1.01⟩) (q := ⟨none, [3, 2], fun _ => 0⟩) ⟨rfl, rfl⟩ ⟨rfl, rfl⟩ ⟨rfl, rfl⟩
  (b := [0]) (by simp [InB]) (i := 0) (j := 1) (by norm_num) (by norm_num)

/-- Rows of hydrogen atoms of any length, one constant. -/
example : ∃ K : ℝ, ∀ (n : ℕ), ∃ e e',
    dftd4 env T ext (rowNumbers n) (rowPositions n) (scalar 0) param { opts := { cutoff := some {} } } = .ok e ∧
    dftd4 env T ext (rowNumbers n) (rowPositions n) (scalar 0) param
      { cnFunction := some (.ofSpec cnOff), opts := { cutoff := some {} } } = .ok e' ∧
    ∀ i < n, |e'.get [i] - e.get [i]| ≤ K * (Real.exp (3 * Spec.cnSlope 6 15.2 * (1 / 1000)) - 1) := by
  obtain ⟨K, hK⟩ := C89_uniform (env := env) (T := T) (R := .d4) (P := par) (D := 15.2) (w := 6) (δ := 2) rfl physical
    (by norm_num [RefCfg.d4]) (by norm_num [RefCfg.d4]) (by norm_num) (shipped_cnBounds (Or.inl rfl)) (by norm_num [par])
    (by norm_num [par]) sqrt_eps_le_two
  refine ⟨K, fun n => ?_⟩
  have hcall := row_call n {} (by norm_num [Defaults.disp3Cutoff])
  obtain ⟨e, e', he, he', hx⟩ := hK ext n [] (rowNumbers n) (rowPositions n) (scalar 0) param
    { opts := { cutoff := some {} } } { cnFunction := some (.ofSpec cnOff), opts := { cutoff := some {} } } cn cnOff eeq
    hcall { hcall with cn := CNFunc.ofSpec_perSystem _ _ _ } rfl rfl
  refine ⟨e, e', he, he', hx [] (by simp [InB]) (row_spaced n) _ (by norm_num) fun j _ => ?_⟩
  unfold cnOff
  rw [add_sub_cancel_left]
  split_ifs <;> norm_num

end Demo

end TadDftd4
