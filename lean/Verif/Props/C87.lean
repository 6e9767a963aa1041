import Verif.Props.C60
import Verif.Props.C86

/-!
# C87: errors of charges enter the energy in proportion

Charges are approximate (they come from a charge model, a network, an iterative solver). If they are changed, every
energy changes at most in proportion, with a constant that depends neither on the system nor on its size, and charges
of distant atoms matter as little as those atoms do.
-/

set_option linter.unusedSimpArgs false

open scoped Classical

namespace TadDftd4

open Tensor

/-! ## The scaling function -/

/-- Scale of the response of `ζ` to the charge. -/
noncomputable def Spec.zetaSlope (ga η zref : ℝ) : ℝ := Real.exp ga * ga * Real.exp η / (η * zref)

section
variable {ε ga η zref z z' : ℝ}

private theorem mul_exp_neg_le (x : ℝ) (hx : 0 ≤ x) : x * Real.exp (-x) ≤ 1 := by
  rw [Real.exp_neg, ← div_eq_mul_inv, div_le_one (Real.exp_pos _)]
  linarith [Real.add_one_le_exp x]

private theorem sq_mul_exp_neg_le (x : ℝ) (hx : 0 ≤ x) : x ^ 2 * Real.exp (-x) ≤ 1 := by
  have h := mul_exp_neg_le (x / 2) (by positivity)
  have h2 : Real.exp (-x) = Real.exp (-(x / 2)) ^ 2 := by rw [← Real.exp_nat_mul]; congr 1; ring
  have h3 : x / 2 * Real.exp (-(x / 2)) ≤ 1 / 2 := by
    have e1 : Real.exp (x / 2) ≥ x := by
      have := Real.add_one_le_exp (x / 2)
      have := Real.quadratic_le_exp_of_nonneg (x := x / 2) (by positivity)
      nlinarith [sq_nonneg (x / 2 - 1)]
    rw [Real.exp_neg, ← div_eq_mul_inv, div_le_iff₀ (Real.exp_pos _)]
    linarith
  have h0 : 0 ≤ x / 2 * Real.exp (-(x / 2)) := by positivity
  rw [h2]
  nlinarith

/-- Above the pole. -/
private theorem core_lip (hga : 0 ≤ ga) (hη : 0 < η) (hr : 0 < zref) {m m' : ℝ} (hm : 0 < m) (hm' : 0 < m') :
    |Real.exp (ga * (1 - Real.exp (η * (1 - zref / m')))) - Real.exp (ga * (1 - Real.exp (η * (1 - zref / m))))| ≤
      Spec.zetaSlope ga η zref * |m' - m| := by
  have hd : ∀ x ∈ Set.Ioi (0 : ℝ), HasDerivWithinAt (fun m => Real.exp (ga * (1 - Real.exp (η * (1 - zref / m)))))
      (Real.exp (ga * (1 - Real.exp (η * (1 - zref / x)))) *
        (ga * (-(Real.exp (η * (1 - zref / x)) * (η * (zref / x ^ 2)))))) (Set.Ioi 0) x := by
    intro x hx
    have hx0 : x ≠ 0 := ne_of_gt hx
    have h1 : HasDerivAt (fun m : ℝ => zref / m) (-(zref / x ^ 2)) x := by
      have := ((hasDerivAt_inv hx0).const_mul zref).congr_deriv (show zref * -(x ^ 2)⁻¹ = -(zref / x ^ 2) by ring)
      simpa only [← div_eq_mul_inv] using this
    have h2 := ((h1.const_sub 1).const_mul η).exp
    have h3 := ((h2.const_sub 1).const_mul ga).exp
    exact (h3.congr_deriv (by ring)).hasDerivWithinAt
  have hb : ∀ x ∈ Set.Ioi (0 : ℝ), ‖Real.exp (ga * (1 - Real.exp (η * (1 - zref / x)))) *
        (ga * (-(Real.exp (η * (1 - zref / x)) * (η * (zref / x ^ 2)))))‖ ≤ Spec.zetaSlope ga η zref := by
    intro x hx
    have hx0 : (0 : ℝ) < x := hx
    have e : Real.exp (ga * (1 - Real.exp (η * (1 - zref / x)))) *
        (ga * (-(Real.exp (η * (1 - zref / x)) * (η * (zref / x ^ 2))))) =
        -(Real.exp (ga * (1 - Real.exp (η * (1 - zref / x)))) * (ga * (Real.exp η *
          ((η * zref / x) ^ 2 * Real.exp (-(η * zref / x))) / (η * zref)))) := by
      have : η * (1 - zref / x) = η + -(η * zref / x) := by ring
      rw [this, Real.exp_add]
      field_simp
    rw [e, norm_neg, Real.norm_of_nonneg (by positivity)]
    have h1 : Real.exp (ga * (1 - Real.exp (η * (1 - zref / x)))) ≤ Real.exp ga := by
      refine Real.exp_le_exp.2 ?_
      have := Real.exp_pos (η * (1 - zref / x))
      nlinarith
    have h2 := sq_mul_exp_neg_le (η * zref / x) (by positivity)
    have eL : Spec.zetaSlope ga η zref = Real.exp ga * (ga * (Real.exp η / (η * zref))) := by
      unfold Spec.zetaSlope; ring
    rw [eL]
    refine mul_le_mul h1 (mul_le_mul_of_nonneg_left ?_ hga) (by positivity) (by positivity)
    exact div_le_div_of_nonneg_right (mul_le_of_le_one_right (Real.exp_pos _).le h2) (by positivity)
  have := (convex_Ioi (0 : ℝ)).norm_image_sub_le_of_norm_hasDerivWithin_le hd hb hm hm'
  simpa [Real.norm_eq_abs] using this

/-- `exp ga` minus the scaling function. -/
private theorem core_zero (hga : 0 ≤ ga) (hη : 0 < η) (hr : 0 < zref) {m : ℝ} (hm : 0 < m) :
    |Real.exp (ga * (1 - Real.exp (η * (1 - zref / m)))) - Real.exp ga| ≤ Spec.zetaSlope ga η zref * m := by
  set E := Real.exp (η * (1 - zref / m)) with hE
  have hE0 : 0 < E := Real.exp_pos _
  have h1 : E ≤ Real.exp η * (m / (η * zref)) := by
    have h := mul_exp_neg_le (η * zref / m) (by positivity)
    have e : E = Real.exp η * Real.exp (-(η * zref / m)) := by rw [hE, ← Real.exp_add]; congr 1; ring
    rw [e]
    refine mul_le_mul_of_nonneg_left ?_ (Real.exp_pos _).le
    rw [← le_div_iff₀' (by positivity)] at h
    refine h.trans (le_of_eq ?_)
    field_simp
  have h2 : 1 - ga * E ≤ Real.exp (-(ga * E)) := by linarith [Real.add_one_le_exp (-(ga * E))]
  have e1 : Real.exp (ga * (1 - E)) = Real.exp ga * Real.exp (-(ga * E)) := by rw [← Real.exp_add]; congr 1; ring
  have h3 : Real.exp (-(ga * E)) ≤ 1 := Real.exp_le_one_iff.2 (by nlinarith)
  rw [e1, abs_sub_comm, abs_of_nonneg (by nlinarith [Real.exp_pos ga])]
  have h4 : Real.exp ga - Real.exp ga * Real.exp (-(ga * E)) ≤ Real.exp ga * (ga * E) := by
    nlinarith [Real.exp_pos ga]
  refine h4.trans ?_
  unfold Spec.zetaSlope
  calc Real.exp ga * (ga * E) ≤ Real.exp ga * (ga * (Real.exp η * (m / (η * zref)))) :=
        mul_le_mul_of_nonneg_left (mul_le_mul_of_nonneg_left h1 hga) (Real.exp_pos _).le
    _ = _ := by ring

theorem Spec.zetaSlope_nonneg (hga : 0 ≤ ga) (hη : 0 < η) (hr : 0 < zref) : 0 ≤ Spec.zetaSlope ga η zref := by
  unfold Spec.zetaSlope; positivity

theorem zeta_lip (hga : 0 ≤ ga) (hη : 0 < η) (hr : 0 < zref) (hε : 0 < ε) (hz : z ≤ 0 ∨ ε ≤ z) (hz' : z' ≤ 0 ∨ ε ≤ z') :
    |Spec.zeta ε ga η zref z' - Spec.zeta ε ga η zref z| ≤ Spec.zetaSlope ga η zref * |z' - z| := by
  have hL := Spec.zetaSlope_nonneg hga hη hr
  have key : ∀ z z' : ℝ, z ≤ z' → (z ≤ 0 ∨ ε ≤ z) → (z' ≤ 0 ∨ ε ≤ z') →
      |Spec.zeta ε ga η zref z' - Spec.zeta ε ga η zref z| ≤ Spec.zetaSlope ga η zref * |z' - z| := by
    intro z z' hle hz hz'
    unfold Spec.zeta
    by_cases h1 : z' ≤ 0 ∨ z' = ε
    · have h2 : z ≤ 0 ∨ z = ε := by
        rcases h1 with h1 | h1
        · exact Or.inl (by linarith)
        · rcases hz with hz | hz
          · exact Or.inl hz
          · exact Or.inr (by linarith)
      rw [if_pos h1, if_pos h2, sub_self, abs_zero]
      positivity
    · have hm' : 0 < z' - ε := by
        push Not at h1
        rcases hz' with h | h
        · linarith
        · exact sub_pos.2 (lt_of_le_of_ne h (Ne.symm h1.2))
      rw [if_neg h1]
      by_cases h2 : z ≤ 0 ∨ z = ε
      · rw [if_pos h2]
        refine (core_zero hga hη hr hm').trans (mul_le_mul_of_nonneg_left ?_ hL)
        rw [abs_of_nonneg (by linarith)]
        rcases h2 with h2 | h2 <;> linarith
      · have hm : 0 < z - ε := by
          push Not at h2
          rcases hz with h | h
          · linarith
          · exact sub_pos.2 (lt_of_le_of_ne h (Ne.symm h2.2))
        rw [if_neg h2]
        refine (core_lip hga hη hr hm hm').trans (le_of_eq ?_)
        congr 2
        ring
  rcases le_total z z' with h | h
  · exact key z z' h hz hz'
  · rw [abs_sub_comm, abs_sub_comm z']
    exact key z' z h hz' hz

end

/-! ## Coefficients -/

section
variable {env : Env} {T : Tables} {R : RefCfg}

/-- Bound of the response of all scaling functions. -/
noncomputable def zetaSlopeMax (T : Tables) (R : RefCfg) : ℝ :=
  ∑ Z ∈ Finset.range T.nZ, ∑ r ∈ Finset.range nref,
    |Spec.zetaSlope R.ga (T.gam Z * R.gc) (refqAt T R.rq Z r + T.zeff Z)|

theorem zetaSlopeMax_nonneg : 0 ≤ zetaSlopeMax T R :=
  Finset.sum_nonneg fun _ _ => Finset.sum_nonneg fun _ _ => abs_nonneg _

theorem zetaAt_lip (hT : T.Physical R.rq) (hga : 0 ≤ R.ga) (hgc : 0 < R.gc) {Z : ℕ} (hZ : Z < T.nZ)
    {q q' : ℝ} (hg : OffGap env (q + T.zeff Z)) (hg' : OffGap env (q' + T.zeff Z)) {r : ℕ} (hr : r < nref) :
    |zetaAt env T R.ga R.gc R.rq Z q' r - zetaAt env T R.ga R.gc R.rq Z q r| ≤ zetaSlopeMax T R * |q' - q| := by
  unfold zetaAt
  split_ifs with hc
  · have hη := mul_pos (hT.gam Z hZ r hr hc) hgc
    have hzr := hT.qref Z hZ r hr hc
    rw [zetaF_spec hη hzr, zetaF_spec hη hzr]
    refine (zeta_lip hga hη hzr env.eps_pos hg hg').trans ?_
    rw [add_sub_add_right_eq_sub]
    refine mul_le_mul_of_nonneg_right ((le_abs_self _).trans ?_) (abs_nonneg _)
    refine (Finset.single_le_sum (f := fun r => |Spec.zetaSlope R.ga (T.gam Z * R.gc) (refqAt T R.rq Z r + T.zeff Z)|)
      (fun _ _ => abs_nonneg _) (Finset.mem_range.2 hr)).trans ?_
    exact Finset.single_le_sum (f := fun Z => ∑ r ∈ Finset.range nref,
      |Spec.zetaSlope R.ga (T.gam Z * R.gc) (refqAt T R.rq Z r + T.zeff Z)|)
      (fun _ _ => Finset.sum_nonneg fun _ _ => abs_nonneg _) (Finset.mem_range.2 hZ)
  · rw [sub_self, abs_zero]
    exact mul_nonneg zetaSlopeMax_nonneg (abs_nonneg _)

/-- Bound of the response of polarizabilities. -/
noncomputable def polSlope (env : Env) (T : Tables) (R : RefCfg) (w : ℕ) : ℝ :=
  zetaSlopeMax T R * ∑ Z ∈ Finset.range T.nZ, ∑ r ∈ Finset.range nref, alphaAt env T R.ga R.gc R.rq Z r w

theorem polWith_lip (hT : T.Physical R.rq) (hga : 0 ≤ R.ga) (hgc : 0 < R.gc) {Z : ℕ} (hZ : Z < T.nZ)
    {c q q' : ℝ} (hg : OffGap env (q + T.zeff Z)) (hg' : OffGap env (q' + T.zeff Z)) (Zp w : ℕ) :
    |polWith env T R ⟨Z, c, q'⟩ Zp w - polWith env T R ⟨Z, c, q⟩ Zp w| ≤ polSlope env T R w * |q' - q| := by
  unfold polWith polOf
  rw [← Finset.sum_sub_distrib]
  have hL := zetaSlopeMax_nonneg (T := T) (R := R)
  have h1 : ∀ r ∈ Finset.range nref, |wtAt env T R ⟨Z, c, q'⟩ Zp r * alphaAt env T R.ga R.gc R.rq Z r w -
      wtAt env T R ⟨Z, c, q⟩ Zp r * alphaAt env T R.ga R.gc R.rq Z r w| ≤
      zetaSlopeMax T R * |q' - q| * alphaAt env T R.ga R.gc R.rq Z r w := by
    intro r hr
    have ha := alphaAt_nonneg (env := env) (T := T) R.ga R.gc R.rq Z r w
    rw [← sub_mul, abs_mul, abs_of_nonneg ha]
    refine mul_le_mul_of_nonneg_right ?_ ha
    unfold wtAt wtOf
    have g0 := gwOf_nonneg (env := env) (T := T) (Z := Z) (expwSel_nonneg (env := env) (T := T) R.kind (R.wf Z Zp) Z c) r
    have g1 := gwOf_le_one (env := env) (T := T) (Z := Z)
      (E := expwSel env T R.kind (R.wf Z Zp) Z c) (expwSel_nonneg _ _ _ _)
      (fun r h => expwSel_missing h) (Finset.mem_range.1 hr)
    rw [← sub_mul, abs_mul, abs_of_nonneg g0]
    calc _ ≤ zetaSlopeMax T R * |q' - q| * 1 := mul_le_mul (zetaAt_lip hT hga hgc hZ hg hg' (Finset.mem_range.1 hr))
          g1 g0 (by positivity)
      _ = _ := mul_one _
  refine (Finset.abs_sum_le_sum_abs _ _).trans ((Finset.sum_le_sum h1).trans ?_)
  rw [← Finset.mul_sum]
  unfold polSlope
  rw [mul_right_comm]
  refine mul_le_mul_of_nonneg_right (mul_le_mul_of_nonneg_left ?_ hL) (abs_nonneg _)
  exact Finset.single_le_sum
    (f := fun Z => ∑ r ∈ Finset.range nref, alphaAt env T R.ga R.gc R.rq Z r w)
    (fun Z _ => Finset.sum_nonneg fun r _ => alphaAt_nonneg _ _ _ _ _ _) (Finset.mem_range.2 hZ)

theorem polSlope_nonneg (w : ℕ) : 0 ≤ polSlope env T R w :=
  mul_nonneg zetaSlopeMax_nonneg (Finset.sum_nonneg fun _ _ => Finset.sum_nonneg fun _ _ => alphaAt_nonneg _ _ _ _ _ _)

/-- Bound of the response of C6 coefficients. -/
noncomputable def c6Slope (env : Env) (T : Tables) (R : RefCfg) : ℝ :=
  thopi * ∑ w ∈ Finset.range nfreq, trapzWeights.getD w 0 * (polSlope env T R w * polMax env T R w)

theorem polMax_nonneg (w : ℕ) : 0 ≤ polMax env T R w :=
  mul_nonneg (Real.exp_pos _).le
    (Finset.sum_nonneg fun _ _ => Finset.sum_nonneg fun _ _ => alphaAt_nonneg _ _ _ _ _ _)

theorem c6Slope_nonneg : 0 ≤ c6Slope env T R :=
  mul_nonneg thopi_pos.le (Finset.sum_nonneg fun w _ =>
    mul_nonneg (trapzWeights_nonneg w) (mul_nonneg (polSlope_nonneg w) (polMax_nonneg w)))

theorem c6At_lip (hT : T.Physical R.rq) (hga : 0 ≤ R.ga) (hgc : 0 < R.gc) {Z Z' : ℕ} (hZ : Z < T.nZ)
    (hZ' : Z' < T.nZ) {c q p c' q' p' : ℝ}
    (h1 : OffGap env (q + T.zeff Z)) (h2 : OffGap env (p + T.zeff Z))
    (h1' : OffGap env (q' + T.zeff Z')) (h2' : OffGap env (p' + T.zeff Z')) :
    |c6At env T R ⟨Z, c, p⟩ ⟨Z', c', p'⟩ - c6At env T R ⟨Z, c, q⟩ ⟨Z', c', q'⟩| ≤
      c6Slope env T R * (|p - q| + |p' - q'|) := by
  rw [c6At_integral, c6At_integral, ← mul_sub, ← Finset.sum_sub_distrib, abs_mul, abs_of_pos thopi_pos]
  unfold c6Slope
  rw [mul_assoc, Finset.sum_mul]
  refine mul_le_mul_of_nonneg_left ((Finset.abs_sum_le_sum_abs _ _).trans (Finset.sum_le_sum fun w _ => ?_)) thopi_pos.le
  rw [← mul_sub, abs_mul, abs_of_nonneg (trapzWeights_nonneg w), mul_assoc]
  refine mul_le_mul_of_nonneg_left ?_ (trapzWeights_nonneg w)
  have a := polWith_lip (c := c) hT hga hgc hZ h1 h2 Z' w
  have b := polWith_lip (c := c') hT hga hgc hZ' h1' h2' Z w
  have n1 : polWith env T R ⟨Z', c', p'⟩ Z w ≤ polMax env T R w := polOf_le hT hga hgc ⟨Z', c', p'⟩ hZ' Z w
  have n2 : polWith env T R ⟨Z, c, q⟩ Z' w ≤ polMax env T R w := polOf_le hT hga hgc ⟨Z, c, q⟩ hZ Z' w
  have m1 := polWith_nonneg (env := env) (T := T) (R := R) ⟨Z', c', p'⟩ Z w
  have m2 := polWith_nonneg (env := env) (T := T) (R := R) ⟨Z, c, q⟩ Z' w
  have hs := polSlope_nonneg (env := env) (T := T) (R := R) w
  show |polWith env T R ⟨Z, c, p⟩ Z' w * polWith env T R ⟨Z', c', p'⟩ Z w -
    polWith env T R ⟨Z, c, q⟩ Z' w * polWith env T R ⟨Z', c', q'⟩ Z w| ≤ _
  generalize polWith env T R ⟨Z, c, p⟩ Z' w = A at *
  generalize polWith env T R ⟨Z', c', p'⟩ Z w = B at *
  generalize polWith env T R ⟨Z, c, q⟩ Z' w = A' at *
  generalize polWith env T R ⟨Z', c', q'⟩ Z w = B' at *
  have e : A * B - A' * B' = (A - A') * B + A' * (B - B') := by ring
  rw [e]
  refine (abs_add_le _ _).trans ?_
  rw [abs_mul, abs_mul, abs_of_nonneg m1, abs_of_nonneg m2]
  have t1 := mul_le_mul a n1 m1 (by positivity)
  have t2 := mul_le_mul b n2 m2 (by positivity)
  calc _ ≤ polSlope env T R w * |p - q| * polMax env T R w + polSlope env T R w * |p' - q'| * polMax env T R w := by
        linarith
    _ = _ := by ring

end

/-! ## Energies -/

section
variable {n : ℕ} {P : Spec.D4Par} {c : Cutoff} {env : Env} {T : Tables} {R : RefCfg} {δ : ℝ}

/-- The pair term without its C6 coefficient. -/
noncomputable def pairFactor (P : Spec.D4Par) (x r : ℝ) : ℝ :=
  P.s6 * (1 / (r ^ 6 + (P.a1 * √x + P.a2) ^ 6)) + P.s8 * (x * (1 / (r ^ 8 + (P.a1 * √x + P.a2) ^ 8))) +
    P.s10 * (x ^ 2 * 49 / 40 * (1 / (r ^ 10 + (P.a1 * √x + P.a2) ^ 10)))

theorem pairFactor_eq (M : Spec.Mol n) (i j : Fin n) :
    Spec.pairTerm (d4Computed env T R P c) M M.atom i j =
      pairFactor P (3 * M.Q i * M.Q j) (M.r env.eps i j) * c6At env T R (M.atom i) (M.atom j) := by
  simp only [Spec.pairTerm, d4Computed, Spec.d4Settings, Spec.rad, pairFactor]
  ring

theorem pairFactor_le (ha1 : 0 ≤ P.a1) (ha2 : 0 ≤ P.a2) {x r X : ℝ} (hδ : 0 < δ) (hr : δ ≤ r) (hx : |x| ≤ X) :
    |pairFactor P x r| ≤ (|P.s6| + |P.s8| * X / δ ^ 2 + |P.s10| * (X ^ 2 * 49 / 40) / δ ^ 4) / r ^ 6 := by
  have hr0 : 0 < r := hδ.trans_le hr
  have hX : 0 ≤ X := (abs_nonneg _).trans hx
  have hf : ∀ m : ℕ, 0 ≤ 1 / (r ^ m + (P.a1 * √x + P.a2) ^ m) ∧
      1 / (r ^ m + (P.a1 * √x + P.a2) ^ m) ≤ 1 / r ^ m := by
    intro m
    have hb : 0 ≤ P.a1 * √x + P.a2 := by positivity
    exact ⟨by positivity, one_div_le_one_div_of_le (by positivity) (le_add_of_nonneg_right (by positivity))⟩
  have hp : ∀ m k : ℕ, m = 6 + k → 1 / r ^ m ≤ 1 / δ ^ k * (1 / r ^ 6) := by
    intro m k hm
    rw [hm, one_div_mul_one_div, pow_add, mul_comm (r ^ 6)]
    exact one_div_le_one_div_of_le (by positivity)
      (mul_le_mul_of_nonneg_right (pow_le_pow_left₀ hδ.le hr k) (by positivity))
  have hx2 : |x ^ 2 * 49 / 40| ≤ X ^ 2 * 49 / 40 := by
    rw [abs_of_nonneg (by positivity)]
    have : x ^ 2 ≤ X ^ 2 := by rw [← sq_abs]; exact pow_le_pow_left₀ (abs_nonneg _) hx 2
    linarith
  unfold pairFactor
  have e : (|P.s6| + |P.s8| * X / δ ^ 2 + |P.s10| * (X ^ 2 * 49 / 40) / δ ^ 4) / r ^ 6 =
      |P.s6| * (1 / r ^ 6) + |P.s8| * (X * (1 / δ ^ 2 * (1 / r ^ 6))) +
        |P.s10| * (X ^ 2 * 49 / 40 * (1 / δ ^ 4 * (1 / r ^ 6))) := by ring
  rw [e]
  refine (abs_add_le _ _).trans (add_le_add ((abs_add_le _ _).trans (add_le_add ?_ ?_)) ?_)
  · rw [abs_mul, abs_of_nonneg (hf 6).1]
    exact mul_le_mul_of_nonneg_left (hf 6).2 (abs_nonneg _)
  · rw [abs_mul, abs_mul, abs_of_nonneg (hf 8).1]
    exact mul_le_mul_of_nonneg_left (mul_le_mul hx ((hf 8).2.trans (hp 8 2 rfl)) (hf 8).1 hX) (abs_nonneg _)
  · rw [abs_mul, abs_mul, abs_of_nonneg (hf 10).1]
    exact mul_le_mul_of_nonneg_left (mul_le_mul hx2 ((hf 10).2.trans (hp 10 4 rfl)) (hf 10).1 (by positivity))
      (abs_nonneg _)

theorem energy_lip_charges (hT : T.Physical R.rq) (hga : 0 ≤ R.ga) (hgc : 0 < R.gc) (ha1 : 0 ≤ P.a1) (ha2 : 0 ≤ P.a2)
    (hδ : √env.eps ≤ δ) {Q : ℝ} (hQ0 : 0 ≤ Q) {M M' : Spec.Mol n} (hM : SameButCharges M M')
    (hZ : ∀ i, M.Z i < T.nZ) (hQ : ∀ i, |M.Q i| ≤ Q) (hsp : Spec.Spaced δ M.Z M.pos)
    (hg : ∀ i, M.Z i ≠ 0 → OffGap env (M.q i + T.zeff (M.Z i)))
    (hg' : ∀ i, M.Z i ≠ 0 → OffGap env (M'.q i + T.zeff (M.Z i))) (i : Fin n) :
    |Spec.energy (d4Computed env T R P c) M' i - Spec.energy (d4Computed env T R P c) M i| ≤
      1 / 2 * (c6Slope env T R * (|P.s6| + |P.s8| * (3 * Q * Q) / δ ^ 2 + |P.s10| * ((3 * Q * Q) ^ 2 * 49 / 40) / δ ^ 4)) *
        ∑ j, if M.Z i ≠ 0 ∧ M.Z j ≠ 0 ∧ i ≠ j then
          (|M'.q i - M.q i| + |M'.q j - M.q j|) / dist (M.pos i) (M.pos j) ^ 6 else 0 := by
  have hδ0 : 0 < δ := (Real.sqrt_pos.2 env.eps_pos).trans_le hδ
  have hL := c6Slope_nonneg (env := env) (T := T) (R := R)
  unfold Spec.energy
  rw [e3_same hM, add_sub_add_right_eq_sub]
  unfold Spec.e2
  rw [← mul_sub, ← Finset.sum_sub_distrib, abs_mul, show |(-(1 / 2) : ℝ)| = 1 / 2 by norm_num, mul_assoc, Finset.mul_sum]
  refine mul_le_mul_of_nonneg_left ((Finset.abs_sum_le_sum_abs _ _).trans (Finset.sum_le_sum fun j _ => ?_)) (by norm_num)
  have er : M'.r env.eps i j = M.r env.eps i j := by unfold Spec.Mol.r; rw [hM.pos]
  have er' : M'.r (d4Computed env T R P c).ε i j = M.r (d4Computed env T R P c).ε i j := er
  have ea : ∀ i, M'.atom i = ⟨M.Z i, M.cn i, M'.q i⟩ := fun i => by
    unfold Spec.Mol.atom; rw [hM.Z, hM.cn]
  rw [hM.Z, er']
  by_cases h : M.Z i ≠ 0 ∧ M.Z j ≠ 0 ∧ i ≠ j
  · rw [if_pos h]
    obtain ⟨hi, hj, hij⟩ := h
    have hd := hsp i j hij hi hj
    have hr : M.r env.eps i j = dist (M.pos i) (M.pos j) := by
      rw [Spec.r_eq_max env.eps_pos]
      exact max_eq_left (hδ.trans hd)
    have hd0 : 0 < dist (M.pos i) (M.pos j) := hδ0.trans_le hd
    split_ifs with hc
    · rw [pairFactor_eq, pairFactor_eq, hM.Q, er, hr, ea, ea, ← mul_sub, abs_mul]
      have h1 := pairFactor_le (P := P) ha1 ha2 hδ0 hd (x := 3 * M.Q i * M.Q j) (X := 3 * Q * Q) (by
        rw [abs_mul, abs_mul, abs_of_pos (by norm_num : (0 : ℝ) < 3)]
        exact mul_le_mul (mul_le_mul_of_nonneg_left (hQ i) (by norm_num)) (hQ j) (abs_nonneg _) (by positivity))
      have h2 := c6At_lip (env := env) (R := R) (c := M.cn i) (c' := M.cn j) hT hga hgc (hZ i) (hZ j)
        (hg i hi) (hg' i hi) (hg j hj) (hg' j hj)
      refine (mul_le_mul h1 h2 (abs_nonneg _) (by positivity)).trans (le_of_eq ?_)
      ring
    · rw [sub_self, abs_zero]
      positivity
  · rw [if_neg h, if_neg fun h' => h ⟨h'.1, h'.2.1, h'.2.2.1⟩, if_neg fun h' => h ⟨h'.1, h'.2.1, h'.2.2.1⟩]
    simp

/-- The charges of real atoms do not leave an effective nuclear charge between zero and the machine epsilon. -/
def Spec.ChargesOk (env : Env) (T : Tables) (n : ℕ) (Z : Fin n → ℕ) (q : Fin n → ℝ) : Prop :=
  ∀ i, Z i ≠ 0 → q i + T.zeff (Z i) ≤ 0 ∨ env.eps ≤ q i + T.zeff (Z i)

/-- **C87**: if charges change, the energy of atom `i` changes at most in proportion to the changes at itself and at
its partners, where those of distant atoms count with the inverse sixth power of the distance. The constant does not
depend on the system. -/
theorem C87_local (hT : T.Physical R.rq) (hga : 0 ≤ R.ga) (hgc : 0 < R.gc) (ha1 : 0 ≤ P.a1) (ha2 : 0 ≤ P.a2)
    (hδ : √env.eps ≤ δ) :
    ∃ K : ℝ, 0 ≤ K ∧ ∀ (ext : Ext) (n : ℕ) (B : Shape) (numbers : Tensor ℕ) (positions charge q q' : Tensor ℝ) (p : Param)
      (o : DftOpts) (cn : Spec.CN) (eeq : Spec.EEQ),
      Call env T ext numbers positions charge p o n B R cn eeq P → o.opts.r4r2 = none →
      q.Ok (n :: B) → q'.Ok (n :: B) →
      ∃ e e', dftd4 env T ext numbers positions charge p (o.withQ q) = .ok e ∧
        dftd4 env T ext numbers positions charge p (o.withQ q') = .ok e' ∧
        ∀ b, InB B b → Spec.Spaced δ (elements numbers n b) (coords positions n b) →
          Spec.ChargesOk env T n (elements numbers n b) (fun i => q.get (i.1 :: b)) →
          Spec.ChargesOk env T n (elements numbers n b) (fun i => q'.get (i.1 :: b)) →
          ∀ i : Fin n, |e'.get (i.1 :: b) - e.get (i.1 :: b)| ≤
            K * ∑ j : Fin n, if elements numbers n b i ≠ 0 ∧ elements numbers n b j ≠ 0 ∧ i ≠ j then
              (|q'.get (i.1 :: b) - q.get (i.1 :: b)| + |q'.get (j.1 :: b) - q.get (j.1 :: b)|) /
                dist (coords positions n b i) (coords positions n b j) ^ 6 else 0 := by
  have hδ0 : 0 < δ := (Real.sqrt_pos.2 env.eps_pos).trans_le hδ
  have hL := c6Slope_nonneg (env := env) (T := T) (R := R)
  set Q := ∑ Z ∈ Finset.range T.nZ, |T.r4r2 Z| with hQdef
  have hQ0 : 0 ≤ Q := Finset.sum_nonneg fun _ _ => abs_nonneg _
  have hQ : ∀ Z < T.nZ, |T.r4r2 Z| ≤ Q := fun Z hZ =>
    Finset.single_le_sum (f := fun Z => |T.r4r2 Z|) (fun _ _ => abs_nonneg _) (Finset.mem_range.2 hZ)
  refine ⟨1 / 2 * (c6Slope env T R * (|P.s6| + |P.s8| * (3 * Q * Q) / δ ^ 2 +
      |P.s10| * ((3 * Q * Q) ^ 2 * 49 / 40) / δ ^ 4)), by positivity,
    fun ext n B numbers positions charge q q' p o cn eeq h hr4 hq hq' => ?_⟩
  · obtain ⟨e, he, -, hv⟩ := (h.withQ hq).eval
    obtain ⟨e', he', -, hv'⟩ := (h.withQ hq').eval
    refine ⟨e, e', he, he', fun b hb hsp hc hc' i => ?_⟩
    rw [hv b hb i, hv' b hb i]
    refine energy_lip_charges hT hga hgc ha1 ha2 hδ hQ0 (sameButCharges q q')
      ((h.withQ hq).args.Z_lt (cn := cn) (eeq := eeq) hb) (fun j => ?_) hsp hc hc' i
    have : (system T cn eeq numbers positions charge (o.withQ q).opts n b).Q j =
        T.r4r2 (elements numbers n b j) := by
      show (match o.opts.r4r2 with
        | some x => x.get (j.1 :: b)
        | none => T.r4r2 (elements numbers n b j)) = _
      rw [hr4]
    rw [this]
    exact hQ _ ((h.withQ hq).args.Z_lt (cn := cn) (eeq := eeq) hb j)

/-- Sum of inverse sixth powers over the partners of an atom. -/
theorem spaced_sum_six (hδ : 0 < δ) {Z : Fin n → ℕ} {x : Fin n → Spec.E3} (hsp : Spec.Spaced δ Z x) (i : Fin n) :
    (∑ j, if Z i ≠ 0 ∧ Z j ≠ 0 ∧ i ≠ j then 1 / dist (x i) (x j) ^ 6 else 0) ≤ 5488 / δ ^ 6 := by
  by_cases hi : Z i = 0
  · rw [Finset.sum_eq_zero fun j _ => if_neg fun h => h.1 hi]
    positivity
  · rw [← Finset.sum_filter]
    have := Packing.sum_pow_le (s := Finset.univ.filter fun j => Z i ≠ 0 ∧ Z j ≠ 0 ∧ i ≠ j) (x := x) (y := x i)
      (R := δ) hδ le_rfl (fun j hj k hk hjk => hsp j k hjk (Finset.mem_filter.1 hj).2.2.1 (Finset.mem_filter.1 hk).2.2.1)
      (fun j hj => hsp j i (Finset.mem_filter.1 hj).2.2.2.symm (Finset.mem_filter.1 hj).2.2.1 hi) 2
    simp only [dist_comm _ (x i)] at this
    refine this.trans (le_of_eq ?_)
    congr 1
    ring

/-- **C87**: charges wrong by at most `D` make every energy wrong by at most `K D`. -/
theorem C87_uniform (hT : T.Physical R.rq) (hga : 0 ≤ R.ga) (hgc : 0 < R.gc) (ha1 : 0 ≤ P.a1) (ha2 : 0 ≤ P.a2)
    (hδ : √env.eps ≤ δ) :
    ∃ K : ℝ, ∀ (ext : Ext) (n : ℕ) (B : Shape) (numbers : Tensor ℕ) (positions charge q q' : Tensor ℝ) (p : Param)
      (o : DftOpts) (cn : Spec.CN) (eeq : Spec.EEQ),
      Call env T ext numbers positions charge p o n B R cn eeq P → o.opts.r4r2 = none →
      q.Ok (n :: B) → q'.Ok (n :: B) →
      ∃ e e', dftd4 env T ext numbers positions charge p (o.withQ q) = .ok e ∧
        dftd4 env T ext numbers positions charge p (o.withQ q') = .ok e' ∧
        ∀ b, InB B b → Spec.Spaced δ (elements numbers n b) (coords positions n b) →
          Spec.ChargesOk env T n (elements numbers n b) (fun i => q.get (i.1 :: b)) →
          Spec.ChargesOk env T n (elements numbers n b) (fun i => q'.get (i.1 :: b)) →
          ∀ D, 0 ≤ D → (∀ j : Fin n, elements numbers n b j ≠ 0 → |q'.get (j.1 :: b) - q.get (j.1 :: b)| ≤ D) →
            ∀ i < n, |e'.get (i :: b) - e.get (i :: b)| ≤ K * D := by
  have hδ0 : 0 < δ := (Real.sqrt_pos.2 env.eps_pos).trans_le hδ
  obtain ⟨K, hK0, hK⟩ := C87_local (env := env) (T := T) (R := R) (P := P) hT hga hgc ha1 ha2 hδ
  refine ⟨K * (2 * (5488 / δ ^ 6)), fun ext n B numbers positions charge q q' p o cn eeq h hr4 hq hq' => ?_⟩
  obtain ⟨e, e', he, he', hx⟩ := hK ext n B numbers positions charge q q' p o cn eeq h hr4 hq hq'
  refine ⟨e, e', he, he', fun b hb hsp hc hc' D hD0 hD i hi => ?_⟩
  refine (hx b hb hsp hc hc' ⟨i, hi⟩).trans ?_
  · rw [mul_assoc]
    refine mul_le_mul_of_nonneg_left ?_ hK0
    have h6 := spaced_sum_six hδ0 hsp ⟨i, hi⟩
    calc _ ≤ ∑ j, 2 * D * (if elements numbers n b ⟨i, hi⟩ ≠ 0 ∧ elements numbers n b j ≠ 0 ∧ (⟨i, hi⟩ : Fin n) ≠ j then
          1 / dist (coords positions n b ⟨i, hi⟩) (coords positions n b j) ^ 6 else 0) := by
          refine Finset.sum_le_sum fun j _ => ?_
          by_cases hj : elements numbers n b ⟨i, hi⟩ ≠ 0 ∧ elements numbers n b j ≠ 0 ∧ (⟨i, hi⟩ : Fin n) ≠ j
          · rw [if_pos hj, if_pos hj, mul_one_div]
            refine div_le_div_of_nonneg_right ?_ (by positivity)
            have h1 := hD ⟨i, hi⟩ hj.1
            have h2 := hD j hj.2.1
            simp only at h1
            linarith
          · rw [if_neg hj, if_neg hj, mul_zero]
      _ ≤ 2 * D * (5488 / δ ^ 6) := by
          rw [← Finset.mul_sum]
          exact mul_le_mul_of_nonneg_left h6 (by positivity)
      _ = _ := by ring

/-- **C87**: the total energy is wrong by at most a constant times the sum of the errors of the charges. -/
theorem C87_total (hT : T.Physical R.rq) (hga : 0 ≤ R.ga) (hgc : 0 < R.gc) (ha1 : 0 ≤ P.a1) (ha2 : 0 ≤ P.a2)
    (hδ : √env.eps ≤ δ) :
    ∃ K : ℝ, ∀ (ext : Ext) (n : ℕ) (B : Shape) (numbers : Tensor ℕ) (positions charge q q' : Tensor ℝ) (p : Param)
      (o : DftOpts) (cn : Spec.CN) (eeq : Spec.EEQ),
      Call env T ext numbers positions charge p o n B R cn eeq P → o.opts.r4r2 = none →
      q.Ok (n :: B) → q'.Ok (n :: B) →
      ∃ e e', dftd4 env T ext numbers positions charge p (o.withQ q) = .ok e ∧
        dftd4 env T ext numbers positions charge p (o.withQ q') = .ok e' ∧
        ∀ b, InB B b → Spec.Spaced δ (elements numbers n b) (coords positions n b) →
          Spec.ChargesOk env T n (elements numbers n b) (fun i => q.get (i.1 :: b)) →
          Spec.ChargesOk env T n (elements numbers n b) (fun i => q'.get (i.1 :: b)) →
          |∑ i : Fin n, e'.get (i.1 :: b) - ∑ i : Fin n, e.get (i.1 :: b)| ≤
            K * ∑ j : Fin n, if elements numbers n b j ≠ 0 then |q'.get (j.1 :: b) - q.get (j.1 :: b)| else 0 := by
  have hδ0 : 0 < δ := (Real.sqrt_pos.2 env.eps_pos).trans_le hδ
  obtain ⟨K, hK0, hK⟩ := C87_local (env := env) (T := T) (R := R) (P := P) hT hga hgc ha1 ha2 hδ
  refine ⟨K * (2 * (5488 / δ ^ 6)), fun ext n B numbers positions charge q q' p o cn eeq h hr4 hq hq' => ?_⟩
  obtain ⟨e, e', he, he', hx⟩ := hK ext n B numbers positions charge q q' p o cn eeq h hr4 hq hq'
  refine ⟨e, e', he, he', fun b hb hsp hc hc' => ?_⟩
  rw [← Finset.sum_sub_distrib]
  refine (Finset.abs_sum_le_sum_abs _ _).trans ((Finset.sum_le_sum fun i _ => hx b hb hsp hc hc' i).trans ?_)
  rw [← Finset.mul_sum, mul_assoc]
  refine mul_le_mul_of_nonneg_left ?_ hK0
  set Z := elements numbers n b
  set x := coords positions n b
  set a : Fin n → ℝ := fun j => |q'.get (j.1 :: b) - q.get (j.1 :: b)| with ha
  have ha0 : ∀ i, 0 ≤ a i := fun i => abs_nonneg _
  have h6 := fun i => spaced_sum_six hδ0 hsp i
  have h1 : (∑ i, ∑ j, if Z i ≠ 0 ∧ Z j ≠ 0 ∧ i ≠ j then (a i + a j) / dist (x i) (x j) ^ 6 else 0) =
      2 * ∑ i, if Z i ≠ 0 then a i * ∑ j, (if Z i ≠ 0 ∧ Z j ≠ 0 ∧ i ≠ j then 1 / dist (x i) (x j) ^ 6 else 0) else 0 := by
    have e1 : ∀ i j, (if Z i ≠ 0 ∧ Z j ≠ 0 ∧ i ≠ j then (a i + a j) / dist (x i) (x j) ^ 6 else 0) =
        (if Z i ≠ 0 ∧ Z j ≠ 0 ∧ i ≠ j then a i * (1 / dist (x i) (x j) ^ 6) else 0) +
        (if Z j ≠ 0 ∧ Z i ≠ 0 ∧ j ≠ i then a j * (1 / dist (x j) (x i) ^ 6) else 0) := by
      intro i j
      by_cases h : Z i ≠ 0 ∧ Z j ≠ 0 ∧ i ≠ j
      · rw [if_pos h, if_pos h, if_pos ⟨h.2.1, h.1, h.2.2.symm⟩, dist_comm (x j)]
        ring
      · rw [if_neg h, if_neg h, if_neg fun h' => h ⟨h'.2.1, h'.1, h'.2.2.symm⟩, add_zero]
    simp only [e1, Finset.sum_add_distrib]
    rw [Finset.sum_comm (f := fun i j => if Z j ≠ 0 ∧ Z i ≠ 0 ∧ j ≠ i then a j * (1 / dist (x j) (x i) ^ 6) else 0),
      ← two_mul]
    congr 1
    refine Finset.sum_congr rfl fun i _ => ?_
    by_cases hi : Z i ≠ 0
    · rw [if_pos hi, Finset.mul_sum]
      exact Finset.sum_congr rfl fun j _ => by split_ifs <;> simp
    · rw [if_neg hi]
      exact Finset.sum_eq_zero fun j _ => if_neg fun h => hi h.1
  refine (le_of_eq h1).trans ?_
  rw [mul_assoc, Finset.mul_sum (a := 5488 / δ ^ 6)]
  refine mul_le_mul_of_nonneg_left (Finset.sum_le_sum fun i _ => ?_) (by norm_num)
  by_cases hi : Z i ≠ 0
  · rw [if_pos hi, if_pos hi, mul_comm]
    exact mul_le_mul_of_nonneg_right (h6 i) (ha0 i)
  · rw [if_neg hi, if_neg hi, mul_zero]

end

/-! ## Concrete cases: hydrogen atoms on a line -/

namespace Demo

/-- Charges given for each of `n` atoms. -/
noncomputable def rowCharges (n : ℕ) (f : ℕ → ℝ) : Tensor ℝ where
  err := none
  shape := [n]
  get
    | [i] => f i
    | _ => 0

theorem row_chargesOk {n : ℕ} {f : ℕ → ℝ} (hf : ∀ i, |f i| ≤ 1 / 2) : Spec.ChargesOk env T n
    (elements (rowNumbers n) n []) (fun i => (rowCharges n f).get [i.1]) := by
  intro i _
  right
  show (1 : ℝ) / 2 ^ 52 ≤ f i + T.zeff 1
  have h1 : T.zeff 1 = 1 := by show zeff 1 = 1; norm_num [zeff]
  have h2 := neg_abs_le (f i.1)
  have h3 := hf i.1
  rw [h1]
  norm_num
  linarith

/-- Rows of hydrogen atoms with different charges, of any length. -/
example : ∃ K : ℝ, ∀ (n : ℕ) (f g : ℕ → ℝ), (∀ i, |f i| ≤ 1 / 2) → (∀ i, |g i| ≤ 1 / 2) → ∃ e e',
    dftd4 env T ext (rowNumbers n) (rowPositions n) (scalar 0) param
      { opts := { cutoff := some {}, q := some (rowCharges n f) } } = .ok e ∧
    dftd4 env T ext (rowNumbers n) (rowPositions n) (scalar 0) param
      { opts := { cutoff := some {}, q := some (rowCharges n g) } } = .ok e' ∧
    |∑ i : Fin n, e'.get [i.1] - ∑ i : Fin n, e.get [i.1]| ≤ K * ∑ j : Fin n, |g j - f j| := by
  obtain ⟨K, hK⟩ := C87_total (env := env) (T := T) (R := .d4) (P := par) (δ := 2) physical
    (by norm_num [RefCfg.d4]) (by norm_num [RefCfg.d4]) (by norm_num [par]) (by norm_num [par]) sqrt_eps_le_two
  refine ⟨K, fun n f g hf hg => ?_⟩
  obtain ⟨e, e', he, he', hx⟩ := hK _ _ _ _ _ _ (rowCharges n f) (rowCharges n g) _ _ _ _
    (row_call n {} (by norm_num [Defaults.disp3Cutoff])) rfl ⟨rfl, rfl⟩ ⟨rfl, rfl⟩
  refine ⟨e, e', he, he', ?_⟩
  have := hx [] (by simp [InB]) (row_spaced n) (row_chargesOk hf) (row_chargesOk hg)
  refine this.trans (le_of_eq ?_)
  congr 1

/-- Charges that are wrong by at most 0.1. -/
example : ∃ K : ℝ, ∀ (n : ℕ) (f g : ℕ → ℝ), (∀ i, |f i| ≤ 1 / 2) → (∀ i, |g i| ≤ 1 / 2) →
    (∀ i, |g i - f i| ≤ 1 / 10) → ∃ e e',
    dftd4 env T ext (rowNumbers n) (rowPositions n) (scalar 0) param
      { opts := { cutoff := some {}, q := some (rowCharges n f) } } = .ok e ∧
    dftd4 env T ext (rowNumbers n) (rowPositions n) (scalar 0) param
      { opts := { cutoff := some {}, q := some (rowCharges n g) } } = .ok e' ∧
    ∀ i < n, |e'.get [i] - e.get [i]| ≤ K * (1 / 10) := by
  obtain ⟨K, hK⟩ := C87_uniform (env := env) (T := T) (R := .d4) (P := par) (δ := 2) physical
    (by norm_num [RefCfg.d4]) (by norm_num [RefCfg.d4]) (by norm_num [par]) (by norm_num [par]) sqrt_eps_le_two
  refine ⟨K, fun n f g hf hg hfg => ?_⟩
  obtain ⟨e, e', he, he', hx⟩ := hK _ _ _ _ _ _ (rowCharges n f) (rowCharges n g) _ _ _ _
    (row_call n {} (by norm_num [Defaults.disp3Cutoff])) rfl ⟨rfl, rfl⟩ ⟨rfl, rfl⟩
  exact ⟨e, e', he, he', hx [] (by simp [InB]) (row_spaced n) (row_chargesOk hf) (row_chargesOk hg) _ (by norm_num)
    fun j _ => hfg j⟩

example := C87_local (env := env) (T := T) (R := .d4) (P := par) (δ := 2) physical
    (by norm_num [RefCfg.d4]) (by norm_num [RefCfg.d4]) (by norm_num [par]) (by norm_num [par]) sqrt_eps_le_two

end Demo

end TadDftd4
