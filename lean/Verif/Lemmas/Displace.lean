import Verif.Props.C87
import Verif.Props.C89
import Verif.Spec.Atm

/-!
# Response of pair and triple terms to displacements
-/

set_option linter.unusedSimpArgs false

open scoped Classical EuclideanGeometry

namespace TadDftd4

/-! ## Damping functions -/

section
variable {P : Spec.D4Par} {δ : ℝ}

theorem damp_factor (m : ℕ) {r r' A l : ℝ} (hr : 0 < r) (hr' : 0 < r') (hl : 1 ≤ l) (h : r' ≤ l * r) (hA : 0 ≤ A) :
    1 / (r ^ m + A ^ m) ≤ l ^ m * (1 / (r' ^ m + A ^ m)) := by
  rw [mul_one_div, div_le_div_iff₀ (by positivity) (by positivity), one_mul, mul_add]
  have h1 : r' ^ m ≤ l ^ m * r ^ m := by
    rw [← mul_pow]
    exact pow_le_pow_left₀ hr'.le h m
  have h2 : A ^ m ≤ l ^ m * A ^ m := le_mul_of_one_le_left (by positivity) (one_le_pow₀ hl)
  linarith

theorem pairFactor_move (ha1 : 0 ≤ P.a1) (ha2 : 0 ≤ P.a2) {x r r' X l : ℝ} (hδ : 0 < δ) (hr : δ ≤ r) (hr' : 0 < r')
    (hl : 1 ≤ l) (h : r' ≤ l * r) (h' : r ≤ l * r') (hx : |x| ≤ X) :
    |pairFactor P x r' - pairFactor P x r| ≤
      (l ^ 10 - 1) * ((|P.s6| + |P.s8| * X / δ ^ 2 + |P.s10| * (X ^ 2 * 49 / 40) / δ ^ 4) / r ^ 6) := by
  have hr0 : 0 < r := hδ.trans_le hr
  have hX : 0 ≤ X := (abs_nonneg _).trans hx
  have hb : 0 ≤ P.a1 * √x + P.a2 := by positivity
  set b := P.a1 * √x + P.a2 with hbd
  have hl10 : 0 ≤ l ^ 10 - 1 := sub_nonneg.2 (one_le_pow₀ hl)
  have hf : ∀ m : ℕ, m ≤ 10 → ∀ f : ℝ, |f * (1 / (r' ^ m + b ^ m)) - f * (1 / (r ^ m + b ^ m))| ≤
      (l ^ 10 - 1) * (|f| * (1 / r ^ m)) := by
    intro m hm f
    have h0 : 0 ≤ 1 / (r ^ m + b ^ m) := by positivity
    have h1 := abs_sub_le_of_factor (f := f) (one_le_pow₀ hl (n := m)) h0 (damp_factor m hr' hr0 hl h' hb)
      (damp_factor m hr0 hr' hl h hb)
    refine h1.trans ?_
    rw [abs_mul, abs_of_nonneg h0]
    refine mul_le_mul (sub_le_sub_right (pow_le_pow_right₀ hl hm) 1) (mul_le_mul_of_nonneg_left ?_ (abs_nonneg _))
      (by positivity) hl10
    exact one_div_le_one_div_of_le (by positivity) (le_add_of_nonneg_right (by positivity))
  have hp : ∀ m k : ℕ, m = 6 + k → 1 / r ^ m ≤ 1 / δ ^ k * (1 / r ^ 6) := by
    intro m k hm
    rw [hm, one_div_mul_one_div, pow_add, mul_comm (r ^ 6)]
    exact one_div_le_one_div_of_le (by positivity)
      (mul_le_mul_of_nonneg_right (pow_le_pow_left₀ hδ.le hr k) (by positivity))
  have hx2 : |x ^ 2 * 49 / 40| ≤ X ^ 2 * 49 / 40 := by
    rw [abs_of_nonneg (by positivity)]
    have : x ^ 2 ≤ X ^ 2 := by rw [← sq_abs]; exact pow_le_pow_left₀ (abs_nonneg _) hx 2
    linarith
  have e : pairFactor P x r' - pairFactor P x r =
      (P.s6 * (1 / (r' ^ 6 + b ^ 6)) - P.s6 * (1 / (r ^ 6 + b ^ 6))) +
      (P.s8 * x * (1 / (r' ^ 8 + b ^ 8)) - P.s8 * x * (1 / (r ^ 8 + b ^ 8))) +
      (P.s10 * (x ^ 2 * 49 / 40) * (1 / (r' ^ 10 + b ^ 10)) - P.s10 * (x ^ 2 * 49 / 40) * (1 / (r ^ 10 + b ^ 10))) := by
    unfold pairFactor
    rw [← hbd]
    ring
  have e' : (l ^ 10 - 1) * ((|P.s6| + |P.s8| * X / δ ^ 2 + |P.s10| * (X ^ 2 * 49 / 40) / δ ^ 4) / r ^ 6) =
      (l ^ 10 - 1) * (|P.s6| * (1 / r ^ 6)) + (l ^ 10 - 1) * (|P.s8| * X * (1 / δ ^ 2 * (1 / r ^ 6))) +
        (l ^ 10 - 1) * (|P.s10| * (X ^ 2 * 49 / 40) * (1 / δ ^ 4 * (1 / r ^ 6))) := by ring
  rw [e, e']
  refine (abs_add_le _ _).trans (add_le_add ((abs_add_le _ _).trans (add_le_add (hf 6 (by norm_num) _) ?_)) ?_)
  · refine (hf 8 (by norm_num) _).trans (mul_le_mul_of_nonneg_left ?_ hl10)
    rw [abs_mul]
    exact mul_le_mul (mul_le_mul_of_nonneg_left hx (abs_nonneg _)) (hp 8 2 rfl) (by positivity) (by positivity)
  · refine (hf 10 (by norm_num) _).trans (mul_le_mul_of_nonneg_left ?_ hl10)
    rw [abs_mul]
    exact mul_le_mul (mul_le_mul_of_nonneg_left hx2 (abs_nonneg _)) (hp 10 4 rfl) (by positivity) (by positivity)

/-- The three-body damping function. -/
theorem f9_factor {a Rr u u' m : ℝ} (hR : 0 ≤ Rr) (hu : 0 < u) (hu' : 0 < u') (hm : 1 ≤ m) (h : u' ≤ m * u)
    (h' : u ≤ m * u') : 1 / (1 + 6 * (Rr / u) ^ a) ≤ m ^ |a| * (1 / (1 + 6 * (Rr / u') ^ a)) := by
  have hm0 : 0 < m := by linarith
  have hp : ∀ v : ℝ, 0 < v → 0 ≤ (Rr / v) ^ a := fun v hv => Real.rpow_nonneg (by positivity) a
  have hF : 1 ≤ m ^ |a| := Real.one_le_rpow hm (abs_nonneg a)
  have h1 := hp u hu
  have h2 := hp u' hu'
  have key : (Rr / u') ^ a ≤ m ^ |a| * (Rr / u) ^ a := by
    rcases hR.eq_or_lt with h0 | h0
    · subst h0
      rw [zero_div, zero_div]
      exact le_mul_of_one_le_left (by simpa using h1) hF
    rcases le_or_gt 0 a with ha | ha
    · rw [abs_of_nonneg ha, ← Real.mul_rpow hm0.le (by positivity)]
      refine Real.rpow_le_rpow (by positivity) ?_ ha
      rw [← mul_div_assoc, div_le_div_iff₀ hu' hu]
      nlinarith
    · rw [abs_of_neg ha, Real.rpow_neg hm0.le, ← Real.inv_rpow hm0.le, ← Real.mul_rpow (by positivity) (by positivity)]
      refine Real.rpow_le_rpow_of_nonpos (by positivity) ?_ ha.le
      rw [inv_mul_eq_div, div_div, div_le_div_iff₀ (by positivity) hu']
      nlinarith
  rw [mul_one_div, div_le_div_iff₀ (by positivity) (by positivity), one_mul]
  nlinarith

end

/-! ## Angles -/

section

theorem unit_sub_le {u u' : Spec.E3} (hu : u ≠ 0) (hu' : u' ≠ 0) :
    ‖‖u‖⁻¹ • u - ‖u'‖⁻¹ • u'‖ ≤ 2 * ‖u - u'‖ / ‖u‖ := by
  have h1 : 0 < ‖u‖ := norm_pos_iff.2 hu
  have h2 : 0 < ‖u'‖ := norm_pos_iff.2 hu'
  have e : ‖u‖⁻¹ • u - ‖u'‖⁻¹ • u' = ‖u‖⁻¹ • (u - u') + (‖u‖⁻¹ - ‖u'‖⁻¹) • u' := by
    rw [smul_sub, sub_smul]; abel
  rw [e]
  refine (norm_add_le _ _).trans ?_
  rw [norm_smul, norm_smul, Real.norm_eq_abs, Real.norm_eq_abs, abs_of_pos (inv_pos.2 h1)]
  have h3 : |‖u‖⁻¹ - ‖u'‖⁻¹| * ‖u'‖ = |‖u'‖ - ‖u‖| / ‖u‖ := by
    rw [inv_sub_inv h1.ne' h2.ne', abs_div, abs_of_pos (mul_pos h1 h2)]
    field_simp
  have h4 : |‖u'‖ - ‖u‖| ≤ ‖u - u'‖ := by
    rw [← norm_sub_rev]; exact abs_norm_sub_norm_le _ _
  rw [h3]
  have h5 := div_le_div_of_nonneg_right h4 h1.le
  calc ‖u‖⁻¹ * ‖u - u'‖ + |‖u'‖ - ‖u‖| / ‖u‖ ≤ ‖u‖⁻¹ * ‖u - u'‖ + ‖u - u'‖ / ‖u‖ := by linarith
    _ = _ := by ring

theorem cos_angle_sub_le {u v u' v' : Spec.E3} {δ k : ℝ} (hδ : 0 < δ) (hu : δ ≤ ‖u‖) (hv : δ ≤ ‖v‖) (hu' : u' ≠ 0)
    (hv' : v' ≠ 0) (h1 : ‖u - u'‖ ≤ k) (h2 : ‖v - v'‖ ≤ k) :
    |Real.cos (InnerProductGeometry.angle u' v') - Real.cos (InnerProductGeometry.angle u v)| ≤ 4 * k / δ := by
  have nu : u ≠ 0 := norm_pos_iff.1 (hδ.trans_le hu)
  have nv : v ≠ 0 := norm_pos_iff.1 (hδ.trans_le hv)
  have hc : ∀ u v : Spec.E3, Real.cos (InnerProductGeometry.angle u v) = inner ℝ (‖u‖⁻¹ • u) (‖v‖⁻¹ • v) := by
    intro u v
    rw [InnerProductGeometry.cos_angle, real_inner_smul_left, real_inner_smul_right]
    ring
  have hn : ∀ u : Spec.E3, u ≠ 0 → ‖‖u‖⁻¹ • u‖ = 1 := by
    intro u hu
    rw [norm_smul, norm_inv, norm_norm, inv_mul_cancel₀ (norm_ne_zero_iff.2 hu)]
  have hb : ∀ u u' : Spec.E3, δ ≤ ‖u‖ → u ≠ 0 → u' ≠ 0 → ‖u - u'‖ ≤ k → ‖‖u‖⁻¹ • u - ‖u'‖⁻¹ • u'‖ ≤ 2 * k / δ := by
    intro u u' h hu hu' hk
    refine (unit_sub_le hu hu').trans ?_
    have hk0 : 0 ≤ k := (norm_nonneg _).trans hk
    exact div_le_div₀ (by positivity) (by linarith) hδ h
  rw [hc, hc]
  set a := ‖u‖⁻¹ • u with had
  set b := ‖v‖⁻¹ • v with hbd
  set a' := ‖u'‖⁻¹ • u' with had'
  set b' := ‖v'‖⁻¹ • v' with hbd'
  have e : inner ℝ a' b' - inner ℝ a b = inner ℝ (a' - a) b' + inner ℝ a (b' - b) := by
    rw [inner_sub_left, inner_sub_right]; ring
  rw [e]
  refine (abs_add_le _ _).trans ?_
  have i1 := abs_real_inner_le_norm (a' - a) b'
  have i2 := abs_real_inner_le_norm a (b' - b)
  rw [hn v' hv', mul_one, norm_sub_rev] at i1
  rw [hn u nu, one_mul, norm_sub_rev] at i2
  have j1 := hb u u' hu nu hu' h1
  have j2 := hb v v' hv nv hv' h2
  have : 4 * k / δ = 2 * k / δ + 2 * k / δ := by ring
  linarith

/-- An angle of a triangle of which every corner moves by at most `h`. -/
theorem cosSides_move {a b c a' b' c' : Spec.E3} {δ h : ℝ} (hδ : 0 < δ) (hab : δ ≤ dist a b) (hac : δ ≤ dist a c)
    (hab' : 0 < dist a' b') (hac' : 0 < dist a' c') (ha : dist a a' ≤ h) (hb : dist b b' ≤ h) (hc : dist c c' ≤ h) :
    |Spec.cosSides (dist a' b') (dist a' c') (dist b' c') - Spec.cosSides (dist a b) (dist a c) (dist b c)| ≤
      8 * h / δ := by
  have n1 : b ≠ a := fun e => by rw [e, dist_self] at hab; linarith
  have n2 : c ≠ a := fun e => by rw [e, dist_self] at hac; linarith
  have n1' : b' ≠ a' := fun e => by rw [e, dist_self] at hab'; linarith
  have n2' : c' ≠ a' := fun e => by rw [e, dist_self] at hac'; linarith
  rw [Spec.cosSides_eq_cos n1 n2, Spec.cosSides_eq_cos n1' n2']
  unfold EuclideanGeometry.angle
  have hd : ∀ x y x' y' : Spec.E3, dist x x' ≤ h → dist y y' ≤ h → ‖(x -ᵥ y) - (x' -ᵥ y')‖ ≤ 2 * h := by
    intro x y x' y' h1 h2
    rw [vsub_eq_sub, vsub_eq_sub, show x - y - (x' - y') = (x - x') - (y - y') by abel]
    refine (norm_sub_le _ _).trans ?_
    rw [← dist_eq_norm, ← dist_eq_norm]
    linarith
  have := cos_angle_sub_le (u := b -ᵥ a) (v := c -ᵥ a) (u' := b' -ᵥ a') (v' := c' -ᵥ a') hδ
    (by rw [vsub_eq_sub, ← dist_eq_norm, dist_comm]; exact hab) (by rw [vsub_eq_sub, ← dist_eq_norm, dist_comm]; exact hac)
    (vsub_ne_zero.2 n1') (vsub_ne_zero.2 n2') (hd _ _ _ _ hb ha) (hd _ _ _ _ hc ha)
  refine this.trans (le_of_eq ?_)
  ring

end

/-! ## Energies -/

section
variable {n : ℕ} {P : Spec.D4Par} {c : Cutoff} {env : Env} {T : Tables} {R : RefCfg} {δ : ℝ}

/-- Two systems that differ in the positions only. -/
structure SameButPos (M M' : Spec.Mol n) : Prop where
  Z : M'.Z = M.Z
  cn : M'.cn = M.cn
  q : M'.q = M.q
  Q : M'.Q = M.Q
  rvdw : M'.rvdw = M.rvdw

theorem sides_factor {a b a' b' : Spec.E3} {h : ℝ} (hδ : 0 < δ) (hab : δ ≤ dist a b) (ha : dist a a' ≤ h)
    (hb : dist b b' ≤ h) : dist a' b' ≤ (1 + 2 * h / δ) * dist a b := by
  have h0 : 0 ≤ h := dist_nonneg.trans ha
  have h1 : dist a' b' ≤ dist a b + 2 * h := by
    have t1 := dist_triangle a' a b'
    have t2 := dist_triangle a b b'
    rw [dist_comm a' a] at t1
    linarith
  have h2 : 2 * h ≤ 2 * h / δ * dist a b := by
    rw [div_mul_eq_mul_div, le_div_iff₀ hδ]
    exact mul_le_mul_of_nonneg_left hab (by positivity)
  rw [add_mul, one_mul]
  linarith

/-- A triple term without its coefficients. -/
theorem tripleShape_move {a RR x y z x' y' z' l κ : ℝ} (hR : 0 ≤ RR) (px : 0 < x) (py : 0 < y) (pz : 0 < z) (px' : 0 < x')
    (py' : 0 < y') (pz' : 0 < z') (hl : 1 ≤ l) (hx : x' ≤ l * x) (hy : y' ≤ l * y) (hz : z' ≤ l * z) (hx' : x ≤ l * x')
    (hy' : y ≤ l * y') (hz' : z ≤ l * z') {Θ Θ' : ℝ} (hΘ' : |Θ'| ≤ 4) (hΘ : |Θ' - Θ| ≤ κ) :
    |1 / (1 + 6 * (RR / (x' * y' * z')) ^ a) * (Θ' / (x' * y' * z') ^ 3) -
      1 / (1 + 6 * (RR / (x * y * z)) ^ a) * (Θ / (x * y * z) ^ 3)| ≤
      (4 * (l ^ (3 * |a| + 9) - 1) + κ) * (1 / (x * y * z) ^ 3) := by
  have hl0 : 0 < l := by linarith
  have pu : 0 < x * y * z := by positivity
  have pu' : 0 < x' * y' * z' := by positivity
  have hm : 1 ≤ l ^ 3 := one_le_pow₀ hl
  have prod3 : ∀ {x y z x' y' z' : ℝ}, 0 < x → 0 < y → 0 < z → 0 < x' → 0 < y' → 0 < z' → x' ≤ l * x → y' ≤ l * y →
      z' ≤ l * z → x' * y' * z' ≤ l ^ 3 * (x * y * z) := by
    intro x y z x' y' z' px py pz px' py' pz' hx hy hz
    calc x' * y' * z' ≤ (l * x) * (l * y) * (l * z) :=
          mul_le_mul (mul_le_mul hx hy py'.le (by positivity)) hz pz'.le (by positivity)
      _ = _ := by ring
  have hu := prod3 px py pz px' py' pz' hx hy hz
  have hu' := prod3 px' py' pz' px py pz hx' hy' hz'
  set u := x * y * z with hud
  set u' := x' * y' * z' with hud'
  set f := 1 / (1 + 6 * (RR / u) ^ a) with hf
  set f' := 1 / (1 + 6 * (RR / u') ^ a) with hf'
  have hp : ∀ v : ℝ, 0 < v → 0 ≤ (RR / v) ^ a := fun v hv => Real.rpow_nonneg (by positivity) a
  have hf0 : 0 ≤ f := by have := hp u pu; positivity
  have hf0' : 0 ≤ f' := by have := hp u' pu'; positivity
  have hf1 : f ≤ 1 := by
    rw [hf, div_le_one (by have := hp u pu; positivity)]
    have := hp u pu
    linarith
  have hff : f ≤ (l ^ 3) ^ |a| * f' := f9_factor hR pu pu' hm hu hu'
  have hff' : f' ≤ (l ^ 3) ^ |a| * f := f9_factor hR pu' pu hm hu' hu
  have hcube : ∀ {u u' : ℝ}, 0 < u → 0 < u' → u ≤ l ^ 3 * u' → 1 / u' ^ 3 ≤ l ^ 9 * (1 / u ^ 3) := by
    intro u u' hu hu' h
    rw [mul_one_div, div_le_div_iff₀ (by positivity) (by positivity), one_mul]
    calc u ^ 3 ≤ (l ^ 3 * u') ^ 3 := pow_le_pow_left₀ hu.le h 3
      _ = _ := by ring
  have hF : l ^ (3 * |a| + 9) = (l ^ 3) ^ |a| * l ^ 9 := by
    rw [Real.rpow_add hl0, Real.rpow_mul hl0.le]
    have e3 : l ^ (3 : ℝ) = l ^ 3 := by exact_mod_cast Real.rpow_natCast l 3
    have e9 : l ^ (9 : ℝ) = l ^ 9 := by exact_mod_cast Real.rpow_natCast l 9
    rw [e3, e9]
  set F := l ^ (3 * |a| + 9) with hFd
  have hF1 : 1 ≤ F := Real.one_le_rpow hl (by positivity)
  set g := f * (1 / u ^ 3) with hg
  set g' := f' * (1 / u' ^ 3) with hg'
  have hg0 : 0 ≤ g := by positivity
  have hpow : 0 ≤ (l ^ 3) ^ |a| := Real.rpow_nonneg (by positivity) _
  have h1 : g' ≤ F * g := by
    rw [hF]
    calc g' ≤ ((l ^ 3) ^ |a| * f) * (l ^ 9 * (1 / u ^ 3)) :=
          mul_le_mul hff' (hcube pu pu' hu') (by positivity) (by positivity)
      _ = _ := by rw [hg]; ring
  have h2 : g ≤ F * g' := by
    rw [hF]
    calc g ≤ ((l ^ 3) ^ |a| * f') * (l ^ 9 * (1 / u' ^ 3)) :=
          mul_le_mul hff (hcube pu' pu hu) (by positivity) (by positivity)
      _ = _ := by rw [hg']; ring
  have h3 : |g' - g| ≤ (F - 1) * g := by
    have := abs_sub_le_of_factor (f := 1) hF1 hg0 h1 h2
    simpa [abs_of_nonneg hg0] using this
  have e : f' * (Θ' / u' ^ 3) - f * (Θ / u ^ 3) = (g' - g) * Θ' + g * (Θ' - Θ) := by rw [hg, hg']; ring
  have hgu : g ≤ 1 / u ^ 3 := by
    rw [hg]
    exact mul_le_of_le_one_left (by positivity) hf1
  have hκ : 0 ≤ κ := (abs_nonneg _).trans hΘ
  rw [e]
  calc _ ≤ |g' - g| * |Θ'| + g * |Θ' - Θ| := by
        refine (abs_add_le _ _).trans ?_
        rw [abs_mul, abs_mul, abs_of_nonneg hg0]
    _ ≤ (F - 1) * g * 4 + g * κ := add_le_add
        (mul_le_mul h3 hΘ' (abs_nonneg _) (mul_nonneg (by linarith) hg0)) (mul_le_mul_of_nonneg_left hΘ hg0)
    _ = (4 * (F - 1) + κ) * g := by ring
    _ ≤ _ := mul_le_mul_of_nonneg_left hgu (by nlinarith)

theorem angular_le {α β γ : ℝ} (h1 : |α| ≤ 1) (h2 : |β| ≤ 1) (h3 : |γ| ≤ 1) : |3 * α * β * γ + 1| ≤ 4 := by
  refine (abs_add_le _ _).trans ?_
  rw [abs_mul, abs_mul, abs_mul, abs_one, abs_of_pos (by norm_num : (0 : ℝ) < 3)]
  have q1 : |α| * |β| ≤ 1 := mul_le_one₀ h1 (abs_nonneg _) h2
  have q2 : |α| * |β| * |γ| ≤ 1 := mul_le_one₀ q1 (abs_nonneg _) h3
  have : 3 * |α| * |β| * |γ| = 3 * (|α| * |β| * |γ|) := by ring
  linarith

theorem angular_move {α β γ α' β' γ' k : ℝ} (hk : 0 ≤ k) (ca : |α' - α| ≤ k) (cb : |β' - β| ≤ k) (cc : |γ' - γ| ≤ k)
    (m1 : |α| ≤ 1) (m2 : |β| ≤ 1) (m2' : |β'| ≤ 1) (m3' : |γ'| ≤ 1) :
    |3 * α' * β' * γ' + 1 - (3 * α * β * γ + 1)| ≤ 9 * k := by
  have e : 3 * α' * β' * γ' + 1 - (3 * α * β * γ + 1) =
      3 * ((α' - α) * (β' * γ') + (β' - β) * (α * γ') + (γ' - γ) * (α * β)) := by ring
  have step : ∀ {d a b : ℝ}, |d| ≤ k → |a| ≤ 1 → |b| ≤ 1 → |d * (a * b)| ≤ k := by
    intro d a b h1 h2 h3
    rw [abs_mul, abs_mul]
    calc |d| * (|a| * |b|) ≤ k * 1 := mul_le_mul h1 (mul_le_one₀ h2 (abs_nonneg _) h3) (by positivity) hk
      _ = _ := mul_one _
  rw [e, show 9 * k = 3 * (k + k + k) by ring, abs_mul, abs_of_pos (by norm_num : (0 : ℝ) < 3)]
  exact mul_le_mul_of_nonneg_left ((abs_add_le _ _).trans (add_le_add ((abs_add_le _ _).trans
    (add_le_add (step ca m2' m3') (step cb m1 m3'))) (step cc m1 m2))) (by norm_num)

/-- Sum of inverse cubes of products of sides over the triangles of an atom. -/
theorem spaced_sum_triangles (hδ : 0 < δ) {Z : Fin n → ℕ} {x : Fin n → Spec.E3} (hsp : Spec.Spaced δ Z x) (i : Fin n) :
    (∑ j, ∑ k, if Z i ≠ 0 ∧ Z j ≠ 0 ∧ Z k ≠ 0 ∧ i ≠ j ∧ i ≠ k ∧ j ≠ k then
      1 / (dist (x i) (x j) * dist (x i) (x k) * dist (x j) (x k)) ^ 3 else 0) ≤
      6 * (5488 / (δ / 2) ^ 4 * (5488 / ((δ / 2) ^ 3 * (δ / 2) ^ 2))) := by
  by_cases hi : Z i = 0
  · rw [Finset.sum_eq_zero fun j _ => Finset.sum_eq_zero fun k _ => if_neg fun h => h.1 hi]
    positivity
  set s : Finset (Fin n) := Finset.univ.filter fun j => Z j ≠ 0 with hs
  have his : i ∈ s := Finset.mem_filter.2 ⟨Finset.mem_univ _, hi⟩
  have hss : ∀ i ∈ s, ∀ j ∈ s, i ≠ j → δ / 2 ≤ dist (x i) (x j) := fun i hi j hj hij => by
    have := hsp i j hij (Finset.mem_filter.1 hi).2 (Finset.mem_filter.1 hj).2
    linarith
  have h2' := Packing.sum_triangles_le (s := s) (x := x) (δ := δ / 2) (R := δ / 2) (by positivity) le_rfl hss his
  refine le_of_eq_of_le ?_ h2'
  have e : ∀ f : Fin n → Fin n → ℝ, ∑ j ∈ s, ∑ k ∈ s, f j k =
      ∑ j, ∑ k, (if Z j ≠ 0 ∧ Z k ≠ 0 then f j k else 0) := by
    intro f
    rw [hs, Finset.sum_filter]
    refine Finset.sum_congr rfl fun j _ => ?_
    by_cases hj : Z j ≠ 0
    · rw [if_pos hj, Finset.sum_filter]
      exact Finset.sum_congr rfl fun k _ => by simp [hj]
    · rw [if_neg hj]
      exact (Finset.sum_eq_zero fun k _ => if_neg fun h => hj h.1).symm
  rw [e]
  refine Finset.sum_congr rfl fun j _ => Finset.sum_congr rfl fun k _ => ?_
  by_cases h : Z i ≠ 0 ∧ Z j ≠ 0 ∧ Z k ≠ 0 ∧ i ≠ j ∧ i ≠ k ∧ j ≠ k
  · obtain ⟨h1, h2, h3, h4, h5, h6⟩ := h
    have := hsp i j h4 h1 h2
    rw [if_pos ⟨h1, h2, h3, h4, h5, h6⟩, if_pos ⟨h2, h3⟩, if_pos ⟨h4, h5, h6, Or.inl (by linarith)⟩]
  · rw [if_neg h]
    by_cases h' : Z j ≠ 0 ∧ Z k ≠ 0
    · rw [if_pos h', if_neg fun h'' => h ⟨hi, h'.1, h'.2, h''.1, h''.2.1, h''.2.2.1⟩]
    · rw [if_neg h']

/-- The distances of real atoms are on the same side of `c` in both geometries. -/
def Spec.SameSide (c : ℝ) (Z : Fin n → ℕ) (x x' : Fin n → Spec.E3) : Prop :=
  ∀ i j, i ≠ j → Z i ≠ 0 → Z j ≠ 0 → (dist (x i) (x j) ≤ c ↔ dist (x' i) (x' j) ≤ c)

theorem abs_energy_le_magnitude (S : Spec.Settings) (M : Spec.Mol n) (i : Fin n) :
    |Spec.energy S M i| ≤ Spec.magnitude S M i := by
  unfold Spec.energy Spec.magnitude Spec.e2 Spec.e3
  refine (abs_add_le _ _).trans (add_le_add ?_ ?_)
  · rw [abs_mul, show |(-(1 / 2) : ℝ)| = 1 / 2 by norm_num]
    refine mul_le_mul_of_nonneg_left ((Finset.abs_sum_le_sum_abs _ _).trans (Finset.sum_le_sum fun j _ => ?_)) (by norm_num)
    split_ifs
    · exact le_rfl
    · simp
  · rw [abs_mul, show |(1 / 6 : ℝ)| = 1 / 6 by norm_num]
    refine mul_le_mul_of_nonneg_left ((Finset.abs_sum_le_sum_abs _ _).trans (Finset.sum_le_sum fun j _ =>
      (Finset.abs_sum_le_sum_abs _ _).trans (Finset.sum_le_sum fun k _ => ?_))) (by norm_num)
    split_ifs
    · exact le_rfl
    · simp

set_option maxHeartbeats 1000000 in
/-- Change of the energy of an atom if all atoms move by at most `h`. -/
theorem energy_move_core (hT : T.Physical R.rq) (hga : 0 ≤ R.ga) (hgc : 0 < R.gc) (ha1 : 0 ≤ P.a1) (ha2 : 0 ≤ P.a2)
    (hδ : √env.eps ≤ δ) : ∃ K K' : ℝ, 0 ≤ K ∧ 0 ≤ K' ∧ ∀ (n : ℕ) (M M' : Spec.Mol n) (c : Cutoff), SameButPos M M' →
      (∀ i, M.Z i < T.nZ) → (∀ i, M.Q i = T.r4r2 (M.Z i)) → Spec.Spaced δ M.Z M.pos → Spec.Spaced δ M.Z M'.pos →
      Spec.SameSide c.disp2 M.Z M.pos M'.pos → Spec.SameSide c.disp3 M.Z M.pos M'.pos →
      ∀ h, 0 ≤ h → (∀ i, M.Z i ≠ 0 → dist (M.pos i) (M'.pos i) ≤ h) →
      ∀ i, |Spec.energy (d4Computed env T R P c) M' i - Spec.energy (d4Computed env T R P c) M i| ≤
        K * ((1 + 2 * h / δ) ^ 10 - 1) + K' * (4 * ((1 + 2 * h / δ) ^ (3 * |P.alp / 3| + 9) - 1) + 72 * h / δ) := by
  have hδ0 : 0 < δ := (Real.sqrt_pos.2 env.eps_pos).trans_le hδ
  have hC : 0 ≤ c6Max env T R := mul_nonneg thopi_pos.le (Finset.sum_nonneg fun w _ =>
    mul_nonneg (trapzWeights_nonneg w) (mul_self_nonneg _))
  set C := c6Max env T R with hCdef
  set Q := ∑ Z ∈ Finset.range T.nZ, |T.r4r2 Z| with hQdef
  have hQ0 : 0 ≤ Q := Finset.sum_nonneg fun _ _ => abs_nonneg _
  have hQ : ∀ Z < T.nZ, |T.r4r2 Z| ≤ Q := fun Z hZ =>
    Finset.single_le_sum (f := fun Z => |T.r4r2 Z|) (fun _ _ => abs_nonneg _) (Finset.mem_range.2 hZ)
  set A := (|P.s6| + |P.s8| * (3 * Q * Q) / δ ^ 2 + |P.s10| * ((3 * Q * Q) ^ 2 * 49 / 40) / δ ^ 4) * C with hA
  set A3 := |P.s9| * √(max (C * C * C) env.eps) with hA3
  have hA0 : 0 ≤ A := by positivity
  have hA30 : 0 ≤ A3 := by positivity
  refine ⟨1 / 2 * (A * (5488 / δ ^ 6)), 1 / 6 * (A3 * (6 * (5488 / (δ / 2) ^ 4 * (5488 / ((δ / 2) ^ 3 * (δ / 2) ^ 2))))),
    by positivity, by positivity, fun n M M' c hM hZ hMQ hsp hsp' hs2 hs3 h h0 hd i => ?_⟩
  set l := 1 + 2 * h / δ with hl
  have hl1 : 1 ≤ l := by rw [hl]; have : 0 ≤ 2 * h / δ := by positivity
                         linarith
  set G := 4 * (l ^ (3 * |P.alp / 3| + 9) - 1) + 72 * h / δ with hG
  have hG0 : 0 ≤ G := by
    have h1 : 1 ≤ l ^ (3 * |P.alp / 3| + 9) := Real.one_le_rpow hl1 (by positivity)
    have h2 : 0 ≤ 72 * h / δ := by positivity
    rw [hG]
    linarith
  have hl10 : 0 ≤ l ^ 10 - 1 := sub_nonneg.2 (one_le_pow₀ hl1)
  set S := d4Computed env T R P c with hS
  have hr : ∀ j k, j ≠ k → M.Z j ≠ 0 → M.Z k ≠ 0 → M.r env.eps j k = dist (M.pos j) (M.pos k) := by
    intro j k hjk hj hk
    rw [Spec.r_eq_max env.eps_pos]
    exact max_eq_left (hδ.trans (hsp j k hjk hj hk))
  have hr' : ∀ j k, j ≠ k → M.Z j ≠ 0 → M.Z k ≠ 0 → M'.r env.eps j k = dist (M'.pos j) (M'.pos k) := by
    intro j k hjk hj hk
    rw [Spec.r_eq_max env.eps_pos]
    exact max_eq_left (hδ.trans (hsp' j k hjk hj hk))
  have hd' : ∀ i, M.Z i ≠ 0 → dist (M'.pos i) (M.pos i) ≤ h := fun i hi => by rw [dist_comm]; exact hd i hi
  have hf : ∀ j k, j ≠ k → M.Z j ≠ 0 → M.Z k ≠ 0 → dist (M'.pos j) (M'.pos k) ≤ l * dist (M.pos j) (M.pos k) :=
    fun j k hjk hj hk => sides_factor hδ0 (hsp j k hjk hj hk) (hd j hj) (hd k hk)
  have hf' : ∀ j k, j ≠ k → M.Z j ≠ 0 → M.Z k ≠ 0 → dist (M.pos j) (M.pos k) ≤ l * dist (M'.pos j) (M'.pos k) :=
    fun j k hjk hj hk => sides_factor hδ0 (hsp' j k hjk hj hk) (hd' j hj) (hd' k hk)
  have hc6 : ∀ a a' : Spec.AtomData, a.Z < T.nZ → a'.Z < T.nZ → c6At env T R a a' ≤ C :=
    fun a a' hA hA' => c6At_le hT hga hgc a a' hA hA'
  have n6 := c6At_nonneg (env := env) (T := T) (R := R)
  have ea : M'.atom = M.atom := by funext i; unfold Spec.Mol.atom; rw [hM.Z, hM.cn, hM.q]
  have en : M'.neutral = M.neutral := by funext i; unfold Spec.Mol.neutral; rw [hM.Z, hM.cn]
  have eR : Spec.R0 S M' = Spec.R0 S M := by funext i j; unfold Spec.R0; rw [hM.Q]
  unfold Spec.energy
  rw [add_sub_add_comm]
  refine (abs_add_le _ _).trans (add_le_add ?_ ?_)
  · unfold Spec.e2
    rw [← mul_sub, ← Finset.sum_sub_distrib, abs_mul, show |(-(1 / 2) : ℝ)| = 1 / 2 by norm_num, mul_assoc]
    refine mul_le_mul_of_nonneg_left ((Finset.abs_sum_le_sum_abs _ _).trans ?_) (by norm_num)
    have h1 : ∀ j, |(if M'.Z i ≠ 0 ∧ M'.Z j ≠ 0 ∧ i ≠ j ∧ M'.r S.ε i j ≤ S.cut2 then Spec.pairTerm S M' M'.atom i j else 0) -
        (if M.Z i ≠ 0 ∧ M.Z j ≠ 0 ∧ i ≠ j ∧ M.r S.ε i j ≤ S.cut2 then Spec.pairTerm S M M.atom i j else 0)| ≤
        A * (l ^ 10 - 1) * (if M.Z i ≠ 0 ∧ M.Z j ≠ 0 ∧ i ≠ j then 1 / dist (M.pos i) (M.pos j) ^ 6 else 0) := by
      intro j
      rw [hM.Z]
      by_cases hij : M.Z i ≠ 0 ∧ M.Z j ≠ 0 ∧ i ≠ j
      · rw [if_pos hij]
        obtain ⟨hi, hj, hne⟩ := hij
        have hdist := hsp i j hne hi hj
        have hd0 : 0 < dist (M.pos i) (M.pos j) := hδ0.trans_le hdist
        have hside : M'.r S.ε i j ≤ S.cut2 ↔ M.r S.ε i j ≤ S.cut2 := by
          show M'.r env.eps i j ≤ c.disp2 ↔ M.r env.eps i j ≤ c.disp2
          rw [hr i j hne hi hj, hr' i j hne hi hj]
          exact (hs2 i j hne hi hj).symm
        by_cases hc : M.r S.ε i j ≤ S.cut2
        · rw [if_pos ⟨hi, hj, hne, hside.2 hc⟩, if_pos ⟨hi, hj, hne, hc⟩]
          rw [hS, pairFactor_eq, pairFactor_eq, hM.Q, ea, hr i j hne hi hj, hr' i j hne hi hj, ← sub_mul, abs_mul,
            abs_of_nonneg (n6 _ _)]
          have h1 := pairFactor_move (P := P) ha1 ha2 hδ0 hdist (hδ0.trans_le (hsp' i j hne hi hj)) hl1 (hf i j hne hi hj)
            (hf' i j hne hi hj) (x := 3 * M.Q i * M.Q j) (X := 3 * Q * Q) (by
              rw [abs_mul, abs_mul, abs_of_pos (by norm_num : (0 : ℝ) < 3), hMQ, hMQ]
              exact mul_le_mul (mul_le_mul_of_nonneg_left (hQ _ (hZ i)) (by norm_num)) (hQ _ (hZ j)) (abs_nonneg _)
                (by positivity))
          refine (mul_le_mul h1 (hc6 _ _ (hZ i) (hZ j)) (n6 _ _) (mul_nonneg hl10 (by positivity))).trans (le_of_eq ?_)
          rw [hA]
          ring
        · rw [if_neg fun h' => hc (hside.1 h'.2.2.2), if_neg fun h' => hc h'.2.2.2, sub_self, abs_zero]
          positivity
      · rw [if_neg hij, if_neg fun h' => hij ⟨h'.1, h'.2.1, h'.2.2.1⟩, if_neg fun h' => hij ⟨h'.1, h'.2.1, h'.2.2.1⟩]
        simp
    refine (Finset.sum_le_sum fun j _ => h1 j).trans ?_
    rw [← Finset.mul_sum]
    calc _ ≤ A * (l ^ 10 - 1) * (5488 / δ ^ 6) :=
          mul_le_mul_of_nonneg_left (spaced_sum_six hδ0 hsp i) (mul_nonneg hA0 hl10)
      _ = _ := by ring
  · unfold Spec.e3
    rw [← mul_sub, ← Finset.sum_sub_distrib, abs_mul, show |(1 / 6 : ℝ)| = 1 / 6 by norm_num, mul_assoc]
    refine mul_le_mul_of_nonneg_left ((Finset.abs_sum_le_sum_abs _ _).trans ?_) (by norm_num)
    have h1 : ∀ j k, |(if M'.Z i ≠ 0 ∧ M'.Z j ≠ 0 ∧ M'.Z k ≠ 0 ∧ i ≠ j ∧ i ≠ k ∧ j ≠ k ∧ Spec.withinCut3 S M' i j k then
          Spec.tripleTerm S M' (Spec.c9 S M'.neutral) (Spec.R0 S M') i j k else 0) -
        (if M.Z i ≠ 0 ∧ M.Z j ≠ 0 ∧ M.Z k ≠ 0 ∧ i ≠ j ∧ i ≠ k ∧ j ≠ k ∧ Spec.withinCut3 S M i j k then
          Spec.tripleTerm S M (Spec.c9 S M.neutral) (Spec.R0 S M) i j k else 0)| ≤
        A3 * G * (if M.Z i ≠ 0 ∧ M.Z j ≠ 0 ∧ M.Z k ≠ 0 ∧ i ≠ j ∧ i ≠ k ∧ j ≠ k then
          1 / (dist (M.pos i) (M.pos j) * dist (M.pos i) (M.pos k) * dist (M.pos j) (M.pos k)) ^ 3 else 0) := by
      intro j k
      rw [hM.Z]
      by_cases hijk : M.Z i ≠ 0 ∧ M.Z j ≠ 0 ∧ M.Z k ≠ 0 ∧ i ≠ j ∧ i ≠ k ∧ j ≠ k
      · rw [if_pos hijk]
        obtain ⟨hi, hj, hk, nij, nik, njk⟩ := hijk
        have hside : Spec.withinCut3 S M' i j k ↔ Spec.withinCut3 S M i j k := by
          show (M'.r env.eps i j ≤ c.disp3 ∧ M'.r env.eps j k ≤ c.disp3) ↔
            (M.r env.eps i j ≤ c.disp3 ∧ M.r env.eps j k ≤ c.disp3)
          rw [hr i j nij hi hj, hr' i j nij hi hj, hr j k njk hj hk, hr' j k njk hj hk]
          exact and_congr (hs3 i j nij hi hj).symm (hs3 j k njk hj hk).symm
        by_cases hc : Spec.withinCut3 S M i j k
        · rw [if_pos ⟨hi, hj, hk, nij, nik, njk, hside.2 hc⟩, if_pos ⟨hi, hj, hk, nij, nik, njk, hc⟩]
          have pd : ∀ {a b}, a ≠ b → M.Z a ≠ 0 → M.Z b ≠ 0 → 0 < dist (M.pos a) (M.pos b) := fun hab ha hb =>
            hδ0.trans_le (hsp _ _ hab ha hb)
          have pd' : ∀ {a b}, a ≠ b → M.Z a ≠ 0 → M.Z b ≠ 0 → 0 < dist (M'.pos a) (M'.pos b) := fun hab ha hb =>
            hδ0.trans_le (hsp' _ _ hab ha hb)
          have hR0 : ∀ a b, 0 ≤ Spec.R0 S M a b := fun a b => add_nonneg (mul_nonneg ha1 (Real.sqrt_nonneg _)) ha2
          set x := dist (M.pos i) (M.pos j) with hx
          set y := dist (M.pos i) (M.pos k) with hy
          set z := dist (M.pos j) (M.pos k) with hz
          set x' := dist (M'.pos i) (M'.pos j) with hx'
          set y' := dist (M'.pos i) (M'.pos k) with hy'
          set z' := dist (M'.pos j) (M'.pos k) with hz'
          set RR := Spec.R0 S M i j * Spec.R0 S M i k * Spec.R0 S M j k with hRR
          have hRR' : 0 ≤ RR := mul_nonneg (mul_nonneg (hR0 _ _) (hR0 _ _)) (hR0 _ _)
          set C9 := Spec.c9 S M.neutral i j k with hC9
          have e1 : Spec.tripleTerm S M (Spec.c9 S M.neutral) (Spec.R0 S M) i j k =
              P.s9 * C9 * (1 / (1 + 6 * (RR / (x * y * z)) ^ (P.alp / 3)) *
                ((3 * Spec.cosSides x y z * Spec.cosSides x z y * Spec.cosSides y z x + 1) / (x * y * z) ^ 3)) := by
            simp only [Spec.tripleTerm]
            rw [show M.r S.ε i j = x from hr i j nij hi hj, show M.r S.ε i k = y from hr i k nik hi hk,
              show M.r S.ε j k = z from hr j k njk hj hk, mul_assoc (S.s9 * _)]
            rfl
          have e2 : Spec.tripleTerm S M' (Spec.c9 S M'.neutral) (Spec.R0 S M') i j k =
              P.s9 * C9 * (1 / (1 + 6 * (RR / (x' * y' * z')) ^ (P.alp / 3)) *
                ((3 * Spec.cosSides x' y' z' * Spec.cosSides x' z' y' * Spec.cosSides y' z' x' + 1) /
                  (x' * y' * z') ^ 3)) := by
            rw [en, eR]
            simp only [Spec.tripleTerm]
            rw [show M'.r S.ε i j = x' from hr' i j nij hi hj, show M'.r S.ε i k = y' from hr' i k nik hi hk,
              show M'.r S.ε j k = z' from hr' j k njk hj hk, mul_assoc (S.s9 * _)]
            rfl
          have ca := cosSides_move hδ0 (hsp i j nij hi hj) (hsp i k nik hi hk) (pd' nij hi hj) (pd' nik hi hk)
            (hd i hi) (hd j hj) (hd k hk)
          have cb := cosSides_move hδ0 (hsp j i nij.symm hj hi) (hsp j k njk hj hk) (pd' nij.symm hj hi) (pd' njk hj hk)
            (hd j hj) (hd i hi) (hd k hk)
          have cc := cosSides_move hδ0 (hsp k i nik.symm hk hi) (hsp k j njk.symm hk hj) (pd' nik.symm hk hi)
            (pd' njk.symm hk hj) (hd k hk) (hd i hi) (hd j hj)
          rw [dist_comm (M.pos j) (M.pos i), dist_comm (M'.pos j) (M'.pos i)] at cb
          rw [dist_comm (M.pos k) (M.pos i), dist_comm (M'.pos k) (M'.pos i), dist_comm (M.pos k) (M.pos j),
            dist_comm (M'.pos k) (M'.pos j)] at cc
          rw [← hx, ← hy, ← hz, ← hx', ← hy', ← hz'] at ca cb cc
          have t1 : z ≤ x + y := by rw [hx, dist_comm]; exact dist_triangle _ _ _
          have t2 : x ≤ y + z := by rw [hz, dist_comm (M.pos j)]; exact dist_triangle _ _ _
          have t3 : y ≤ x + z := dist_triangle _ _ _
          have t1' : z' ≤ x' + y' := by rw [hx', dist_comm]; exact dist_triangle _ _ _
          have t2' : x' ≤ y' + z' := by rw [hz', dist_comm (M'.pos j)]; exact dist_triangle _ _ _
          have t3' : y' ≤ x' + z' := dist_triangle _ _ _
          have px := pd nij hi hj
          have py := pd nik hi hk
          have pz := pd njk hj hk
          have px' := pd' nij hi hj
          have py' := pd' nik hi hk
          have pz' := pd' njk hj hk
          have m1 := Spec.cosSides_abs px py t1 t2 t3
          have m2 := Spec.cosSides_abs px pz t3 (by linarith) (by linarith)
          have m3 := Spec.cosSides_abs py pz t2 (by linarith) (by linarith)
          have m1' := Spec.cosSides_abs px' py' t1' t2' t3'
          have m2' := Spec.cosSides_abs px' pz' t3' (by linarith) (by linarith)
          have m3' := Spec.cosSides_abs py' pz' t2' (by linarith) (by linarith)
          set α := Spec.cosSides x y z
          set β := Spec.cosSides x z y
          set γ := Spec.cosSides y z x
          set α' := Spec.cosSides x' y' z'
          set β' := Spec.cosSides x' z' y'
          set γ' := Spec.cosSides y' z' x'
          have hΘ' := angular_le m1' m2' m3'
          have hΘ := angular_move (by positivity : 0 ≤ 8 * h / δ) ca cb cc m1 m2 m2' m3'
          rw [show 9 * (8 * h / δ) = 72 * h / δ by ring] at hΘ
          have key := tripleShape_move (a := P.alp / 3) hRR' px py pz px' py' pz' hl1 (hf i j nij hi hj)
            (hf i k nik hi hk) (hf j k njk hj hk) (hf' i j nij hi hj) (hf' i k nik hi hk) (hf' j k njk hj hk) hΘ' hΘ
          have hC9le : C9 ≤ √(max (C * C * C) env.eps) := by
            show √(max |c6At env T R (M.neutral i) (M.neutral j) * c6At env T R (M.neutral i) (M.neutral k) *
              c6At env T R (M.neutral j) (M.neutral k)| env.eps) ≤ _
            rw [abs_of_nonneg (mul_nonneg (mul_nonneg (n6 _ _) (n6 _ _)) (n6 _ _))]
            refine Real.sqrt_le_sqrt (max_le_max ?_ le_rfl)
            exact mul_le_mul (mul_le_mul (hc6 _ _ (hZ i) (hZ j)) (hc6 _ _ (hZ i) (hZ k)) (n6 _ _) hC)
              (hc6 _ _ (hZ j) (hZ k)) (n6 _ _) (mul_nonneg hC hC)
          have hC90 : 0 ≤ C9 := Spec.rsqrt_nonneg _ _
          rw [e1, e2, ← mul_sub, abs_mul, abs_mul, abs_of_nonneg hC90, mul_assoc A3]
          exact mul_le_mul (mul_le_mul_of_nonneg_left hC9le (abs_nonneg _)) key (abs_nonneg _) hA30
        · rw [if_neg fun h' => hc (hside.1 h'.2.2.2.2.2.2), if_neg fun h' => hc h'.2.2.2.2.2.2, sub_self, abs_zero]
          positivity
      · rw [if_neg hijk, if_neg fun h' => hijk ⟨h'.1, h'.2.1, h'.2.2.1, h'.2.2.2.1, h'.2.2.2.2.1, h'.2.2.2.2.2.1⟩,
          if_neg fun h' => hijk ⟨h'.1, h'.2.1, h'.2.2.1, h'.2.2.2.1, h'.2.2.2.2.1, h'.2.2.2.2.2.1⟩]
        simp
    calc _ ≤ ∑ j, ∑ k, A3 * G * (if M.Z i ≠ 0 ∧ M.Z j ≠ 0 ∧ M.Z k ≠ 0 ∧ i ≠ j ∧ i ≠ k ∧ j ≠ k then
          1 / (dist (M.pos i) (M.pos j) * dist (M.pos i) (M.pos k) * dist (M.pos j) (M.pos k)) ^ 3 else 0) := by
          refine Finset.sum_le_sum fun j _ => ?_
          rw [← Finset.sum_sub_distrib]
          exact (Finset.abs_sum_le_sum_abs _ _).trans (Finset.sum_le_sum fun k _ => h1 j k)
      _ ≤ A3 * G * (6 * (5488 / (δ / 2) ^ 4 * (5488 / ((δ / 2) ^ 3 * (δ / 2) ^ 2)))) := by
          simp only [← Finset.mul_sum]
          exact mul_le_mul_of_nonneg_left (spaced_sum_triangles hδ0 hsp i) (mul_nonneg hA30 hG0)
      _ = _ := by ring

private theorem rpow_lin {h N : ℝ} (hδ : 0 < δ) (h0 : 0 ≤ h) (hh : h ≤ δ) (hN : 0 ≤ N) :
    (1 + 2 * h / δ) ^ N - 1 ≤ 2 * N / δ * Real.exp (2 * N) * h := by
  have hx : 0 ≤ 2 * h / δ := by positivity
  set t := 2 * h / δ * N with ht
  have ht0 : 0 ≤ t := by positivity
  have h1 : (1 + 2 * h / δ) ^ N ≤ Real.exp t := by
    rw [ht, Real.exp_mul]
    exact Real.rpow_le_rpow (by positivity) (by linarith [Real.add_one_le_exp (2 * h / δ)]) hN
  have h2 : Real.exp t - 1 ≤ t * Real.exp t := by
    have := Real.add_one_le_exp (-t)
    have h3 : Real.exp (-t) * Real.exp t = 1 := by rw [← Real.exp_add]; simp
    nlinarith [Real.exp_pos t]
  have h3 : t ≤ 2 * N := by
    rw [ht, div_mul_eq_mul_div, div_le_iff₀ hδ]
    nlinarith
  calc _ ≤ t * Real.exp t := by linarith
    _ ≤ t * Real.exp (2 * N) := mul_le_mul_of_nonneg_left (Real.exp_le_exp.2 h3) ht0
    _ = _ := by rw [ht]; ring

/-- Energies of atoms that keep a distance `δ` change at most in proportion to the displacement. -/
theorem energy_move (hT : T.Physical R.rq) (hga : 0 ≤ R.ga) (hgc : 0 < R.gc) (ha1 : 0 ≤ P.a1) (ha2 : 0 ≤ P.a2)
    (hδ : √env.eps ≤ δ) : ∃ K : ℝ, 0 ≤ K ∧ ∀ (n : ℕ) (M M' : Spec.Mol n) (c : Cutoff), SameButPos M M' →
      (∀ i, M.Z i < T.nZ) → (∀ i, M.Q i = T.r4r2 (M.Z i)) → Spec.Spaced δ M.Z M.pos → Spec.Spaced δ M.Z M'.pos →
      Spec.SameSide c.disp2 M.Z M.pos M'.pos → Spec.SameSide c.disp3 M.Z M.pos M'.pos →
      ∀ h, 0 ≤ h → (∀ i, M.Z i ≠ 0 → dist (M.pos i) (M'.pos i) ≤ h) →
      ∀ i, |Spec.energy (d4Computed env T R P c) M' i - Spec.energy (d4Computed env T R P c) M i| ≤ K * h := by
  have hδ0 : 0 < δ := (Real.sqrt_pos.2 env.eps_pos).trans_le hδ
  obtain ⟨K, K', hK0, hK0', hK⟩ := energy_move_core (env := env) (T := T) (R := R) (P := P) hT hga hgc ha1 ha2 hδ
  obtain ⟨E, hE0, hE⟩ := magnitude_le (env := env) (T := T) (R := R) (P := P) hT hga hgc ha1 ha2 hδ
  set N := 3 * |P.alp / 3| + 9 with hN
  have hN0 : 0 ≤ N := by positivity
  set L := K * (2 * 10 / δ * Real.exp (2 * 10)) + K' * (4 * (2 * N / δ * Real.exp (2 * N)) + 72 / δ) with hL
  have hL0 : 0 ≤ L := by positivity
  refine ⟨L + 2 * E / δ, by positivity, fun n M M' c hM hZ hMQ hsp hsp' hs2 hs3 h h0 hd i => ?_⟩
  rcases le_total h δ with hh | hh
  · refine (hK n M M' c hM hZ hMQ hsp hsp' hs2 hs3 h h0 hd i).trans ?_
    have e10 : (1 + 2 * h / δ) ^ 10 = (1 + 2 * h / δ) ^ (10 : ℝ) := by
      exact_mod_cast (Real.rpow_natCast (1 + 2 * h / δ) 10).symm
    have h1 := rpow_lin hδ0 h0 hh (show (0 : ℝ) ≤ 10 by norm_num)
    have h2 := rpow_lin hδ0 h0 hh hN0
    rw [e10]
    have h3 := mul_le_mul_of_nonneg_left h1 hK0
    have h4 := mul_le_mul_of_nonneg_left h2 hK0'
    have h5 : 0 ≤ 2 * E / δ * h := by positivity
    have e : (L + 2 * E / δ) * h = K * (2 * 10 / δ * Real.exp (2 * 10) * h) +
        4 * (K' * (2 * N / δ * Real.exp (2 * N) * h)) + K' * (72 * h / δ) + 2 * E / δ * h := by rw [hL]; ring
    rw [e, mul_add]
    linarith
  · have h1 := (abs_energy_le_magnitude (d4Computed env T R P c) M i).trans (hE n M c hZ hMQ hsp i)
    have h2 := (abs_energy_le_magnitude (d4Computed env T R P c) M' i).trans (hE n M' c (fun i => by rw [hM.Z]; exact hZ i)
      (fun i => by rw [hM.Z, hM.Q]; exact hMQ i) (by rw [hM.Z]; exact hsp') i)
    refine (abs_sub _ _).trans ?_
    have h3 : 2 * E ≤ 2 * E / δ * h := by
      rw [div_mul_eq_mul_div, le_div_iff₀ hδ0]
      exact mul_le_mul_of_nonneg_left hh (by positivity)
    have h4 : 0 ≤ L * h := by positivity
    rw [add_mul]
    linarith

end

end TadDftd4
