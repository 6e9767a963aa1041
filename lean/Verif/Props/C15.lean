import Verif.Lemmas.C6Spec

/-!
# C15: charge scaling is bounded, decreasing and neutral at the reference charge

`zetaF eps ga η zref z` is `_zeta(gam=η, qref=zref, qmod=z)` with maximum scaling height `ga`, in IEEE
arithmetic without rounding; a result `.fin v` is the number `v`.
-/

open scoped Classical

namespace TadDftd4

open Tensor

variable {eps ga η zref z z' : ℝ}

/-- Always a positive number not larger than `exp(ga)`. -/
theorem C15_bounds (hga : 0 ≤ ga) (hη : 0 < η) (hr : 0 < zref) :
    ∃ v, zetaF eps ga η zref z = .fin v ∧ 0 < v ∧ v ≤ Real.exp ga := by
  refine ⟨_, zetaF_spec hη hr, ?_, ?_⟩
  · unfold Spec.zeta; split_ifs <;> exact Real.exp_pos _
  · unfold Spec.zeta
    split_ifs
    · exact le_rfl
    · refine Real.exp_le_exp.2 ?_
      have := Real.exp_pos (η * (1 - zref / (z - eps)))
      nlinarith

/-- Zero hardness: no scaling (`exp 0 = 1`) for positive charge different from `eps`. -/
theorem C15_no_hardness (hz : 0 < z) (he : z ≠ eps) :
    zetaF eps ga 0 zref z = .fin 1 := by
  have h2 : z - eps ≠ 0 := sub_ne_zero.2 he
  simp [zetaF, hz, scaleF, FP.div, h2, FP.sub, FP.neg, FP.add, FP.mul, FP.exp]

/-- The maximum is attained for every non-positive effective charge. -/
theorem C15_nonpositive (hz : z ≤ 0) : zetaF eps ga η zref z = .fin (Real.exp ga) := by
  simp [zetaF, not_lt.2 hz]

/-- One at the reference charge shifted by `eps`. -/
theorem C15_reference_shifted (hη : 0 < η) (hr : 0 < zref) (heps : 0 < eps) :
    zetaF eps ga η zref (zref + eps) = .fin 1 := by
  rw [zetaF_spec hη hr, Spec.zeta, if_neg (by rintro (h | h) <;> linarith)]
  rw [add_sub_cancel_right, div_self hr.ne']
  simp

/-- At the reference charge itself the scaling is 1 up to a factor `exp(ga η eps / (zref - eps))`. -/
theorem C15_reference (hga : 0 ≤ ga) (hη : 0 < η) (heps : 0 < eps) (hr : eps < zref) :
    ∃ v, zetaF eps ga η zref zref = .fin v ∧ 1 ≤ v ∧
      v ≤ Real.exp (ga * (η * (eps / (zref - eps)))) := by
  have hr0 : 0 < zref := heps.trans hr
  have hd : 0 < zref - eps := by linarith
  refine ⟨_, zetaF_spec hη hr0, ?_⟩
  rw [Spec.zeta, if_neg (by rintro (h | h) <;> linarith)]
  have e : η * (1 - zref / (zref - eps)) = -(η * (eps / (zref - eps))) := by field_simp; ring
  rw [e]
  have hp : 0 ≤ η * (eps / (zref - eps)) := by positivity
  constructor
  · refine Real.one_le_exp (mul_nonneg hga ?_)
    have := Real.exp_le_one_iff.2 (neg_nonpos.2 hp)
    linarith
  · refine Real.exp_le_exp.2 (mul_le_mul_of_nonneg_left ?_ hga)
    have := Real.add_one_le_exp (-(η * (eps / (zref - eps))))
    linarith

/-- The full statement: the scaling decreases with the charge. -/
def ZetaDecreases (eps ga η zref : ℝ) : Prop :=
  ∀ z z', z ≤ z' → (zetaF eps ga η zref z').toReal ≤ (zetaF eps ga η zref z).toReal

/-- Proved part: the smaller charge is not in the gap `(0, eps)`. There the code divides by a negative
number and the full statement is false, `C15_decreasing_false`. -/
theorem C15_decreasing_partial (hga : 0 ≤ ga) (hη : 0 < η) (hr : 0 < zref) (heps : 0 < eps)
    (hz : z ≤ 0 ∨ eps ≤ z) (h : z ≤ z') :
    (zetaF eps ga η zref z').toReal ≤ (zetaF eps ga η zref z).toReal := by
  by_cases hs : z ≤ 0 ∨ z = eps
  · obtain ⟨v, hv, _, hle⟩ := C15_bounds (eps := eps) (z := z') hga hη hr
    rw [hv, zetaF_spec hη hr, Spec.zeta, if_pos hs]
    exact hle
  · have h1 : eps < z := by
      rcases hz with hz | hz
      · exact absurd (Or.inl hz) hs
      · exact lt_of_le_of_ne hz fun e => hs (Or.inr e.symm)
    have hs' : ¬(z' ≤ 0 ∨ z' = eps) := by rintro (h | h) <;> linarith
    rw [zetaF_spec hη hr, zetaF_spec hη hr, Spec.zeta, Spec.zeta, if_neg hs, if_neg hs']
    show Real.exp _ ≤ Real.exp _
    refine Real.exp_le_exp.2 (mul_le_mul_of_nonneg_left ?_ hga)
    refine sub_le_sub_left (Real.exp_le_exp.2 (mul_le_mul_of_nonneg_left ?_ hη.le)) _
    refine sub_le_sub_left (div_le_div_of_nonneg_left hr.le ?_ ?_) _ <;> linarith

/-- Strictly decreasing above `eps`. -/
theorem C15_strict (hga : 0 < ga) (hη : 0 < η) (hr : 0 < zref) (heps : 0 < eps)
    (hz : eps < z) (h : z < z') :
    (zetaF eps ga η zref z').toReal < (zetaF eps ga η zref z).toReal := by
  have hs : ¬(z ≤ 0 ∨ z = eps) := by rintro (h | h) <;> linarith
  have hs' : ¬(z' ≤ 0 ∨ z' = eps) := by rintro (h | h) <;> linarith
  rw [zetaF_spec hη hr, zetaF_spec hη hr, Spec.zeta, Spec.zeta, if_neg hs, if_neg hs']
  show Real.exp _ < Real.exp _
  refine Real.exp_lt_exp.2 (mul_lt_mul_of_pos_left ?_ hga)
  refine sub_lt_sub_left (Real.exp_lt_exp.2 (mul_lt_mul_of_pos_left ?_ hη)) _
  refine sub_lt_sub_left (div_lt_div_of_pos_left hr ?_ ?_) _ <;> linarith

/-- For charges in `(0, eps)` the code returns less than 1, although it returns more than 1 for the
larger charge `eps`: the scaling is not decreasing. -/
theorem C15_decreasing_false (hga : 0 < ga) (hη : 0 < η) (hr : 0 < zref) (heps : 0 < eps) :
    ¬ ZetaDecreases eps ga η zref := by
  intro h
  have := h (eps / 2) eps (by linarith)
  rw [zetaF_spec hη hr, zetaF_spec hη hr, Spec.zeta, Spec.zeta, if_pos (Or.inr rfl),
    if_neg (by rintro (h | h) <;> linarith)] at this
  change Real.exp ga ≤ Real.exp _ at this
  have h1 := Real.exp_le_exp.1 this
  have h2 := Real.exp_pos (η * (1 - zref / (eps / 2 - eps)))
  nlinarith

/-- The tensor form of `_zeta`: every entry is bounded. -/
theorem C15_tensor {env : Env} {gam qref qmod : Tensor ℝ} {s : Shape} (hg : gam.Ok s)
    (hr : qref.Ok s) (hq : qmod.Ok s) (hga : 0 ≤ ga) (h1 : ∀ i, InB s i → 0 < gam.get i)
    (h2 : ∀ i, InB s i → 0 < qref.get i) :
    (zetaT env ga gam qref qmod).Ok s ∧ ∀ i, InB s i →
      0 < (zetaT env ga gam qref qmod).get i ∧
      (zetaT env ga gam qref qmod).get i ≤ Real.exp ga := by
  refine ⟨⟨by simp [zetaT, hg.err, hr.err, hq.err, hg.shape, hr.shape, hq.shape],
    by simp [zetaT, hg.shape, hr.shape, hq.shape]⟩, fun i hi => ?_⟩
  obtain ⟨v, hv, h3, h4⟩ := C15_bounds (eps := env.eps) (z := qmod.get i) hga (h1 i hi) (h2 i hi)
  have : (zetaT env ga gam qref qmod).get i = v := by
    simp only [zetaT, map_get, map3_get, hg.shape, hr.shape, hq.shape, bshape_self, pick_of_InB hi,
      hv]
    rfl
  rw [this]
  exact ⟨h3, h4⟩

/-- Oxygen-like numbers: hardness `2 * 0.43`, effective nuclear charge 8, reference charge -0.6. -/
example : ∃ v, zetaF (1 / 10 ^ 16) 3 (86 / 100) (74 / 10) (8 : ℝ) = .fin v ∧ 0 < v ∧ v < 1 := by
  obtain ⟨v, hv, h0, _⟩ := C15_bounds (eps := 1 / 10 ^ 16) (ga := 3) (η := 86 / 100)
    (zref := 74 / 10) (z := 8) (by norm_num) (by norm_num) (by norm_num)
  refine ⟨v, hv, h0, ?_⟩
  have := C15_strict (eps := 1 / 10 ^ 16) (ga := 3) (η := 86 / 100) (zref := 74 / 10)
    (z := 74 / 10 + 1 / 10 ^ 16) (z' := 8) (by norm_num) (by norm_num) (by norm_num) (by norm_num)
    (by norm_num) (by norm_num)
  rw [hv, C15_reference_shifted (by norm_num) (by norm_num) (by norm_num)] at this
  exact this

example : zetaF (1 / 10 ^ 16) 3 0 (74 / 10) (8 : ℝ) = .fin 1 := C15_no_hardness (by norm_num) (by norm_num)

example : zetaF (1 / 10 ^ 16) 3 (86 / 100) (74 / 10) (-1 : ℝ) = .fin (Real.exp 3) :=
  C15_nonpositive (by norm_num)

example := C15_reference (eps := 1 / 10 ^ 16) (ga := 3) (η := 86 / 100) (zref := 74 / 10)
  (by norm_num) (by norm_num) (by norm_num) (by norm_num)

example (env : Env) := C15_tensor (env := env) (ga := 3) (gam := full [2, 3] 0.5)
  (qref := full [2, 3] 7.4) (qmod := full [2, 3] 8) (s := [2, 3]) ⟨rfl, rfl⟩ ⟨rfl, rfl⟩ ⟨rfl, rfl⟩
  (by norm_num) (fun _ _ => by norm_num [full]) (fun _ _ => by norm_num [full])

end TadDftd4
