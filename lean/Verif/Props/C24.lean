import Verif.Props.C22
import Mathlib.Analysis.SpecialFunctions.Pow.Asymptotics

/-!
# C24: optimised-power damping stays finite at short range

Intended: `R^b/(R^b R^n + R0^b R0^n)` (`Spec.gOptPower`), bounded by `1/R0^n` (`C24_spec_bounded`).
The code has `R^n` instead of `R0^n` in the second term of the denominator, so it computes
`1/R^n * R^b/(R^b + R0^b)` (`C24_formula_partial`). This tends to infinity for `R → 0` whenever
`bet < n` (`C24_diverges`), and is bounded near zero when `bet ≥ n` (`C24_bounded_partial`). The
full statements `OptPowerFormula` and `OptPowerBounded` are false of the code.
-/

set_option linter.unusedSimpArgs false

open scoped Classical Topology

namespace TadDftd4

open Tensor Filter

/-- The intended function is bounded, for all positive distances. -/
theorem C24_spec_bounded {n : ℕ} {bet R0 R : ℝ} (hb : 0 ≤ bet) (h0 : 0 < R0) (hR : 0 < R) :
    0 < Spec.gOptPower n bet R0 R ∧ Spec.gOptPower n bet R0 R ≤ 1 / R0 ^ n := by
  unfold Spec.gOptPower
  have hRb := Real.rpow_pos_of_pos hR bet
  have h0b := Real.rpow_pos_of_pos h0 bet
  have hRn := pow_pos hR n
  have h0n := pow_pos h0 n
  refine ⟨by positivity, ?_⟩
  rw [div_le_div_iff₀ (by positivity) h0n, one_mul]
  rcases le_total R R0 with h | h
  · have := mul_le_mul_of_nonneg_right (Real.rpow_le_rpow hR.le h hb) h0n.le
    nlinarith [mul_pos hRb hRn]
  · have := mul_le_mul_of_nonneg_left (pow_le_pow_left₀ h0.le h n) hRb.le
    nlinarith [mul_pos h0b h0n]

section
variable {env : Env} {dist rad : Tensor ℝ} {s : Shape} {kw : Kw} {a1 a2 bet : ℝ} {order : ℕ}
  {od : Bool}

theorem op_point (h1 : kw.a1 = some a1) (h2 : kw.a2 = some a2) (h3 : kw.bet = some bet)
    (ho : order = 6 ∨ order = 8) (ha : kw.Active order) :
    Damping.point env .op order od kw = .ok (opF a1 a2 bet order) := by
  rw [ha.point]
  rcases ho with rfl | rfl <;> simp [Damping.required, Damping.pointF, h1, h2, h3]

/-- What is computed at positive distance, with critical radius `a1 √r + a2`. -/
theorem C24_formula_partial (hd : dist.Ok s) (hr : rad.Ok s) (h1 : kw.a1 = some a1)
    (h2 : kw.a2 = some a2) (h3 : kw.bet = some bet) (ho : order = 6 ∨ order = 8)
    (ha : kw.Active order) {i : Idx} (hi : InB s i) (hpos : 0 < dist.get i)
    (hR : 0 < a1 * √(rad.get i) + a2) :
    (Damping.call env .op dist rad order od kw).err = none ∧
    (Damping.call env .op dist rad order od kw).get i =
      1 / dist.get i ^ order *
        (dist.get i ^ bet / (dist.get i ^ bet + (a1 * √(rad.get i) + a2) ^ bet)) := by
  have := damping_call_point (env := env) (d := .op) hd hr order od kw
  rw [op_point h1 h2 h3 ho ha] at this
  refine ⟨this.1.err, ?_⟩
  rw [this.2 i hi, opF]
  have := Real.rpow_pos_of_pos hpos bet
  have := Real.rpow_pos_of_pos hR bet
  have := pow_pos hpos order
  field_simp

theorem op_scalar (h1 : kw.a1 = some a1) (h2 : kw.a2 = some a2) (h3 : kw.bet = some bet)
    (ho : order = 6 ∨ order = 8) (ha : kw.Active order) {r R : ℝ} (hR : 0 < R)
    (h0 : 0 < a1 * √r + a2) :
    (Damping.call env .op (scalar R) (scalar r) order od kw).get [] =
      1 / R ^ order * (R ^ bet / (R ^ bet + (a1 * √r + a2) ^ bet)) :=
  (C24_formula_partial (s := []) (dist := scalar R) (rad := scalar r) ⟨rfl, rfl⟩ ⟨rfl, rfl⟩ h1 h2 h3
    ho ha InB_nil hR h0).2

/-- The long-range limit is right: the damped interaction times `R^n` tends to one. -/
theorem C24_long_range (h1 : kw.a1 = some a1) (h2 : kw.a2 = some a2) (h3 : kw.bet = some bet)
    (ho : order = 6 ∨ order = 8) (ha : kw.Active order) (hb : 0 < bet) {r : ℝ}
    (h0 : 0 < a1 * √r + a2) :
    Tendsto (fun R => (Damping.call env .op (scalar R) (scalar r) order od kw).get [] * R ^ order)
      atTop (𝓝 1) := by
  set c := (a1 * √r + a2) ^ bet
  have h4 : Tendsto (fun R : ℝ => c / R ^ bet) atTop (𝓝 0) := (tendsto_rpow_atTop hb).const_div_atTop c
  have h5 : Tendsto (fun R : ℝ => (1 + c / R ^ bet)⁻¹) atTop (𝓝 1) := by
    simpa using (h4.const_add 1).inv₀ (by norm_num)
  refine h5.congr' ?_
  filter_upwards [eventually_gt_atTop 0] with R hR
  rw [op_scalar h1 h2 h3 ho ha hR h0]
  have := Real.rpow_pos_of_pos hR bet
  have hc : 0 < c := Real.rpow_pos_of_pos h0 bet
  have e : 1 + c / R ^ bet = (R ^ bet + c) / R ^ bet := by field_simp
  rw [e, inv_div]
  field_simp
  rfl

/-- With `bet ≥ n` the result stays bounded up to the critical radius. -/
theorem C24_bounded_partial (h1 : kw.a1 = some a1) (h2 : kw.a2 = some a2) (h3 : kw.bet = some bet)
    (ho : order = 6 ∨ order = 8) (ha : kw.Active order) (hb : (order : ℝ) ≤ bet) {r R : ℝ}
    (h0 : 0 < a1 * √r + a2) (hR : 0 < R) (hle : R ≤ a1 * √r + a2) :
    (Damping.call env .op (scalar R) (scalar r) order od kw).get [] ≤ 1 / (a1 * √r + a2) ^ order := by
  rw [op_scalar h1 h2 h3 ho ha hR h0]
  set R0 := a1 * √r + a2
  have hx := Real.rpow_pos_of_pos hR bet
  have hc := Real.rpow_pos_of_pos h0 bet
  have h4 : R ^ bet / (R ^ bet + R0 ^ bet) ≤ (R / R0) ^ bet := by
    rw [Real.div_rpow hR.le h0.le]
    exact div_le_div_of_nonneg_left hx.le hc (by linarith)
  have h5 : (R / R0) ^ bet ≤ (R / R0) ^ order := by
    rw [← Real.rpow_natCast]
    exact Real.rpow_le_rpow_of_exponent_ge (div_pos hR h0) ((div_le_one h0).2 hle) hb
  have hn := pow_pos hR order
  calc 1 / R ^ order * (R ^ bet / (R ^ bet + R0 ^ bet)) ≤ 1 / R ^ order * (R / R0) ^ order :=
        mul_le_mul_of_nonneg_left (h4.trans h5) (by positivity)
    _ = 1 / R0 ^ order := by rw [div_pow]; field_simp

/-- With `0 ≤ bet < n` the damped interaction tends to infinity at short range. -/
theorem C24_diverges (h1 : kw.a1 = some a1) (h2 : kw.a2 = some a2) (h3 : kw.bet = some bet)
    (ho : order = 6 ∨ order = 8) (ha : kw.Active order) (hb0 : 0 ≤ bet) (hb : bet < order) {r : ℝ}
    (h0 : 0 < a1 * √r + a2) :
    Tendsto (fun R => (Damping.call env .op (scalar R) (scalar r) order od kw).get [])
      (𝓝[>] 0) atTop := by
  set R0 := a1 * √r + a2
  have hc := Real.rpow_pos_of_pos h0 bet
  have hinv : Tendsto (fun R : ℝ => R⁻¹) (𝓝[>] 0) atTop := tendsto_inv_nhdsGT_zero
  have h4 : Tendsto (fun R : ℝ => (R⁻¹) ^ ((order : ℝ) - bet) * (1 / (2 * R0 ^ bet))) (𝓝[>] 0) atTop :=
    ((tendsto_rpow_atTop (by linarith : 0 < (order : ℝ) - bet)).comp hinv).atTop_mul_const
      (by positivity)
  refine tendsto_atTop_mono' _ ?_ h4
  filter_upwards [Ioo_mem_nhdsGT h0] with R hR
  obtain ⟨hR, hle⟩ := hR
  rw [op_scalar h1 h2 h3 ho ha hR h0]
  have hx := Real.rpow_pos_of_pos hR bet
  have hn := pow_pos hR order
  have h5 : (R⁻¹) ^ ((order : ℝ) - bet) = R ^ bet / R ^ order := by
    rw [Real.inv_rpow hR.le, Real.rpow_sub hR, Real.rpow_natCast, inv_div]
  have h6 : R ^ bet ≤ R0 ^ bet := Real.rpow_le_rpow hR.le hle.le hb0
  have h7 : 1 / (2 * R0 ^ bet) ≤ 1 / (R ^ bet + R0 ^ bet) :=
    one_div_le_one_div_of_le (by positivity) (by linarith)
  rw [h5]
  calc R ^ bet / R ^ order * (1 / (2 * R0 ^ bet)) ≤ R ^ bet / R ^ order * (1 / (R ^ bet + R0 ^ bet)) :=
        mul_le_mul_of_nonneg_left h7 (by positivity)
    _ = 1 / R ^ order * (R ^ bet / (R ^ bet + R0 ^ bet)) := by ring

end

/-- Full statement: the call returns the intended function. -/
def OptPowerFormula : Prop :=
  ∀ (env : Env) (a1 a2 bet R r : ℝ), 0 < a1 → 0 < a2 → 0 ≤ bet → 0 < R → 0 ≤ r →
    (Damping.call env .op (scalar R) (scalar r) 6 false
      { a1 := some a1, a2 := some a2, bet := some bet }).get [] =
    Spec.gOptPower 6 bet (a1 * √r + a2) R

/-- Full statement: the damped interaction is bounded by `1/R0^n`. -/
def OptPowerBounded : Prop :=
  ∀ (env : Env) (a1 a2 bet R r : ℝ), 0 < a1 → 0 < a2 → 0 ≤ bet → 0 < R → 0 ≤ r →
    (Damping.call env .op (scalar R) (scalar r) 6 false
      { a1 := some a1, a2 := some a2, bet := some bet }).get [] ≤ 1 / (a1 * √r + a2) ^ 6

/-- Both are false of the code (e.g. for `bet = 4`). -/
theorem C24_bounded_false : ¬ OptPowerBounded ∧ ¬ OptPowerFormula := by
  have hb : ¬ OptPowerBounded := by
    intro h
    have h1 := C24_diverges (env := Demo.env) (od := false) (order := 6) (a1 := 1) (a2 := 1)
      (bet := 4) (r := 0) (kw := { a1 := some 1, a2 := some 1, bet := some 4 }) rfl rfl rfl
      (Or.inl rfl) ⟨fun _ => Or.inl (by simp), by simp, by simp, by simp⟩ (by norm_num) (by norm_num)
      (by norm_num)
    have h2 := (h1.eventually_gt_atTop (1 / (1 * √0 + 1) ^ 6)).and self_mem_nhdsWithin
    obtain ⟨R, hR, hpos⟩ := h2.exists
    exact absurd (h Demo.env 1 1 4 R 0 one_pos one_pos (by norm_num) hpos le_rfl) (not_le.2 hR)
  refine ⟨hb, fun h => hb ?_⟩
  intro env a1 a2 bet R r h1 h2 h3 h4 h5
  rw [h env a1 a2 bet R r h1 h2 h3 h4 h5]
  exact (C24_spec_bounded h3 (by positivity) h4).2

/-- `bet = 6`, order 8 (the values of DFT-D3(op)) diverges. -/
example : Tendsto (fun R => (Damping.call Demo.env .op (scalar R) (scalar 28) 8 false
    { a1 := some 0.15, a2 := some 4.75, s8 := some 1, bet := some 6 }).get []) (𝓝[>] 0) atTop :=
  C24_diverges (a1 := 0.15) (a2 := 4.75) (bet := 6) rfl rfl rfl (Or.inr rfl)
    ⟨by simp, by simp, by simp, by simp⟩ (by norm_num) (by norm_num) (by positivity)

example := C24_bounded_partial (env := Demo.env) (order := 6) (od := false) (a1 := 0.15) (a2 := 4.75)
  (bet := 6) (r := 28) (R := 3) (kw := { a1 := some 0.15, a2 := some 4.75, bet := some 6 }) rfl rfl rfl
  (Or.inl rfl) ⟨by simp, by simp, by simp, by simp⟩ (by norm_num) (by positivity) (by norm_num)
  (by have : (0 : ℝ) ≤ √28 := Real.sqrt_nonneg _
      linarith)
example := C24_long_range (env := Demo.env) (order := 8) (od := false) (a1 := 0.15) (a2 := 4.75)
  (bet := 6) (r := 28) (kw := { a1 := some 0.15, a2 := some 4.75, s8 := some 1, bet := some 6 }) rfl
  rfl rfl (Or.inr rfl) ⟨by simp, by simp, by simp, by simp⟩ (by norm_num) (by positivity)
example := C24_spec_bounded (n := 6) (bet := 4) (R0 := 5) (R := 1 / 100) (by norm_num) (by norm_num)
  (by norm_num)

end TadDftd4
