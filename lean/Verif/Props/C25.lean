import Verif.Props.C23

/-!
# C25: modified zero damping is bounded by the undamped interaction

`f = 1/(1 + 6 (R/(rs R0) + bet R0)^-a)` (`Spec.fMZero`) with `a = alp` for order 6 and `a = alp + 2`
for order 8.
-/

set_option linter.unusedSimpArgs false

open scoped Classical Topology

namespace TadDftd4

open Tensor Filter

section
variable {env : Env} {dist dist' rad : Tensor ℝ} {s : Shape} {kw : Kw} {rs alp bet : ℝ}
  {order : ℕ} {od : Bool}

/-- Exponent of the given order. -/
noncomputable def expOf (alp : ℝ) (order : ℕ) : ℝ := if order = 8 then alp + 2 else alp

theorem mzero_point (hal : kw.alp = some alp) (hb : kw.bet = some bet)
    (ho : order = 6 ∧ kw.rs6 = some rs ∨ order = 8 ∧ kw.rs8 = some rs) :
    Damping.point env .mzero order od kw = .ok fun x r =>
      env.sdiv (mzeroF rs (expOf alp order) bet x r) (x ^ order) := by
  rcases ho with ⟨rfl, h⟩ | ⟨rfl, h⟩ <;>
    simp [Damping.point, Damping.required, Damping.pointF, h, hal, hb, expOf]

/-- The call returns the damping factor times `1/R^n`. -/
theorem C25_formula (hd : dist.Ok s) (hr : rad.Ok s) (hal : kw.alp = some alp)
    (hb : kw.bet = some bet)
    (ho : order = 6 ∧ kw.rs6 = some rs ∨ order = 8 ∧ kw.rs8 = some rs) {i : Idx} (hi : InB s i)
    (hR : 0 < dist.get i) :
    (Damping.call env .mzero dist rad order od kw).err = none ∧
    (Damping.call env .mzero dist rad order od kw).get i =
      Spec.fMZero (expOf alp order) rs bet (rad.get i) (dist.get i) * (1 / dist.get i ^ order) := by
  have := damping_call_point (env := env) (d := .mzero) hd hr order od kw
  rw [mzero_point hal hb ho] at this
  refine ⟨this.1.err, ?_⟩
  rw [this.2 i hi]
  beta_reduce
  rw [Env.sdiv, if_neg (pow_pos hR order).ne', mzeroF, div_eq_mul_one_div]
  rfl

theorem fMZero_bounds {a R0 R : ℝ} (hrs : 0 < rs) (hb : 0 ≤ bet) (h0 : 0 < R0) (hR : 0 < R) :
    0 < Spec.fMZero a rs bet R0 R ∧ Spec.fMZero a rs bet R0 R < 1 := by
  have ht : 0 < (R / (rs * R0) + bet * R0) ^ (-a) := Real.rpow_pos_of_pos (by positivity) _
  unfold Spec.fMZero
  refine ⟨by positivity, ?_⟩
  rw [div_lt_one (by positivity)]
  linarith

theorem fMZero_increasing {a R0 R R' : ℝ} (ha : 0 < a) (hrs : 0 < rs) (hb : 0 ≤ bet) (h0 : 0 < R0)
    (hR : 0 < R) (hlt : R < R') : Spec.fMZero a rs bet R0 R < Spec.fMZero a rs bet R0 R' := by
  have h1 : 0 < R / (rs * R0) + bet * R0 := by positivity
  have h2 : R / (rs * R0) + bet * R0 < R' / (rs * R0) + bet * R0 := by
    have := div_lt_div_of_pos_right hlt (by positivity : 0 < rs * R0)
    linarith
  have h3 := Real.rpow_lt_rpow_of_neg h1 h2 (by linarith : -a < 0)
  have h4 := Real.rpow_pos_of_pos (h1.trans h2) (-a)
  unfold Spec.fMZero
  exact one_div_lt_one_div_of_lt (by linarith) (by linarith)

theorem fMZero_long {a R0 : ℝ} (ha : 0 < a) (hrs : 0 < rs) (h0 : 0 < R0) :
    Tendsto (fun R => Spec.fMZero a rs bet R0 R) atTop (𝓝 1) := by
  have h1 : Tendsto (fun R : ℝ => R / (rs * R0) + bet * R0) atTop atTop :=
    tendsto_atTop_add_const_right _ _ (tendsto_id.atTop_div_const (by positivity))
  have h2 := (tendsto_rpow_neg_atTop ha).comp h1
  have h3 := (((h2.const_mul 6).const_add 1).inv₀ (by norm_num))
  simpa [one_div, Spec.fMZero] using h3

/-- Positive and below the undamped interaction, for every real exponent `alp`. -/
theorem C25_bounds (hd : dist.Ok s) (hr : rad.Ok s) (hal : kw.alp = some alp)
    (hb : kw.bet = some bet)
    (ho : order = 6 ∧ kw.rs6 = some rs ∨ order = 8 ∧ kw.rs8 = some rs) {i : Idx} (hi : InB s i)
    (hR : 0 < dist.get i) (hrs : 0 < rs) (hb0 : 0 ≤ bet) (h0 : 0 < rad.get i) :
    0 < (Damping.call env .mzero dist rad order od kw).get i ∧
    (Damping.call env .mzero dist rad order od kw).get i < 1 / dist.get i ^ order := by
  rw [(C25_formula (env := env) (od := od) hd hr hal hb ho hi hR).2]
  obtain ⟨h1, h2⟩ := fMZero_bounds (a := expOf alp order) hrs hb0 h0 hR
  have h3 : 0 < 1 / dist.get i ^ order := by positivity
  exact ⟨mul_pos h1 h3, by nlinarith⟩

theorem expOf_pos (ha : 0 < alp) : 0 < expOf alp order := by
  unfold expOf; split_ifs <;> linarith

/-- The damping factor increases strictly with the distance. -/
theorem C25_increasing (hd : dist.Ok s) (hd' : dist'.Ok s) (hr : rad.Ok s) (hal : kw.alp = some alp)
    (hb : kw.bet = some bet)
    (ho : order = 6 ∧ kw.rs6 = some rs ∨ order = 8 ∧ kw.rs8 = some rs) {i : Idx} (hi : InB s i)
    (ha : 0 < alp) (hR : 0 < dist.get i) (hlt : dist.get i < dist'.get i) (hrs : 0 < rs)
    (hb0 : 0 ≤ bet) (h0 : 0 < rad.get i) :
    (Damping.call env .mzero dist rad order od kw).get i * dist.get i ^ order <
    (Damping.call env .mzero dist' rad order od kw).get i * dist'.get i ^ order := by
  have hR' := hR.trans hlt
  rw [(C25_formula (env := env) (od := od) hd hr hal hb ho hi hR).2,
    (C25_formula (env := env) (od := od) hd' hr hal hb ho hi hR').2]
  have := fMZero_increasing (expOf_pos (order := order) ha) hrs hb0 h0 hR hlt
  have e1 := (pow_pos hR order).ne'
  have e2 := (pow_pos hR' order).ne'
  rw [mul_assoc, mul_assoc, one_div_mul_cancel e1, one_div_mul_cancel e2, mul_one, mul_one]
  exact this

/-- The damping factor tends to one at long range. -/
theorem C25_long_range (hal : kw.alp = some alp) (hb : kw.bet = some bet)
    (ho : order = 6 ∧ kw.rs6 = some rs ∨ order = 8 ∧ kw.rs8 = some rs) (ha : 0 < alp)
    (hrs : 0 < rs) {r : ℝ} (h0 : 0 < r) :
    Tendsto (fun R => (Damping.call env .mzero (scalar R) (scalar r) order od kw).get [] * R ^ order)
      atTop (𝓝 1) := by
  refine (fMZero_long (bet := bet) (expOf_pos (order := order) ha) hrs h0).congr' ?_
  filter_upwards [eventually_gt_atTop 0] with R hR
  rw [(C25_formula (env := env) (od := od) (s := []) (dist := scalar R) (rad := scalar r) ⟨rfl, rfl⟩
    ⟨rfl, rfl⟩ hal hb ho InB_nil hR).2, mul_assoc]
  have e1 : (scalar R).get [] = R := rfl
  rw [e1, one_div_mul_cancel (pow_pos hR order).ne', mul_one]
  rfl

end

/-- PBE parameters of DFT-D3M(0). -/
example : 0 < (Damping.call Demo.env .mzero (scalar 4) (scalar 5.5) 6 false
    { rs6 := some 2.340218, alp := some 14, bet := some 0.129434 }).get [] :=
  (C25_bounds (s := []) (rs := 2.340218) (alp := 14) (bet := 0.129434) ⟨rfl, rfl⟩ ⟨rfl, rfl⟩ rfl rfl
    (Or.inl ⟨rfl, rfl⟩) InB_nil (by norm_num [scalar]) (by norm_num) (by norm_num)
    (by norm_num [scalar])).1

example := C25_formula (env := Demo.env) (dist := full [2] 4) (rad := full [2] 5.5) (s := [2])
  (order := 6) (od := false) (rs := 2.340218) (alp := 14) (bet := 0.129434) (i := [1])
  (kw := { rs6 := some 2.340218, alp := some 14, bet := some 0.129434 }) ⟨rfl, rfl⟩ ⟨rfl, rfl⟩ rfl rfl
  (Or.inl ⟨rfl, rfl⟩) (by simp [InB]) (by norm_num [full])
example := C25_increasing (env := Demo.env) (dist := full [2] 4) (dist' := full [2] 5)
  (rad := full [2] 5.5) (s := [2]) (order := 6) (od := false) (rs := 2.340218) (alp := 14)
  (bet := 0.129434) (i := [1]) (kw := { rs6 := some 2.340218, alp := some 14, bet := some 0.129434 })
  ⟨rfl, rfl⟩ ⟨rfl, rfl⟩ ⟨rfl, rfl⟩ rfl rfl (Or.inl ⟨rfl, rfl⟩) (by simp [InB]) (by norm_num)
  (by norm_num [full]) (by norm_num [full]) (by norm_num) (by norm_num) (by norm_num [full])
example := C25_long_range (env := Demo.env) (order := 6) (od := false) (rs := 2.340218) (alp := 14)
  (bet := 0.129434) (r := 5.5)
  (kw := { rs6 := some 2.340218, alp := some 14, bet := some 0.129434 }) rfl rfl (Or.inl ⟨rfl, rfl⟩)
  (by norm_num) (by norm_num) (by norm_num)

end TadDftd4
