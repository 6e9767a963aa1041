import Verif.Props.C07
import Verif.Spec.Damping
import Mathlib.Topology.Algebra.Order.Field

/-!
# C22: rational damping is finite, monotone and has the correct long-range limit
-/

set_option linter.unusedSimpArgs false

open scoped Classical Topology

namespace TadDftd4

open Tensor Filter

/-- The scaling parameters of the given order are not all `None`. -/
def Kw.Active (kw : Kw) (order : ℕ) : Prop :=
  (order = 6 → kw.s6 ≠ none ∨ kw.rs6 ≠ none) ∧ (order = 8 → kw.s8 ≠ none ∨ kw.rs8 ≠ none) ∧
  (order = 9 → kw.s9 ≠ none ∨ kw.rs9 ≠ none) ∧ (order = 10 → kw.s10 ≠ none)

theorem Kw.Active.point {env : Env} {d : Damping} {order : ℕ} {kw : Kw} (h : kw.Active order)
    (od : Bool) : d.point env order od kw =
      if none ∈ d.required order kw then .error .type else d.pointF env order od kw := by
  obtain ⟨h6, h8, h9, h10⟩ := h
  unfold Damping.point
  rw [if_neg, if_neg, if_neg, if_neg]
  · rintro ⟨rfl, h⟩; exact h10 rfl h
  · rintro ⟨rfl, h, h'⟩; exact (h9 rfl).elim (· h) (· h')
  · rintro ⟨rfl, h, h'⟩; exact (h8 rfl).elim (· h) (· h')
  · rintro ⟨rfl, h, h'⟩; exact (h6 rfl).elim (· h) (· h')

section
variable {env : Env} {dist dist' rad : Tensor ℝ} {s : Shape} {kw : Kw} {a1 a2 : ℝ} {order : ℕ}
  {od : Bool}

theorem rational_point (h1 : kw.a1 = some a1) (h2 : kw.a2 = some a2) (ha : kw.Active order) :
    Damping.point env .rational order od kw = .ok (ratF a1 a2 order) := by
  rw [ha.point]
  have : none ∉ Damping.required .rational order kw := by
    unfold Damping.required
    split <;> simp_all
  rw [if_neg this]
  simp [Damping.pointF, h1, h2]

theorem rational_get (hd : dist.Ok s) (hr : rad.Ok s) (h1 : kw.a1 = some a1) (h2 : kw.a2 = some a2)
    (ha : kw.Active order) : (Damping.call env .rational dist rad order od kw).Ok s ∧
      ∀ i, InB s i → (Damping.call env .rational dist rad order od kw).get i =
        ratF a1 a2 order (dist.get i) (rad.get i) := by
  have := damping_call_point (env := env) (d := .rational) hd hr order od kw
  rw [rational_point h1 h2 ha] at this
  exact this

/-- The call returns the documented damping factor times `1/R^n` at positive distances, with
critical radius `a1 √r + a2`. -/
theorem C22_formula (hd : dist.Ok s) (hr : rad.Ok s) (h1 : kw.a1 = some a1) (h2 : kw.a2 = some a2)
    (ha : kw.Active order) {i : Idx} (hi : InB s i) (hpos : 0 < dist.get i) :
    (Damping.call env .rational dist rad order od kw).err = none ∧
    (Damping.call env .rational dist rad order od kw).get i =
      Spec.fRational order (a1 * √(rad.get i) + a2) (dist.get i) * (1 / dist.get i ^ order) := by
  obtain ⟨ok, h⟩ := rational_get (env := env) (od := od) hd hr h1 h2 ha
  refine ⟨ok.err, ?_⟩
  rw [h i hi, ratF, Spec.fRational]
  have := (pow_pos hpos order).ne'
  field_simp

/-- Even order, critical radius positive: the result is positive and at most `1/R0^n` for every
distance, with equality at distance zero. -/
theorem C22_bounds (hd : dist.Ok s) (hr : rad.Ok s) (h1 : kw.a1 = some a1) (h2 : kw.a2 = some a2)
    (ha : kw.Active order) (he : Even order) {i : Idx} (hi : InB s i)
    (hR : 0 < a1 * √(rad.get i) + a2) :
    0 < (Damping.call env .rational dist rad order od kw).get i ∧
    (Damping.call env .rational dist rad order od kw).get i ≤
      1 / (a1 * √(rad.get i) + a2) ^ order ∧
    (0 < order → dist.get i = 0 → (Damping.call env .rational dist rad order od kw).get i =
      1 / (a1 * √(rad.get i) + a2) ^ order) := by
  rw [(rational_get (env := env) (od := od) hd hr h1 h2 ha).2 i hi, ratF]
  have p := pow_pos hR order
  have q := he.pow_nonneg (dist.get i)
  refine ⟨one_div_pos.2 (by linarith), one_div_le_one_div_of_le p (by linarith), fun ho h0 => ?_⟩
  rw [h0, zero_pow ho.ne', zero_add]

/-- It is below the undamped interaction. -/
theorem C22_undamped (hd : dist.Ok s) (hr : rad.Ok s) (h1 : kw.a1 = some a1)
    (h2 : kw.a2 = some a2) (ha : kw.Active order) {i : Idx} (hi : InB s i)
    (hpos : 0 < dist.get i) (hR : 0 < a1 * √(rad.get i) + a2) :
    (Damping.call env .rational dist rad order od kw).get i < 1 / dist.get i ^ order := by
  rw [(rational_get (env := env) (od := od) hd hr h1 h2 ha).2 i hi, ratF]
  exact one_div_lt_one_div_of_lt (pow_pos hpos _) (by linarith [pow_pos hR order])

/-- It decreases strictly with the distance. -/
theorem C22_decreasing (hd : dist.Ok s) (hd' : dist'.Ok s) (hr : rad.Ok s) (h1 : kw.a1 = some a1)
    (h2 : kw.a2 = some a2) (ha : kw.Active order) (ho : 0 < order) {i : Idx} (hi : InB s i)
    (hR : 0 < a1 * √(rad.get i) + a2) (h0 : 0 ≤ dist.get i) (hlt : dist.get i < dist'.get i) :
    (Damping.call env .rational dist' rad order od kw).get i <
      (Damping.call env .rational dist rad order od kw).get i := by
  rw [(rational_get (env := env) (od := od) hd hr h1 h2 ha).2 i hi,
    (rational_get (env := env) (od := od) hd' hr h1 h2 ha).2 i hi, ratF, ratF]
  refine one_div_lt_one_div_of_lt ?_ ?_
  · linarith [pow_pos hR order, pow_nonneg h0 order]
  · linarith [pow_lt_pow_left₀ hlt h0 ho.ne']

theorem ratF_limit (a1 a2 r : ℝ) (order : ℕ) (ho : 0 < order) :
    Tendsto (fun R : ℝ => ratF a1 a2 order R r * R ^ order) atTop (𝓝 1) := by
  set c := (a1 * √r + a2) ^ order
  have hp : Tendsto (fun R : ℝ => R ^ order) atTop atTop := tendsto_pow_atTop ho.ne'
  have h0 : Tendsto (fun R : ℝ => c / R ^ order) atTop (𝓝 0) := hp.const_div_atTop c
  have h1 : Tendsto (fun R : ℝ => (1 + c / R ^ order)⁻¹) atTop (𝓝 1) := by
    have := (h0.const_add 1).inv₀ (by norm_num)
    simpa using this
  refine h1.congr' ?_
  filter_upwards [eventually_gt_atTop 0] with R hR
  have := (pow_pos hR order).ne'
  have e : 1 + c / R ^ order = (R ^ order + c) / R ^ order := by field_simp
  rw [e, inv_div, ratF, one_div, ← div_eq_inv_mul]

/-- Long range: the damped interaction times `R^n` tends to one. -/
theorem C22_long_range (h1 : kw.a1 = some a1) (h2 : kw.a2 = some a2) (ha : kw.Active order)
    (ho : 0 < order) (r : ℝ) :
    Tendsto (fun R : ℝ => (Damping.call env .rational (scalar R) (scalar r) order od kw).get [] *
      R ^ order) atTop (𝓝 1) := by
  refine (ratF_limit a1 a2 r order ho).congr fun R => ?_
  rw [(rational_get (env := env) (od := od) (s := []) (dist := scalar R) (rad := scalar r)
    ⟨rfl, rfl⟩ ⟨rfl, rfl⟩ h1 h2 ha).2 [] InB_nil]
  rfl

/-- Two atoms which move away from each other (with a cutoff that does not remove the pair): the
two-body energy times `R^6` tends to `-s6 C6`, whatever `a1`, `a2`, `s8`, `s10`. -/
theorem C22_pair_energy {ι : Type} {l : Filter ι} {numbers : Tensor ℕ} {positions : ι → Tensor ℝ}
    {c6 r4r2 rvdw : Tensor ℝ} {p : Param} {P : Spec.D4Par} (hp : p.Reads P) {cutoff : ι → ℝ}
    (h : ∀ k, D2Shapes numbers (positions k) c6 r4r2 rvdw 2 3 [])
    (hZ : numbers.get [0] ≠ 0 ∧ numbers.get [1] ≠ 0) (hsym : c6.get [0, 1] = c6.get [1, 0])
    {R : ι → ℝ} (hR0 : ∀ k, 0 ≤ R k)
    (hR : ∀ k, R k ^ 2 = ∑ x ∈ Finset.range 3,
      ((positions k).get [x, 0] - (positions k).get [x, 1]) ^ 2)
    (hl : Tendsto R l atTop) (hcut : ∀ᶠ k in l, R k ≤ cutoff k) :
    Tendsto (fun k => (∑ i ∈ Finset.range 2,
      (dispersion2 env numbers (positions k) p c6 r4r2 (some rvdw) .rational
        (some (cutoff k))).get [i]) * R k ^ 6) l (𝓝 (-(P.s6 * c6.get [1, 0]))) := by
  obtain ⟨p6, p8, p10⟩ := hp.point (env := env)
  have hs10 : S10Is env .rational p P.s10 (ratF P.a1 P.a2 10) := by
    rcases hp.s10 with e | ⟨e, e'⟩
    · exact Or.inr ⟨e, p10 e⟩
    · exact Or.inl ⟨e, e'⟩
  have hs6 : p.s6.Is Defaults.s6 P.s6 := hp.s6
  have hs8 : p.s8.Is Defaults.s8 P.s8 := Or.inl hp.s8
  set q := 3 * r4r2.get [0] * r4r2.get [1] with hq
  set C := c6.get [1, 0] with hC
  have key : ∀ᶠ k in l, (∑ i ∈ Finset.range 2,
      (dispersion2 env numbers (positions k) p c6 r4r2 (some rvdw) .rational
        (some (cutoff k))).get [i]) * R k ^ 6 =
      -(P.s6 * C * (ratF P.a1 P.a2 6 (R k) q * R k ^ 6) +
        P.s8 * (C * q) * (ratF P.a1 P.a2 8 (R k) q * R k ^ 8) * (R k ^ 2)⁻¹ +
        P.s10 * (C * q ^ 2 * 49 / 40) * (ratF P.a1 P.a2 10 (R k) q * R k ^ 10) * (R k ^ 4)⁻¹) := by
    filter_upwards [hcut, hl.eventually_gt_atTop 0, hl.eventually_ge_atTop (√env.eps)]
      with k hk hpos heps
    obtain ⟨-, -, -, ge⟩ := dispersion2_eval (env := env) (h k) hp.extra p6 p8 hs6 hs8 hs10
      (some (cutoff k))
    have hd : distAt env (positions k) 3 [] 0 1 = R k := by
      have h2 : sqDist (positions k) 3 [] 0 1 = R k ^ 2 := by rw [hR k]; rfl
      have h3 : env.eps ≤ R k ^ 2 := by
        have := pow_le_pow_left₀ (Real.sqrt_nonneg env.eps) heps 2
        rwa [Real.sq_sqrt env.eps_pos.le] at this
      rw [distAt, h2, Env.ssqrt, max_eq_left h3, Real.sqrt_sq hpos.le]
    have hd' : distAt env (positions k) 3 [] 1 0 = R k := by rw [distAt_comm, hd]
    have c01 : inCut env numbers (positions k) 3 (cutoff k) [] 0 1 :=
      ⟨⟨hZ.1, hZ.2, by norm_num⟩, by rw [hd]; exact hk⟩
    have c10 : inCut env numbers (positions k) 3 (cutoff k) [] 1 0 :=
      ⟨⟨hZ.2, hZ.1, by norm_num⟩, by rw [hd']; exact hk⟩
    have c00 : ∀ i, ¬ inCut env numbers (positions k) 3 (cutoff k) [] i i := fun i hh => hh.1.2.2 rfl
    rw [Finset.sum_range_succ, Finset.sum_range_succ, Finset.sum_range_zero,
      ge [] 0 InB_nil (by norm_num), ge [] 1 InB_nil (by norm_num)]
    simp only [Finset.sum_range_succ, Finset.sum_range_zero, Option.getD_some, pairEnergy, c01, c10,
      c00, if_true, if_false, hd, hd', pairE, radAt, Damping.radiusType, hsym]
    have hq' : 3 * r4r2.get [1] * r4r2.get [0] = q := by rw [hq]; ring
    rw [hq', ← hC, ← hq]
    have := hpos.ne'
    field_simp
    ring
  refine Tendsto.congr' (key.mono fun k hk => hk.symm) ?_
  have l6 := (ratF_limit P.a1 P.a2 q 6 (by norm_num)).comp hl
  have l8 := (ratF_limit P.a1 P.a2 q 8 (by norm_num)).comp hl
  have l10 := (ratF_limit P.a1 P.a2 q 10 (by norm_num)).comp hl
  have i2 : Tendsto (fun k => (R k ^ 2)⁻¹) l (𝓝 0) :=
    (((tendsto_pow_atTop (α := ℝ) (n := 2) (by norm_num)).comp hl)).inv_tendsto_atTop
  have i4 : Tendsto (fun k => (R k ^ 4)⁻¹) l (𝓝 0) :=
    (((tendsto_pow_atTop (α := ℝ) (n := 4) (by norm_num)).comp hl)).inv_tendsto_atTop
  have := (((l6.const_mul (P.s6 * C)).add ((l8.const_mul (P.s8 * (C * q))).mul i2)).add
    ((l10.const_mul (P.s10 * (C * q ^ 2 * 49 / 40))).mul i4)).neg
  simpa using this

end

/-- PBE parameters, two carbon atoms (`√(Q_C Q_C) ≈ 3`), at distance zero and beyond. -/
example : 0 < (Damping.call Demo.env .rational (scalar 0) (scalar 28) 6 false
    { a1 := some 0.38, a2 := some 4.8 }).get [] :=
  (C22_bounds (s := []) (a1 := 0.38) (a2 := 4.8) ⟨rfl, rfl⟩ ⟨rfl, rfl⟩ rfl rfl
    ⟨fun _ => Or.inl (by simp), by simp, by simp, by simp⟩ (by decide) InB_nil
    (by positivity)).1

/-- Two atoms on a line at distance `k`, cutoff `k + 1`. -/
example : Tendsto (fun k : ℕ => (∑ i ∈ Finset.range 2,
    (dispersion2 Demo.env ⟨none, [2], fun _ => 6⟩
      ⟨none, [3, 2], fun i => if i = [0, 1] then (k : ℝ) else 0⟩ Demo.param (full [2, 2] 20)
      (full [2] 3) (some (full [2, 2] 6)) .rational (some (k + 1))).get [i]) * (k : ℝ) ^ 6) atTop
    (𝓝 (-(1 * 20))) := by
  refine C22_pair_energy (P := Demo.par) Demo.reads (fun k => ⟨⟨rfl, rfl⟩, ⟨rfl, rfl⟩, ⟨rfl, rfl⟩,
    ⟨rfl, rfl⟩, ⟨rfl, rfl⟩⟩) ⟨by norm_num, by norm_num⟩ rfl (fun k => by positivity) (fun k => ?_)
    tendsto_natCast_atTop_atTop (Eventually.of_forall fun k => by linarith)
  simp [Finset.sum_range_succ]

example := C22_formula (env := Demo.env) (dist := full [2] 3) (rad := full [2] 28) (s := [2])
  (i := [1]) (a1 := 0.38) (a2 := 4.8) (order := 8) (od := false)
  (kw := { a1 := some 0.38, a2 := some 4.8, s8 := some 1 }) ⟨rfl, rfl⟩ ⟨rfl, rfl⟩ rfl rfl
  ⟨by simp, by simp, by simp, by simp⟩ (by simp [InB]) (by norm_num [full])

example := C22_decreasing (env := Demo.env) (dist := full [2] 3) (dist' := full [2] 4)
  (rad := full [2] 28) (s := [2]) (i := [1]) (a1 := 0.38) (a2 := 4.8) (order := 8) (od := false)
  (kw := { a1 := some 0.38, a2 := some 4.8, s8 := some 1 }) ⟨rfl, rfl⟩ ⟨rfl, rfl⟩ ⟨rfl, rfl⟩ rfl rfl
  ⟨by simp, by simp, by simp, by simp⟩ (by norm_num) (by simp [InB]) (by positivity)
  (by norm_num [full]) (by norm_num [full])

example := C22_undamped (env := Demo.env) (dist := full [2] 3) (rad := full [2] 28) (s := [2])
  (i := [1]) (a1 := 0.38) (a2 := 4.8) (order := 8) (od := false)
  (kw := { a1 := some 0.38, a2 := some 4.8, s8 := some 1 }) ⟨rfl, rfl⟩ ⟨rfl, rfl⟩ rfl rfl
  ⟨by simp, by simp, by simp, by simp⟩ (by simp [InB]) (by norm_num [full]) (by positivity)

example := C22_long_range (env := Demo.env) (a1 := 0.38) (a2 := 4.8) (order := 8) (od := false)
  (kw := { a1 := some 0.38, a2 := some 4.8, s8 := some 1 }) rfl rfl
  ⟨by simp, by simp, by simp, by simp⟩ (by norm_num) 28

end TadDftd4
