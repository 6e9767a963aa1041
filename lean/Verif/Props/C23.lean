import Verif.Props.C22
import Mathlib.Analysis.SpecialFunctions.Pow.Asymptotics

/-!
# C23: zero damping switches off at short range and on at long range

Documented: `f = 1/(1 + 6 (R/R0)^-a)` (`Spec.fZero`), increasing from 0 to 1 (`C23_spec_…`).

* In the three-body term the code computes exactly this (`C23_threebody`).
* In the two-body term distances and radii are passed in the other order, so that the code computes
  the documented function with `R` and `R0` exchanged (`C23_twobody_partial`): the factor decreases
  from 1 to 0 (`C23_twobody_false`, `C23_pair_energy_partial`). The full statement
  `ZeroDampingTwoBody` is false of the code.
-/

set_option linter.unusedSimpArgs false

open scoped Classical Topology

namespace TadDftd4

open Tensor Filter

/-! ### The documented function -/

theorem C23_spec_increasing {a R0 R R' : ℝ} (ha : 0 < a) (h0 : 0 < R0) (hR : 0 < R) (hlt : R < R') :
    Spec.fZero a R0 R < Spec.fZero a R0 R' := by
  unfold Spec.fZero
  have h1 : 0 < R / R0 := div_pos hR h0
  have h2 : R / R0 < R' / R0 := div_lt_div_of_pos_right hlt h0
  have h3 := Real.rpow_lt_rpow_of_neg h1 h2 (by linarith : -a < 0)
  have h4 := Real.rpow_pos_of_pos (h1.trans h2) (-a)
  exact one_div_lt_one_div_of_lt (by linarith) (by linarith)

theorem fZero_swap {a R0 R : ℝ} (h0 : 0 < R0) (hR : 0 < R) :
    Spec.fZero a R0 R = 1 / (1 + 6 * (R0 / R) ^ a) := by
  unfold Spec.fZero
  rw [Real.rpow_neg (div_pos hR h0).le, ← Real.inv_rpow (div_pos hR h0).le, inv_div]

theorem C23_spec_long {a R0 : ℝ} (ha : 0 < a) (h0 : 0 < R0) :
    Tendsto (fun R => Spec.fZero a R0 R) atTop (𝓝 1) := by
  unfold Spec.fZero
  have h1 : Tendsto (fun R : ℝ => R / R0) atTop atTop := tendsto_id.atTop_div_const h0
  have h2 := (tendsto_rpow_neg_atTop ha).comp h1
  have h3 := (((h2.const_mul 6).const_add 1).inv₀ (by norm_num))
  simpa [one_div] using h3

theorem C23_spec_short {a R0 : ℝ} (ha : 0 < a) (h0 : 0 < R0) :
    Tendsto (fun R => Spec.fZero a R0 R) (𝓝[>] 0) (𝓝 0) := by
  have h1 : Tendsto (fun R : ℝ => R0 / R) (𝓝[>] 0) atTop := by
    simpa [div_eq_mul_inv] using tendsto_inv_nhdsGT_zero.const_mul_atTop h0
  have h2 := (tendsto_rpow_atTop ha).comp h1
  have h3 : Tendsto (fun R : ℝ => (1 + 6 * (R0 / R) ^ a)⁻¹) (𝓝[>] 0) (𝓝 0) :=
    (tendsto_atTop_add_const_left _ 1 (h2.const_mul_atTop (by norm_num))).inv_tendsto_atTop
  refine h3.congr' ?_
  filter_upwards [self_mem_nhdsWithin] with R hR
  rw [fZero_swap h0 hR, one_div]

/-! ### Three-body term -/

section
variable {env : Env} {numbers : Tensor ℕ} {positions positions' radii : Tensor ℝ} {n c : ℕ}
  {B : Shape} {alp : ℝ}

/-- Product of the three (clamped) distances of a triple. -/
noncomputable def rijk (env : Env) (positions : Tensor ℝ) (c : ℕ) (b : Idx) (i j k : ℕ) : ℝ :=
  distAt env positions c b i j * distAt env positions c b i k * distAt env positions c b j k

/-- Product of the three critical radii of a triple. -/
def r0ijk (radii : Tensor ℝ) (b : Idx) (i j k : ℕ) : ℝ :=
  radii.get (j :: i :: b) * radii.get (k :: i :: b) * radii.get (k :: j :: b)

theorem zero_point9 (env : Env) (x : ℝ) :
    Damping.point env .zero 9 true { alp := some x } = .ok (zeroF env 1 x) := by
  simp [Damping.point, Damping.required, Damping.pointF, Defaults.rs9]

theorem rijk_pos (b : Idx) (i j k : ℕ) : 0 < rijk env positions c b i j k :=
  mul_pos (mul_pos (distAt_pos _ _ _) (distAt_pos _ _ _)) (distAt_pos _ _ _)

/-- The damping factor of a triple of three different real atoms is the documented one, with
exponent `alp/3` on the products of the three radii and distances. -/
theorem C23_threebody (hn : numbers.Ok (n :: B)) (hp : positions.Ok (c :: n :: B))
    (hr : radii.Ok (n :: n :: B)) {b : Idx} (hb : InB B b) {i j k : ℕ} (hi : i < n) (hj : j < n)
    (hk : k < n) (hZ : numbers.get (i :: b) ≠ 0 ∧ numbers.get (j :: b) ≠ 0 ∧ numbers.get (k :: b) ≠ 0)
    (hd : i ≠ j ∧ i ≠ k ∧ j ≠ k) (h0 : 0 < r0ijk radii b i j k) :
    (atmDamp env numbers positions radii .zero alp).get (k :: j :: i :: b) =
      Spec.fZero (alp / 3) (r0ijk radii b i j k) (rijk env positions c b i j k) := by
  obtain ⟨-, h⟩ := atmDamp_point (env := env) (d := .zero) hn hp hr (zero_point9 env (alp / 3))
  rw [h b i j k hb hi hj hk ⟨hZ.1, hZ.2.1, hZ.2.2, hd.1, hd.2.1, hd.2.2⟩]
  have hR := rijk_pos (env := env) (positions := positions) (c := c) b i j k
  rw [fZero_swap h0 hR, zeroF, one_mul, Env.sdiv]
  unfold rijk at hR
  rw [if_neg hR.ne']
  rfl

/-- The factor increases when the product of the distances increases. -/
theorem C23_threebody_increasing (hn : numbers.Ok (n :: B)) (hp : positions.Ok (c :: n :: B))
    (hp' : positions'.Ok (c :: n :: B)) (ha : 0 < alp)
    (hr : radii.Ok (n :: n :: B)) {b : Idx} (hb : InB B b) {i j k : ℕ} (hi : i < n) (hj : j < n)
    (hk : k < n) (hZ : numbers.get (i :: b) ≠ 0 ∧ numbers.get (j :: b) ≠ 0 ∧ numbers.get (k :: b) ≠ 0)
    (hd : i ≠ j ∧ i ≠ k ∧ j ≠ k) (h0 : 0 < r0ijk radii b i j k)
    (hlt : rijk env positions c b i j k < rijk env positions' c b i j k) :
    (atmDamp env numbers positions radii .zero alp).get (k :: j :: i :: b) <
      (atmDamp env numbers positions' radii .zero alp).get (k :: j :: i :: b) := by
  rw [C23_threebody hn hp hr hb hi hj hk hZ hd h0, C23_threebody hn hp' hr hb hi hj hk hZ hd h0]
  exact C23_spec_increasing (by positivity) h0 (rijk_pos _ _ _ _) hlt

/-- The factor tends to 1 when the triple is pulled apart. -/
theorem C23_threebody_long {ι : Type} {l : Filter ι} {pos : ι → Tensor ℝ}
    (hn : numbers.Ok (n :: B)) (hp : ∀ x, (pos x).Ok (c :: n :: B)) (ha : 0 < alp)
    (hr : radii.Ok (n :: n :: B)) {b : Idx} (hb : InB B b) {i j k : ℕ} (hi : i < n) (hj : j < n)
    (hk : k < n) (hZ : numbers.get (i :: b) ≠ 0 ∧ numbers.get (j :: b) ≠ 0 ∧ numbers.get (k :: b) ≠ 0)
    (hd : i ≠ j ∧ i ≠ k ∧ j ≠ k) (h0 : 0 < r0ijk radii b i j k)
    (hl : Tendsto (fun x => rijk env (pos x) c b i j k) l atTop) :
    Tendsto (fun x => (atmDamp env numbers (pos x) radii .zero alp).get (k :: j :: i :: b)) l
      (𝓝 1) := by
  refine ((C23_spec_long (a := alp / 3) (by positivity) h0).comp hl).congr fun x => ?_
  rw [C23_threebody hn (hp x) hr hb hi hj hk hZ hd h0]
  rfl

end

/-! ### Two-body term -/

section
variable {env : Env} {dist rad : Tensor ℝ} {s : Shape} {kw : Kw} {rs alp : ℝ}

/-- Full statement of the two-body half of C23: with `R0 = rs * rad` (the convention of the
three-body term) the damped interaction is `f/R^6` with the documented `f`. -/
def ZeroDampingTwoBody : Prop :=
  ∀ (env : Env) (rs alp R rad : ℝ), 0 < rs → 0 < alp → 0 < R → 0 < rad →
    (Damping.call env .zero (scalar R) (scalar rad) 6 false
      { rs6 := some rs, alp := some alp }).get [] =
    Spec.fZero alp (rs * rad) R * (1 / R ^ 6)

/-- What is computed instead, for the two orders of the two-body term: the documented function with
distance and radius exchanged. -/
theorem C23_twobody_partial (hd : dist.Ok s) (hr : rad.Ok s) (hal : kw.alp = some alp)
    (order : ℕ) (ho : order = 6 ∧ kw.rs6 = some rs ∨ order = 8 ∧ kw.rs8 = some rs) {i : Idx}
    (hi : InB s i) (hrs : 0 < rs) (hR : 0 < dist.get i) (h0 : 0 < rad.get i) :
    (Damping.call env .zero dist rad order false kw).err = none ∧
    (Damping.call env .zero dist rad order false kw).get i =
      Spec.fZero (if order = 8 then alp + 2 else alp) (rs * dist.get i) (rad.get i) *
        (1 / dist.get i ^ order) := by
  have hpt : Damping.point env .zero order false kw = .ok fun x r =>
      env.sdiv (zeroF env rs (if order = 8 then alp + 2 else alp) x r) (x ^ order) := by
    rcases ho with ⟨rfl, h⟩ | ⟨rfl, h⟩ <;>
      simp [Damping.point, Damping.required, Damping.pointF, h, hal]
  have := damping_call_point (env := env) (d := .zero) hd hr order false kw
  rw [hpt] at this
  refine ⟨this.1.err, ?_⟩
  rw [this.2 i hi, fZero_swap (mul_pos hrs hR) h0]
  beta_reduce
  rw [Env.sdiv, if_neg (pow_pos hR order).ne', zeroF,
    Env.sdiv, if_neg h0.ne', mul_div_assoc, div_eq_mul_one_div (1 / _) (dist.get i ^ order)]

/-- Hence the factor `f = R^6 * result` decreases with the distance instead of increasing. -/
theorem C23_twobody_decreasing {R R' r : ℝ} (hrs : 0 < rs) (hal : 0 < alp) (hr : 0 < r) (hR : 0 < R)
    (hlt : R < R') :
    (Damping.call env .zero (scalar R') (scalar r) 6 false
      { rs6 := some rs, alp := some alp }).get [] * R' ^ 6 <
    (Damping.call env .zero (scalar R) (scalar r) 6 false
      { rs6 := some rs, alp := some alp }).get [] * R ^ 6 := by
  have h : ∀ x : ℝ, 0 < x → (Damping.call env .zero (scalar x) (scalar r) 6 false
      { rs6 := some rs, alp := some alp }).get [] * x ^ 6 = Spec.fZero alp (rs * x) r := by
    intro x hx
    have := (C23_twobody_partial (env := env) (s := []) (dist := scalar x) (rad := scalar r)
      (kw := { rs6 := some rs, alp := some alp }) (alp := alp) ⟨rfl, rfl⟩ ⟨rfl, rfl⟩ rfl 6
      (Or.inl ⟨rfl, rfl⟩) InB_nil hrs hx hr).2
    rw [this]
    simp only [scalar, Nat.reduceEqDiff, if_false]
    field_simp
  have hR' := hR.trans hlt
  rw [h R hR, h R' hR', fZero_swap (mul_pos hrs hR) hr, fZero_swap (mul_pos hrs hR') hr]
  have h1 : rs * R / r < rs * R' / r :=
    div_lt_div_of_pos_right (mul_lt_mul_of_pos_left hlt hrs) hr
  have h2 := Real.rpow_lt_rpow (by positivity) h1 hal
  have h3 : 0 < (rs * R / r) ^ alp := Real.rpow_pos_of_pos (by positivity) _
  exact one_div_lt_one_div_of_lt (by linarith) (by linarith)

/-- The full statement is false of the code. -/
theorem C23_twobody_false : ¬ ZeroDampingTwoBody := by
  intro h
  have e : ∀ x : ℝ, 0 < x → (Damping.call Demo.env .zero (scalar x) (scalar 1) 6 false
      { rs6 := some 1, alp := some 14 }).get [] * x ^ 6 = Spec.fZero 14 1 x := by
    intro x hx
    rw [h Demo.env 1 14 x 1 one_pos (by norm_num) hx one_pos, one_mul]
    field_simp
  have h1 := C23_twobody_decreasing (env := Demo.env) (rs := 1) (alp := 14) (r := 1) (R := 1)
    (R' := 2) one_pos (by norm_num) one_pos one_pos (by norm_num)
  rw [e 2 (by norm_num), e 1 one_pos] at h1
  exact absurd h1 (not_lt.2 (C23_spec_increasing (by norm_num) one_pos one_pos (by norm_num)).le)

end

/-- Total two-body energy of two atoms. -/
theorem pair_total {env : Env} {d : Damping} {numbers : Tensor ℕ} {positions c6 r4r2 rvdw : Tensor ℝ}
    {p : Param} {f6 f8 f10 : ℝ → ℝ → ℝ} {s6 s8 s10 : ℝ}
    (h : D2Shapes numbers positions c6 r4r2 rvdw 2 3 []) (he : p.extra = [])
    (hf6 : d.point env 6 false p.kw = .ok f6) (hf8 : d.point env 8 false p.kw = .ok f8)
    (hs6 : p.s6.Is Defaults.s6 s6) (hs8 : p.s8.Is Defaults.s8 s8) (hs10 : S10Is env d p s10 f10)
    (hZ : numbers.get [0] ≠ 0 ∧ numbers.get [1] ≠ 0) (hsym : c6.get [0, 1] = c6.get [1, 0])
    (hrv : rvdw.get [0, 1] = rvdw.get [1, 0]) {R cutoff : ℝ} (hR0 : 0 ≤ R)
    (hR : R ^ 2 = ∑ x ∈ Finset.range 3, (positions.get [x, 0] - positions.get [x, 1]) ^ 2)
    (heps : env.eps ≤ R ^ 2) (hcut : R ≤ cutoff) :
    ∑ i ∈ Finset.range 2,
      (dispersion2 env numbers positions p c6 r4r2 (some rvdw) d (some cutoff)).get [i] =
    -pairE s6 s8 s10 f6 f8 f10 (c6.get [1, 0]) (3 * r4r2.get [0] * r4r2.get [1]) R
      (radAt d r4r2 rvdw [] 0 1) := by
  obtain ⟨-, -, -, ge⟩ := dispersion2_eval (env := env) h he hf6 hf8 hs6 hs8 hs10 (some cutoff)
  have hd : distAt env positions 3 [] 0 1 = R := by
    have h2 : sqDist positions 3 [] 0 1 = R ^ 2 := by rw [hR]; rfl
    rw [distAt, h2, Env.ssqrt, max_eq_left heps, Real.sqrt_sq hR0]
  have hd' : distAt env positions 3 [] 1 0 = R := by rw [distAt_comm, hd]
  have c01 : inCut env numbers positions 3 cutoff [] 0 1 :=
    ⟨⟨hZ.1, hZ.2, by norm_num⟩, by rw [hd]; exact hcut⟩
  have c10 : inCut env numbers positions 3 cutoff [] 1 0 :=
    ⟨⟨hZ.2, hZ.1, by norm_num⟩, by rw [hd']; exact hcut⟩
  have c00 : ∀ i, ¬ inCut env numbers positions 3 cutoff [] i i := fun i hh => hh.1.2.2 rfl
  have hrad : radAt d r4r2 rvdw [] 1 0 = radAt d r4r2 rvdw [] 0 1 := by
    unfold radAt
    cases d.radiusType
    · simp only; ring
    · exact hrv
  rw [Finset.sum_range_succ, Finset.sum_range_succ, Finset.sum_range_zero,
    ge [] 0 InB_nil (by norm_num), ge [] 1 InB_nil (by norm_num)]
  simp only [Finset.sum_range_succ, Finset.sum_range_zero, Option.getD_some, pairEnergy, c01, c10,
    c00, if_true, if_false, hd, hd', hsym, hrad]
  have hq : 3 * r4r2.get [1] * r4r2.get [0] = 3 * r4r2.get [0] * r4r2.get [1] := by ring
  rw [hq]
  ring

theorem zeroF_long {env : Env} {rs alp r : ℝ} (hrs : 0 < rs) (hal : 0 < alp) (hr : 0 < r) :
    Tendsto (fun R => zeroF env rs alp R r) atTop (𝓝 0) := by
  have h1 : Tendsto (fun R : ℝ => rs * env.sdiv R r) atTop atTop := by
    simp only [Env.sdiv, if_neg hr.ne']
    exact (tendsto_id.atTop_div_const hr).const_mul_atTop hrs
  have h2 := (tendsto_rpow_atTop hal).comp h1
  have h3 := (tendsto_atTop_add_const_left _ 1 (h2.const_mul_atTop (by norm_num : (0 : ℝ) < 6))).inv_tendsto_atTop
  refine h3.congr fun R => ?_
  simp [zeroF]

/-- Two atoms pulled apart: with zero damping the two-body energy times `R^6` tends to zero, not to
`-s6 C6`; the van der Waals tail is lost. -/
theorem C23_pair_energy_partial {env : Env} {ι : Type} {l : Filter ι} {numbers : Tensor ℕ}
    {positions : ι → Tensor ℝ} {c6 r4r2 rvdw : Tensor ℝ} {s6 s8 rs6 rs8 alp : ℝ} {cutoff : ι → ℝ}
    (h6 : 0 < rs6) (h8 : 0 < rs8) (hal : 0 < alp)
    (h : ∀ k, D2Shapes numbers (positions k) c6 r4r2 rvdw 2 3 [])
    (hZ : numbers.get [0] ≠ 0 ∧ numbers.get [1] ≠ 0) (hsym : c6.get [0, 1] = c6.get [1, 0])
    (hrv : rvdw.get [0, 1] = rvdw.get [1, 0]) (hrv0 : 0 < rvdw.get [1, 0])
    {R : ι → ℝ} (hR0 : ∀ k, 0 ≤ R k)
    (hR : ∀ k, R k ^ 2 = ∑ x ∈ Finset.range 3,
      ((positions k).get [x, 0] - (positions k).get [x, 1]) ^ 2)
    (hl : Tendsto R l atTop) (hcut : ∀ᶠ k in l, R k ≤ cutoff k) :
    Tendsto (fun k => (∑ i ∈ Finset.range 2,
      (dispersion2 env numbers (positions k)
        { s6 := .val s6, s8 := .val s8, rs6 := .val rs6, rs8 := .val rs8, alp := .val alp }
        c6 r4r2 (some rvdw) .zero (some (cutoff k))).get [i]) * R k ^ 6) l (𝓝 0) := by
  set p : Param := { s6 := .val s6, s8 := .val s8, rs6 := .val rs6, rs8 := .val rs8, alp := .val alp }
  have p6 : Damping.point env .zero 6 false p.kw = .ok fun x r =>
      env.sdiv (zeroF env rs6 alp x r) (x ^ 6) := by
    simp [p, Damping.point, Damping.required, Damping.pointF, Param.kw, PVal.kw]
  have p8 : Damping.point env .zero 8 false p.kw = .ok fun x r =>
      env.sdiv (zeroF env rs8 (alp + 2) x r) (x ^ 8) := by
    simp [p, Damping.point, Damping.required, Damping.pointF, Param.kw, PVal.kw]
  have hs10 : S10Is env .zero p 0 (fun _ _ => 0) := Or.inl ⟨rfl, rfl⟩
  have key : ∀ᶠ k in l, (∑ i ∈ Finset.range 2,
      (dispersion2 env numbers (positions k) p c6 r4r2 (some rvdw) .zero
        (some (cutoff k))).get [i]) * R k ^ 6 =
      -(s6 * c6.get [1, 0] * zeroF env rs6 alp (R k) (rvdw.get [1, 0]) +
        s8 * (c6.get [1, 0] * (3 * r4r2.get [0] * r4r2.get [1])) *
          zeroF env rs8 (alp + 2) (R k) (rvdw.get [1, 0]) * (R k ^ 2)⁻¹) := by
    filter_upwards [hcut, hl.eventually_gt_atTop 0, hl.eventually_ge_atTop (√env.eps)]
      with k hk hpos heps
    have h3 : env.eps ≤ R k ^ 2 := by
      have := pow_le_pow_left₀ (Real.sqrt_nonneg env.eps) heps 2
      rwa [Real.sq_sqrt env.eps_pos.le] at this
    rw [pair_total (h k) rfl p6 p8 (Or.inl rfl) (Or.inl rfl) hs10 hZ hsym hrv (hR0 k) (hR k) h3 hk]
    have := hpos.ne'
    simp only [pairE, radAt, Damping.radiusType, Env.sdiv, pow_ne_zero _ this, if_false]
    field_simp
    ring
  refine Tendsto.congr' (key.mono fun k hk => hk.symm) ?_
  have l6 := (zeroF_long (env := env) h6 hal hrv0).comp hl
  have l8 := (zeroF_long (env := env) h8 (by linarith : 0 < alp + 2) hrv0).comp hl
  have i2 : Tendsto (fun k => (R k ^ 2)⁻¹) l (𝓝 0) :=
    (((tendsto_pow_atTop (α := ℝ) (n := 2) (by norm_num)).comp hl)).inv_tendsto_atTop
  have := ((l6.const_mul (s6 * c6.get [1, 0])).add ((l8.const_mul
    (s8 * (c6.get [1, 0] * (3 * r4r2.get [0] * r4r2.get [1])))).mul i2)).neg
  simpa using this

/-- A triple of the demonstration water molecule. -/
example : (atmDamp Demo.env Demo.numbers Demo.positions (full [3, 3, 2] 5) .zero 16).get
    [2, 1, 0, 0] = Spec.fZero (16 / 3) (5 * 5 * 5) (rijk Demo.env Demo.positions 3 [0] 0 1 2) :=
  C23_threebody (n := 3) (c := 3) (B := [2]) ⟨rfl, rfl⟩ ⟨rfl, rfl⟩ ⟨rfl, rfl⟩ (by simp [InB])
    (by norm_num) (by norm_num) (by norm_num)
    (by refine ⟨?_, ?_, ?_⟩ <;> decide) (by decide) (by norm_num [r0ijk, full])

example := C23_pair_energy_partial (env := Demo.env) (l := Filter.atTop) (numbers := ⟨none, [2], fun _ => 6⟩)
  (positions := fun k : ℕ => ⟨none, [3, 2], fun i => if i = [0, 1] then (k : ℝ) else 0⟩)
  (c6 := full [2, 2] 20) (r4r2 := full [2] 3) (rvdw := full [2, 2] 6) (s6 := 1) (s8 := 1.2)
  (rs6 := 1.2) (rs8 := 1) (alp := 14) (cutoff := fun k => k + 1) (R := fun k => (k : ℝ))
  (by norm_num) (by norm_num) (by norm_num) (fun k => ⟨⟨rfl, rfl⟩, ⟨rfl, rfl⟩, ⟨rfl, rfl⟩,
    ⟨rfl, rfl⟩, ⟨rfl, rfl⟩⟩) ⟨by norm_num, by norm_num⟩ rfl rfl (by norm_num [full])
  (fun k => by positivity) (fun k => by simp [Finset.sum_range_succ]) tendsto_natCast_atTop_atTop
  (Filter.Eventually.of_forall fun k => by linarith)

example := C23_spec_long (a := 16 / 3) (R0 := 125) (by norm_num) (by norm_num)
example := C23_spec_short (a := 16 / 3) (R0 := 125) (by norm_num) (by norm_num)
example := C23_spec_increasing (a := 16 / 3) (R0 := 125) (R := 8) (R' := 27) (by norm_num)
  (by norm_num) (by norm_num) (by norm_num)

namespace Demo

/-- Water and hydrogen fluoride scaled by a factor. -/
noncomputable def scaled (x : ℝ) : Tensor ℝ := ⟨none, [3, 3, 2], fun i => x * positions.get i⟩

theorem scaled_dist (x : ℝ) {i j : ℕ} (hij : i < j) (hj : j < 3) :
    3 * x ^ 2 ≤ sqDist (scaled x) 3 [0] i j ∧
    sqDist (scaled x) 3 [0] i j = x ^ 2 * sqDist (scaled 1) 3 [0] i j := by
  have : i < 2 := by omega
  interval_cases i <;> interval_cases j <;>
    simp [sqDist, Finset.sum_range_succ, scaled, positions] <;>
    constructor <;> nlinarith [sq_nonneg x]

end Demo

/-- Water with all distances doubled. -/
example := C23_threebody_increasing (env := Demo.env) (numbers := Demo.numbers)
  (radii := full [3, 3, 2] 5) (alp := 16) (n := 3) (c := 3) (B := [2]) (b := [0]) (i := 0) (j := 1)
  (k := 2) (positions := Demo.scaled 1) (positions' := Demo.scaled 2) ⟨rfl, rfl⟩ ⟨rfl, rfl⟩
  ⟨rfl, rfl⟩ (by norm_num) ⟨rfl, rfl⟩ (by simp [InB]) (by norm_num) (by norm_num) (by norm_num)
  (by refine ⟨?_, ?_, ?_⟩ <;> decide) (by decide) (by norm_num [r0ijk, full]) (by
    have h : ∀ i j : ℕ, i < j → j < 3 → distAt Demo.env (Demo.scaled 1) 3 [0] i j <
        distAt Demo.env (Demo.scaled 2) 3 [0] i j := by
      intro i j hij hj
      have h1 := Demo.scaled_dist 1 hij hj
      have h2 := Demo.scaled_dist 2 hij hj
      have he : Demo.env.eps ≤ 1 := by
        show (1 : ℝ) / 2 ^ 52 ≤ 1
        norm_num
      refine Real.sqrt_lt_sqrt (le_max_of_le_left (by linarith)) (max_lt ?_ ?_) <;>
        refine lt_max_of_lt_left ?_ <;> linarith
    have h0 : ∀ i j, 0 < distAt Demo.env (Demo.scaled 1) 3 [0] i j := fun i j => distAt_pos _ _ _
    exact mul_lt_mul'' (mul_lt_mul'' (h 0 1 (by norm_num) (by norm_num))
      (h 0 2 (by norm_num) (by norm_num)) (h0 _ _).le (h0 _ _).le) (h 1 2 (by norm_num) (by norm_num))
      (mul_pos (h0 _ _) (h0 _ _)).le (h0 _ _).le)

/-- Water with all distances growing. -/
example := C23_threebody_long (env := Demo.env) (numbers := Demo.numbers) (l := Filter.atTop)
  (radii := full [3, 3, 2] 5) (alp := 16) (n := 3) (c := 3) (B := [2]) (b := [0]) (i := 0) (j := 1)
  (k := 2) (pos := Demo.scaled) ⟨rfl, rfl⟩ (fun _ => ⟨rfl, rfl⟩) (by norm_num) ⟨rfl, rfl⟩
  (by simp [InB]) (by norm_num) (by norm_num) (by norm_num)
  (by refine ⟨?_, ?_, ?_⟩ <;> decide) (by decide) (by norm_num [r0ijk, full]) (by
    refine Filter.tendsto_atTop_mono' _ ?_ Filter.tendsto_id
    filter_upwards [Filter.eventually_ge_atTop 1] with x hx
    have h : ∀ i j : ℕ, i < j → j < 3 → x ≤ distAt Demo.env (Demo.scaled x) 3 [0] i j := by
      intro i j hij hj
      have h1 := (Demo.scaled_dist x hij hj).1
      refine Real.le_sqrt_of_sq_le (le_max_of_le_left ?_)
      nlinarith [sq_nonneg x]
    have h1 := h 0 1 (by norm_num) (by norm_num)
    have h2 := h 0 2 (by norm_num) (by norm_num)
    have h3 := h 1 2 (by norm_num) (by norm_num)
    have h4 : x * 1 ≤ distAt Demo.env (Demo.scaled x) 3 [0] 0 1 *
      distAt Demo.env (Demo.scaled x) 3 [0] 0 2 := mul_le_mul h1 (by linarith) zero_le_one
      (by linarith)
    calc x = x * 1 * 1 := by ring
      _ ≤ _ := mul_le_mul h4 (by linarith) zero_le_one (by linarith))

example := C23_twobody_partial (env := Demo.env) (dist := full [2] 3) (rad := full [2] 6) (s := [2])
  (alp := 14) (rs := 1.2) (kw := { rs6 := some 1.2, alp := some 14 }) ⟨rfl, rfl⟩ ⟨rfl, rfl⟩ rfl 6
  (Or.inl ⟨rfl, rfl⟩) (i := [1]) (by simp [InB]) (by norm_num) (by norm_num [full])
  (by norm_num [full])
example := C23_twobody_decreasing (env := Demo.env) (rs := 1.2) (alp := 14) (r := 6) (R := 3)
  (R' := 4) (by norm_num) (by norm_num) (by norm_num) (by norm_num) (by norm_num)

end TadDftd4
