import Verif.Lemmas.AutogradWeights
import Verif.Lemmas.Forces

/-!
# Backward pass through the energy
-/

set_option linter.unusedSimpArgs false

open scoped Classical Topology

namespace TadDftd4

open Tensor

/-- The system at a value of the parameter. -/
noncomputable def GradSys.mol {n : ℕ} (X : GradSys n) (y : ℝ) : Spec.Mol n where
  Z := X.Z
  pos i := WithLp.toLp 2 fun k => X.posFn i k y
  cn i := X.cnFn i y
  q i := X.qFn i y
  Q := X.Q
  rvdw _ _ := 0

/-- Parameters. -/
def GradCfg.P (G : GradCfg) : Spec.D4Par where
  s6 := G.s6
  s8 := G.s8
  s10 := G.s10.getD 0
  s9 := G.s9
  a1 := G.a1
  a2 := G.a2
  alp := G.alp

/-- The settings of the energy. -/
noncomputable def GradCfg.S (G : GradCfg) : Spec.Settings :=
  { Spec.d4Settings (G.R.spec G.T G.env.eps) G.env.eps G.P G.cut2 G.cut3 with
    c6 := c6At G.env G.T G.R }

namespace Tape

section
variable {a b : Tape} {x c : ℝ} {f : ℝ → ℝ}

/-- A factor that vanishes near `x`. -/
theorem Fine.mul_null (ha : Fine a (fun _ => 0) x) (hb : Tame b x c)
    (hev : ∀ᶠ y in 𝓝 x, ∃ d, b.eval y = .fin d) : Fine (Tape.mul a b) (fun _ => 0) x := by
  have hae := ha.eval
  have hback := fun g => ha.back g
  obtain ⟨hbe, w, hw⟩ := hb
  refine ⟨?_, 0, hasDerivAt_const _ _, fun g => ?_⟩
  · filter_upwards [ha.1, hev] with y h1 ⟨d, h2⟩
    simp [Tape.eval, h1, h2, FP.mul]
  · simp [Tape.back, hae, hbe, FP.mul, hback, hw, FP.add]

theorem eval_abs (h : a.eval x = .fin c) : (abs a).eval x = .fin |c| := by
  simp only [Tape.eval, h, FP.abs]

theorem eval_ssqrt {env : Env} (h : a.eval x = .fin c) :
    (ssqrt env a).eval x = .fin (env.ssqrt c) := by
  have : 0 ≤ max c env.eps := le_max_of_le_right env.eps_pos.le
  simp only [ssqrt, Tape.eval, h, FP.clampMin, FP.sqrt, if_pos this, Env.ssqrt]

theorem Fine.congr_null (ha : Fine a f x) (h : ∀ y, f y = 0) : Fine a (fun _ => 0) x := ha.congr' h

end

variable {G : GradCfg} {n : ℕ} {X : GradSys n} {x : ℝ}

/-! ## Distances -/

theorem distSq (i j : Fin n) (y : ℝ) :
    (∑ k, X.posFn i k y * X.posFn i k y) + (∑ k, X.posFn j k y * X.posFn j k y) -
      2 * (∑ k, X.posFn i k y * X.posFn j k y) = dist ((X.mol y).pos i) ((X.mol y).pos j) ^ 2 := by
  rw [EuclideanSpace.dist_eq, Real.sq_sqrt (Finset.sum_nonneg fun _ _ => sq_nonneg _)]
  rw [Finset.mul_sum, ← Finset.sum_add_distrib, ← Finset.sum_sub_distrib]
  refine Finset.sum_congr rfl fun k _ => ?_
  rw [Real.dist_eq, sq_abs]
  simp only [GradSys.mol]
  ring

/-- Distance as masked by the code. -/
noncomputable def dV (G : GradCfg) (X : GradSys n) (i j : Fin n) (y : ℝ) : ℝ :=
  if pairOk X i j then (X.mol y).r G.env.eps i j else G.env.eps

theorem dV_pos (i j : Fin n) (y : ℝ) : 0 < dV G X i j y := by
  unfold dV
  split_ifs
  · exact Spec.Mol.r_pos G.env.eps_pos _ i j
  · exact G.env.eps_pos

theorem Tame.cdist (i j : Fin n) : Tame (cdist G X i j) x ((X.mol x).r G.env.eps i j) := by
  unfold Tape.cdist
  refine (Tame.ssqrt (((Tame.sum fun k => Tame.input.mul Tame.input).add
    (Tame.sum fun k => Tame.input.mul Tame.input)).sub
    (Tame.const.mul (Tame.sum fun k => Tame.input.mul Tame.input)))).congr ?_
  rw [distSq]
  rfl

theorem Fine.cdist {i j : Fin n} (hi : ∀ k, DifferentiableAt ℝ (X.posFn i k) x)
    (hj : ∀ k, DifferentiableAt ℝ (X.posFn j k) x)
    (hc : X.posGrad = false → ∀ i k, ∃ c, X.posFn i k = fun _ => c)
    (h : G.env.eps < dist ((X.mol x).pos i) ((X.mol x).pos j) ^ 2) :
    Fine (cdist G X i j) (fun y => (X.mol y).r G.env.eps i j) x := by
  unfold Tape.cdist
  have hI := fun k => Fine.input (d := X.posDot i k) (hi k) fun h => hc h i k
  have hJ := fun k => Fine.input (d := X.posDot j k) (hj k) fun h => hc h j k
  refine (Fine.ssqrt (((Fine.sum fun k => (hI k).mul (hI k)).add
    (Fine.sum fun k => (hJ k).mul (hJ k))).sub
    (Fine.const.mul (Fine.sum fun k => (hI k).mul (hJ k)))) ?_).congr' fun y => ?_
  · rw [distSq]
    exact h
  · rw [distSq]
    rfl

theorem Tame.distance (i j : Fin n) : Tame (distance G X i j) x (dV G X i j x) :=
  Tame.sel (P := fun _ => pairOk X i j) (Tame.cdist i j) Tame.const

/-- Positions of real atoms are differentiable, real atoms are apart. -/
structure PosOk (G : GradCfg) (X : GradSys n) (x : ℝ) : Prop where
  diff : ∀ i k, X.Z i ≠ 0 → DifferentiableAt ℝ (X.posFn i k) x
  apart : ∀ i j, X.Z i ≠ 0 → X.Z j ≠ 0 → i ≠ j →
    G.env.eps < dist ((X.mol x).pos i) ((X.mol x).pos j) ^ 2
  const : X.posGrad = false → ∀ i k, ∃ c, X.posFn i k = fun _ => c

theorem Fine.distance (hp : PosOk G X x) (i j : Fin n) :
    Fine (distance G X i j) (fun y => dV G X i j y) x := by
  by_cases h : pairOk X i j
  · refine (Fine.sel_true (P := fun _ => pairOk X i j) (Fine.cdist (fun k => hp.diff i k h.1)
      (fun k => hp.diff j k h.2.1) hp.const (hp.apart i j h.1 h.2.1 h.2.2)) (Tame.const (c := G.env.eps))
      (.of_forall fun _ => h)).congr' fun y => ?_
    rw [dV, if_pos h]
  · refine (Fine.sel_false (P := fun _ => pairOk X i j) (Tame.cdist i j)
      (Fine.const (c := G.env.eps)) (.of_forall fun _ => h)).congr' fun y => ?_
    rw [dV, if_neg h]

/-! ## Two-body term -/

/-- Radius of the two-body damping function. -/
noncomputable def rad2 (G : GradCfg) (X : GradSys n) (i j : Fin n) : ℝ :=
  G.a1 * Real.sqrt (3 * X.Q i * X.Q j) + G.a2

theorem denom_pos {k : ℕ} (hk : Even k) {d R : ℝ} (hd : 0 < d) : 0 < d ^ k + R ^ k := by
  have := pow_pos hd k
  have := hk.pow_nonneg R
  positivity

theorem Tame.rational {k : ℕ} (hk : Even k) (i j : Fin n) :
    Tame (rational G X k i j) x (1 / (dV G X i j x ^ k + rad2 G X i j ^ k)) :=
  Tame.const.div ((Tame.distance i j).npow.add Tame.const) (denom_pos hk (dV_pos i j x)).ne'

noncomputable def tV (G : GradCfg) (X : GradSys n) (k : ℕ) (i j : Fin n) (y : ℝ) : ℝ :=
  if pairOk X i j ∧ dV G X i j y ≤ G.cut2 then 1 / (dV G X i j y ^ k + rad2 G X i j ^ k) else 0

theorem Tame.damped {k : ℕ} (hk : Even k) (i j : Fin n) :
    Tame (damped G X k i j) x (tV G X k i j x) := by
  unfold Tape.damped
  refine (Tame.sel (P := fun y => pairOk X i j ∧ ((Tape.distance G X i j).eval y).le G.cut2)
    (Tame.rational hk i j) (Tame.const (c := 0))).congr ?_
  rw [(Tame.distance i j).1]
  rfl

/-- A condition on a quantity that is not at its threshold. -/
theorem eventually_le_or {f : ℝ → ℝ} {c : ℝ} (hf : ContinuousAt f x) (hne : f x ≠ c) :
    (f x ≤ c ∧ ∀ᶠ y in 𝓝 x, f y ≤ c) ∨ (¬ f x ≤ c ∧ ∀ᶠ y in 𝓝 x, ¬ f y ≤ c) := by
  have h := Spec.eventually_le_iff hf hne
  by_cases h0 : f x ≤ c
  · exact Or.inl ⟨h0, h.mono fun y hy => hy.2 h0⟩
  · exact Or.inr ⟨h0, h.mono fun y hy hh => h0 (hy.1 hh)⟩

theorem Fine.damped {k : ℕ} (hk : Even k) (hp : PosOk G X x) {i j : Fin n}
    (hcut : pairOk X i j → dV G X i j x ≠ G.cut2) :
    Fine (damped G X k i j) (fun y => tV G X k i j y) x := by
  have hd := Fine.distance hp i j
  by_cases h : pairOk X i j
  · have hr : Fine (rational G X k i j) (fun y => 1 / (dV G X i j y ^ k + rad2 G X i j ^ k)) x :=
      Fine.const.div (hd.npow.add Fine.const) (denom_pos hk (dV_pos i j x)).ne'
    unfold Tape.damped
    rcases eventually_le_or hd.continuousAt (hcut h) with ⟨-, h1⟩ | ⟨-, h1⟩
    · refine (Fine.sel_true hr (Tame.const (c := 0)) ?_).congr ?_
      · filter_upwards [hd.1, h1] with y h2 h3
        rw [h2]
        exact ⟨h, h3⟩
      · filter_upwards [h1] with y h3
        rw [tV, if_pos ⟨h, h3⟩]
    · refine (Fine.sel_false hr.tame (Fine.const (c := 0)) ?_).congr ?_
      · filter_upwards [hd.1, h1] with y h2 h3
        rw [h2]
        exact fun h4 => h3 h4.2
      · filter_upwards [h1] with y h3
        rw [tV, if_neg fun h4 => h3 h4.2]
  · unfold Tape.damped
    refine (Fine.sel_false (Tame.rational hk i j) (Fine.const (c := 0))
      (.of_forall fun y h' => h h'.1)).congr' fun y => ?_
    rw [tV, if_neg fun h' => h h'.1]

/-- C6 coefficients of charged and uncharged atoms. -/
noncomputable def CV (G : GradCfg) (X : GradSys n) (i j : Fin n) (y : ℝ) : ℝ :=
  c6At G.env G.T G.R ((X.mol y).atom i) ((X.mol y).atom j)
noncomputable def CV0 (G : GradCfg) (X : GradSys n) (i j : Fin n) (y : ℝ) : ℝ :=
  c6At G.env G.T G.R ((X.mol y).neutral i) ((X.mol y).neutral j)

/-- The reference coefficients. -/
noncomputable def rc (G : GradCfg) : ℕ → ℕ → ℕ → ℕ → ℝ := rc6At G.env G.T G.ga G.gc G.rq

/-- Conditions for finite gradients; they do not concern the geometry. -/
structure FinOk (G : GradCfg) (X : GradSys n) (x : ℝ) : Prop where
  charged : ∀ i j, WOk G X x i j (X.qFn i x)
  neutral : ∀ i j, WOk G X x i j 0
  radii : ∀ i j, 0 < radius G X i j

theorem Tame.C (h : FinOk G X x) (i j : Fin n) :
    Tame (Tape.c6 G X (rc G) X.q i j) x (CV G X i j x) :=
  Tame.c6 rfl (fun _ => Tame.input) (h.charged i j) (h.charged j i)

theorem Tame.C0 (h : FinOk G X x) (i j : Fin n) :
    Tame (Tape.c6 G X (rc G) (fun _ => Tape.const 0) i j) x (CV0 G X i j x) :=
  Tame.c6 (d := fun _ => 0) rfl (fun _ => Tame.const) (h.neutral i j) (h.neutral j i)

noncomputable def e2V (G : GradCfg) (X : GradSys n) (i : Fin n) (y : ℝ) : ℝ :=
  let qq := fun j => 3 * X.Q i * X.Q j
  let e := G.s6 * (∑ j, CV G X i j y * tV G X 6 i j y) +
    G.s8 * (∑ j, CV G X i j y * qq j * tV G X 8 i j y)
  match G.s10 with
  | none => -0.5 * e
  | some s10 => -0.5 * (e + s10 * (∑ j, CV G X i j y * qq j ^ 2 * 49 / 40 * tV G X 10 i j y))

theorem Tame.twoBody (h : FinOk G X x) (i : Fin n) : Tame (twoBody G X (rc G) i) x (e2V G X i x) := by
  unfold Tape.twoBody e2V
  have h6 : Even 6 := by decide
  have h8 : Even 8 := by decide
  have h10 : Even 10 := by decide
  have e6 := (Tame.const (c := G.s6)).mul (Tame.sum fun j => (Tame.C h i j).mul (Tame.damped (G := G)
    (X := X) h6 i j))
  have e8 := (Tame.const (c := G.s8)).mul (Tame.sum fun j => ((Tame.C h i j).mul
    (Tame.const (c := 3 * X.Q i * X.Q j))).mul (Tame.damped (G := G) (X := X) h8 i j))
  cases G.s10 with
  | none => exact Tame.const.mul (e6.add e8)
  | some s10 =>
    exact Tame.const.mul ((e6.add e8).add (Tame.const.mul (Tame.sum fun j =>
      ((((Tame.C h i j).mul (Tame.const (c := (3 * X.Q i * X.Q j) ^ 2))).mul
        (Tame.const (c := 49))).div (Tame.const (c := 40)) (by norm_num)).mul
        (Tame.damped h10 i j))))

theorem e2V_eq (i : Fin n) (y : ℝ) : e2V G X i y = Spec.e2 G.S (X.mol y) (X.mol y).atom i := by
  have key : ∀ j, (if (X.mol y).Z i ≠ 0 ∧ (X.mol y).Z j ≠ 0 ∧ i ≠ j ∧
      (X.mol y).r G.S.ε i j ≤ G.S.cut2 then Spec.pairTerm G.S (X.mol y) (X.mol y).atom i j else 0) =
      G.s6 * (CV G X i j y * tV G X 6 i j y) +
      G.s8 * (CV G X i j y * (3 * X.Q i * X.Q j) * tV G X 8 i j y) +
      G.s10.getD 0 * (CV G X i j y * (3 * X.Q i * X.Q j) ^ 2 * 49 / 40 * tV G X 10 i j y) := by
    intro j
    by_cases hp : pairOk X i j
    · by_cases hc : (X.mol y).r G.env.eps i j ≤ G.cut2
      · rw [if_pos ⟨hp.1, hp.2.1, hp.2.2, hc⟩]
        have hd : dV G X i j y ≤ G.cut2 := by rw [dV, if_pos hp]; exact hc
        simp only [tV, if_pos (And.intro hp hd)]
        simp only [dV, if_pos hp]
        rfl
      · rw [if_neg fun h => hc h.2.2.2]
        have hd : ¬ dV G X i j y ≤ G.cut2 := by rw [dV, if_pos hp]; exact hc
        have hn : ¬ (pairOk X i j ∧ dV G X i j y ≤ G.cut2) := fun h => hd h.2
        simp only [tV, if_neg hn]
        ring
    · rw [if_neg fun h => hp ⟨h.1, h.2.1, h.2.2.1⟩]
      have hn : ¬ (pairOk X i j ∧ dV G X i j y ≤ G.cut2) := fun h => hp h.1
      simp only [tV, if_neg hn]
      ring
  unfold Spec.e2 e2V
  rw [Finset.sum_congr rfl fun j _ => key j]
  simp only [Finset.sum_add_distrib, ← Finset.mul_sum]
  cases hs : G.s10 with
  | none =>
    simp only [Option.getD]
    ring
  | some s10 =>
    simp only [Option.getD]
    ring

/-! ## Three-body term -/

noncomputable def c9V (G : GradCfg) (X : GradSys n) (i j k : Fin n) (y : ℝ) : ℝ :=
  G.env.ssqrt |CV0 G X i j y * CV0 G X i k y * CV0 G X j k y|

theorem Tame.c9 (h : FinOk G X x) (i j k : Fin n) : Tame (c9 G X (rc G) i j k) x (c9V G X i j k x) :=
  Tame.ssqrt (((Tame.C0 h i j).mul (Tame.C0 h i k)).mul (Tame.C0 h j k)).abs

noncomputable def r2V (G : GradCfg) (X : GradSys n) (i j k : Fin n) (y : ℝ) : ℝ :=
  dV G X i j y ^ 2 * dV G X i k y ^ 2 * dV G X j k y ^ 2

theorem r2V_pos (i j k : Fin n) (y : ℝ) : 0 < r2V G X i j k y := by
  unfold r2V
  have := dV_pos (G := G) (X := X) i j y
  have := dV_pos (G := G) (X := X) i k y
  have := dV_pos (G := G) (X := X) j k y
  positivity

theorem Tame.dist2 (i j : Fin n) : Tame (dist2 G X i j) x (dV G X i j x ^ 2) := (Tame.distance i j).npow

theorem Tame.r2 (i j k : Fin n) : Tame (r2 G X i j k) x (r2V G X i j k x) :=
  ((Tame.dist2 i j).mul (Tame.dist2 i k)).mul (Tame.dist2 j k)

theorem Tame.r1 (i j k : Fin n) : Tame (r1 G X i j k) x (√(r2V G X i j k x)) :=
  (Tame.r2 i j k).sqrt (r2V_pos i j k x)

noncomputable def r3V (G : GradCfg) (X : GradSys n) (i j k : Fin n) (y : ℝ) : ℝ :=
  if tripleOk X i j k then √(r2V G X i j k y) * r2V G X i j k y else G.env.eps
noncomputable def r5V (G : GradCfg) (X : GradSys n) (i j k : Fin n) (y : ℝ) : ℝ :=
  if tripleOk X i j k then r2V G X i j k y * r3V G X i j k y else G.env.eps

theorem r3V_pos (i j k : Fin n) (y : ℝ) : 0 < r3V G X i j k y := by
  unfold r3V
  have := r2V_pos (G := G) (X := X) i j k y
  split_ifs
  · positivity
  · exact G.env.eps_pos

theorem r5V_pos (i j k : Fin n) (y : ℝ) : 0 < r5V G X i j k y := by
  unfold r5V
  have := r2V_pos (G := G) (X := X) i j k y
  have := r3V_pos (G := G) (X := X) i j k y
  split_ifs
  · positivity
  · exact G.env.eps_pos

theorem Tame.r3 (i j k : Fin n) : Tame (r3 G X i j k) x (r3V G X i j k x) :=
  Tame.sel (P := fun _ => tripleOk X i j k) ((Tame.r1 i j k).mul (Tame.r2 i j k)) Tame.const

theorem Tame.r5 (i j k : Fin n) : Tame (r5 G X i j k) x (r5V G X i j k x) :=
  Tame.sel (P := fun _ => tripleOk X i j k) ((Tame.r2 i j k).mul (Tame.r3 i j k)) Tame.const

noncomputable def rrV (G : GradCfg) (X : GradSys n) (i j k : Fin n) (y : ℝ) : ℝ :=
  if tripleOk X i j k then √(r2V G X i j k y) else 1

theorem rrV_pos (i j k : Fin n) (y : ℝ) : 0 < rrV G X i j k y := by
  unfold rrV
  have := r2V_pos (G := G) (X := X) i j k y
  split_ifs
  · positivity
  · exact one_pos

noncomputable def r0V (G : GradCfg) (X : GradSys n) (i j k : Fin n) : ℝ :=
  radius G X i j * radius G X i k * radius G X j k

noncomputable def fV (G : GradCfg) (X : GradSys n) (i j k : Fin n) (y : ℝ) : ℝ :=
  if tripleOk X i j k then
    1 / (1 + 6 * (1 * (r0V G X i j k / rrV G X i j k y)) ^ (G.alp / 3)) else 0

theorem fden_pos {t p : ℝ} (h : 0 < t) : 0 < 1 + 6 * t ^ p := by
  have := Real.rpow_pos_of_pos h p
  positivity

theorem r0V_pos (h : ∀ i j, 0 < radius G X i j) (i j k : Fin n) : 0 < r0V G X i j k :=
  mul_pos (mul_pos (h i j) (h i k)) (h j k)

theorem tV_pos (h : ∀ i j, 0 < radius G X i j) (i j k : Fin n) (y : ℝ) :
    0 < 1 * (r0V G X i j k / rrV G X i j k y) := by
  rw [one_mul]
  exact div_pos (r0V_pos h i j k) (rrV_pos i j k y)

theorem Tame.fdamp (h : ∀ i j, 0 < radius G X i j) (i j k : Fin n) :
    Tame (fdamp G X i j k) x (fV G X i j k x) := by
  have hrr : Tame (Tape.sel (fun _ => tripleOk X i j k) (Tape.r1 G X i j k) (Tape.const 1)) x
      (rrV G X i j k x) := Tame.sel (P := fun _ => tripleOk X i j k) (Tame.r1 i j k) Tame.const
  have ht := (Tame.const (c := 1)).mul (Tame.sdiv (env := G.env) (Tame.const (c := r0V G X i j k)) hrr
    (rrV_pos i j k x).ne')
  have hp := ht.pow (fl := id) (p := G.alp / 3) (Or.inl (tV_pos h i j k x))
  exact Tame.sel (P := fun _ => tripleOk X i j k) ((Tame.const (c := 1)).div
    ((Tame.const (c := 1)).add ((Tame.const (c := 6)).mul hp)) (fden_pos (tV_pos h i j k x)).ne')
    (Tame.const (c := 0))

noncomputable def sV (G : GradCfg) (X : GradSys n) (i j k : Fin n) (y : ℝ) : ℝ :=
  let a := dV G X i j y ^ 2
  let b := dV G X i k y ^ 2
  let c := dV G X j k y ^ 2
  if tripleOk X i j k then (a + c - b) * (a - c + b) * (-a + c + b) else 0

theorem Tame.angle (i j k : Fin n) : Tame (angle G X i j k) x (sV G X i j k x) := by
  have a := Tame.dist2 (G := G) (X := X) (x := x) i j
  have b := Tame.dist2 (G := G) (X := X) (x := x) i k
  have c := Tame.dist2 (G := G) (X := X) (x := x) j k
  exact Tame.sel (P := fun _ => tripleOk X i j k)
    ((((a.add c).sub b).mul ((a.sub c).add b)).mul ((a.neg.add c).add b)) (Tame.const (c := 0))

/-- The condition of the angular term. -/
def angC (G : GradCfg) (X : GradSys n) (i j k : Fin n) (y : ℝ) : Prop :=
  ((tripleOk X i j k ∧ dV G X i j y ^ 2 ≤ G.cut3 * G.cut3) ∧
    dV G X j k y ^ 2 ≤ G.cut3 * G.cut3) ∧ dV G X j k y ^ 2 ≤ G.cut3 * G.cut3

noncomputable def angV (G : GradCfg) (X : GradSys n) (i j k : Fin n) (y : ℝ) : ℝ :=
  if angC G X i j k y then 0.375 * sV G X i j k y / r5V G X i j k y + 1 / r3V G X i j k y else 0

theorem Tame.ang (i j k : Fin n) : Tame (ang G X i j k) x (angV G X i j k x) := by
  unfold Tape.ang
  refine (Tame.sel (P := fun y => ((tripleOk X i j k ∧
    ((Tape.dist2 G X i j).eval y).le (G.cut3 * G.cut3)) ∧
      ((Tape.dist2 G X j k).eval y).le (G.cut3 * G.cut3)) ∧
        ((Tape.dist2 G X j k).eval y).le (G.cut3 * G.cut3))
    ((((Tame.const (c := 0.375)).mul (Tame.angle i j k)).div (Tame.r5 i j k) (r5V_pos i j k x).ne').add
      ((Tame.const (c := 1)).div (Tame.r3 i j k) (r3V_pos i j k x).ne')) (Tame.const (c := 0))).congr ?_
  rw [(Tame.dist2 i j).1, (Tame.dist2 j k).1]
  exact if_congr Iff.rfl rfl rfl

noncomputable def e3V (G : GradCfg) (X : GradSys n) (i : Fin n) (y : ℝ) : ℝ :=
  (∑ j, ∑ k, angV G X i j k y * fV G X i j k y * G.s9 * c9V G X i j k y) / 6

theorem Tame.threeBody (h : FinOk G X x) (i : Fin n) :
    Tame (threeBody G X (rc G) i) x (e3V G X i x) :=
  (Tame.sum fun j => Tame.sum fun k => (((Tame.ang i j k).mul (Tame.fdamp h.radii i j k)).mul
    Tame.const).mul (Tame.c9 h i j k)).div Tame.const (by norm_num)

theorem e3V_eq (hcut : 0 ≤ G.cut3) (i : Fin n) (y : ℝ) : e3V G X i y =
    Spec.e3 G.S (X.mol y) (Spec.c9 G.S (X.mol y).neutral) (Spec.R0 G.S (X.mol y)) i := by
  unfold e3V Spec.e3
  rw [div_eq_inv_mul, show (6 : ℝ)⁻¹ = 1 / 6 by norm_num]
  congr 1
  refine Finset.sum_congr rfl fun j _ => Finset.sum_congr rfl fun k _ => ?_
  by_cases ht : tripleOk X i j k
  · obtain ⟨hi, hj, hk, hij, hik, hjk⟩ := ht
    have ht : tripleOk X i j k := ⟨hi, hj, hk, hij, hik, hjk⟩
    have d1 : dV G X i j y = (X.mol y).r G.S.ε i j := by rw [dV, if_pos ⟨hi, hj, hij⟩]; rfl
    have d2 : dV G X i k y = (X.mol y).r G.S.ε i k := by rw [dV, if_pos ⟨hi, hk, hik⟩]; rfl
    have d3 : dV G X j k y = (X.mol y).r G.S.ε j k := by rw [dV, if_pos ⟨hj, hk, hjk⟩]; rfl
    have p1 := dV_pos (G := G) (X := X) i j y
    have p2 := dV_pos (G := G) (X := X) i k y
    have p3 := dV_pos (G := G) (X := X) j k y
    have hsq : ∀ d : ℝ, 0 < d → (d ^ 2 ≤ G.cut3 * G.cut3 ↔ d ≤ G.cut3) := by
      intro d hd
      rw [← sq]
      exact pow_le_pow_iff_left₀ hd.le hcut two_ne_zero
    by_cases hc : Spec.withinCut3 G.S (X.mol y) i j k
    · rw [if_pos ⟨hi, hj, hk, hij, hik, hjk, hc⟩]
      have hA : angC G X i j k y := by
        have h1 := (hsq _ p1).2 (by rw [d1]; exact hc.1)
        have h3 := (hsq _ p3).2 (by rw [d3]; exact hc.2)
        exact ⟨⟨⟨ht, h1⟩, h3⟩, h3⟩
      have hr : √(r2V G X i j k y) = dV G X i j y * dV G X i k y * dV G X j k y := by
        rw [r2V, ← mul_pow, ← mul_pow, Real.sqrt_sq (by positivity)]
      unfold Spec.tripleTerm
      dsimp only
      rw [← d1, ← d2, ← d3]
      have hf : fV G X i j k y = G.S.f9 (Spec.R0 G.S (X.mol y) i j * Spec.R0 G.S (X.mol y) i k *
          Spec.R0 G.S (X.mol y) j k) (dV G X i j y * dV G X i k y * dV G X j k y) := by
        rw [fV, if_pos ht, rrV, if_pos ht, hr, one_mul]
        rfl
      rw [← hf]
      have hc9 : c9V G X i j k y = Spec.c9 G.S (X.mol y).neutral i j k := rfl
      rw [← hc9]
      rw [angV, if_pos hA, r5V, if_pos ht, r3V, if_pos ht, sV, if_pos ht, hr, r2V]
      have hs : G.S.s9 = G.s9 := rfl
      rw [hs]
      unfold Spec.cosSides
      generalize dV G X i j y = a at *
      generalize dV G X i k y = b at *
      generalize dV G X j k y = c at *
      field_simp
      ring
    · rw [if_neg fun h => hc h.2.2.2.2.2.2]
      have hA : ¬ angC G X i j k y := by
        intro h
        refine hc ⟨?_, ?_⟩
        · have := (hsq _ p1).1 h.1.1.2
          rw [d1] at this
          exact this
        · have := (hsq _ p3).1 h.2
          rw [d3] at this
          exact this
      rw [angV, if_neg hA]
      ring
  · rw [if_neg fun h => ht ⟨h.1, h.2.1, h.2.2.1, h.2.2.2.1, h.2.2.2.2.1, h.2.2.2.2.2.1⟩]
    have hA : ¬ angC G X i j k y := fun h => ht h.1.1.1
    rw [angV, if_neg hA]
    ring

theorem energyV_eq (hcut : 0 ≤ G.cut3) (i : Fin n) (y : ℝ) :
    0 + e2V G X i y + e3V G X i y = Spec.energy G.S (X.mol y) i := by
  rw [zero_add, e2V_eq, e3V_eq hcut, Spec.energy]

/-- Value and finite gradients, whatever the geometry. -/
theorem Tame.energy (h : FinOk G X x) (hcut : 0 ≤ G.cut3) (i : Fin n) :
    Tame (energy G X (rc G) i) x (Spec.energy G.S (X.mol x) i) :=
  ((Tame.const.add (Tame.twoBody h i)).add (Tame.threeBody h i)).congr (energyV_eq hcut i x)

/-! ## Derivatives -/

namespace PosOk
variable (h : PosOk G X x)
include h

theorem dist2 (i j : Fin n) : Fine (dist2 G X i j) (fun y => dV G X i j y ^ 2) x :=
  (Fine.distance h i j).npow

theorem r2 (i j k : Fin n) : Fine (r2 G X i j k) (fun y => r2V G X i j k y) x :=
  ((h.dist2 i j).mul (h.dist2 i k)).mul (h.dist2 j k)

theorem r1 (i j k : Fin n) : Fine (r1 G X i j k) (fun y => √(r2V G X i j k y)) x :=
  (h.r2 i j k).sqrt (r2V_pos i j k x)

theorem r3 (i j k : Fin n) : Fine (r3 G X i j k) (fun y => r3V G X i j k y) x :=
  Fine.sel_const ((h.r1 i j k).mul (h.r2 i j k)) Fine.const

theorem r5 (i j k : Fin n) : Fine (r5 G X i j k) (fun y => r5V G X i j k y) x :=
  Fine.sel_const ((h.r2 i j k).mul (h.r3 i j k)) Fine.const

theorem angle (i j k : Fin n) : Fine (angle G X i j k) (fun y => sV G X i j k y) x := by
  have a := h.dist2 i j
  have b := h.dist2 i k
  have c := h.dist2 j k
  exact Fine.sel_const
    ((((a.add c).sub b).mul ((a.sub c).add b)).mul ((a.neg.add c).add b)) (Fine.const (c := 0))

theorem cut3_or (hcut : 0 ≤ G.cut3) {i j : Fin n} (hc : dV G X i j x ≠ G.cut3) :
    (∀ᶠ y in 𝓝 x, dV G X i j y ^ 2 ≤ G.cut3 * G.cut3) ∨
      ∀ᶠ y in 𝓝 x, ¬ dV G X i j y ^ 2 ≤ G.cut3 * G.cut3 := by
  have hne : dV G X i j x ^ 2 ≠ G.cut3 * G.cut3 := by
    rw [← sq]
    intro he
    exact hc ((pow_left_inj₀ (dV_pos i j x).le hcut two_ne_zero).1 he)
  rcases eventually_le_or (h.dist2 i j).continuousAt hne with ⟨-, h1⟩ | ⟨-, h1⟩
  · exact Or.inl h1
  · exact Or.inr h1

theorem angC_or (hcut : 0 ≤ G.cut3)
    (hc : ∀ i j, pairOk X i j → dV G X i j x ≠ G.cut3) (i j k : Fin n) :
    (∀ᶠ y in 𝓝 x, angC G X i j k y) ∨ ∀ᶠ y in 𝓝 x, ¬ angC G X i j k y := by
  by_cases ht : tripleOk X i j k
  · rcases h.cut3_or hcut (hc i j ⟨ht.1, ht.2.1, ht.2.2.2.1⟩) with h1 | h1
    · rcases h.cut3_or hcut (hc j k ⟨ht.2.1, ht.2.2.1, ht.2.2.2.2.2⟩) with h2 | h2
      · left
        filter_upwards [h1, h2] with y h1 h2
        exact ⟨⟨⟨ht, h1⟩, h2⟩, h2⟩
      · exact Or.inr (h2.mono fun y hy hh => hy hh.2)
    · exact Or.inr (h1.mono fun y hy hh => hy hh.1.1.2)
  · exact Or.inr (.of_forall fun y hh => ht hh.1.1.1)

theorem ang_cond (i j k : Fin n) : ∀ᶠ y in 𝓝 x, ((((tripleOk X i j k ∧
    ((Tape.dist2 G X i j).eval y).le (G.cut3 * G.cut3)) ∧
      ((Tape.dist2 G X j k).eval y).le (G.cut3 * G.cut3)) ∧
        ((Tape.dist2 G X j k).eval y).le (G.cut3 * G.cut3)) ↔ angC G X i j k y) := by
  filter_upwards [(h.dist2 i j).1, (h.dist2 j k).1] with y h1 h2
  rw [h1, h2]
  exact Iff.rfl

theorem ang (hcut : 0 ≤ G.cut3)
    (hc : ∀ i j, pairOk X i j → dV G X i j x ≠ G.cut3) (i j k : Fin n) :
    Fine (ang G X i j k) (fun y => angV G X i j k y) x := by
  have hin := ((((Fine.const (c := 0.375)).mul (h.angle i j k)).div (h.r5 i j k)
    (r5V_pos i j k x).ne').add ((Fine.const (c := 1)).div (h.r3 i j k) (r3V_pos i j k x).ne'))
  unfold Tape.ang
  rcases h.angC_or hcut hc i j k with hc | hc
  · refine (Fine.sel_true hin (Tame.const (c := 0)) ?_).congr ?_
    · filter_upwards [h.ang_cond i j k, hc] with y h1 h2
      exact h1.2 h2
    · filter_upwards [hc] with y h2
      rw [angV, if_pos h2]
  · refine (Fine.sel_false hin.tame (Fine.const (c := 0)) ?_).congr ?_
    · filter_upwards [h.ang_cond i j k, hc] with y h1 h2 h3
      exact h2 (h1.1 h3)
    · filter_upwards [hc] with y h2
      rw [angV, if_neg h2]

end PosOk

/-- Conditions for the gradient to be the derivative. -/
structure GenOk (G : GradCfg) (X : GradSys n) (x : ℝ) : Prop where
  fl : G.env.fl = id
  generic : Spec.Generic G.S (G.R.spec G.T G.env.eps) (X.mol x)
  pos : ∀ i k, X.Z i ≠ 0 → DifferentiableAt ℝ (X.posFn i k) x
  cn : ∀ i, DifferentiableAt ℝ (X.cnFn i) x
  q : ∀ i, DifferentiableAt ℝ (X.qFn i) x
  /-- radii of all atoms, including padding -/
  radii : ∀ i j, 0 < radius G X i j
  /-- padding has no references -/
  refc : ∀ r < nref, G.T.refc 0 r = 0
  /-- the charge of a padding atom is not where the scaling function is singular -/
  pad : ∀ i, X.Z i = 0 → X.qFn i x + G.T.zeff 0 ≠ G.env.eps
  pad0 : G.T.zeff 0 ≠ G.env.eps
  scale : ∀ i, ScaleOk G (X.Z i)
  /-- frozen inputs are constant -/
  posConst : X.posGrad = false → ∀ i k, ∃ c, X.posFn i k = fun _ => c
  cnConst : X.cnGrad = false → ∀ i, ∃ c, X.cnFn i = fun _ => c
  qConst : ∀ i, X.qGrad i = false → ∃ c, X.qFn i = fun _ => c

namespace GenOk
variable (h : GenOk G X x)
include h

theorem posOk : PosOk G X x := ⟨h.pos, h.generic.apart, h.posConst⟩

theorem charge (i : Fin n) : ChargeOk G (X.Z i) (X.qFn i x) :=
  (h.scale i).charge (h.generic.charge i) fun h0 => by rw [h0]; exact h.pad i h0

theorem charge0 (i : Fin n) : ChargeOk G (X.Z i) 0 :=
  (h.scale i).charge (fun h0 => by rw [zero_add]; exact h.generic.zeff i h0) fun h0 => by
    rw [h0, zero_add]; exact h.pad0

theorem real {i : Fin n} (hr : ∃ r < nref, 0 < G.T.refc (X.Z i) r) : X.Z i ≠ 0 := by
  intro hz
  obtain ⟨r, h1, h2⟩ := hr
  rw [hz, h.refc r h1] at h2
  exact lt_irrefl _ h2

theorem finOk : FinOk G X x where
  charged i j := ⟨powOk_id h.fl, normOk_id h.fl, h.charge i⟩
  neutral i j := ⟨powOk_id h.fl, normOk_id h.fl, h.charge0 i⟩
  radii := h.radii

theorem C (i j : Fin n) : Fine (c6 G X (rc G) X.q i j) (fun y => CV G X i j y) x :=
  Fine.c6 rfl h.fl h.cn h.cnConst h.scale h.refc (fun i => Fine.input (h.q i) (h.qConst i)) h.charge
    fun i hr => h.generic.charge i (h.real hr)

theorem C0 (i j : Fin n) :
    Fine (c6 G X (rc G) (fun _ => const 0) i j) (fun y => CV0 G X i j y) x :=
  Fine.c6 (d := fun _ _ => 0) rfl h.fl h.cn h.cnConst h.scale h.refc (fun i => Fine.const) h.charge0
    fun i hr => by rw [zero_add]; exact h.generic.zeff i (h.real hr)

theorem dV_eq {i j : Fin n} (hp : pairOk X i j) :
    dV G X i j x = dist ((X.mol x).pos i) ((X.mol x).pos j) := by
  rw [dV, if_pos hp, Spec.r_eq_dist (h.posOk.apart i j hp.1 hp.2.1 hp.2.2)]

theorem damped {k : ℕ} (hk : Even k) (i j : Fin n) :
    Fine (damped G X k i j) (fun y => tV G X k i j y) x :=
  Fine.damped hk h.posOk fun hp => by
    rw [h.dV_eq hp]
    exact h.generic.cut2 i j hp.1 hp.2.1 hp.2.2

theorem twoBody (i : Fin n) : Fine (twoBody G X (rc G) i) (fun y => e2V G X i y) x := by
  unfold Tape.twoBody e2V
  have h6 : Even 6 := by decide
  have h8 : Even 8 := by decide
  have h10 : Even 10 := by decide
  have e6 := (Fine.const (c := G.s6)).mul (Fine.sum fun j => (h.C i j).mul (h.damped h6 i j))
  have e8 := (Fine.const (c := G.s8)).mul (Fine.sum fun j => ((h.C i j).mul
    (Fine.const (c := 3 * X.Q i * X.Q j))).mul (h.damped h8 i j))
  cases G.s10 with
  | none => exact Fine.const.mul (e6.add e8)
  | some s10 =>
    exact Fine.const.mul ((e6.add e8).add (Fine.const.mul (Fine.sum fun j =>
      ((((h.C i j).mul (Fine.const (c := (3 * X.Q i * X.Q j) ^ 2))).mul
        (Fine.const (c := 49))).div (Fine.const (c := 40)) (by norm_num)).mul
        (h.damped h10 i j))))

theorem fdamp (i j k : Fin n) : Fine (fdamp G X i j k) (fun y => fV G X i j k y) x := by
  have hrr : Fine (Tape.sel (fun _ => tripleOk X i j k) (Tape.r1 G X i j k) (Tape.const 1))
      (fun y => rrV G X i j k y) x := Fine.sel_const (h.posOk.r1 i j k) Fine.const
  have ht := (Fine.const (c := 1)).mul (Fine.sdiv (env := G.env) (Fine.const (c := r0V G X i j k)) hrr
    (rrV_pos i j k x).ne')
  have hp := ht.pow (p := G.alp / 3) (tV_pos h.radii i j k x)
  exact Fine.sel_const ((Fine.const (c := 1)).div
    ((Fine.const (c := 1)).add ((Fine.const (c := 6)).mul hp)) (fden_pos (tV_pos h.radii i j k x)).ne')
    (Fine.const (c := 0))

theorem ang (hcut : 0 ≤ G.cut3) (i j k : Fin n) :
    Fine (ang G X i j k) (fun y => angV G X i j k y) x :=
  h.posOk.ang hcut (fun i j hp => by
    rw [h.dV_eq hp]
    exact h.generic.cut3 i j hp.1 hp.2.1 hp.2.2) i j k

theorem c9 {i j k : Fin n} (ht : tripleOk X i j k) :
    Fine (c9 G X (rc G) i j k) (fun y => c9V G X i j k y) x := by
  have hp := ((h.C0 i j).mul (h.C0 i k)).mul (h.C0 j k)
  have hne : |CV0 G X i j x * CV0 G X i k x * CV0 G X j k x| ≠ G.env.eps :=
    h.generic.c9 i j k ht.1 ht.2.1 ht.2.2.1 ht.2.2.2.1 ht.2.2.2.2.1 ht.2.2.2.2.2
  rcases lt_or_gt_of_ne hne with hl | hl
  · exact Fine.ssqrt_lt (f := fun y => |CV0 G X i j y * CV0 G X i k y * CV0 G X j k y|) hp.tame.abs
      (hp.1.mono fun y hy => eval_abs hy)
      hp.continuousAt.abs hl
  · refine Fine.ssqrt (hp.abs ?_) hl
    intro h0
    rw [h0, abs_zero] at hl
    exact lt_asymm hl G.env.eps_pos

theorem threeBody (hcut : 0 ≤ G.cut3) (i : Fin n) :
    Fine (threeBody G X (rc G) i) (fun y => e3V G X i y) x := by
  refine (Fine.sum fun j => Fine.sum fun k => ?_).div Fine.const (by norm_num)
  have hA := h.ang hcut i j k
  have hF := h.fdamp i j k
  have h1 := (hA.mul hF).mul (Fine.const (c := G.s9))
  by_cases ht : tripleOk X i j k
  · exact h1.mul (h.c9 ht)
  · have hz : ∀ y, angV G X i j k y = 0 := fun y => by
      rw [angV, if_neg fun hh => ht hh.1.1.1]
    have hp := ((h.C0 i j).mul (h.C0 i k)).mul (h.C0 j k)
    have h2 := h1.congr_null fun y => by simp [hz]
    refine (h2.mul_null (Tame.c9 h.finOk i j k) ?_).congr' fun y => by simp [hz]
    filter_upwards [hp.1] with y hy
    refine ⟨G.env.ssqrt |CV0 G X i j y * CV0 G X i k y * CV0 G X j k y|, ?_⟩
    exact eval_ssqrt (eval_abs hy)

end GenOk

/-- Away from the surfaces of `Generic` the backward pass yields the derivative of the energy. -/
theorem Fine.energy (h : GenOk G X x) (hcut : 0 ≤ G.cut3) (i : Fin n) :
    Fine (energy G X (rc G) i) (fun y => Spec.energy G.S (X.mol y) i) x :=
  ((Fine.const.add (h.twoBody i)).add (h.threeBody hcut i)).congr' (energyV_eq hcut i)

end Tape

end TadDftd4
