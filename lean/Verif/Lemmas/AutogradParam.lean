import Verif.Model.AutogradParam
import Verif.Lemmas.AutogradEnergy
import Mathlib.Analysis.SpecialFunctions.Pow.Deriv

/-!
# Backward pass to damping parameters
-/

set_option linter.unusedSimpArgs false

open scoped Classical Topology

namespace TadDftd4

open Tensor

namespace Tape

section
variable {a b : Tape} {x : ℝ} {f h : ℝ → ℝ}

theorem Fine.tpow (ha : Fine a f x) (hb : Fine b h x) (h0 : 0 < f x) :
    Fine (Tape.tpow a b) (fun y => f y ^ h y) x := by
  have hc := ha.continuousAt
  obtain ⟨ha, v, h1, hv⟩ := ha
  obtain ⟨hb, w, h2, hw⟩ := hb
  refine ⟨?_, _, h1.rpow h2 h0, fun g => ?_⟩
  · filter_upwards [ha, hb, hc.eventually (lt_mem_nhds h0)] with y hy hy' hp
    simp [Tape.eval, hy, hy', FP.tpow, FP.pow, hp]
  · have e1 := ha.self_of_nhds
    have e2 := hb.self_of_nhds
    have hb1 : FP.powBase (.fin g) (.fin (f x)) (.fin (h x)) = .fin (g * (h x * f x ^ (h x - 1))) := by
      by_cases hp : h x = 0
      · simp [FP.powBase, hp]
      · simp [FP.powBase, hp, FP.pow, h0, FP.mul]
    have hb2 : FP.powExponent (.fin g) (.fin (f x)) (.fin (h x)) =
        .fin (g * (f x ^ h x * Real.log (f x))) := by
      simp [FP.powExponent, FP.ne0, h0.ne', FP.tpow, FP.pow, h0, FP.mul, FP.log]
    simp only [Tape.back, e1, e2, hb1, hb2, hv, hw, FP.add]
    congr 1
    ring

theorem Fine.par (h : DifferentiableAt ℝ f x) : Fine (Tape.par f) f x := Fine.leaf h.hasDerivAt

end

namespace Par

section
variable {env : Env} {cut2 : ℝ} {F : ParCurve} {n : ℕ} {X : ParSys n} {x : ℝ}

/-- Values of the parts of the graph. -/
noncomputable def tP (cut2 : ℝ) (F : ParCurve) (X : ParSys n) (k : ℕ) (i j : Fin n) (y : ℝ) : ℝ :=
  if pairOk X i j ∧ X.dist i j ≤ cut2 then
    1 / (X.dist i j ^ k + (F.a1 y * √(3 * X.Q i * X.Q j) + F.a2 y) ^ k) else 0

noncomputable def e2P (cut2 : ℝ) (F : ParCurve) (X : ParSys n) (i : Fin n) (y : ℝ) : ℝ :=
  let qq := fun j => 3 * X.Q i * X.Q j
  let e := F.s6 y * (∑ j, X.c6 i j * tP cut2 F X 6 i j y) +
    F.s8 y * (∑ j, X.c6 i j * qq j * tP cut2 F X 8 i j y)
  match F.s10 with
  | none => -0.5 * e
  | some s10 => -0.5 * (e + s10 y * (∑ j, X.c6 i j * qq j ^ 2 * 49 / 40 * tP cut2 F X 10 i j y))

noncomputable def radP (env : Env) (F : ParCurve) (X : ParSys n) (i j : Fin n) (y : ℝ) : ℝ :=
  F.a1 y * env.ssqrt (3 * X.Q i * X.Q j) + F.a2 y

noncomputable def fP (env : Env) (F : ParCurve) (X : ParSys n) (i j k : Fin n) (y : ℝ) : ℝ :=
  if tripleOk X i j k then
    1 / (1 + 6 * (1 * (radP env F X i j y * radP env F X i k y * radP env F X j k y / rr X i j k)) ^
      (F.alp y / 3)) else 0

noncomputable def e3P (env : Env) (F : ParCurve) (X : ParSys n) (i : Fin n) (y : ℝ) : ℝ :=
  (∑ j, ∑ k, X.ang i j k * fP env F X i j k y * F.s9 y * X.c9 i j k) / 6

/-- Conditions: differentiable curves, positive distances and critical radii. -/
structure Ok (env : Env) (F : ParCurve) (X : ParSys n) (x : ℝ) : Prop where
  s6 : DifferentiableAt ℝ F.s6 x
  s8 : DifferentiableAt ℝ F.s8 x
  s10 : ∀ s, F.s10 = some s → DifferentiableAt ℝ s x
  s9 : DifferentiableAt ℝ F.s9 x
  a1 : DifferentiableAt ℝ F.a1 x
  a2 : DifferentiableAt ℝ F.a2 x
  alp : DifferentiableAt ℝ F.alp x
  dist : ∀ i j, 0 < X.dist i j
  radii : ∀ i j, 0 < radP env F X i j x

theorem rr_pos (hd : ∀ i j, 0 < X.dist i j) (i j k : Fin n) : 0 < rr X i j k := by
  unfold rr
  have := hd i j
  have := hd i k
  have := hd j k
  split_ifs
  · positivity
  · exact one_pos

variable (h : Ok env F X x)
include h

theorem fine_damped {k : ℕ} (hk : Even k) (i j : Fin n) :
    Fine (damped cut2 F X k i j) (tP cut2 F X k i j) x := by
  have hr : Fine (rational F X k i j) (fun y => 1 / (X.dist i j ^ k +
      (F.a1 y * √(3 * X.Q i * X.Q j) + F.a2 y) ^ k)) x :=
    Fine.const.div (Fine.const.add (((Fine.par h.a1).mul Fine.const).add (Fine.par h.a2)).npow)
      (denom_pos hk (h.dist i j)).ne'
  exact Fine.sel_const hr Fine.const

theorem fine_twoBody (i : Fin n) : Fine (twoBody cut2 F X i) (e2P cut2 F X i) x := by
  have h6 : Even 6 := by decide
  have h8 : Even 8 := by decide
  have h10 : Even 10 := by decide
  have e6 := (Fine.par h.s6).mul (Fine.sum fun j =>
    (Fine.const (c := X.c6 i j)).mul (fine_damped (cut2 := cut2) h h6 i j))
  have e8 := (Fine.par h.s8).mul (Fine.sum fun j =>
    (Fine.const (c := X.c6 i j * (3 * X.Q i * X.Q j))).mul (fine_damped (cut2 := cut2) h h8 i j))
  unfold twoBody e2P
  cases hs : F.s10 with
  | none => exact Fine.const.mul (e6.add e8)
  | some s10 =>
    exact Fine.const.mul ((e6.add e8).add ((Fine.par (h.s10 s10 hs)).mul (Fine.sum fun j =>
      (Fine.const (c := X.c6 i j * (3 * X.Q i * X.Q j) ^ 2 * 49 / 40)).mul
        (fine_damped (cut2 := cut2) h h10 i j))))

theorem fine_fdamp (i j k : Fin n) : Fine (fdamp env F X i j k) (fP env F X i j k) x := by
  have hr : ∀ i j, Fine (radius env F X i j) (radP env F X i j) x := fun i j =>
    ((Fine.par h.a1).mul Fine.const).add (Fine.par h.a2)
  have ht := (Fine.const (c := 1)).mul (Fine.sdiv (env := env)
    (((hr i j).mul (hr i k)).mul (hr j k)) (Fine.const (c := rr X i j k)) (rr_pos h.dist i j k).ne')
  have hpos : 0 < 1 * (radP env F X i j x * radP env F X i k x * radP env F X j k x / rr X i j k) := by
    have := h.radii i j
    have := h.radii i k
    have := h.radii j k
    have := rr_pos h.dist i j k
    positivity
  have hp := ht.tpow ((Fine.par h.alp).div (Fine.const (c := 3)) (by norm_num)) hpos
  exact Fine.sel_const ((Fine.const (c := 1)).div ((Fine.const (c := 1)).add
    ((Fine.const (c := 6)).mul hp)) (fden_pos hpos).ne') Fine.const

theorem fine_threeBody (i : Fin n) : Fine (threeBody env F X i) (e3P env F X i) x :=
  (Fine.sum fun j => Fine.sum fun k => (((Fine.const (c := X.ang i j k)).mul
    (fine_fdamp h i j k)).mul (Fine.par h.s9)).mul (Fine.const (c := X.c9 i j k))).div Fine.const
    (by norm_num)

theorem fine_energy (i : Fin n) : Fine (energy env cut2 F X i)
    (fun y => 0 + e2P cut2 F X i y + e3P env F X i y) x :=
  (Fine.const.add (fine_twoBody h i)).add (fine_threeBody h i)

end
end Par
end Tape

/-- Parameters at a value of the scalar. -/
def ParCurve.at (F : ParCurve) (G : GradCfg) (y : ℝ) : GradCfg :=
  { G with s6 := F.s6 y, s8 := F.s8 y, s10 := F.s10.map (· y), s9 := F.s9 y, a1 := F.a1 y,
           a2 := F.a2 y, alp := F.alp y }

/-- The constants of the graph, for a system that does not move. -/
noncomputable def parSys (G : GradCfg) {n : ℕ} (X : GradSys n) : ParSys n where
  Z := X.Z
  Q := X.Q
  dist i j := Tape.dV G X i j 0
  c6 i j := Tape.CV G X i j 0
  c9 i j k := Tape.c9V G X i j k 0
  ang i j k := Tape.angV G X i j k 0

namespace Tape.Par
variable {F : ParCurve} {n : ℕ} {G : GradCfg} {X : GradSys n}

theorem e2P_eq (i : Fin n) (y : ℝ) : e2P G.cut2 F (parSys G X) i y = e2V (F.at G y) X i 0 := by
  unfold e2P e2V
  cases hs : F.s10 with
  | none => simp only [ParCurve.at, hs, Option.map_none]; rfl
  | some s => simp only [ParCurve.at, hs, Option.map_some]; rfl

theorem e3P_eq (i : Fin n) (y : ℝ) : e3P G.env F (parSys G X) i y = e3V (F.at G y) X i 0 := rfl

/-- The value of the graph is the energy with the parameters at this value. -/
theorem energyP_eq (hcut : 0 ≤ G.cut3) (i : Fin n) (y : ℝ) :
    0 + e2P G.cut2 F (parSys G X) i y + e3P G.env F (parSys G X) i y =
      Spec.energy (F.at G y).S (X.mol 0) i := by
  rw [e2P_eq, e3P_eq]
  exact energyV_eq (G := F.at G y) hcut i 0

end Tape.Par

end TadDftd4
