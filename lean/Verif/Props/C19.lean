import Verif.Props.C16
import Mathlib.Analysis.SpecialFunctions.ExpDeriv
import Mathlib.Analysis.Calculus.Deriv.Inv

/-!
# C19: `weight_references(with_dgwdq=True)` returns the charge derivative
-/

set_option linter.unusedSimpArgs false

open scoped Classical

namespace TadDftd4

open Tensor

/-- The tensor with one entry replaced. -/
def Tensor.setAt (t : Tensor ℝ) (k : Idx) (x : ℝ) : Tensor ℝ :=
  { t with get := Function.update t.get k x }

theorem Tensor.Ok.setAt {t : Tensor ℝ} {s : Shape} (h : t.Ok s) (k : Idx) (x : ℝ) :
    (t.setAt k x).Ok s := ⟨h.err, h.shape⟩

@[simp] theorem setAt_same (t : Tensor ℝ) (k : Idx) (x : ℝ) : (t.setAt k x).get k = x :=
  Function.update_self ..
theorem setAt_ne (t : Tensor ℝ) {k k' : Idx} (h : k' ≠ k) (x : ℝ) : (t.setAt k x).get k' = t.get k' :=
  Function.update_of_ne h ..

theorem zetaF_above {eps ga η zref z : ℝ} (heps : 0 < eps) (hz : eps < z) :
    zetaF eps ga η zref z =
      .fin (Real.exp (ga * (1 - Real.exp (η * (1 - zref / (z - eps)))))) := by
  have h2 : z - eps ≠ 0 := by linarith
  simp only [zetaF, heps.trans hz, if_true, scaleF, FP.div, ne_eq, h2, not_false_eq_true, FP.sub,
    FP.neg, FP.add, FP.mul, FP.exp]
  simp [sub_eq_add_neg]

theorem dzetaF_above {env : Env} {ga η zref z : ℝ} (hz : env.eps < z) :
    dzetaF env ga η zref z =
      .fin (-ga * η * Real.exp (η * (1 - zref / (z - env.eps))) *
        Real.exp (ga * (1 - Real.exp (η * (1 - zref / (z - env.eps))))) * (zref / z ^ 2)) := by
  have h2 : z - env.eps ≠ 0 := by linarith
  have h0 : 0 < z := env.eps_pos.trans hz
  simp only [dzetaF, h0, if_true, scaleF, FP.div, ne_eq, h2, not_false_eq_true, FP.sub, FP.neg,
    FP.add, FP.mul, FP.exp]
  simp [sub_eq_add_neg, Env.sdiv, h0.ne']

/-- Derivative of the charge scaling. -/
theorem zeta_hasDerivAt {env : Env} {ga η zref z : ℝ} (hz : env.eps < z) :
    HasDerivAt (fun x => (zetaF env.eps ga η zref x).toReal)
      ((z / (z - env.eps)) ^ 2 * (dzetaF env ga η zref z).toReal) z := by
  have h2 : z - env.eps ≠ 0 := by linarith
  have h0 : 0 < z := env.eps_pos.trans hz
  have e1 : HasDerivAt (fun x : ℝ => x - env.eps) 1 z := (hasDerivAt_id z).sub_const _
  have e2 : HasDerivAt (fun x : ℝ => zref / (x - env.eps)) (-(zref / (z - env.eps) ^ 2)) z := by
    have := (e1.inv h2).const_mul zref
    refine (this.congr_deriv ?_).congr_of_eventuallyEq (Filter.Eventually.of_forall fun x => ?_)
    · field_simp
    · simp [div_eq_mul_inv]
  have e3 := (((e2.const_sub 1).const_mul η).exp.const_sub 1).const_mul ga |>.exp
  have e4 : ∀ᶠ x in nhds z, (zetaF env.eps ga η zref x).toReal =
      Real.exp (ga * (1 - Real.exp (η * (1 - zref / (x - env.eps))))) := by
    filter_upwards [lt_mem_nhds hz] with x hx
    rw [zetaF_above env.eps_pos hx]; rfl
  refine (e3.congr_of_eventuallyEq e4).congr_deriv ?_
  rw [dzetaF_above hz]
  show _ = _ * (-ga * η * _ * _ * _)
  field_simp

theorem zeta_hasDerivAt_neg {env : Env} {ga η zref z : ℝ} (hz : z < 0) :
    HasDerivAt (fun x => (zetaF env.eps ga η zref x).toReal)
      (dzetaF env ga η zref z).toReal z := by
  have e4 : ∀ᶠ x in nhds z, (zetaF env.eps ga η zref x).toReal = Real.exp ga := by
    filter_upwards [gt_mem_nhds hz] with x hx
    rw [zetaF, if_neg (not_lt.2 hx.le)]; rfl
  refine ((hasDerivAt_const z (Real.exp ga)).congr_of_eventuallyEq e4).congr_deriv ?_
  rw [dzetaF, if_neg (not_lt.2 hz.le)]; rfl

section
variable {env : Env} {T : Tables} {m : RefModel} {cn q : Tensor ℝ} {n : ℕ} {B : Shape} {w : ℝ}
  {b : Idx} {i k r : ℕ}

/-- The factor by which the code's derivative differs from the exact one, 1 up to the `eps` shift. -/
noncomputable def epsFactor (env : Env) (z : ℝ) : ℝ := if 0 < z then (z / (z - env.eps)) ^ 2 else 1

theorem zetaAt_hasDerivAt {ga gc : ℝ} {rq : String} {Z : ℕ} {x : ℝ}
    (hz : env.eps < x + T.zeff Z ∨ x + T.zeff Z < 0) :
    HasDerivAt (fun x => zetaAt env T ga gc rq Z x r)
      (epsFactor env (x + T.zeff Z) * dzetaAt env T ga gc rq Z x r) x := by
  unfold zetaAt dzetaAt
  by_cases hc : 0 < T.refc Z r
  · simp only [hc, if_true]
    rcases hz with hz | hz
    · have h0 : 0 < x + T.zeff Z := env.eps_pos.trans hz
      rw [epsFactor, if_pos h0]
      exact (zeta_hasDerivAt hz).comp_add_const x (T.zeff Z)
    · rw [epsFactor, if_neg (not_lt.2 hz.le), one_mul]
      exact (zeta_hasDerivAt_neg hz).comp_add_const x (T.zeff Z)
  · simp only [hc, if_false, mul_zero]
    exact hasDerivAt_const _ _

/-- D4: the second output is the derivative of the weights of atom `i` with respect to its charge,
up to the factor `epsFactor`. -/
theorem C19_d4 (h : m.Good T n B) (hw : m.wf = scalar w) (hc : cn.Ok (n :: B)) (hq : q.Ok (n :: B))
    (hb : InB B b) (hi : i < n) (hr : r < nref)
    (hz : env.eps < q.get (i :: b) + T.zeff (m.numbers.get (i :: b)) ∨
      q.get (i :: b) + T.zeff (m.numbers.get (i :: b)) < 0) :
    ∃ D, D4.weightsD env T m (some cn) (some q) true false =
        [D4.weights env T m (some cn) (some q), D] ∧ D.Ok (nref :: n :: B) ∧
      HasDerivAt (fun x => (D4.weights env T m (some cn) (some (q.setAt (i :: b) x))).get
        (r :: i :: b))
        (epsFactor env (q.get (i :: b) + T.zeff (m.numbers.get (i :: b))) * D.get (r :: i :: b))
        (q.get (i :: b)) := by
  have h1 := D4.gw_ok (env := env) h hw hc
  have h2 := D4.dzeta_ok (env := env) h hq
  have hin : InB (nref :: n :: B) (r :: i :: b) := ⟨hr, hi, hb⟩
  refine ⟨D4.dzeta env T m q * (D4.gw env T m cn).map FP.toReal, rfl,
    ⟨by simp [h1.err, h1.shape, h2.err, h2.shape], by simp [h1.shape, h2.shape]⟩, ?_⟩
  have e1 : ∀ x, (D4.weights env T m (some cn) (some (q.setAt (i :: b) x))).get (r :: i :: b) =
      zetaAt env T m.ga m.gc m.refCharges (m.numbers.get (i :: b)) x r *
        (gwOf env T (m.numbers.get (i :: b)) (expwD4 env T w (m.numbers.get (i :: b))
          (cn.get (i :: b))) r).toReal := by
    intro x
    rw [D4.weights_get h hw (Or.inr ⟨cn, rfl, hc, rfl⟩)
      (Or.inr ⟨_, rfl, hq.setAt _ x, rfl⟩) hb hi hr, setAt_same]
    rfl
  simp only [e1]
  have e2 : (D4.dzeta env T m q * (D4.gw env T m cn).map FP.toReal).get (r :: i :: b) =
      dzetaAt env T m.ga m.gc m.refCharges (m.numbers.get (i :: b)) (q.get (i :: b)) r *
        (gwOf env T (m.numbers.get (i :: b)) (expwD4 env T w (m.numbers.get (i :: b))
          (cn.get (i :: b))) r).toReal := by
    simp only [mul_get, map_get, map_shape, h1.shape, h2.shape, pick_of_InB hin,
      D4.gw_get h hw hc hb hi hr, D4.dzeta_get h hq hb hi hr]
  rw [e2, ← mul_assoc]
  exact (zetaAt_hasDerivAt hz).mul_const _

/-- D4S: the same for every partner `k`. -/
theorem C19_d4s (h : m.Good T n B) (hw : m.wf.Ok (n :: n :: B)) (hc : cn.Ok (n :: B))
    (hq : q.Ok (n :: B)) (hb : InB B b) (hi : i < n) (hk : k < n) (hr : r < nref)
    (hz : env.eps < q.get (i :: b) + T.zeff (m.numbers.get (i :: b)) ∨
      q.get (i :: b) + T.zeff (m.numbers.get (i :: b)) < 0) :
    ∃ D, D4S.weightsD env T m (some cn) (some q) true false =
        [D4S.weights env T m (some cn) (some q), D] ∧ D.Ok (nref :: n :: n :: B) ∧
      HasDerivAt (fun x => (D4S.weights env T m (some cn) (some (q.setAt (i :: b) x))).get
        (r :: i :: k :: b))
        (epsFactor env (q.get (i :: b) + T.zeff (m.numbers.get (i :: b))) *
          D.get (r :: i :: k :: b)) (q.get (i :: b)) := by
  have h1 := D4S.gw_ok (env := env) h hw hc
  have h2 := D4S.dzeta_ok (env := env) h hq
  have hin : InB (nref :: n :: n :: B) (r :: i :: k :: b) := ⟨hr, hi, hk, hb⟩
  refine ⟨D4S.dzeta env T m q * (D4S.gw env T m cn).map FP.toReal, rfl,
    ⟨by simp [h1.err, h1.shape, h2.err, h2.shape], by simp [h1.shape, h2.shape]⟩, ?_⟩
  have e1 : ∀ x, (D4S.weights env T m (some cn) (some (q.setAt (i :: b) x))).get (r :: i :: k :: b) =
      zetaAt env T m.ga m.gc m.refCharges (m.numbers.get (i :: b)) x r *
        (gwOf env T (m.numbers.get (i :: b)) (expwD4S env T (m.wf.get (k :: i :: b))
          (m.numbers.get (i :: b)) (cn.get (i :: b))) r).toReal := by
    intro x
    rw [D4S.weights_get h hw (Or.inr ⟨cn, rfl, hc, rfl⟩)
      (Or.inr ⟨_, rfl, hq.setAt _ x, rfl⟩) hb hi hk hr, setAt_same]
    rfl
  simp only [e1]
  have e2 : (D4S.dzeta env T m q * (D4S.gw env T m cn).map FP.toReal).get (r :: i :: k :: b) =
      dzetaAt env T m.ga m.gc m.refCharges (m.numbers.get (i :: b)) (q.get (i :: b)) r *
        (gwOf env T (m.numbers.get (i :: b)) (expwD4S env T (m.wf.get (k :: i :: b))
          (m.numbers.get (i :: b)) (cn.get (i :: b))) r).toReal := by
    simp only [mul_get, map_get, map_shape, h1.shape, h2.shape, pick_of_InB hin,
      D4S.gw_get h hw hc hb hi hk hr, D4S.dzeta_get h hq hb hi hk hr]
  rw [e2, ← mul_assoc]
  exact (zetaAt_hasDerivAt hz).mul_const _

/-- The correction factor lies between 1 and `1 / (1 - eps/z)²`. -/
theorem C19_factor {z : ℝ} (hz : env.eps < z) :
    1 ≤ epsFactor env z ∧ epsFactor env z = (1 / (1 - env.eps / z)) ^ 2 := by
  have h0 : 0 < z := env.eps_pos.trans hz
  have h2 : 0 < z - env.eps := by linarith
  rw [epsFactor, if_pos h0]
  constructor
  · refine one_le_pow₀ ((one_le_div h2).2 ?_)
    linarith [env.eps_pos]
  · congr 1
    have : 1 - env.eps / z ≠ 0 := by
      rw [show 1 - env.eps / z = (z - env.eps) / z by field_simp]
      positivity
    field_simp

/-- The weights of an atom depend on no other charge, so the full Jacobian is diagonal. -/
theorem C19_local (h : m.Good T n B) (hw : m.wf = scalar w) (hc : cn.Ok (n :: B))
    (hq : q.Ok (n :: B)) {b' : Idx} (hb : InB B b) (hi : i < n) (hr : r < nref)
    (hne : i :: b ≠ k :: b') (x : ℝ) :
    (D4.weights env T m (some cn) (some (q.setAt (k :: b') x))).get (r :: i :: b) =
      (D4.weights env T m (some cn) (some q)).get (r :: i :: b) := by
  rw [D4.weights_get h hw (Or.inr ⟨cn, rfl, hc, rfl⟩) (Or.inr ⟨_, rfl, hq.setAt _ x, rfl⟩) hb hi hr,
    D4.weights_get h hw (Or.inr ⟨cn, rfl, hc, rfl⟩) (Or.inr ⟨q, rfl, hq, rfl⟩) hb hi hr,
    setAt_ne _ hne]

end

/-- The neutral oxygen atom of the demo system. -/
example : ∃ D, HasDerivAt (fun x => (D4.weights Demo.env Demo.T Demo.model (some (full [3, 2] 2))
    (some ((full [3, 2] 0).setAt [0, 0] x))).get [1, 0, 0])
    (epsFactor Demo.env (0 + 8) * Tensor.get D [1, 0, 0]) 0 := by
  obtain ⟨D, -, -, h⟩ := C19_d4 (env := Demo.env) (w := 6) (i := 0) (b := [0]) (r := 1)
    (cn := full [3, 2] 2) (q := full [3, 2] 0) Demo.model_good rfl ⟨rfl, rfl⟩ ⟨rfl, rfl⟩
    (by simp [InB]) (by norm_num) (by norm_num) (Or.inl (by
      show (1 / 2 ^ 52 : ℝ) < 0 + ((8 : ℕ) : ℝ)
      norm_num))
  refine ⟨D, ?_⟩
  have e : (full [3, 2] (0 : ℝ)).get [0, 0] + Demo.T.zeff (Demo.model.numbers.get [0, 0]) = 0 + 8 := by
    show (0 : ℝ) + ((8 : ℕ) : ℝ) = 0 + 8
    norm_num
  rw [e] at h
  exact h

example := C19_d4s (env := Demo.env) (i := 0) (k := 1) (b := [0]) (r := 1) (cn := full [3, 2] 2)
  (q := full [3, 2] 0) Demo.modelS_good Demo.modelS_wf ⟨rfl, rfl⟩ ⟨rfl, rfl⟩ (by simp [InB])
  (by norm_num) (by norm_num) (by norm_num) (Or.inl (by
    show (1 / 2 ^ 52 : ℝ) < 0 + ((8 : ℕ) : ℝ)
    norm_num))

example := C19_factor (env := Demo.env) (z := 8) (by
  show (1 / 2 ^ 52 : ℝ) < 8
  norm_num)

/-- The weights of the oxygen atom do not depend on the charge of a hydrogen atom. -/
example (x : ℝ) := C19_local (env := Demo.env) (w := 6) (i := 0) (k := 1) (b := [0]) (b' := [0])
  (r := 1) (cn := full [3, 2] 2) (q := full [3, 2] 0) Demo.model_good rfl ⟨rfl, rfl⟩ ⟨rfl, rfl⟩
  (by simp [InB]) (by norm_num) (by norm_num) (by simp) x

end TadDftd4
