import Verif.Props.C72
import Verif.Props.C82
import Mathlib.Analysis.Calculus.MeanValue
import Mathlib.Analysis.ODE.ExistUnique

/-!
# C83: molecular dynamics with the computed forces

Atoms move by Newton's equations, and the forces are what back-propagation through `Disp.calculate` (or
`dftd4`) yields. Energy, momentum and angular momentum are then conserved as long as the system stays away
from the cutoffs. Where a pair leaves the two-body cutoff, the energy changes by its pair energy.
-/

open scoped Classical Topology Matrix
open Set Filter

namespace TadDftd4

open Tensor

namespace Spec
variable {n : ℕ}

/-- Atoms of masses `m` at the positions `x t` move with the velocities `v t` from time `a` to time `b`
under the forces `F t`: `ẋ = v` and `(m v)˙ = F`. -/
structure Motion (m : Fin n → ℝ) (a b : ℝ) (x v : ℝ → Fin n → E3) (F : ℝ → Fin n → Fin 3 → ℝ) : Prop where
  velocity : ∀ t ∈ Icc a b, ∀ i, HasDerivWithinAt (fun s => x s i) (v t i) (Icc a b) t
  newton : ∀ t ∈ Icc a b, ∀ i k, HasDerivWithinAt (fun s => m i * v s i k) (F t i k) (Icc a b) t

/-- `½ ∑ m v²` -/
noncomputable def kinetic (m : Fin n → ℝ) (v : Fin n → E3) : ℝ := 1 / 2 * ∑ i, m i * ‖v i‖ ^ 2
/-- `∑ m v` -/
noncomputable def momentum (m : Fin n → ℝ) (v : Fin n → E3) : E3 := ∑ i, m i • v i
/-- `∑ m x × v` -/
noncomputable def angularMomentum (m : Fin n → ℝ) (x v : Fin n → E3) : Fin 3 → ℝ :=
  ∑ i, m i • ((x i).ofLp ⨯₃ (v i).ofLp)

end Spec

section
variable {n : ℕ} {m : Fin n → ℝ} {a b : ℝ} {x v : ℝ → Fin n → Spec.E3} {F : ℝ → Fin n → Fin 3 → ℝ}
  {E : (Fin n → Spec.E3) → ℝ}

theorem Spec.Motion.hasDeriv_x (h : Spec.Motion m a b x v F) {t : ℝ} (ht : t ∈ Icc a b) :
    HasDerivWithinAt x (v t) (Icc a b) t := hasDerivWithinAt_pi.2 fun i => h.velocity t ht i

theorem Spec.kinetic_eq (m : Fin n → ℝ) (v : Fin n → Spec.E3) :
    Spec.kinetic m v = 1 / 2 * ∑ i, ∑ k, m i * v i k * v i k := by
  unfold Spec.kinetic
  congr 1
  refine Finset.sum_congr rfl fun i _ => ?_
  rw [EuclideanSpace.norm_sq_eq, Finset.mul_sum]
  refine Finset.sum_congr rfl fun k _ => ?_
  rw [Real.norm_eq_abs, sq_abs]; ring

/-- The power of the forces is the change of the kinetic energy. -/
theorem Spec.Motion.power (h : Spec.Motion m a b x v F) (hm : ∀ i, 0 < m i) {t : ℝ} (ht : t ∈ Icc a b) :
    HasDerivWithinAt (fun s => Spec.kinetic m (v s)) (∑ i, ∑ k, v t i k * F t i k) (Icc a b) t := by
  simp only [Spec.kinetic_eq]
  have hv : ∀ i k, HasDerivWithinAt (fun s => v s i k) (F t i k / m i) (Icc a b) t := by
    intro i k
    have := (h.newton t ht i k).const_mul (1 / m i)
    have hne := (hm i).ne'
    refine (this.congr_deriv (by ring)).congr (fun s _ => ?_) ?_ <;> field_simp
  have : HasDerivWithinAt (fun s => ∑ i, ∑ k, m i * v s i k * v s i k)
      (∑ i, ∑ k, (F t i k * v t i k + m i * v t i k * (F t i k / m i))) (Icc a b) t :=
    HasDerivWithinAt.fun_sum fun i _ => HasDerivWithinAt.fun_sum fun k _ => (h.newton t ht i k).mul (hv i k)
  refine (this.const_mul (1 / 2)).congr_deriv ?_
  rw [Finset.mul_sum]
  refine Finset.sum_congr rfl fun i _ => ?_
  rw [Finset.mul_sum]
  refine Finset.sum_congr rfl fun k _ => ?_
  have hne := (hm i).ne'
  field_simp
  ring

/-- Along the motion the potential changes by minus the power of its forces. -/
theorem Spec.Motion.potential (h : Spec.Motion m a b x v F) {t : ℝ} (ht : t ∈ Icc a b)
    (hd : DifferentiableAt ℝ E (x t)) :
    HasDerivWithinAt (fun s => E (x s)) (-∑ i, ∑ k, v t i k * Spec.force E (x t) i k) (Icc a b) t := by
  rw [← fderiv_eq_force]
  exact hd.hasFDerivAt.comp_hasDerivWithinAt t (h.hasDeriv_x ht)

theorem const_of_hasDeriv {f : ℝ → ℝ} (h : ∀ t ∈ Icc a b, HasDerivWithinAt f 0 (Icc a b) t) {t : ℝ}
    (ht : t ∈ Icc a b) : f t = f a := by
  refine constant_of_derivWithin_zero (fun t ht => (h t ht).differentiableWithinAt) (fun t ht => ?_) t ht
  have hab : a < b := ht.1.trans_lt ht.2
  exact (h t (Ico_subset_Icc_self ht)).derivWithin (uniqueDiffOn_Icc hab t (Ico_subset_Icc_self ht))

/-- Conservation of energy. -/
theorem Spec.Motion.energy (h : Spec.Motion m a b x v F) (hm : ∀ i, 0 < m i)
    (hd : ∀ t ∈ Icc a b, DifferentiableAt ℝ E (x t)) (hF : ∀ t ∈ Icc a b, ∀ i k, F t i k = Spec.force E (x t) i k)
    {t : ℝ} (ht : t ∈ Icc a b) :
    Spec.kinetic m (v t) + E (x t) = Spec.kinetic m (v a) + E (x a) := by
  refine const_of_hasDeriv (f := fun t => Spec.kinetic m (v t) + E (x t)) (fun t ht => ?_) ht
  refine ((h.power hm ht).add (h.potential ht (hd t ht))).congr_deriv ?_
  simp only [hF t ht]
  ring

/-- Conservation of momentum. -/
theorem Spec.Motion.momentum (h : Spec.Motion m a b x v F) (hF : ∀ t ∈ Icc a b, ∀ k, ∑ i, F t i k = 0)
    {t : ℝ} (ht : t ∈ Icc a b) : Spec.momentum m (v t) = Spec.momentum m (v a) := by
  ext k
  have e : ∀ w : Fin n → Spec.E3, Spec.momentum m w k = ∑ i, m i * w i k := fun w => by
    simp [Spec.momentum]
  rw [e, e]
  refine const_of_hasDeriv (f := fun t => ∑ i, m i * v t i k) (fun t ht => ?_) ht
  rw [← hF t ht k]
  exact HasDerivWithinAt.fun_sum fun i _ => h.newton t ht i k

/-- Conservation of angular momentum. -/
theorem Spec.Motion.angular (h : Spec.Motion m a b x v F)
    (hF : ∀ t ∈ Icc a b, ∑ i, (x t i).ofLp ⨯₃ F t i = 0) {t : ℝ} (ht : t ∈ Icc a b) :
    Spec.angularMomentum m (x t) (v t) = Spec.angularMomentum m (x a) (v a) := by
  have hx : ∀ t ∈ Icc a b, ∀ i k, HasDerivWithinAt (fun s => x s i k) (v t i k) (Icc a b) t := by
    intro t ht i k
    exact (EuclideanSpace.proj (𝕜 := ℝ) k).hasFDerivAt.comp_hasDerivWithinAt t (h.velocity t ht i)
  have key : ∀ c d : Fin 3, (∀ t ∈ Icc a b, ∑ i, (x t i c * F t i d - x t i d * F t i c) = 0) →
      ∀ t ∈ Icc a b, ∑ i, (x t i c * (m i * v t i d) - x t i d * (m i * v t i c)) =
        ∑ i, (x a i c * (m i * v a i d) - x a i d * (m i * v a i c)) := by
    intro c d h0 t ht
    refine const_of_hasDeriv
      (f := fun t => ∑ i, (x t i c * (m i * v t i d) - x t i d * (m i * v t i c))) (fun t ht => ?_) ht
    have : HasDerivWithinAt (fun t => ∑ i, (x t i c * (m i * v t i d) - x t i d * (m i * v t i c)))
        (∑ i, ((v t i c * (m i * v t i d) + x t i c * F t i d) -
          (v t i d * (m i * v t i c) + x t i d * F t i c))) (Icc a b) t :=
      HasDerivWithinAt.fun_sum fun i _ =>
        ((hx t ht i c).mul (h.newton t ht i d)).sub ((hx t ht i d).mul (h.newton t ht i c))
    refine this.congr_deriv ?_
    rw [← h0 t ht]
    exact Finset.sum_congr rfl fun i _ => by ring
  have e : ∀ (y w : Fin n → Spec.E3), Spec.angularMomentum m y w =
      ![∑ i, (y i 1 * (m i * w i 2) - y i 2 * (m i * w i 1)),
        ∑ i, (y i 2 * (m i * w i 0) - y i 0 * (m i * w i 2)),
        ∑ i, (y i 0 * (m i * w i 1) - y i 1 * (m i * w i 0))] := by
    intro y w
    unfold Spec.angularMomentum
    funext k
    rw [Finset.sum_apply]
    fin_cases k <;>
      simp only [cross_apply, Pi.smul_apply, Fin.zero_eta, Fin.mk_one, Fin.reduceFinMk,
        Matrix.cons_val_zero, Matrix.cons_val_one, Matrix.cons_val, smul_eq_mul] <;>
      exact Finset.sum_congr rfl fun i _ => by ring
  have z : ∀ t ∈ Icc a b, ∀ k, ∑ i, ((x t i).ofLp ⨯₃ F t i) k = 0 := by
    intro t ht k
    have := congrFun (hF t ht) k
    rwa [Finset.sum_apply] at this
  rw [e, e, key 1 2 (fun t ht => by simpa [cross_apply] using z t ht 0) t ht,
    key 2 0 (fun t ht => by simpa [cross_apply] using z t ht 1) t ht,
    key 0 1 (fun t ht => by simpa [cross_apply] using z t ht 2) t ht]

end

section
variable {env : Env} {T : Tables} {ext : Ext} {numbers : Tensor ℕ} {d : Disp} {charge : Tensor ℝ} {p : Param}
  {o : CalcOpts} {n : ℕ} {B : Shape} {s : Idx} {R : RefCfg} {cn : Spec.CN} {eeq : Spec.EEQ}
  {E : (Fin n → Spec.E3) → ℝ} {positions : (Fin n → Spec.E3) → Tensor ℝ}

/-- A geometry at which `calculate` can be differentiated (C72): no atoms on top of each other or at a cutoff,
coordination numbers and charges that are differentiable, and the conditions on radii. -/
structure Disp.GenericAt (env : Env) (T : Tables) (numbers : Tensor ℕ) (d : Disp)
    (positions : (Fin n → Spec.E3) → Tensor ℝ) (charge : Tensor ℝ) (p : Param) (o : CalcOpts) (R : RefCfg)
    (cn : Spec.CN) (eeq : Spec.EEQ) (s : Idx) (x : Fin n → Spec.E3) : Prop where
  cn_smooth : ∀ i, ContDiffAt ℝ 1 (fun y => cn n (elements numbers n s) y i) x
  eeq_smooth : o.q = none → ∀ i, ContDiffAt ℝ 1 (fun y =>
    eeq n (o.cutoff.getD {}).cnEeq (elements numbers n s) y (charge.get s) i) x
  generic : ∀ t ∈ d.terms, t.Generic env.eps (R.spec T env.eps) p (o.cutoff.getD {})
    (system T cn eeq numbers (positions x) charge o n s)
  radii : ∀ t ∈ d.terms, t.GradOk env.eps p (system T cn eeq numbers (positions x) charge o n s)
  padding : ∀ t ∈ d.terms, ∀ i, elements numbers n s i = 0 →
    ((system T cn eeq numbers (positions x) charge o n s).data t.chargeDep i).q + T.zeff 0 ≠ env.eps

/-- **C83**: if system `s` of the batch moves by Newton's equations with the forces PyTorch computes (minus
`positions.grad` of the sum of its energies), then kinetic energy plus dispersion energy, momentum and angular
momentum do not change, as long as no atoms come to lie on top of each other or at a cutoff. Any dispersion
class. -/
theorem C83_conservation (h : d.Total env T ext numbers positions charge p o B R cn eeq s E)
    (hfl : env.fl = id) (hT : T.Physical R.rq) (hgc : 0 < R.gc) (hpad : ∀ r < nref, T.refc 0 r = 0)
    (hs : T.ScaleBounded env R) {m : Fin n → ℝ} (hm : ∀ i, 0 < m i) {a b : ℝ} {x v : ℝ → Fin n → Spec.E3}
    {F : ℝ → Fin n → Fin 3 → ℝ} (hmot : Spec.Motion m a b x v F)
    (hg : ∀ t ∈ Icc a b, d.GenericAt env T numbers positions charge p o R cn eeq s (x t))
    (hF : ∀ t ∈ Icc a b, ∀ i k,
      dispGrad env T R p o cn eeq numbers charge positions s d (x t) i k = .fin (-F t i k)) :
    ∀ t ∈ Icc a b,
      Spec.kinetic m (v t) + E (x t) = Spec.kinetic m (v a) + E (x a) ∧
      (cn.Invariant → eeq.Invariant → Spec.momentum m (v t) = Spec.momentum m (v a) ∧
        Spec.angularMomentum m (x t) (v t) = Spec.angularMomentum m (x a) (v a)) := by
  have hd : ∀ t ∈ Icc a b, DifferentiableAt ℝ E (x t) := fun t ht =>
    (C70_smooth (ν := 1) h hfl hT hgc (fun i _ => (hg t ht).cn_smooth i) (fun hq i _ => (hg t ht).eeq_smooth hq i)
      (hg t ht).generic).differentiableAt (by simp)
  have hF' : ∀ t ∈ Icc a b, ∀ i k, F t i k = Spec.force E (x t) i k := by
    intro t ht i k
    have := C72_forces h hfl hT hgc hpad (hg t ht).cn_smooth (hg t ht).eeq_smooth hs (hg t ht).generic (hg t ht).radii
      (hg t ht).padding i k
    rw [hF t ht i k, FP.fin.injEq] at this
    exact neg_injective this
  refine fun t ht => ⟨hmot.energy hm hd hF' ht, fun icn ieeq => ⟨hmot.momentum (fun t ht k => ?_) ht,
    hmot.angular (fun t ht => ?_) ht⟩⟩
  · rw [← C70_forces_sum_zero h icn ieeq (hd t ht) k]
    exact Finset.sum_congr rfl fun i _ => hF' t ht i k
  · rw [← C70_torque_zero h icn ieeq (hd t ht)]
    refine Finset.sum_congr rfl fun i _ => ?_
    rw [show F t i = Spec.force E (x t) i from funext fun k => hF' t ht i k]

end

section
variable {env : Env} {T : Tables} {ext : Ext} {numbers : Tensor ℕ} {charge : Tensor ℝ} {p : Param}
  {o : DftOpts} {n : ℕ} {B : Shape} {s : Idx} {R : RefCfg} {cn : Spec.CN} {eeq : Spec.EEQ} {P : Spec.D4Par}
  {positions : (Fin n → Spec.E3) → Tensor ℝ}

/-- A geometry at which `dftd4` can be differentiated (C48). -/
structure D4GenericAt (env : Env) (T : Tables) (numbers : Tensor ℕ)
    (positions : (Fin n → Spec.E3) → Tensor ℝ) (charge : Tensor ℝ) (o : DftOpts) (R : RefCfg)
    (cn : Spec.CN) (eeq : Spec.EEQ) (P : Spec.D4Par) (s : Idx) (x : Fin n → Spec.E3) : Prop where
  cn_smooth : ∀ i, ContDiffAt ℝ 1 (fun y => cn n (elements numbers n s) y i) x
  eeq_smooth : o.opts.q = none → ∀ i, ContDiffAt ℝ 1 (fun y =>
    eeq n (o.opts.cutoff.getD {}).cnEeq (elements numbers n s) y (charge.get s) i) x
  generic : Spec.Generic (Spec.d4Settings (R.spec T env.eps) env.eps P (o.opts.cutoff.getD {}).disp2
    (o.opts.cutoff.getD {}).disp3) (R.spec T env.eps)
    (system T cn eeq numbers (positions x) charge o.opts n s)
  padding : ∀ i, elements numbers n s i = 0 →
    (system T cn eeq numbers (positions x) charge o.opts n s).q i + T.zeff 0 ≠ env.eps

theorem D4GenericAt.force {E : (Fin n → Spec.E3) → ℝ} {x : Fin n → Spec.E3}
    (hg : D4GenericAt env T numbers positions charge o R cn eeq P s x)
    (h : TotalEnergy env T ext numbers positions charge p o B R cn eeq P s E)
    (hfl : env.fl = id) (hT : T.Physical R.rq) (hgc : 0 < R.gc) (hpad : ∀ r < nref, T.refc 0 r = 0)
    (h1 : 0 ≤ P.a1) (h2 : 0 ≤ P.a2) (h12 : P.a1 ≠ 0 ∨ P.a2 ≠ 0) (hz : T.zeff 0 ≠ env.eps)
    (hs : T.ScaleBounded env R) : DifferentiableAt ℝ E x ∧ ∀ i k f,
      positionsGrad env T R P p o cn eeq numbers charge positions s x i k = .fin (-f) →
      f = Spec.force E x i k := by
  refine ⟨(C42_smooth (m := 1) h hfl hT hgc (fun i _ => hg.cn_smooth i) (fun hq i _ => hg.eeq_smooth hq i)
      hg.generic).differentiableAt (by simp), fun i k f hf => ?_⟩
  have := C48_forces_partial h hfl hT hgc hpad h1 h2 h12 hg.cn_smooth hg.eeq_smooth hg.generic hg.padding hz hs i k
  rw [hf, FP.fin.injEq] at this
  exact neg_injective this

/-- **C83** for `dftd4`. -/
theorem C83_dftd4 {E : (Fin n → Spec.E3) → ℝ}
    (h : TotalEnergy env T ext numbers positions charge p o B R cn eeq P s E)
    (hfl : env.fl = id) (hT : T.Physical R.rq) (hgc : 0 < R.gc) (hpad : ∀ r < nref, T.refc 0 r = 0)
    (h1 : 0 ≤ P.a1) (h2 : 0 ≤ P.a2) (h12 : P.a1 ≠ 0 ∨ P.a2 ≠ 0) (hz : T.zeff 0 ≠ env.eps)
    (hs : T.ScaleBounded env R) {m : Fin n → ℝ} (hm : ∀ i, 0 < m i) {a b : ℝ} {x v : ℝ → Fin n → Spec.E3}
    {F : ℝ → Fin n → Fin 3 → ℝ} (hmot : Spec.Motion m a b x v F)
    (hg : ∀ t ∈ Icc a b, D4GenericAt env T numbers positions charge o R cn eeq P s (x t))
    (hF : ∀ t ∈ Icc a b, ∀ i k,
      positionsGrad env T R P p o cn eeq numbers charge positions s (x t) i k = .fin (-F t i k)) :
    ∀ t ∈ Icc a b,
      Spec.kinetic m (v t) + E (x t) = Spec.kinetic m (v a) + E (x a) ∧
      (cn.Invariant → eeq.Invariant → Spec.momentum m (v t) = Spec.momentum m (v a) ∧
        Spec.angularMomentum m (x t) (v t) = Spec.angularMomentum m (x a) (v a)) := by
  have hd : ∀ t ∈ Icc a b, DifferentiableAt ℝ E (x t) := fun t ht =>
    ((hg t ht).force (ext := ext) (p := p) h hfl hT hgc hpad h1 h2 h12 hz hs).1
  have hF' : ∀ t ∈ Icc a b, ∀ i k, F t i k = Spec.force E (x t) i k := fun t ht i k =>
    ((hg t ht).force (ext := ext) (p := p) h hfl hT hgc hpad h1 h2 h12 hz hs).2 i k _ (hF t ht i k)
  refine fun t ht => ⟨hmot.energy hm hd hF' ht, fun icn ieeq => ⟨hmot.momentum (fun t ht k => ?_) ht,
    hmot.angular (fun t ht => ?_) ht⟩⟩
  · rw [← C42_forces_sum_zero h icn ieeq (hd t ht) k]
    exact Finset.sum_congr rfl fun i _ => hF' t ht i k
  · rw [← C42_torque_zero h icn ieeq (hd t ht)]
    refine Finset.sum_congr rfl fun i _ => ?_
    rw [show F t i = Spec.force E (x t) i from funext fun k => hF' t ht i k]

/-- **C83**, crossing the cutoff: a system moves along `x`, and `W` grows by the power of the computed forces
`F` (by Newton's equations, `W` is the kinetic energy, see `Spec.Motion.power`). At time `t₀` some pairs are
at the two-body cutoff; `before` and `after` tell which of them are beyond it before and after `t₀`. Then
`W` plus the dispersion energy grows by the pair energies lost, and drops by those gained. -/
theorem C83_cutoff {E : (Fin n → Spec.E3) → Fin n → ℝ}
    (h : AtomEnergies env T ext numbers positions charge p o B R cn eeq P s E)
    (hpad : ∀ r < nref, T.refc 0 r = 0) (h12 : P.a1 ≠ 0 ∨ P.a2 ≠ 0) (hz : T.zeff 0 ≠ env.eps)
    (hs : T.ScaleBounded env R) {a b t₀ : ℝ} (ha : a < t₀) (hb : t₀ < b)
    {x v : ℝ → Fin n → Spec.E3} {W : ℝ → ℝ} {F : ℝ → Fin n → Fin 3 → ℝ}
    (hxc : ContinuousOn x (Icc a b)) (hWc : ContinuousOn W (Icc a b))
    (hx : ∀ t ∈ Icc a b, t ≠ t₀ → HasDerivWithinAt x (v t) (Icc a b) t)
    (hW : ∀ t ∈ Icc a b, t ≠ t₀ → HasDerivWithinAt W (∑ i, ∑ k, v t i k * F t i k) (Icc a b) t)
    (hg : ∀ t ∈ Icc a b, t ≠ t₀ → D4GenericAt env T numbers positions charge o R cn eeq P s (x t))
    (hF : ∀ t ∈ Icc a b, t ≠ t₀ → ∀ i k,
      positionsGrad env T R P p o cn eeq numbers charge positions s (x t) i k = .fin (-F t i k))
    (h0 : Continuable env T numbers positions charge o R cn eeq P s (x t₀))
    (h3 : ∀ i j, ¬ AtCutoff numbers s (x t₀) (o.opts.cutoff.getD {}).disp3 i j)
    {before after : Fin n → Fin n → Prop}
    (hbefore : ∀ i j, AtCutoff numbers s (x t₀) (o.opts.cutoff.getD {}).disp2 i j →
      ∀ᶠ t in 𝓝[<] t₀, (dist (x t i) (x t j) ≤ (o.opts.cutoff.getD {}).disp2 ↔ ¬ before i j))
    (hafter : ∀ i j, AtCutoff numbers s (x t₀) (o.opts.cutoff.getD {}).disp2 i j →
      ∀ᶠ t in 𝓝[>] t₀, (dist (x t i) (x t j) ≤ (o.opts.cutoff.getD {}).disp2 ↔ ¬ after i j)) :
    let c := o.opts.cutoff.getD {}
    let S := Spec.d4Settings (R.spec T env.eps) env.eps P c.disp2 c.disp3
    let M := system T cn eeq numbers (positions (x t₀)) charge o.opts n s
    (W b + ∑ i, E (x b) i) - (W a + ∑ i, E (x a) i) =
      (1 / 2 * ∑ i, ∑ j, if AtCutoff numbers s (x t₀) c.disp2 i j ∧ after i j then
        Spec.pairTerm S M M.atom i j else 0) -
      1 / 2 * ∑ i, ∑ j, if AtCutoff numbers s (x t₀) c.disp2 i j ∧ before i j then
        Spec.pairTerm S M M.atom i j else 0 := by
  intro c S M
  set U : (Fin n → Spec.E3) → ℝ := fun y => ∑ i, E y i with hU
  have htot : TotalEnergy env T ext numbers positions charge p o B R cn eeq P s U :=
    ⟨h.call, h.batch, h.at_pos, fun x e he => Finset.sum_congr rfl fun i _ => h.atom x e he i⟩
  have ht0 : t₀ ∈ Icc a b := ⟨ha.le, hb.le⟩
  have hder : ∀ t ∈ Icc a b, t ≠ t₀ → HasDerivWithinAt (fun t => W t + U (x t)) 0 (Icc a b) t := by
    intro t ht hne
    have hf := (hg t ht hne).force (ext := ext) (p := p) htot h0.fl h0.physical h0.gc hpad h0.a1 h0.a2 h12 hz hs
    refine ((hW t ht hne).add (hf.1.hasFDerivAt.comp_hasDerivWithinAt t (hx t ht hne))).congr_deriv ?_
    rw [fderiv_eq_force]
    simp only [fun i k => hf.2 i k _ (hF t ht hne i k)]
    ring
  have left : ∀ t ∈ Ico a t₀, W t + U (x t) = W a + U (x a) := by
    intro t ht
    refine const_of_hasDeriv (f := fun t => W t + U (x t)) (a := a) (b := t) (fun r hr => ?_) ⟨ht.1, le_refl _⟩
    exact (hder r ⟨hr.1, hr.2.trans (ht.2.le.trans hb.le)⟩ (hr.2.trans_lt ht.2).ne).mono
      (Icc_subset_Icc_right (ht.2.le.trans hb.le))
  have right : ∀ t ∈ Ioc t₀ b, W b + U (x b) = W t + U (x t) := by
    intro t ht
    refine const_of_hasDeriv (f := fun t => W t + U (x t)) (a := t) (b := b) (fun r hr => ?_) ⟨ht.2, le_refl _⟩
    exact (hder r ⟨(ha.trans ht.1).le.trans hr.1, hr.2⟩ (ht.1.trans_le hr.1).ne').mono
      (Icc_subset_Icc_left (ha.trans ht.1).le)
  have lim : ∀ {l : Filter ℝ} {out : Fin n → Fin n → Prop}, Tendsto x l (𝓝 (x t₀)) →
      (∀ i j, AtCutoff numbers s (x t₀) c.disp2 i j → ∀ᶠ t in l, (dist (x t i) (x t j) ≤ c.disp2 ↔ ¬ out i j)) →
      Tendsto (fun t => U (x t)) l (𝓝 (U (x t₀) + 1 / 2 * ∑ i, ∑ j,
        if AtCutoff numbers s (x t₀) c.disp2 i j ∧ out i j then Spec.pairTerm S M M.atom i j else 0)) := by
    intro l out hl hout
    have := tendsto_finsetSum Finset.univ fun i _ =>
      C82_limit (out3 := fun _ _ => False) h h0 hl hout (fun i j hij => absurd hij (h3 i j)) i
    refine Eq.mp (congrArg (fun r => Tendsto _ l (𝓝 r)) ?_) this
    simp only [and_false, or_false, if_false, Finset.sum_const_zero, mul_zero, sub_zero,
      Finset.sum_add_distrib, Finset.mul_sum, hU]
    rfl
  have cx : Tendsto x (𝓝[Icc a b] t₀) (𝓝 (x t₀)) := hxc t₀ ht0
  have cW : Tendsto W (𝓝[Icc a b] t₀) (𝓝 (W t₀)) := hWc t₀ ht0
  have fl : 𝓝[<] t₀ ≤ 𝓝[Icc a b] t₀ := by
    rw [← nhdsWithin_Ico_eq_nhdsLT ha]
    exact nhdsWithin_mono _ fun t ht => ⟨ht.1, ht.2.le.trans hb.le⟩
  have fr : 𝓝[>] t₀ ≤ 𝓝[Icc a b] t₀ := by
    rw [← nhdsWithin_Ioc_eq_nhdsGT hb]
    exact nhdsWithin_mono _ fun t ht => ⟨ha.le.trans ht.1.le, ht.2⟩
  have L := (cW.mono_left fl).add (lim (cx.mono_left fl) hbefore)
  have Rr := (cW.mono_left fr).add (lim (cx.mono_left fr) hafter)
  have L' := tendsto_nhds_unique (L.congr' (f₂ := fun _ => W a + U (x a)) (by
    rw [← nhdsWithin_Ico_eq_nhdsLT ha]
    filter_upwards [self_mem_nhdsWithin] with t ht
    exact left t ht)) tendsto_const_nhds
  have R' := tendsto_nhds_unique (Rr.congr' (f₂ := fun _ => W b + U (x b)) (by
    rw [← nhdsWithin_Ioc_eq_nhdsGT hb]
    filter_upwards [self_mem_nhdsWithin] with t ht
    exact (right t ht).symm)) tendsto_const_nhds
  linarith

end

/-! ## Concrete cases: hydrogen fluoride next to water -/

section
variable {n : ℕ} {m : Fin n → ℝ} {U : (Fin n → Spec.E3) → ℝ} {x₀ v₀ : Fin n → Spec.E3}

/-- Newton's equations have a solution for a short time if the energy is twice differentiable. -/
theorem exists_motion (hU : ContDiffAt ℝ 2 U x₀) (hm : ∀ i, 0 < m i) (v₀ : Fin n → Spec.E3)
    {N : Set (Fin n → Spec.E3)} (hN : N ∈ 𝓝 x₀) : ∃ b > 0, ∃ x v : ℝ → Fin n → Spec.E3,
      x 0 = x₀ ∧ v 0 = v₀ ∧ Spec.Motion m 0 b x v (fun t => Spec.force U (x t)) ∧ ∀ t ∈ Icc 0 b, x t ∈ N := by
  let f : (Fin n → Spec.E3) × (Fin n → Spec.E3) → (Fin n → Spec.E3) × (Fin n → Spec.E3) := fun y =>
    (y.2, fun i => WithLp.toLp 2 fun k => Spec.force U y.1 i k / m i)
  have hf : ContDiffAt ℝ 1 f (x₀, v₀) := by
    refine contDiffAt_snd.prodMk (contDiffAt_pi.2 fun i => (contDiffAt_euclidean).2 fun k => ?_)
    have h1 : ContDiffAt ℝ 1 (fderiv ℝ U) x₀ := hU.fderiv_right (by norm_num)
    have h2 : ContDiffAt ℝ 1 (fun y => Spec.force U y i k / m i) x₀ :=
      ((h1.clm_apply contDiffAt_const).neg).div_const _
    exact h2.comp (x₀, v₀) contDiffAt_fst
  obtain ⟨α, h0, ε, hε, hα⟩ := hf.exists_forall_mem_closedBall_exists_eq_forall_mem_Ioo_hasDerivAt₀ 0
  have hc : ContinuousAt (fun t => (α t).1) 0 :=
    continuous_fst.continuousAt.comp (hα 0 ⟨by linarith, by linarith⟩).continuousAt
  have hN' : ∀ᶠ t in 𝓝 (0 : ℝ), (α t).1 ∈ N := hc.eventually (Filter.eventually_mem_set.2 (by simpa only [h0] using hN))
  obtain ⟨δ, hδ, hδN⟩ := Metric.eventually_nhds_iff.1 hN'
  refine ⟨min ε δ / 2, by positivity, fun t => (α t).1, fun t => (α t).2, by simp only [h0], by simp only [h0],
    ⟨fun t ht i => ?_, fun t ht i k => ?_⟩, fun t ht => hδN ?_⟩
  · have : t ∈ Ioo (0 - ε) (0 + ε) := ⟨by linarith [ht.1], by linarith [ht.2, min_le_left ε δ]⟩
    have := (hα t this).hasDerivWithinAt (s := Icc 0 (min ε δ / 2))
    have := (ContinuousLinearMap.fst ℝ (Fin n → Spec.E3) (Fin n → Spec.E3)).hasFDerivAt.comp_hasDerivWithinAt t this
    exact hasDerivWithinAt_pi.1 this i
  · have : t ∈ Ioo (0 - ε) (0 + ε) := ⟨by linarith [ht.1], by linarith [ht.2, min_le_left ε δ]⟩
    have := (hα t this).hasDerivWithinAt (s := Icc 0 (min ε δ / 2))
    have := (ContinuousLinearMap.snd ℝ (Fin n → Spec.E3) (Fin n → Spec.E3)).hasFDerivAt.comp_hasDerivWithinAt t this
    have := (EuclideanSpace.proj (𝕜 := ℝ) k).hasFDerivAt.comp_hasDerivWithinAt t (hasDerivWithinAt_pi.1 this i)
    refine (this.const_mul (m i)).congr_deriv ?_
    show m i * (Spec.force U (α t).1 i k / m i) = _
    have := (hm i).ne'
    field_simp
  · rw [Real.dist_eq, sub_zero, abs_of_nonneg ht.1]
    linarith [ht.2, min_le_right ε δ]

end

namespace Demo

/-- Hydrogen fluoride with a bond that is not too short and not at a cutoff. -/
def Bonded (x : Fin 3 → Spec.E3) : Prop :=
  1 < dist (x 0) (x 1) ∧ dist (x 0) (x 1) ≠ 60 ∧ dist (x 0) (x 1) ≠ 40

theorem bonded_nhds : {x | Bonded x} ∈ 𝓝 xHF := by
  have hc : Continuous fun x : Fin 3 → Spec.E3 => dist (x 0) (x 1) := by fun_prop
  have h : dist (xHF 0) (xHF 1) = 1.8 := dist_xHF (by simp [elements, numbers]) (by simp [elements, numbers]) (by simp)
  refine ((isOpen_lt continuous_const hc).inter ((isOpen_ne_fun hc continuous_const).inter
    (isOpen_ne_fun hc continuous_const))).mem_nhds ⟨?_, ?_, ?_⟩
  · show (1 : ℝ) < dist (xHF 0) (xHF 1); rw [h]; norm_num
  · show dist (xHF 0) (xHF 1) ≠ 60; rw [h]; norm_num
  · show dist (xHF 0) (xHF 1) ≠ 40; rw [h]; norm_num

theorem Bonded.off {x : Fin 3 → Spec.E3} (h : Bonded x) {i j : Fin 3} (hi : elements numbers 3 [1] i ≠ 0)
    (hj : elements numbers 3 [1] j ≠ 0) (hij : i ≠ j) :
    1 < dist (x i) (x j) ∧ dist (x i) (x j) ≠ 60 ∧ dist (x i) (x j) ≠ 40 := by
  fin_cases i <;> fin_cases j <;> simp [elements, numbers] at hi hj hij
  · exact h
  · rw [dist_comm]; exact h

theorem Bonded.cn_smooth {x : Fin 3 → Spec.E3} (h : Bonded x) (i : Fin 3) :
    ContDiffAt ℝ 1 (fun y => cn 3 (elements numbers 3 [1]) y i) x := by
  refine Demo.cn_smooth (fun i j hi hj hij he => ?_) i
  have := (h.off hi hj hij).1
  rw [he, dist_self] at this
  norm_num at this

theorem Bonded.generic {x : Fin 3 → Spec.E3} (h : Bonded x) :
    Spec.Generic (Spec.d4Settings (RefCfg.d4.spec T env.eps) env.eps par 60 40) (RefCfg.d4.spec T env.eps)
      (system T cn eeq numbers (positionsAt x) charge {} 3 [1]) := by
  have hp : coords (positionsAt x) 3 [1] = x := totalEnergy.at_pos x
  have hg := generic_HF
  constructor
  · intro i j hi hj hij
    show (1 / 2 ^ 52 : ℝ) < dist (coords (positionsAt x) 3 [1] i) (coords (positionsAt x) 3 [1] j) ^ 2
    rw [hp]
    have := (h.off hi hj hij).1
    nlinarith [show (1 / 2 ^ 52 : ℝ) < 1 by norm_num]
  · intro i j hi hj hij
    show dist (coords (positionsAt x) 3 [1] i) (coords (positionsAt x) 3 [1] j) ≠ 60
    rw [hp]
    exact (h.off hi hj hij).2.1
  · intro i j hi hj hij
    show dist (coords (positionsAt x) 3 [1] i) (coords (positionsAt x) 3 [1] j) ≠ 40
    rw [hp]
    exact (h.off hi hj hij).2.2
  · exact hg.charge
  · exact hg.zeff
  · intro i j k hi hj hk hij hik hjk
    exfalso
    change elements numbers 3 [1] i ≠ 0 at hi
    change elements numbers 3 [1] j ≠ 0 at hj
    change elements numbers 3 [1] k ≠ 0 at hk
    fin_cases i <;> fin_cases j <;> fin_cases k <;>
      simp [elements, numbers] at hi hj hk hij hik hjk
  · exact hg.radii

theorem data_q (x : Fin 3 → Spec.E3) (dep : Bool) (i : Fin 3) :
    ((system T cn eeq numbers (positionsAt x) charge {} 3 [1]).data dep i).q =
      ((system T cn eeq numbers (positionsAt xHF) charge {} 3 [1]).data dep i).q := by
  cases dep <;> rfl

theorem Bonded.genericAt {x : Fin 3 → Spec.E3} (h : Bonded x) (cls : DispClass) :
    (dispOf cls).GenericAt env T numbers positionsAt charge paramAll {} .d4 cn eeq [1] x where
  cn_smooth := h.cn_smooth
  eeq_smooth _ i := by unfold eeq; exact contDiffAt_const
  generic t ht := by
    have g := genericOf cls ht
    have hg := h.generic
    refine ⟨hg.apart, fun _ => hg.cut2, fun _ => hg.cut3,
      fun i hi => by rw [data_q]; exact g.charge i hi, ?_, g.damping, g.bj, g.vdw⟩
    intro _ i j k hi hj hk hij hik hjk
    exfalso
    change elements numbers 3 [1] i ≠ 0 at hi
    change elements numbers 3 [1] j ≠ 0 at hj
    change elements numbers 3 [1] k ≠ 0 at hk
    fin_cases i <;> fin_cases j <;> fin_cases k <;>
      simp [elements, numbers] at hi hj hk hij hik hjk
  radii t ht := gradOkAt x cls ht
  padding t _ i hi := by rw [data_q]; exact padChargeOf t.chargeDep hi

theorem Bonded.d4GenericAt {x : Fin 3 → Spec.E3} (h : Bonded x) :
    D4GenericAt env T numbers positionsAt charge {} .d4 cn eeq par [1] x where
  cn_smooth := h.cn_smooth
  eeq_smooth _ i := by unfold eeq; exact contDiffAt_const
  generic := h.generic
  padding i hi := padChargeOf true hi

theorem Bonded.grad {x : Fin 3 → Spec.E3} (h : Bonded x) (a k) :
    positionsGrad env T .d4 par param {} cn eeq numbers charge positionsAt [1] x a k =
      .fin (-Spec.force totalHF x a k) :=
  C48_forces_partial totalEnergy rfl physical (by norm_num [RefCfg.d4]) pad_refc (by norm_num [par])
    (by norm_num [par]) (Or.inl (by norm_num [par])) h.cn_smooth h.d4GenericAt.eeq_smooth h.generic
    h.d4GenericAt.padding (by show zeff 0 ≠ 1 / 2 ^ 52; norm_num [zeff]) scaleBounded a k

/-- A molecular dynamics simulation of hydrogen fluoride with each of the four classes: starting with any
velocities it goes on for some time, and conserves energy, momentum and angular momentum. -/
example (cls : DispClass) {m : Fin 3 → ℝ} (hm : ∀ i, 0 < m i) (v₀ : Fin 3 → Spec.E3) :
    ∃ b > 0, ∃ x v : ℝ → Fin 3 → Spec.E3, ∃ F : ℝ → Fin 3 → Fin 3 → ℝ, x 0 = xHF ∧ v 0 = v₀ ∧
      Spec.Motion m 0 b x v F ∧
      (∀ t ∈ Icc 0 b, ∀ i k, dispGrad env T .d4 paramAll {} cn eeq numbers charge positionsAt [1] (dispOf cls) (x t) i k =
        .fin (-F t i k)) ∧
      ∀ t ∈ Icc 0 b, Spec.kinetic m (v t) + totalOf cls (x t) = Spec.kinetic m v₀ + totalOf cls xHF ∧
        Spec.momentum m (v t) = Spec.momentum m v₀ ∧
        Spec.angularMomentum m (x t) (v t) = Spec.angularMomentum m xHF v₀ := by
  obtain ⟨b, hb, x, v, hx, hv, hmot, hN⟩ := exists_motion (((totalOf_smooth cls).of_le (by simp)) : ContDiffAt ℝ 2 _ _)
    hm v₀ bonded_nhds
  have hF : ∀ t ∈ Icc 0 b, ∀ i k, dispGrad env T .d4 paramAll {} cn eeq numbers charge positionsAt [1] (dispOf cls)
      (x t) i k = .fin (-Spec.force (totalOf cls) (x t) i k) := by
    intro t ht i k
    have g := (hN t ht).genericAt cls
    exact C72_forces (totalOf_total cls) rfl physical (by norm_num [RefCfg.d4]) pad_refc g.cn_smooth g.eeq_smooth
      scaleBounded g.generic g.radii g.padding i k
  refine ⟨b, hb, x, v, _, hx, hv, hmot, hF, fun t ht => ?_⟩
  have := C83_conservation (totalOf_total cls) rfl physical (by norm_num [RefCfg.d4]) pad_refc scaleBounded hm hmot
    (fun t ht => (hN t ht).genericAt cls) hF t ht
  rw [hx, hv] at this
  exact ⟨this.1, this.2 cn_invariant eeq_invariant⟩

/-- The same with `dftd4`. -/
example {m : Fin 3 → ℝ} (hm : ∀ i, 0 < m i) (v₀ : Fin 3 → Spec.E3) :
    ∃ b > 0, ∃ x v : ℝ → Fin 3 → Spec.E3, ∃ F : ℝ → Fin 3 → Fin 3 → ℝ, x 0 = xHF ∧ v 0 = v₀ ∧
      Spec.Motion m 0 b x v F ∧
      (∀ t ∈ Icc 0 b, ∀ i k, positionsGrad env T .d4 par param {} cn eeq numbers charge positionsAt [1] (x t) i k =
        .fin (-F t i k)) ∧
      ∀ t ∈ Icc 0 b, Spec.kinetic m (v t) + totalHF (x t) = Spec.kinetic m v₀ + totalHF xHF ∧
        Spec.momentum m (v t) = Spec.momentum m v₀ ∧
        Spec.angularMomentum m (x t) (v t) = Spec.angularMomentum m xHF v₀ := by
  have hs : ContDiffAt ℝ 2 totalHF xHF := by
    refine C42_smooth totalEnergy rfl physical (by norm_num [RefCfg.d4]) (fun i _ => ?_) (fun _ i _ => ?_) generic_HF
    · refine cn_smooth (fun i j hi hj hij he => ?_) i
      have := dist_xHF hi hj hij
      rw [he, dist_self] at this
      norm_num at this
    · unfold eeq
      exact contDiffAt_const
  obtain ⟨b, hb, x, v, hx, hv, hmot, hN⟩ := exists_motion hs hm v₀ bonded_nhds
  have hF := fun t (ht : t ∈ Icc 0 b) i k => (hN t ht).grad i k
  refine ⟨b, hb, x, v, _, hx, hv, hmot, hF, fun t ht => ?_⟩
  have := C83_dftd4 totalEnergy rfl physical (by norm_num [RefCfg.d4]) pad_refc (by norm_num [par])
    (by norm_num [par]) (Or.inl (by norm_num [par])) (by show zeff 0 ≠ 1 / 2 ^ 52; norm_num [zeff]) scaleBounded hm hmot
    (fun t ht => (hN t ht).d4GenericAt) hF t ht
  rw [hx, hv] at this
  exact ⟨this.1, this.2 cn_invariant eeq_invariant⟩

theorem continuous_stretched : Continuous stretched := by
  refine continuous_pi fun i => ?_
  unfold stretched
  split_ifs
  · exact (PiLp.continuous_toLp 2 _).comp (continuous_pi fun k => by
      by_cases hk : k = 0 <;> simp [hk, continuous_id', continuous_const])
  · exact continuous_const

/-- Velocities for pulling the bond apart. -/
noncomputable def pull : Fin 3 → Spec.E3 := fun i => EuclideanSpace.single 0 (if i = 1 then 1 else 0)

theorem hasDeriv_stretched (r : ℝ) : HasDerivAt stretched pull r := by
  have : stretched = fun r => r • pull := by
    funext r i
    ext k
    by_cases hi : i = 1 <;> by_cases hk : k = 0 <;> simp [stretched, pull, hi, hk]
  rw [this]
  simpa using (hasDerivAt_id r).smul_const pull

theorem bonded_stretched {r : ℝ} (h1 : 1 < r) (h2 : r ≠ 60) (h3 : r ≠ 40) : Bonded (stretched r) := by
  have h := dist_stretched (r := r) (i := 0) (j := 1) (by linarith) (by simp [elements, numbers])
    (by simp [elements, numbers]) (by simp)
  exact ⟨by rw [h]; exact h1, by rw [h]; exact h2, by rw [h]; exact h3⟩

/-- The pair energy of hydrogen fluoride at the cutoff. -/
noncomputable def lost : ℝ := 1 / 2 * ∑ i, ∑ j, if AtCutoff numbers [1] (stretched 60) 60 i j ∧ True then
  Spec.pairTerm (Spec.d4Settings (RefCfg.d4.spec T env.eps) env.eps par 60 40)
    (system T cn eeq numbers (positionsAt (stretched 60)) charge {} 3 [1])
    (system T cn eeq numbers (positionsAt (stretched 60)) charge {} 3 [1]).atom i j else 0

/-- The work done by the computed forces while the bond of hydrogen fluoride is stretched from 50 to 70 Bohr,
beyond the cutoff. -/
noncomputable def work (r : ℝ) : ℝ := -totalHF (stretched r) + if r ≤ 60 then 0 else lost

theorem totalHF_sum : (fun x => ∑ i, atomHF x i) = totalHF := by
  funext x
  unfold atomHF totalHF
  cases dftd4 env T ext numbers (positionsAt x) charge param <;> simp

theorem totalHF_limit {l : Filter ℝ} (hl : Tendsto stretched l (𝓝 (stretched 60))) {out : Prop}
    (ho : ∀ᶠ r in l, 0 ≤ r ∧ (r ≤ 60 ↔ ¬ out)) :
    Tendsto (fun r => totalHF (stretched r)) l (𝓝 (totalHF (stretched 60) + if out then lost else 0)) := by
  have := tendsto_finsetSum Finset.univ fun i _ =>
    C82_limit (out2 := fun _ _ => out) (out3 := fun _ _ => False) atomEnergies (continuableHF (stretched 60)) hl
      (fun i j hc => ?_) (fun i j hij => absurd hij (not_cut (by norm_num) (by norm_num [Defaults.disp3Cutoff]) i j)) i
  · rw [← totalHF_sum]
    refine Eq.mp (congrArg (fun r => Tendsto _ l (𝓝 r)) ?_) this
    simp only [and_false, or_false, if_false, Finset.sum_const_zero, mul_zero, sub_zero, Finset.sum_add_distrib]
    congr 1
    by_cases h : out
    · simp only [h, if_true]
      unfold lost
      rw [Finset.mul_sum]
      rfl
    · simp [h]
  · filter_upwards [ho] with r hr
    rw [dist_stretched hr.1 hc.1 hc.2.1 hc.2.2.1]
    exact hr.2

theorem hasDeriv_total {r : ℝ} (h : Bonded (stretched r)) : HasDerivAt (fun r => -totalHF (stretched r))
    (∑ i, ∑ k, pull i k * Spec.force totalHF (stretched r) i k) r := by
  have hd := (h.d4GenericAt.force (ext := ext) (p := param) totalEnergy rfl physical (by norm_num [RefCfg.d4]) pad_refc
    (by norm_num [par]) (by norm_num [par]) (Or.inl (by norm_num [par])) (by show zeff 0 ≠ 1 / 2 ^ 52; norm_num [zeff])
    scaleBounded).1
  refine ((hd.hasFDerivAt.comp_hasDerivAt r (hasDeriv_stretched r)).neg).congr_deriv ?_
  rw [fderiv_eq_force]
  simp

theorem work_deriv {r : ℝ} (h1 : 40 < r) (h2 : r ≠ 60) :
    HasDerivAt work (∑ i, ∑ k, pull i k * Spec.force totalHF (stretched r) i k) r := by
  have h := hasDeriv_total (bonded_stretched (by linarith) h2 h1.ne')
  rcases lt_or_gt_of_ne h2 with h2 | h2
  · refine h.congr_of_eventuallyEq ?_
    filter_upwards [Iio_mem_nhds h2] with t ht
    simp [work, (show t < 60 from ht).le]
  · refine (h.add_const lost).congr_of_eventuallyEq ?_
    filter_upwards [Ioi_mem_nhds h2] with t ht
    simp [work, not_le.2 (show 60 < t from ht)]

theorem work_continuous : ContinuousAt work 60 := by
  rw [continuousAt_iff_continuous_left'_right']
  have ht : Tendsto stretched (𝓝 60) (𝓝 (stretched 60)) := continuous_stretched.tendsto 60
  have e : work 60 = -totalHF (stretched 60) := by simp [work]
  have h0 : ∀ᶠ r : ℝ in 𝓝 60, 0 ≤ r := by filter_upwards [Ici_mem_nhds (show (0 : ℝ) < 60 by norm_num)] with r hr using hr
  constructor
  · have := (totalHF_limit (out := False) (ht.mono_left nhdsWithin_le_nhds) (l := 𝓝[<] 60) (by
      filter_upwards [self_mem_nhdsWithin, eventually_nhdsWithin_of_eventually_nhds h0] with r hr hr0
      exact ⟨hr0, by simpa using (show r < 60 from hr).le⟩)).neg
    show Tendsto work (𝓝[<] 60) (𝓝 (work 60))
    rw [e]
    rw [if_neg id, add_zero] at this
    refine this.congr' ?_
    filter_upwards [self_mem_nhdsWithin] with r hr
    simp [work, (show r < 60 from hr).le]
  · have := ((totalHF_limit (out := True) (ht.mono_left nhdsWithin_le_nhds) (l := 𝓝[>] 60) (by
      filter_upwards [self_mem_nhdsWithin, eventually_nhdsWithin_of_eventually_nhds h0] with r hr hr0
      exact ⟨hr0, by simpa using (show 60 < r from hr)⟩)).neg).add_const lost
    show Tendsto work (𝓝[>] 60) (𝓝 (work 60))
    rw [e]
    rw [if_pos trivial, neg_add, neg_add_cancel_right] at this
    refine this.congr' ?_
    filter_upwards [self_mem_nhdsWithin] with r hr
    simp [work, not_le.2 (show 60 < r from hr)]

/-- Hydrogen fluoride is pulled apart through the cutoff: work and energy do not balance, but differ by the
pair energy at the cutoff. -/
example : (work 70 + ∑ i, atomHF (stretched 70) i) - (work 50 + ∑ i, atomHF (stretched 50) i) = lost := by
  have h := C83_cutoff (a := 50) (b := 70) (t₀ := 60) (x := stretched) (v := fun _ => pull) (W := work)
    (F := fun r => Spec.force totalHF (stretched r)) (before := fun _ _ => False) (after := fun _ _ => True)
    atomEnergies pad_refc (Or.inl (by norm_num [par])) (by show zeff 0 ≠ 1 / 2 ^ 52; norm_num [zeff]) scaleBounded
    (by norm_num) (by norm_num) continuous_stretched.continuousOn (fun r hr => ?_)
    (fun r _ _ => (hasDeriv_stretched r).hasDerivWithinAt)
    (fun r hr h => (work_deriv (by linarith [hr.1]) h).hasDerivWithinAt)
    (fun r hr h => (bonded_stretched (by linarith [hr.1]) h (by linarith [hr.1])).d4GenericAt)
    (fun r hr h => (bonded_stretched (by linarith [hr.1]) h (by linarith [hr.1])).grad)
    (continuableHF _) (not_cut (by norm_num) (by norm_num [Defaults.disp3Cutoff]))
    (fun i j hc => ?_) (fun i j hc => ?_)
  · simpa [lost, Defaults.disp2Cutoff, Defaults.disp3Cutoff] using h
  · by_cases h : r = 60
    · rw [h]; exact work_continuous.continuousWithinAt
    · exact (work_deriv (by linarith [hr.1]) h).continuousAt.continuousWithinAt
  · filter_upwards [self_mem_nhdsWithin, eventually_nhdsWithin_of_eventually_nhds
      (lt_mem_nhds (show (0 : ℝ) < 60 by norm_num))] with r hr h0
    rw [dist_stretched h0.le hc.1 hc.2.1 hc.2.2.1]
    exact ⟨fun _ => id, fun _ => (show r < 60 from hr).le⟩
  · filter_upwards [self_mem_nhdsWithin] with r hr
    rw [dist_stretched (by linarith [show (60 : ℝ) < r from hr]) hc.1 hc.2.1 hc.2.2.1]
    exact ⟨fun h => absurd h (not_le.2 hr), fun h => absurd trivial h⟩

end Demo

end TadDftd4
