import Verif.Props.C42
import Mathlib.Analysis.Calculus.FDeriv.Symmetric

/-!
# C55: Hessians

Second derivatives of the total energy of a system with respect to its positions. At a generic geometry
(`Spec.Generic`) they exist, the Hessian is symmetric, its rows add up to zero (translations), it
satisfies the sum rule of rotations, so that overall rotations of a stationary structure have no
restoring force, and it vanishes for padding atoms.
-/

open scoped Classical Topology

namespace TadDftd4

open Tensor

namespace Spec

variable {n : ℕ}

/-- `∂²E / ∂x_ik ∂x_jl`: minus the derivative of the force on atom `i` with respect to the
position of atom `j`. -/
noncomputable def hessian (E : (Fin n → E3) → ℝ) (x : Fin n → E3) (i : Fin n) (k : Fin 3) (j : Fin n)
    (l : Fin 3) : ℝ :=
  -fderiv ℝ (fun y => force E y i k) x (Pi.single j (EuclideanSpace.single l 1))

end Spec

section
variable {n : ℕ} {E : (Fin n → Spec.E3) → ℝ} {x : Fin n → Spec.E3}

/-- Unit displacement of coordinate `k` of atom `i`. -/
noncomputable def unitAt (i : Fin n) (k : Fin 3) : Fin n → Spec.E3 :=
  Pi.single i (EuclideanSpace.single k 1)

theorem force_eq (y : Fin n → Spec.E3) (i : Fin n) (k : Fin 3) :
    Spec.force E y i k = -fderiv ℝ E y (unitAt i k) := rfl

theorem differentiableAt_fderiv (hd : ContDiffAt ℝ 2 E x) : DifferentiableAt ℝ (fderiv ℝ E) x :=
  (hd.fderiv_right (m := 1) (by norm_num)).differentiableAt (by norm_num)

theorem hessian_eq (hd : ContDiffAt ℝ 2 E x) (i : Fin n) (k : Fin 3) (j : Fin n) (l : Fin 3) :
    Spec.hessian E x i k j l = fderiv ℝ (fderiv ℝ E) x (unitAt j l) (unitAt i k) := by
  unfold Spec.hessian
  simp only [force_eq]
  have h1 := differentiableAt_fderiv hd
  have h2 : HasFDerivAt (fun y => -fderiv ℝ E y (unitAt i k))
      (-((ContinuousLinearMap.apply ℝ ℝ (unitAt i k)).comp (fderiv ℝ (fderiv ℝ E) x))) x := by
    have := ((ContinuousLinearMap.apply ℝ ℝ (unitAt i k)).hasFDerivAt
      (x := fderiv ℝ E x)).comp x h1.hasFDerivAt
    exact this.neg
  rw [h2.fderiv]
  simp [unitAt]

/-- Displacements in terms of unit displacements. -/
theorem displacement_eq (v : Fin n → Spec.E3) : v = ∑ i, ∑ k, v i k • unitAt i k := by
  funext j
  ext l
  simp only [unitAt, Finset.sum_apply, Pi.smul_apply, PiLp.smul_apply, WithLp.ofLp_sum]
  rw [Finset.sum_eq_single j]
  · rw [Finset.sum_eq_single l]
    · simp
    · intro k _ hk; simp [hk.symm]
    · simp
  · intro i _ hi
    exact Finset.sum_eq_zero fun k _ => by simp [Pi.single_eq_of_ne hi.symm]
  · simp

theorem fderiv2_eq (hd : ContDiffAt ℝ 2 E x) (i : Fin n) (k : Fin 3) (v : Fin n → Spec.E3) :
    fderiv ℝ (fderiv ℝ E) x v (unitAt i k) = ∑ j, ∑ l, v j l * Spec.hessian E x i k j l := by
  conv_lhs => rw [displacement_eq v]
  simp only [map_sum, map_smul, ContinuousLinearMap.sum_apply, ContinuousLinearMap.smul_apply,
    smul_eq_mul, hessian_eq hd]

/-- A linear motion of the atoms. -/
noncomputable def rotGen (a c : Fin 3) : (Fin n → Spec.E3) →L[ℝ] (Fin n → Spec.E3) :=
  ContinuousLinearMap.pi fun i =>
    ((EuclideanSpace.proj a : Spec.E3 →L[ℝ] ℝ).smulRight (EuclideanSpace.single c 1 : Spec.E3) -
      (EuclideanSpace.proj c : Spec.E3 →L[ℝ] ℝ).smulRight (EuclideanSpace.single a 1 : Spec.E3)).comp
      (ContinuousLinearMap.proj i)

noncomputable def rotProj (a c : Fin 3) : (Fin n → Spec.E3) →L[ℝ] (Fin n → Spec.E3) :=
  ContinuousLinearMap.pi fun i =>
    ((EuclideanSpace.proj a : Spec.E3 →L[ℝ] ℝ).smulRight (EuclideanSpace.single a 1 : Spec.E3) +
      (EuclideanSpace.proj c : Spec.E3 →L[ℝ] ℝ).smulRight (EuclideanSpace.single c 1 : Spec.E3)).comp
      (ContinuousLinearMap.proj i)

/-- Rotation of all atoms by `t`. -/
noncomputable def rotMap (a c : Fin 3) (t : ℝ) : (Fin n → Spec.E3) →L[ℝ] (Fin n → Spec.E3) :=
  ContinuousLinearMap.id ℝ _ + ((Real.cos t - 1) • rotProj a c + Real.sin t • rotGen a c)

theorem rotMap_apply (a c : Fin 3) (t : ℝ) (v : Fin n → Spec.E3) :
    rotMap a c t v = v + ((Real.cos t - 1) • rotProj a c v + Real.sin t • rotGen a c v) := by
  simp [rotMap]

theorem rotGen_apply (a c : Fin 3) (v : Fin n → Spec.E3) (i : Fin n) :
    rotGen a c v i = v i a • EuclideanSpace.single c 1 - v i c • EuclideanSpace.single a 1 := by
  simp [rotGen]

theorem rotProj_apply (a c : Fin 3) (v : Fin n → Spec.E3) (i : Fin n) :
    rotProj a c v i = v i a • EuclideanSpace.single a 1 + v i c • EuclideanSpace.single c 1 := by
  simp [rotProj]

theorem rotMap_eq {a c : Fin 3} (hac : a ≠ c) (t : ℝ) (v : Fin n → Spec.E3) :
    rotMap a c t v = fun i => rigidMotion (planeRot a c t) (planeRot_mem hac t) 0 (v i) := by
  rw [rotMap_apply]
  funext i
  ext l
  rw [rigidMotion_apply, Fin.sum_univ_three]
  simp only [Pi.add_apply, Pi.smul_apply, rotGen_apply, rotProj_apply]
  fin_cases a <;> fin_cases c <;> first | exact absurd rfl hac | skip
  all_goals fin_cases l <;> simp [planeRot] <;> ring

theorem hasDerivAt_rotMap (a c : Fin 3) (v : Fin n → Spec.E3) :
    HasDerivAt (fun t => rotMap a c t v) (rotGen a c v) 0 := by
  simp only [rotMap_apply]
  have h1 := ((Real.hasDerivAt_cos 0).sub_const 1).smul_const (rotProj a c v)
  have h2 := (Real.hasDerivAt_sin 0).smul_const (rotGen a c v)
  have h3 := (h1.add h2).const_add v
  simpa using h3

/-- An energy that does not change under isometries: the rows of the Hessian add up to zero. -/
theorem hessian_translation (hI : ∀ (g : Spec.E3 ≃ᵢ Spec.E3) (y : Fin n → Spec.E3), E (fun i => g (y i)) = E y)
    (hd : ContDiffAt ℝ 2 E x) (i : Fin n) (k l : Fin 3) : ∑ j, Spec.hessian E x i k j l = 0 := by
  obtain ⟨u, hu⟩ : ∃ u : Fin n → Spec.E3, u = fun _ => EuclideanSpace.single l 1 := ⟨_, rfl⟩
  have hinv : ∀ t : ℝ, (fun y => E (y + t • u)) = E := by
    intro t
    funext y
    have := hI (IsometryEquiv.addRight (t • EuclideanSpace.single l 1)) y
    rw [← this]
    congr 1
    funext j
    simp [hu]
  have hF : ∀ t : ℝ, fderiv ℝ E (x + t • u) = fderiv ℝ E x := by
    intro t
    rw [← fderiv_comp_add_right, hinv]
  have h1 : HasFDerivAt (fderiv ℝ E) (fderiv ℝ (fderiv ℝ E) x) (x + (0 : ℝ) • u) := by
    simpa using (differentiableAt_fderiv hd).hasFDerivAt
  have h2 : HasDerivAt (fun t : ℝ => x + t • u) u 0 := by
    simpa using ((hasDerivAt_id (0 : ℝ)).smul_const u).const_add x
  have h3 := h1.comp_hasDerivAt (0 : ℝ) h2
  have h4 : (fderiv ℝ E ∘ fun t : ℝ => x + t • u) = fun _ => fderiv ℝ E x := funext hF
  rw [h4] at h3
  have h5 := h3.unique (hasDerivAt_const 0 (fderiv ℝ E x))
  have h6 := fderiv2_eq hd i k u
  rw [h5] at h6
  simp only [zero_apply] at h6
  rw [h6]
  refine Finset.sum_congr rfl fun j _ => ?_
  rw [Finset.sum_eq_single l]
  · simp [hu]
  · intro l' _ hl; simp [hu, hl]
  · simp

/-- The first moments of a row of the Hessian are components of the force. -/
theorem hessian_rotation (hI : ∀ (g : Spec.E3 ≃ᵢ Spec.E3) (y : Fin n → Spec.E3), E (fun i => g (y i)) = E y)
    (hd : ContDiffAt ℝ 2 E x) {a c : Fin 3} (hac : a ≠ c) (i : Fin n) (k : Fin 3) :
    ∑ j, (x j a * Spec.hessian E x i k j c - x j c * Spec.hessian E x i k j a) =
      (if k = a then Spec.force E x i c else 0) - (if k = c then Spec.force E x i a else 0) := by
  have hinv : ∀ t : ℝ, (fun y => E (rotMap a c t y)) = E := by
    intro t
    funext y
    rw [rotMap_eq hac]
    exact hI _ y
  have h0 : rotMap a c 0 x = x := by rw [rotMap_apply]; simp
  have hnear : ∀ᶠ t in 𝓝 (0 : ℝ), DifferentiableAt ℝ E (rotMap a c t x) := by
    have hev := hd.eventually (by simp)
    have hc := (hasDerivAt_rotMap a c x).continuousAt
    have : Filter.Tendsto (fun t => rotMap a c t x) (𝓝 0) (𝓝 x) := by
      have := hc.tendsto; rwa [h0] at this
    exact (this.eventually hev).mono fun t ht => ht.differentiableAt (by norm_num)
  have hF : ∀ᶠ t in 𝓝 (0 : ℝ), fderiv ℝ E (rotMap a c t x) (rotMap a c t (unitAt i k)) =
      fderiv ℝ E x (unitAt i k) := by
    refine hnear.mono fun t ht => ?_
    have := ht.hasFDerivAt.comp x (rotMap a c t).hasFDerivAt
    have h2 := this.fderiv
    have h3 : fderiv ℝ (E ∘ rotMap a c t) x = fderiv ℝ E x := by
      congr 1
      exact hinv t
    rw [h3] at h2
    rw [h2]; rfl
  have h1 : HasFDerivAt (fderiv ℝ E) (fderiv ℝ (fderiv ℝ E) x) (rotMap a c 0 x) := by
    rw [h0]; exact (differentiableAt_fderiv hd).hasFDerivAt
  have h2 := h1.comp_hasDerivAt (0 : ℝ) (hasDerivAt_rotMap a c x)
  have h3 := h2.clm_apply (hasDerivAt_rotMap a c (unitAt i k))
  have h4 := h3.unique ((hasDerivAt_const (0 : ℝ) (fderiv ℝ E x (unitAt i k))).congr_of_eventuallyEq
    hF)
  have h0' : rotMap a c 0 (unitAt i k) = unitAt (n := n) i k := by rw [rotMap_apply]; simp
  rw [Function.comp_apply, h0, h0', fderiv2_eq hd] at h4
  have h5 : fderiv ℝ E x (rotGen a c (unitAt i k)) =
      -((if k = a then Spec.force E x i c else 0) - (if k = c then Spec.force E x i a else 0)) := by
    rw [fderiv_eq_force]
    congr 1
    rw [Finset.sum_eq_single i]
    · rw [Fin.sum_univ_three]
      simp only [rotGen_apply, unitAt, Pi.single_eq_same]
      fin_cases a <;> fin_cases c <;> first | exact absurd rfl hac | skip
      all_goals fin_cases k <;> simp
    · intro j _ hj
      refine Finset.sum_eq_zero fun l _ => ?_
      simp [rotGen_apply, unitAt, Pi.single_eq_of_ne hj]
    · simp
  have h6 : ∑ j, ∑ l, rotGen a c x j l * Spec.hessian E x i k j l =
      ∑ j, (x j a * Spec.hessian E x i k j c - x j c * Spec.hessian E x i k j a) := by
    refine Finset.sum_congr rfl fun j _ => ?_
    rw [Fin.sum_univ_three]
    simp only [rotGen_apply]
    fin_cases a <;> fin_cases c <;> first | exact absurd rfl hac | skip
    all_goals simp <;> ring
  rw [h5, h6] at h4
  linarith

end

section
variable {env : Env} {T : Tables} {ext : Ext} {numbers : Tensor ℕ}
  {charge : Tensor ℝ} {p : Param}
  {o : DftOpts} {n : ℕ} {B : Shape} {b : Idx} {R : RefCfg} {cn : Spec.CN} {eeq : Spec.EEQ}
  {P : Spec.D4Par} {E : (Fin n → Spec.E3) → ℝ} {x : Fin n → Spec.E3}
  {positions : (Fin n → Spec.E3) → Tensor ℝ}

/-- At a generic geometry every component of the forces is differentiable, so that the Hessian is the
matrix of second derivatives. -/
theorem C55_exists (h : TotalEnergy env T ext numbers positions charge p o B R cn eeq P b E)
    (hfl : env.fl = id) (hT : T.Physical R.rq) (hgc : 0 < R.gc)
    (hcn : ∀ i, elements numbers n b i ≠ 0 →
      ContDiffAt ℝ 2 (fun y => cn n (elements numbers n b) y i) x)
    (heeq : o.opts.q = none → ∀ i, elements numbers n b i ≠ 0 → ContDiffAt ℝ 2 (fun y =>
      eeq n (o.opts.cutoff.getD {}).cnEeq (elements numbers n b) y (charge.get b) i) x)
    (hg : Spec.Generic (Spec.d4Settings (R.spec T env.eps) env.eps P (o.opts.cutoff.getD {}).disp2
      (o.opts.cutoff.getD {}).disp3) (R.spec T env.eps)
      (system T cn eeq numbers (positions x) charge o.opts n b)) :
    ContDiffAt ℝ 2 E x ∧ ∀ i k, DifferentiableAt ℝ (fun y => Spec.force E y i k) x := by
  have hd : ContDiffAt ℝ 2 E x := C42_smooth h hfl hT hgc hcn heeq hg
  refine ⟨hd, fun i k => ?_⟩
  have h1 := differentiableAt_fderiv hd
  simp only [force_eq]
  exact (h1.clm_apply (differentiableAt_const _)).neg

/-- The Hessian is symmetric. -/
theorem C55_symmetric (hd : ContDiffAt ℝ 2 E x) (i : Fin n) (k : Fin 3) (j : Fin n) (l : Fin 3) :
    Spec.hessian E x i k j l = Spec.hessian E x j l i k := by
  rw [hessian_eq hd, hessian_eq hd]
  exact (hd.isSymmSndFDerivAt (by simp)) _ _

/-- Translations: the rows of the Hessian add up to zero. -/
theorem C55_translation (h : TotalEnergy env T ext numbers positions charge p o B R cn eeq P b E)
    (hcn : cn.Invariant) (heeq : eeq.Invariant) (hd : ContDiffAt ℝ 2 E x) (i : Fin n) (k l : Fin 3) :
    ∑ j, Spec.hessian E x i k j l = 0 :=
  hessian_translation (h.isometry hcn heeq) hd i k l

/-- Rotations in the plane of the axes `a` and `c`: the first moments of a row of the Hessian are
components of the force. -/
theorem C55_rotation (h : TotalEnergy env T ext numbers positions charge p o B R cn eeq P b E)
    (hcn : cn.Invariant) (heeq : eeq.Invariant) (hd : ContDiffAt ℝ 2 E x) {a c : Fin 3} (hac : a ≠ c)
    (i : Fin n) (k : Fin 3) :
    ∑ j, (x j a * Spec.hessian E x i k j c - x j c * Spec.hessian E x i k j a) =
      (if k = a then Spec.force E x i c else 0) - (if k = c then Spec.force E x i a else 0) :=
  hessian_rotation (h.isometry hcn heeq) hd hac i k

/-- Overall rotations of a structure without forces cost no energy to second order. -/
theorem C55_rotation_mode
    (h : TotalEnergy env T ext numbers positions charge p o B R cn eeq P b E)
    (hcn : cn.Invariant) (heeq : eeq.Invariant) (hd : ContDiffAt ℝ 2 E x)
    (hs : ∀ i k, Spec.force E x i k = 0) {a c : Fin 3} (hac : a ≠ c) (i : Fin n) (k : Fin 3) :
    ∑ j, (x j a * Spec.hessian E x i k j c - x j c * Spec.hessian E x i k j a) = 0 := by
  rw [C55_rotation h hcn heeq hd hac]
  simp [hs]

/-- Rows and columns of padding atoms are zero. -/
theorem C55_padding (h : TotalEnergy env T ext numbers positions charge p o B R cn eeq P b E)
    (hcn : cn.IgnoresPaddingPositions) (heeq : eeq.IgnoresPaddingPositions)
    (hd : ContDiffAt ℝ 2 E x) {i : Fin n} (hi : elements numbers n b i = 0) (k : Fin 3) (j : Fin n)
    (l : Fin 3) : Spec.hessian E x i k j l = 0 ∧ Spec.hessian E x j l i k = 0 := by
  have h1 : Spec.hessian E x i k j l = 0 := by
    unfold Spec.hessian
    have : (fun y => Spec.force E y i k) = fun _ => 0 :=
      funext fun y => C42_padding_force_zero h hcn heeq hi k
    rw [this]
    simp
  exact ⟨h1, by rw [C55_symmetric hd, h1]⟩

end

/-- Hydrogen fluoride with a padding atom. -/
example : ContDiffAt ℝ 2 Demo.totalHF Demo.xHF ∧
    (∀ i k l, ∑ j, Spec.hessian Demo.totalHF Demo.xHF i k j l = 0) ∧
    ∀ k j l, Spec.hessian Demo.totalHF Demo.xHF 2 k j l = 0 := by
  have hs : ContDiffAt ℝ 2 Demo.totalHF Demo.xHF := by
    refine (C55_exists Demo.totalEnergy rfl Demo.physical (by norm_num [RefCfg.d4]) (fun i _ => ?_)
      (fun _ i _ => ?_) Demo.generic_HF).1
    · refine Demo.cn_smooth (fun i j hi hj hij he => ?_) i
      have := Demo.dist_xHF hi hj hij
      rw [he, dist_self] at this
      norm_num at this
    · unfold Demo.eeq
      exact contDiffAt_const
  exact ⟨hs, C55_translation Demo.totalEnergy Demo.cn_invariant Demo.eeq_invariant hs,
    fun k j l => (C55_padding Demo.totalEnergy Demo.cn_ignores Demo.eeq_ignores hs rfl k j l).1⟩

theorem Demo.smooth_HF : ContDiffAt ℝ 2 Demo.totalHF Demo.xHF := by
  refine (C55_exists Demo.totalEnergy rfl Demo.physical (by norm_num [RefCfg.d4]) (fun i _ => ?_)
    (fun _ i _ => ?_) Demo.generic_HF).1
  · refine Demo.cn_smooth (fun i j hi hj hij he => ?_) i
    have := Demo.dist_xHF hi hj hij
    rw [he, dist_self] at this
    norm_num at this
  · unfold Demo.eeq
    exact contDiffAt_const

example := C55_symmetric Demo.smooth_HF 0 1 1 2

example := C55_rotation Demo.totalEnergy Demo.cn_invariant Demo.eeq_invariant Demo.smooth_HF
  (a := 0) (c := 2) (by decide) 1 1

/-- Fluorine and hydrogen beyond all cutoffs: a stationary point. -/
noncomputable def Demo.xFar : Fin 3 → Spec.E3 :=
  fun i => EuclideanSpace.single 0 (if i = 1 then 100 else 0)

theorem Demo.totalHF_far : Demo.totalHF =ᶠ[𝓝 Demo.xFar] fun _ => 0 := by
  have hc : Continuous fun x : Fin 3 → Spec.E3 => dist (x 0) (x 1) := by fun_prop
  have h0 : 60 < dist (Demo.xFar 0) (Demo.xFar 1) := by
    norm_num [Demo.xFar]
  filter_upwards [hc.continuousAt.eventually (lt_mem_nhds h0)] with x hx
  obtain ⟨e, he, -, h⟩ := (Demo.totalEnergy.call x).eval
  rw [Demo.totalEnergy.total x e he]
  refine Finset.sum_eq_zero fun i _ => ?_
  rw [h [1] (by simp [InB]) i]
  have hp : coords (Demo.positionsAt x) 3 [1] = x := Demo.totalEnergy.at_pos x
  set M := system Demo.T Demo.cn Demo.eeq Demo.numbers (Demo.positionsAt x) Demo.charge {} 3 [1]
  have hZ : M.Z 2 = 0 := rfl
  have hr : ∀ i j, M.Z i ≠ 0 → M.Z j ≠ 0 → i ≠ j → ¬ M.r Demo.env.eps i j ≤ 60 := by
    intro i j hi hj hij
    have e : M.r Demo.env.eps i j = √(max (dist (x i) (x j) ^ 2) Demo.env.eps) := by
      show √(max (dist (coords (Demo.positionsAt x) 3 [1] i) (coords (Demo.positionsAt x) 3 [1] j) ^ 2) _) = _
      rw [hp]
    have hd : 60 < dist (x i) (x j) := by
      fin_cases i <;> fin_cases j <;>
        first
        | exact absurd rfl hij
        | exact absurd hZ hi
        | exact absurd hZ hj
        | exact hx
        | (rw [dist_comm]; exact hx)
    rw [e, not_le]
    refine Real.lt_sqrt_of_sq_lt (lt_max_of_lt_left ?_)
    exact pow_lt_pow_left₀ hd (by norm_num) (by norm_num)
  have h2 : Spec.e2 (d4Computed Demo.env Demo.T .d4 Demo.par {}) M M.atom i = 0 := by
    unfold Spec.e2
    rw [Finset.sum_eq_zero, mul_zero]
    exact fun j _ => if_neg fun ⟨a, b, c, d⟩ => hr i j a b c d
  have h3 : Spec.e3 (d4Computed Demo.env Demo.T .d4 Demo.par {}) M
      (Spec.c9 (d4Computed Demo.env Demo.T .d4 Demo.par {}) M.neutral)
      (Spec.R0 (d4Computed Demo.env Demo.T .d4 Demo.par {}) M) i = 0 := by
    unfold Spec.e3
    rw [Finset.sum_eq_zero, mul_zero]
    exact fun j _ => Finset.sum_eq_zero fun k _ => if_neg fun ⟨a, b, _, c, _, _, d, _⟩ =>
      hr i j a b c (d.trans (by show (40 : ℝ) ≤ 60; norm_num))
  show Spec.e2 _ M M.atom i + Spec.e3 _ M _ _ i = 0
  exact (congrArg₂ (· + ·) h2 h3).trans (add_zero 0)

example := C55_rotation_mode Demo.totalEnergy Demo.cn_invariant Demo.eeq_invariant
  (contDiffAt_const.congr_of_eventuallyEq Demo.totalHF_far)
  (fun i k => by rw [Spec.force, Demo.totalHF_far.fderiv_eq]; simp) (a := 0) (c := 2) (by decide) 1 1

end TadDftd4
