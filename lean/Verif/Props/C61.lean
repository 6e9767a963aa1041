import Verif.Lemmas.HessianEnergy
import Verif.Props.C48
import Verif.Props.C55

/-!
# C61: Hessians from automatic differentiation

Users obtain Hessians (harmonic frequencies) by differentiating the forces once more: the first backward
pass is recorded (`create_graph=True`) and a second one runs through the enlarged graph. The recorded
pass is `Tape.backT` in `Model/Autograd.lean`; what is to be computed is `Spec.hessian` of C55, the
second derivative of the total energy.

* `C61_hessian`: without underflow, at a generic geometry, the entries are the second derivatives;
* `C61_symmetric`: hence the matrix is symmetric, although rows and columns are computed differently;
* `C61_zero_modes`: its rows add up to zero and it vanishes for padding;
* `C61_finite`: whatever the geometry, the entries are numbers, unless all Gaussian weights of an atom
  have underflown.
-/

set_option linter.unusedSimpArgs false

open scoped Classical Topology

namespace TadDftd4

open Tensor

section
variable (env : Env) (T : Tables) (R : RefCfg) (P : Spec.D4Par) (p : Param) (o : DftOpts)
  (cn : Spec.CN) (eeq : Spec.EEQ) (numbers : Tensor ℕ) {n : ℕ} (charge : Tensor ℝ)
  (positions : (Fin n → Spec.E3) → Tensor ℝ) (b : Idx)

/-- System `b` while atom `a'` moves along axis `k'`. The inputs also carry their derivatives with
respect to the displacement of atom `a` along axis `k`, which the first backward pass uses.
Models src/tad_dftd4/dispersion/base.py:389-414. -/
noncomputable def hessSys (x : Fin n → Spec.E3) (a : Fin n) (k : Fin 3) (a' : Fin n) (k' : Fin 3) :
    GradSys n :=
  { gradSys T o cn eeq numbers charge positions b x a' k' with
    posDot := fun i c t => deriv (fun s : ℝ => (system T cn eeq numbers
      (positions (x + t • unitDisp a' k' + s • unitDisp a k)) charge o.opts n b).pos i c) 0
    cnDot := fun i t => deriv (fun s : ℝ => (system T cn eeq numbers
      (positions (x + t • unitDisp a' k' + s • unitDisp a k)) charge o.opts n b).cn i) 0
    qDot := fun i t => deriv (fun s : ℝ => (system T cn eeq numbers
      (positions (x + t • unitDisp a' k' + s • unitDisp a k)) charge o.opts n b).q i) 0 }

/-- The graph of the total energy.
Models src/tad_dftd4/dispersion/base.py:416-431. -/
noncomputable def totalGraph (x : Fin n → Spec.E3) (a : Fin n) (k : Fin 3) (a' : Fin n) (k' : Fin 3) :
    Tape :=
  Tape.sum n fun i => Tape.energy (gradCfg env T R P p (o.opts.cutoff.getD {}))
    (hessSys T o cn eeq numbers charge positions b x a k a' k') (rc6At env T R.ga R.gc R.rq) i

/-- Component `k'` for atom `a'` of the gradient of `positions.grad[a, k]`: the backward pass of the
total energy is recorded, and a second backward pass runs through the recorded graph.
Models the call in test/test_grad/test_hessian.py:97-101. -/
noncomputable def positionsHess (x : Fin n → Spec.E3) (a : Fin n) (k : Fin 3) (a' : Fin n)
    (k' : Fin 3) : FP :=
  ((totalGraph env T R P p o cn eeq numbers charge positions b x a k a' k').backT (.const 1)).back 0
    (.fin 1)

end

section
variable {n : ℕ} {f : (Fin n → Spec.E3) → ℝ} {x u u' : Fin n → Spec.E3}

theorem hasDerivAt_line (y u : Fin n → Spec.E3) :
    HasDerivAt (fun s : ℝ => y + s • u) u 0 := by
  have := ((hasDerivAt_id (0 : ℝ)).smul_const u).const_add y
  simpa using this

theorem hasDerivAt_along {y : Fin n → Spec.E3} (h : DifferentiableAt ℝ f y) (u : Fin n → Spec.E3) :
    HasDerivAt (fun s : ℝ => f (y + s • u)) (fderiv ℝ f y u) 0 := by
  have hl := hasDerivAt_line y u
  exact HasFDerivAt.comp_hasDerivAt (0 : ℝ) (by simpa using h.hasFDerivAt) hl

/-- Near `x` the function has derivatives along `u`. -/
theorem eventually_along (hf : ContDiffAt ℝ 2 f x) (u u' : Fin n → Spec.E3) :
    ∀ᶠ t in 𝓝 (0 : ℝ), HasDerivAt (fun s : ℝ => f (x + t • u' + s • u))
      (fderiv ℝ f (x + t • u') u) 0 := by
  have hev := hf.eventually (by simp)
  have ht : Filter.Tendsto (fun t : ℝ => x + t • u') (𝓝 0) (𝓝 x) := by
    have := (hasDerivAt_line x u').continuousAt
    unfold ContinuousAt at this
    simpa using this
  filter_upwards [ht.eventually hev] with t h
  exact hasDerivAt_along (h.differentiableAt (by simp)) u

theorem hasDerivAt_along2 (hf : ContDiffAt ℝ 2 f x) (u u' : Fin n → Spec.E3) :
    HasDerivAt (fun t : ℝ => fderiv ℝ f (x + t • u') u) (fderiv ℝ (fderiv ℝ f) x u' u) 0 := by
  have h1 := (differentiableAt_fderiv hf).hasFDerivAt
  have h2 := HasFDerivAt.comp_hasDerivAt (0 : ℝ) (by simpa using h1) (hasDerivAt_line x u')
  exact ((ContinuousLinearMap.apply ℝ ℝ u).hasFDerivAt (x := fderiv ℝ f (x + (0 : ℝ) • u'))).comp_hasDerivAt
    (0 : ℝ) h2

/-- Inputs that are smooth functions of the positions. -/
theorem fine2_smooth (hf : ContDiffAt ℝ 2 f x) (u u' : Fin n → Spec.E3) :
    Tape.Fine2 (Tape.input true (fun t => f (x + t • u'))
      fun t => deriv (fun s : ℝ => f (x + t • u' + s • u)) 0) fun s t => f (x + t • u' + s • u) := by
  have hF0 : (fun t : ℝ => f (x + t • u' + (0 : ℝ) • u)) = fun t => f (x + t • u') := by
    funext t
    simp
  have := Tape.Fine2.input (gr := true) (F := fun s t : ℝ => f (x + t • u' + s • u)) (fun _ => ⟨?_, ?_, ?_⟩)
    (fun h => absurd h (by simp))
  · rw [hF0] at this
    exact this
  · rw [hF0]
    exact (hasDerivAt_along (hf.differentiableAt (by simp)) u').differentiableAt
  · exact (eventually_along hf u u').mono fun t ht => ht.differentiableAt
  · refine (hasDerivAt_along2 hf u u').differentiableAt.congr_of_eventuallyEq ?_
    exact (eventually_along hf u u').mono fun t ht => ht.deriv

end

section
variable {env : Env} {T : Tables} {ext : Ext} {numbers : Tensor ℕ}
  {charge : Tensor ℝ} {p : Param}
  {o : DftOpts} {n : ℕ} {B : Shape} {b : Idx} {R : RefCfg} {cn : Spec.CN} {eeq : Spec.EEQ}
  {P : Spec.D4Par} {E : (Fin n → Spec.E3) → ℝ} {x : Fin n → Spec.E3}
  {positions : (Fin n → Spec.E3) → Tensor ℝ}

/-- Whatever the geometry, the entries of the Hessian are numbers, if not all Gaussians of an atom have
underflown (`Regular`) and, for D4, the exponents are one or at least two. -/
theorem C61_finite (h : TotalEnergy env T ext numbers positions charge p o B R cn eeq P b E)
    (hr : Regular env T R P (system T cn eeq numbers (positions x) charge o.opts n b))
    (hw : R.kind = .d4 → ∀ Z Z', R.wf Z Z' = 1 ∨ 2 ≤ R.wf Z Z') (a : Fin n) (k : Fin 3) (a' : Fin n)
    (k' : Fin 3) :
    ∃ g, positionsHess env T R P p o cn eeq numbers charge positions b x a k a' k' = .fin g := by
  have hf := hr.finOk (p := p) a' k'
  have hf2 : Tape.FinOk2 (gradCfg env T R P p (o.opts.cutoff.getD {}))
      (hessSys T o cn eeq numbers charge positions b x a k a' k') 0 :=
    ⟨fun i j => ⟨fun hk => Or.inl (hw hk _ _), (hf.charged i j).norm, (hf.charged i j).charge⟩,
      fun i j => ⟨fun hk => Or.inl (hw hk _ _), (hf.neutral i j).norm, (hf.neutral i j).charge⟩, hf.radii⟩
  obtain ⟨u, v, w, hj⟩ := Tape.Tame2.sum fun i => Tape.Tame2.energy hf2 (h.call x).cut3 i
  exact ⟨_, (hj.2 (.const 1) 1 0 Tape.Lin.const).2 1⟩

theorem hessSys_genOk2
    (h : TotalEnergy env T ext numbers positions charge p o B R cn eeq P b E)
    (hfl : env.fl = id) (hT : T.Physical R.rq) (hgc : 0 < R.gc) (hpad : ∀ r < nref, T.refc 0 r = 0)
    (h1 : 0 ≤ P.a1) (h2 : 0 ≤ P.a2) (h12 : P.a1 ≠ 0 ∨ P.a2 ≠ 0)
    (hcn : ∀ i, ContDiffAt ℝ 2 (fun y => cn n (elements numbers n b) y i) x)
    (heeq : o.opts.q = none → ∀ i, ContDiffAt ℝ 2 (fun y =>
      eeq n (o.opts.cutoff.getD {}).cnEeq (elements numbers n b) y (charge.get b) i) x)
    (hg : Spec.Generic (Spec.d4Settings (R.spec T env.eps) env.eps P (o.opts.cutoff.getD {}).disp2
      (o.opts.cutoff.getD {}).disp3) (R.spec T env.eps)
      (system T cn eeq numbers (positions x) charge o.opts n b))
    (hq : ∀ i, elements numbers n b i = 0 →
      (system T cn eeq numbers (positions x) charge o.opts n b).q i + T.zeff 0 ≠ env.eps)
    (hz : T.zeff 0 ≠ env.eps) (hs : T.ScaleBounded env R) (a : Fin n) (k : Fin 3) (a' : Fin n)
    (k' : Fin 3) :
    Tape.GenOk2 (gradCfg env T R P p (o.opts.cutoff.getD {}))
      (hessSys T o cn eeq numbers charge positions b x a k a' k')
      (fun i c s t => (system T cn eeq numbers
        (positions (x + t • unitDisp a' k' + s • unitDisp a k)) charge o.opts n b).pos i c)
      (fun i s t => (system T cn eeq numbers
        (positions (x + t • unitDisp a' k' + s • unitDisp a k)) charge o.opts n b).cn i)
      (fun i s t => (system T cn eeq numbers
        (positions (x + t • unitDisp a' k' + s • unitDisp a k)) charge o.opts n b).q i) := by
  have hgen := gradSys_genOk h hfl hT hgc hpad h1 h2 h12
    (fun i => (hcn i).of_le (by norm_num)) (fun hq i => (heeq hq i).of_le (by norm_num)) hg hq hz hs a' k'
  have hatpos : ∀ y, coords (positions y) n b = y := fun y => h.at_pos _
  refine ⟨⟨hgen.1, hgen.2, hgen.3, hgen.4, hgen.5, hgen.6, hgen.7, hgen.8, hgen.9, hgen.10, hgen.11,
    hgen.12, hgen.13⟩, ?_, fun i c _ => ?_, fun i => ?_, fun i => ?_⟩
  · simp [GradSys.moved, hessSys, gradSys, GradSys.ofCurve]
  · have hf : (fun y => (system T cn eeq numbers (positions y) charge o.opts n b).pos i c) =
        fun y => y i c := by
      funext y
      show coords (positions y) n b i c = y i c
      rw [hatpos]
    have hd : ContDiffAt ℝ 2 (fun y => (system T cn eeq numbers (positions y) charge o.opts n b).pos i c)
        x := by
      rw [hf]
      have : (fun y : Fin n → Spec.E3 => y i c) = (EuclideanSpace.proj c : Spec.E3 →L[ℝ] ℝ).comp
          (ContinuousLinearMap.proj i : (Fin n → Spec.E3) →L[ℝ] Spec.E3) := rfl
      rw [this]
      exact (ContinuousLinearMap.contDiff _).contDiffAt
    exact fine2_smooth hd (unitDisp a k) (unitDisp a' k')
  · have hf : (fun y => (system T cn eeq numbers (positions y) charge o.opts n b).cn i) =
        fun y => cn n (elements numbers n b) y i := by
      funext y
      show cn n (elements numbers n b) (coords (positions y) n b) i = _
      rw [hatpos]
    have hd : ContDiffAt ℝ 2 (fun y => (system T cn eeq numbers (positions y) charge o.opts n b).cn i)
        x := by
      rw [hf]
      exact hcn i
    exact fine2_smooth hd (unitDisp a k) (unitDisp a' k')
  · cases hq' : o.opts.q with
    | some q =>
      have hf : ∀ y, (system T cn eeq numbers (positions y) charge o.opts n b).q i =
          q.get (i.1 :: b) := fun y => by simp only [system, hq']
      have hc : Tape.Fine2 (.frozen fun _ => q.get (i.1 :: b)) fun _ _ => q.get (i.1 :: b) :=
        ⟨.of_forall fun _ => rfl, 0, 0, 0, Tape.Jet.frozen, HasJet.const⟩
      have he : (hessSys T o cn eeq numbers charge positions b x a k a' k').q i =
          .frozen fun _ => q.get (i.1 :: b) := by
        unfold GradSys.q Tape.input
        have : (hessSys T o cn eeq numbers charge positions b x a k a' k').qGrad i = false := by
          simp [hessSys, gradSys, hq']
        rw [if_neg (by simp [this])]
        congr 1
        funext y
        exact hf _
      rw [he]
      exact hc.congr' fun s t => (hf _).symm
    | none =>
      have hf : (fun y => (system T cn eeq numbers (positions y) charge o.opts n b).q i) =
          fun y => eeq n (o.opts.cutoff.getD {}).cnEeq (elements numbers n b) y (charge.get b) i := by
        funext y
        simp only [system, hq', hatpos]
      have hd : ContDiffAt ℝ 2 (fun y => (system T cn eeq numbers (positions y) charge o.opts n b).q i)
          x := by
        rw [hf]
        exact heeq hq' i
      have := fine2_smooth hd (unitDisp a k) (unitDisp a' k')
      unfold GradSys.q
      have hgr : (hessSys T o cn eeq numbers charge positions b x a k a' k').qGrad i = true := by
        simp [hessSys, gradSys, hq']
      rw [hgr]
      exact this

/-- At a generic geometry the second backward pass yields the second derivatives of the total energy.
That coordination numbers and charges are twice differentiable, and correct backward passes of the
external functions that compute them are presupposed. -/
theorem C61_hessian
    (h : TotalEnergy env T ext numbers positions charge p o B R cn eeq P b E)
    (hfl : env.fl = id) (hT : T.Physical R.rq) (hgc : 0 < R.gc) (hpad : ∀ r < nref, T.refc 0 r = 0)
    (h1 : 0 ≤ P.a1) (h2 : 0 ≤ P.a2) (h12 : P.a1 ≠ 0 ∨ P.a2 ≠ 0)
    (hcn : ∀ i, ContDiffAt ℝ 2 (fun y => cn n (elements numbers n b) y i) x)
    (heeq : o.opts.q = none → ∀ i, ContDiffAt ℝ 2 (fun y =>
      eeq n (o.opts.cutoff.getD {}).cnEeq (elements numbers n b) y (charge.get b) i) x)
    (hg : Spec.Generic (Spec.d4Settings (R.spec T env.eps) env.eps P (o.opts.cutoff.getD {}).disp2
      (o.opts.cutoff.getD {}).disp3) (R.spec T env.eps)
      (system T cn eeq numbers (positions x) charge o.opts n b))
    (hq : ∀ i, elements numbers n b i = 0 →
      (system T cn eeq numbers (positions x) charge o.opts n b).q i + T.zeff 0 ≠ env.eps)
    (hz : T.zeff 0 ≠ env.eps) (hs : T.ScaleBounded env R) (a : Fin n) (k : Fin 3) (a' : Fin n)
    (k' : Fin 3) :
    positionsHess env T R P p o cn eeq numbers charge positions b x a k a' k' =
      .fin (Spec.hessian E x a k a' k') := by
  have hgen := hessSys_genOk2 h hfl hT hgc hpad h1 h2 h12 hcn heeq hg hq hz hs a k a' k'
  have hE : ContDiffAt ℝ 2 E x :=
    C42_smooth h hfl hT hgc (fun i _ => hcn i) (fun hq i _ => heeq hq i) hg
  have hfine := Tape.Fine2.sum fun i => Tape.Fine2.energy hgen (h.call x).cut3 i
  have hsum := hfine.congr' (F' := fun s t => E (x + t • unitDisp a' k' + s • unitDisp a k)) fun s t => by
    rw [h.eval]
    refine Finset.sum_congr rfl fun i _ => ?_
    rw [gradCfg_S (h.call x).par]
    rfl
  refine (hsum.back (eventually_along hE (unitDisp a k) (unitDisp a' k')) Tape.Lin.const).trans ?_
  rw [(hasDerivAt_along2 hE (unitDisp a k) (unitDisp a' k')).deriv, one_mul, hessian_eq hE]
  rfl

/-- The computed Hessian is symmetric. -/
theorem C61_symmetric
    (h : TotalEnergy env T ext numbers positions charge p o B R cn eeq P b E)
    (hfl : env.fl = id) (hT : T.Physical R.rq) (hgc : 0 < R.gc) (hpad : ∀ r < nref, T.refc 0 r = 0)
    (h1 : 0 ≤ P.a1) (h2 : 0 ≤ P.a2) (h12 : P.a1 ≠ 0 ∨ P.a2 ≠ 0)
    (hcn : ∀ i, ContDiffAt ℝ 2 (fun y => cn n (elements numbers n b) y i) x)
    (heeq : o.opts.q = none → ∀ i, ContDiffAt ℝ 2 (fun y =>
      eeq n (o.opts.cutoff.getD {}).cnEeq (elements numbers n b) y (charge.get b) i) x)
    (hg : Spec.Generic (Spec.d4Settings (R.spec T env.eps) env.eps P (o.opts.cutoff.getD {}).disp2
      (o.opts.cutoff.getD {}).disp3) (R.spec T env.eps)
      (system T cn eeq numbers (positions x) charge o.opts n b))
    (hq : ∀ i, elements numbers n b i = 0 →
      (system T cn eeq numbers (positions x) charge o.opts n b).q i + T.zeff 0 ≠ env.eps)
    (hz : T.zeff 0 ≠ env.eps) (hs : T.ScaleBounded env R) (a : Fin n) (k : Fin 3) (a' : Fin n)
    (k' : Fin 3) :
    positionsHess env T R P p o cn eeq numbers charge positions b x a k a' k' =
      positionsHess env T R P p o cn eeq numbers charge positions b x a' k' a k := by
  have hE : ContDiffAt ℝ 2 E x :=
    C42_smooth h hfl hT hgc (fun i _ => hcn i) (fun hq i _ => heeq hq i) hg
  rw [C61_hessian h hfl hT hgc hpad h1 h2 h12 hcn heeq hg hq hz hs,
    C61_hessian h hfl hT hgc hpad h1 h2 h12 hcn heeq hg hq hz hs, C55_symmetric hE]

/-- The rows of the computed Hessian add up to zero, and those of padding atoms are zero. -/
theorem C61_zero_modes
    (h : TotalEnergy env T ext numbers positions charge p o B R cn eeq P b E)
    (hfl : env.fl = id) (hT : T.Physical R.rq) (hgc : 0 < R.gc) (hpad : ∀ r < nref, T.refc 0 r = 0)
    (h1 : 0 ≤ P.a1) (h2 : 0 ≤ P.a2) (h12 : P.a1 ≠ 0 ∨ P.a2 ≠ 0)
    (hcn : ∀ i, ContDiffAt ℝ 2 (fun y => cn n (elements numbers n b) y i) x)
    (heeq : o.opts.q = none → ∀ i, ContDiffAt ℝ 2 (fun y =>
      eeq n (o.opts.cutoff.getD {}).cnEeq (elements numbers n b) y (charge.get b) i) x)
    (hg : Spec.Generic (Spec.d4Settings (R.spec T env.eps) env.eps P (o.opts.cutoff.getD {}).disp2
      (o.opts.cutoff.getD {}).disp3) (R.spec T env.eps)
      (system T cn eeq numbers (positions x) charge o.opts n b))
    (hq : ∀ i, elements numbers n b i = 0 →
      (system T cn eeq numbers (positions x) charge o.opts n b).q i + T.zeff 0 ≠ env.eps)
    (hz : T.zeff 0 ≠ env.eps) (hs : T.ScaleBounded env R)
    (icn : cn.Invariant) (ieeq : eeq.Invariant) (pcn : cn.IgnoresPaddingPositions)
    (peeq : eeq.IgnoresPaddingPositions) (a : Fin n) (k l : Fin 3) :
    FP.sum (List.ofFn fun a' =>
      positionsHess env T R P p o cn eeq numbers charge positions b x a k a' l) = .fin 0 ∧
    (elements numbers n b a = 0 → ∀ a',
      positionsHess env T R P p o cn eeq numbers charge positions b x a k a' l = .fin 0) := by
  have hE : ContDiffAt ℝ 2 E x :=
    C42_smooth h hfl hT hgc (fun i _ => hcn i) (fun hq i _ => heeq hq i) hg
  have hH := fun a' => C61_hessian h hfl hT hgc hpad h1 h2 h12 hcn heeq hg hq hz hs a k a' l
  simp only [hH]
  refine ⟨?_, fun ha a' => ?_⟩
  · rw [FP.sum_fin, C55_translation h icn ieeq hE]
  · rw [(C55_padding h pcn peeq hE ha k a' l).1]

end

/-! ## A concrete case: hydrogen fluoride -/

namespace Demo

/-- The Hessian of hydrogen fluoride. -/
theorem hess_HF (a k a' k') : positionsHess env T .d4 par param {} cn eeq numbers charge positionsAt [1] xHF
    a k a' k' = .fin (Spec.hessian totalHF xHF a k a' k') := by
  refine C61_hessian totalEnergy rfl physical (by norm_num [RefCfg.d4]) pad_refc
    (by norm_num [par]) (by norm_num [par]) (Or.inl (by norm_num [par])) (fun i => ?_)
    (fun _ i => ?_) generic_HF (fun i hi => ?_) ?_ scaleBounded a k a' k'
  · refine cn_smooth (fun i j hi hj hij he => ?_) i
    have := dist_xHF hi hj hij
    rw [he, dist_self] at this
    norm_num at this
  · unfold eeq
    exact contDiffAt_const
  · have : (system T cn eeq numbers (positionsAt xHF) charge {} 3 [1]).q i = 0 := by
      simp [system, eeq, hi]
    show (system T cn eeq numbers (positionsAt xHF) charge {} 3 [1]).q i + zeff 0 ≠ 1 / 2 ^ 52
    rw [this]
    norm_num [zeff]
  · show zeff 0 ≠ 1 / 2 ^ 52
    norm_num [zeff]

/-- It is symmetric, its rows add up to zero, and the padding atom has no entries. -/
example (a k l) : FP.sum (List.ofFn fun a' => positionsHess env T .d4 par param {} cn eeq numbers charge
    positionsAt [1] xHF a k a' l) = .fin 0 ∧ positionsHess env T .d4 par param {} cn eeq numbers charge
    positionsAt [1] xHF 2 k a l = .fin 0 ∧
    (∀ a', positionsHess env T .d4 par param {} cn eeq numbers charge positionsAt [1] xHF a k a' l =
      positionsHess env T .d4 par param {} cn eeq numbers charge positionsAt [1] xHF a' l a k) := by
  have hz : zeff 0 ≠ 1 / 2 ^ 52 := by norm_num [zeff]
  have hc : ∀ i, ContDiffAt ℝ 2 (fun y => cn 3 (elements numbers 3 [1]) y i) xHF := fun i => by
    refine cn_smooth (fun i j hi hj hij he => ?_) i
    have := dist_xHF hi hj hij
    rw [he, dist_self] at this
    norm_num at this
  have he : ∀ i, ContDiffAt ℝ 2 (fun y => eeq 3 Defaults.cnEeqCutoff (elements numbers 3 [1]) y
      (charge.get [1]) i) xHF := fun i => by
    unfold eeq
    exact contDiffAt_const
  have hq : ∀ i, elements numbers 3 [1] i = 0 →
      (system T cn eeq numbers (positionsAt xHF) charge {} 3 [1]).q i + T.zeff 0 ≠ env.eps := fun i hi => by
    have : (system T cn eeq numbers (positionsAt xHF) charge {} 3 [1]).q i = 0 := by
      simp [system, eeq, hi]
    rw [this, zero_add]
    exact hz
  have key := fun a => C61_zero_modes totalEnergy rfl physical (by norm_num [RefCfg.d4]) pad_refc
    (by norm_num [par]) (by norm_num [par]) (Or.inl (by norm_num [par])) hc (fun _ => he) generic_HF hq hz
    scaleBounded cn_invariant eeq_invariant cn_ignores eeq_ignores a k l
  exact ⟨(key a).1, (key 2).2 rfl a, fun a' => C61_symmetric totalEnergy rfl physical
    (by norm_num [RefCfg.d4]) pad_refc (by norm_num [par]) (by norm_num [par]) (Or.inl (by norm_num [par])) hc
    (fun _ => he) generic_HF hq hz scaleBounded a k a' l⟩

/-- The entries are numbers even if all atoms are at the same place. -/
example (a k a' k') : ∃ g, positionsHess env T .d4 par param {} cn eeq numbers charge positionsAt [1]
    (fun _ => 0) a k a' k' = .fin g :=
  C61_finite totalEnergy (regular_HF _) (fun _ _ _ => Or.inr (by norm_num [RefCfg.d4])) a k a' k'

end Demo

end TadDftd4
