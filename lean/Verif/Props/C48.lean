import Verif.Lemmas.AutogradNaN
import Verif.Props.C42
import Mathlib.Analysis.Complex.ExponentialBounds

/-!
# C48: forces from automatic differentiation

Users obtain forces by `energy.sum().backward()` and `positions.grad`. The graph recorded for the energy
and the backward pass through it are modelled in `Model/Autograd.lean`; what is to be computed is
`Spec.force` of `Spec/Forces.lean`, the negative derivative of the total energy.

* `C48_forward`: the forward pass yields the energies `dftd4` returns;
* `C48_forces_partial`: without underflow, at a generic geometry, `positions.grad` is minus the force;
* `C48_finite_partial`: whatever the geometry (coinciding atoms, distances equal to a cutoff), the gradient
  is a number, unless all Gaussian weights of an atom have underflown;
* `C48_underflow_nan`: in the latter case every component of the gradient is NaN, although the
  energy is a number;
* `C48_always_finite_false`: hence gradients are not finite wherever energies are.
-/

set_option linter.unusedSimpArgs false

open scoped Classical Topology

namespace TadDftd4

open Tensor

/-- The inputs of the graph if a system moves along a curve. -/
noncomputable def GradSys.ofCurve {n : ℕ} (M : ℝ → Spec.Mol n) : GradSys n where
  Z := (M 0).Z
  Q := (M 0).Q
  posFn i k y := (M y).pos i k
  cnFn i y := (M y).cn i
  qFn i y := (M y).q i

/-- The settings of a call.
Models src/tad_dftd4/disp.py:117-147. -/
def gradCfg (env : Env) (T : Tables) (R : RefCfg) (P : Spec.D4Par) (p : Param) (cutoff : Cutoff) :
    GradCfg where
  env := env
  T := T
  kind := R.kind
  ga := R.ga
  gc := R.gc
  rq := R.rq
  wf := R.wf
  s6 := P.s6
  s8 := P.s8
  s10 := match p.s10 with
    | .val s => some s
    | _ => none
  s9 := P.s9
  a1 := P.a1
  a2 := P.a2
  alp := P.alp
  cut2 := cutoff.disp2
  cut3 := cutoff.disp3

/-- Unit displacement of atom `a` along axis `k`. -/
noncomputable def unitDisp {n : ℕ} (a : Fin n) (k : Fin 3) : Fin n → Spec.E3 :=
  Pi.single a (EuclideanSpace.single k 1)

section
variable (env : Env) (T : Tables) (R : RefCfg) (P : Spec.D4Par) (p : Param) (o : DftOpts)
  (cn : Spec.CN) (eeq : Spec.EEQ) (numbers : Tensor ℕ) {n : ℕ} (charge : Tensor ℝ)
  (positions : (Fin n → Spec.E3) → Tensor ℝ) (b : Idx)

/-- System `b` while atom `a` moves along axis `k`. Charges passed to `dftd4` do not depend on the
positions.
Models src/tad_dftd4/dispersion/base.py:389-414. -/
noncomputable def gradSys (x : Fin n → Spec.E3) (a : Fin n) (k : Fin 3) : GradSys n :=
  { GradSys.ofCurve fun y => system T cn eeq numbers (positions (x + y • unitDisp a k)) charge o.opts n b
    with qGrad := fun _ => o.opts.q.isNone }

/-- The graph of the energy of atom `i`.
Models src/tad_dftd4/dispersion/base.py:416-431. -/
noncomputable def energyGraph (x : Fin n → Spec.E3) (a : Fin n) (k : Fin 3) (i : Fin n) : Tape :=
  Tape.energy (gradCfg env T R P p (o.opts.cutoff.getD {}))
    (gradSys T o cn eeq numbers charge positions b x a k) (rc6At env T R.ga R.gc R.rq) i

/-- Component `k` for atom `a` of `positions.grad` after `energy.sum().backward()`.
Models the call in test/test_grad/test_nan.py:85-88. -/
noncomputable def positionsGrad (x : Fin n → Spec.E3) (a : Fin n) (k : Fin 3) : FP :=
  (Tape.sum n fun i =>
    energyGraph env T R P p o cn eeq numbers charge positions b x a k i).back 0 (.fin 1)

end

section
variable {env : Env} {T : Tables} {ext : Ext} {numbers : Tensor ℕ}
  {charge : Tensor ℝ} {p : Param}
  {o : DftOpts} {n : ℕ} {B : Shape} {b : Idx} {R : RefCfg} {cn : Spec.CN} {eeq : Spec.EEQ}
  {P : Spec.D4Par} {E : (Fin n → Spec.E3) → ℝ} {x : Fin n → Spec.E3}
  {positions : (Fin n → Spec.E3) → Tensor ℝ}

theorem gradCfg_P {cutoff : Cutoff} (hp : p.Reads P) : (gradCfg env T R P p cutoff).P = P := by
  unfold gradCfg GradCfg.P
  rcases hp.s10 with h | ⟨h, h0⟩
  · simp [h]
  · simp [h, ← h0]

theorem gradCfg_S {cutoff : Cutoff} (hp : p.Reads P) :
    (gradCfg env T R P p cutoff).S = d4Computed env T R P cutoff := by
  unfold GradCfg.S
  rw [gradCfg_P hp]
  rfl

theorem gradSys_energy {S : Spec.Settings} (hS : S.radius = .r4r2) (a : Fin n) (k : Fin 3) (i : Fin n)
    (y : ℝ) : Spec.energy S ((gradSys T o cn eeq numbers charge positions b x a k).mol y) i =
      Spec.energy S (system T cn eeq numbers (positions (x + y • unitDisp a k)) charge o.opts n b) i := by
  cases S
  subst hS
  rfl

theorem gradSys_generic {S : Spec.Settings} {C : Spec.C6Settings} {a : Fin n} {k : Fin 3}
    (h : Spec.Generic S C (system T cn eeq numbers (positions x) charge o.opts n b)) :
    Spec.Generic S C ((gradSys T o cn eeq numbers charge positions b x a k).mol 0) := by
  have h0 : x + (0 : ℝ) • unitDisp a k = x := by simp
  have hs : ∀ Y, x = Y → Spec.Generic S C (system T cn eeq numbers (positions Y) charge o.opts n b) := by
    intro Y hY
    rw [← hY]
    exact h
  have h' := hs _ h0.symm
  exact ⟨h'.apart, h'.cut2, h'.cut3, h'.charge, h'.zeff, h'.c9, h'.radii⟩

/-- The critical radii of all pairs are positive. -/
theorem gradRadii (h1 : 0 ≤ P.a1) (h2 : 0 ≤ P.a2) (h12 : P.a1 ≠ 0 ∨ P.a2 ≠ 0) {cutoff : Cutoff}
    {X : GradSys n} (i j : Fin n) : 0 < Tape.radius (gradCfg env T R P p cutoff) X i j := by
  unfold Tape.radius
  have hs : 0 < env.ssqrt (3 * X.Q i * X.Q j) :=
    Real.sqrt_pos.2 (lt_max_of_lt_right env.eps_pos)
  show 0 < P.a1 * env.ssqrt (3 * X.Q i * X.Q j) + P.a2
  rcases h12 with h | h
  · have := lt_of_le_of_ne h1 h.symm
    positivity
  · have := lt_of_le_of_ne h2 h.symm
    positivity

/-! ## Numbers -/

/-- Conditions for a gradient without special values. Atoms include padding. -/
structure Regular (env : Env) (T : Tables) (R : RefCfg) (P : Spec.D4Par) (M : Spec.Mol n) : Prop where
  a1 : 0 ≤ P.a1
  a2 : 0 ≤ P.a2
  a12 : P.a1 ≠ 0 ∨ P.a2 ≠ 0
  /-- D4: the exponent of the Gaussians is at least one -/
  wf : R.kind = .d4 → ∀ Z Z', 1 ≤ R.wf Z Z'
  /-- not all Gaussians of the references of an atom have underflown -/
  weights : ∀ i j, (∃ r < nref, 0 < T.refc (M.Z i) r) →
    ∃ r < nref, expwSel env T R.kind (R.wf (M.Z i) (M.Z j)) (M.Z i) (M.cn i) r ≠ 0
  /-- charges are not where the scaling function is singular -/
  charge : ∀ i, M.q i + T.zeff (M.Z i) ≠ env.eps
  zeff : ∀ i, T.zeff (M.Z i) ≠ env.eps
  /-- its inner exponential does not overflow -/
  scale : ∀ i, ∀ r < nref, Real.exp (T.gam (M.Z i) * R.gc * (1 - (refqAt T R.rq (M.Z i) r +
    T.zeff (M.Z i)) / (M.q i + T.zeff (M.Z i) - env.eps))) ≤ env.fmax
  scale0 : ∀ i, ∀ r < nref, Real.exp (T.gam (M.Z i) * R.gc * (1 - (refqAt T R.rq (M.Z i) r +
    T.zeff (M.Z i)) / (T.zeff (M.Z i) - env.eps))) ≤ env.fmax

theorem Regular.finOk
    (h : Regular env T R P (system T cn eeq numbers (positions x) charge o.opts n b)) (a : Fin n)
    (k : Fin 3) : Tape.FinOk (gradCfg env T R P p (o.opts.cutoff.getD {}))
      (gradSys T o cn eeq numbers charge positions b x a k) 0 := by
  have h0 : x + (0 : ℝ) • unitDisp a k = x := by simp
  have hs : ∀ Y, x = Y →
      Regular env T R P (system T cn eeq numbers (positions Y) charge o.opts n b) := by
    intro Y hY
    rw [← hY]
    exact h
  have h' := hs _ h0.symm
  have hpow : ∀ (w : ℝ) (Z : ℕ) (c : ℝ), (R.kind = .d4 → 1 ≤ w) →
      Tape.PowOk (gradCfg env T R P p (o.opts.cutoff.getD {})) w Z c := fun w Z c hw hk =>
    Or.inl (hw hk)
  have hnorm : ∀ i j, Tape.NormOk (gradCfg env T R P p (o.opts.cutoff.getD {}))
      (R.wf ((gradSys T o cn eeq numbers charge positions b x a k).Z i)
        ((gradSys T o cn eeq numbers charge positions b x a k).Z j))
      ((gradSys T o cn eeq numbers charge positions b x a k).Z i)
      ((gradSys T o cn eeq numbers charge positions b x a k).cnFn i 0) := by
    intro i j hr
    obtain ⟨s, hs, hne⟩ := h'.weights i j hr
    intro hz
    unfold Tape.normV at hz
    rw [Finset.sum_eq_zero_iff_of_nonneg (fun _ _ => Tape.expwSel_nonneg)] at hz
    exact hne (hz s (Finset.mem_range.2 hs))
  refine ⟨fun i j => ⟨hpow _ _ _ fun hk => h'.wf hk _ _, hnorm i j, h'.charge i, h'.scale i⟩, fun i j =>
    ⟨hpow _ _ _ fun hk => h'.wf hk _ _, hnorm i j, ?_⟩, gradRadii h'.a1 h'.a2 h'.a12⟩
  constructor
  · rw [zero_add]
    exact h'.zeff i
  · intro r hr
    rw [zero_add]
    exact h'.scale0 i r hr

/-- Forward pass: the graph has the values `dftd4` returns. -/
theorem C48_forward (h : TotalEnergy env T ext numbers positions charge p o B R cn eeq P b E)
    (hr : Regular env T R P (system T cn eeq numbers (positions x) charge o.opts n b)) :
    ∃ e, dftd4 env T ext numbers (positions x) charge p o = .ok e ∧ ∀ i a k,
      (energyGraph env T R P p o cn eeq numbers charge positions b x a k i).eval 0 =
        .fin (e.get (i.1 :: b)) := by
  obtain ⟨e, h1, -, h3⟩ := (h.call x).eval
  refine ⟨e, h1, fun i a k => ?_⟩
  have ht := (Tape.Tame.energy (hr.finOk (p := p) a k) (h.call x).cut3 i).1
  refine ht.trans ?_
  rw [gradCfg_S (h.call x).par, gradSys_energy rfl, h3 b h.batch i]
  simp

/-- Backward pass: the gradient is a number, whatever the positions. Missing for a proof that this is
always so: the condition `Regular.weights`, see `C48_always_finite_false`. -/
theorem C48_finite_partial
    (h : TotalEnergy env T ext numbers positions charge p o B R cn eeq P b E)
    (hr : Regular env T R P (system T cn eeq numbers (positions x) charge o.opts n b)) (a : Fin n)
    (k : Fin 3) :
    ∃ g, positionsGrad env T R P p o cn eeq numbers charge positions b x a k = .fin g := by
  obtain ⟨v, hv⟩ := (Tape.Tame.sum fun i =>
    Tape.Tame.energy (hr.finOk (p := p) a k) (h.call x).cut3 i).2
  exact ⟨_, hv 1⟩

/-! ## Forces -/

/-- The inner exponential of the charge scaling does not overflow. -/
structure Tables.ScaleBounded (T : Tables) (env : Env) (R : RefCfg) : Prop where
  gam : ∀ Z < T.nZ, 0 ≤ T.gam Z * R.gc
  le : ∀ Z < T.nZ, Real.exp (T.gam Z * R.gc) ≤ env.fmax
  pad : ∀ r < nref, T.gam 0 = 0 ∨ refqAt T R.rq 0 r + T.zeff 0 = 0
  qref : ∀ Z < T.nZ, Z ≠ 0 → ∀ r < nref, 0 ≤ refqAt T R.rq Z r + T.zeff Z

theorem Tables.ScaleBounded.ok (h : T.ScaleBounded env R) {cutoff : Cutoff} {Z : ℕ} (hZ : Z < T.nZ) :
    Tape.ScaleOk (gradCfg env T R P p cutoff) Z :=
  ⟨h.gam Z hZ, h.le Z hZ, fun h0 => by rw [h0]; exact h.pad, h.qref Z hZ⟩

/-- The tables of the package, if the external ones are as follows. -/
theorem shipped_scaleBounded {nExt : ℕ} {gam zeff : ℕ → ℝ} {vdw : ℕ → ℕ → ℝ}
    (h : ExtTables nExt gam zeff) (hrq : knownCharges R.rq) (hgc : 0 ≤ R.gc)
    (h0 : 0 ≤ gam 0) (hz : zeff 0 = 0) (hf : ∀ Z < 104, Real.exp (gam Z * R.gc) ≤ env.fmax) :
    (shipped nExt gam zeff vdw).ScaleBounded env R where
  gam Z hZ := by
    refine mul_nonneg ?_ hgc
    rcases Nat.eq_zero_or_pos Z with rfl | h1
    · exact h0
    · exact (h.gam Z h1 hZ).le
  le := hf
  pad r hr := by
    have := forall_of_all1 Data.check_pad_q r hr
    simp only [Bool.and_eq_true, beq_iff_eq] at this
    refine Or.inr ?_
    show refqAt _ R.rq 0 r + zeff 0 = 0
    rw [hz, add_zero]
    rcases hrq with hq | hq <;> rw [hq]
    · show ((at2 Data.eeqQ 0 r : ℤ) : ℝ) / 10 ^ 14 = 0
      rw [this.1]
      simp
    · show ((at2 Data.gfnQ 0 r : ℤ) : ℝ) / 10 ^ 14 = 0
      rw [this.2]
      simp
  qref Z hZ h1 r hr := (shipped_qref_pos h hrq (Nat.one_le_iff_ne_zero.2 h1) hZ hr).le

/-- The graph at a generic geometry. -/
theorem gradSys_genOk
    (h : TotalEnergy env T ext numbers positions charge p o B R cn eeq P b E)
    (hfl : env.fl = id) (hT : T.Physical R.rq) (hgc : 0 < R.gc) (hpad : ∀ r < nref, T.refc 0 r = 0)
    (h1 : 0 ≤ P.a1) (h2 : 0 ≤ P.a2) (h12 : P.a1 ≠ 0 ∨ P.a2 ≠ 0)
    (hcn : ∀ i, ContDiffAt ℝ 1 (fun y => cn n (elements numbers n b) y i) x)
    (heeq : o.opts.q = none → ∀ i, ContDiffAt ℝ 1 (fun y =>
      eeq n (o.opts.cutoff.getD {}).cnEeq (elements numbers n b) y (charge.get b) i) x)
    (hg : Spec.Generic (Spec.d4Settings (R.spec T env.eps) env.eps P (o.opts.cutoff.getD {}).disp2
      (o.opts.cutoff.getD {}).disp3) (R.spec T env.eps)
      (system T cn eeq numbers (positions x) charge o.opts n b))
    (hq : ∀ i, elements numbers n b i = 0 →
      (system T cn eeq numbers (positions x) charge o.opts n b).q i + T.zeff 0 ≠ env.eps)
    (hz : T.zeff 0 ≠ env.eps) (hs : T.ScaleBounded env R) (a : Fin n) (k : Fin 3) :
    Tape.GenOk (gradCfg env T R P p (o.opts.cutoff.getD {}))
      (gradSys T o cn eeq numbers charge positions b x a k) 0 := by
  have h0 : x + (0 : ℝ) • unitDisp a k = x := by simp
  -- the line
  have hline : HasDerivAt (fun y : ℝ => x + y • unitDisp a k) (unitDisp a k) 0 := by
    have := ((hasDerivAt_id (0 : ℝ)).smul_const (unitDisp a k)).const_add x
    simpa using this
  have hatpos : ∀ y : ℝ, coords (positions (x + y • unitDisp a k)) n b = x + y • unitDisp a k :=
    fun y => h.at_pos _

  have hgeneric : Spec.Generic (gradCfg env T R P p (o.opts.cutoff.getD {})).S (R.spec T env.eps)
      (system T cn eeq numbers (positions x) charge o.opts n b) := by
    rw [gradCfg_S (h.call x).par]
    refine ⟨hg.apart, hg.cut2, hg.cut3, hg.charge, hg.zeff, ?_, hg.radii⟩
    intro i j l hi hj hl hij hil hjl
    have := hg.c9 i j l hi hj hl hij hil hjl
    have hM := (h.call x).args.Z_lt (cn := cn) (eeq := eeq) h.batch
    have hc : ∀ i j, c6At env T R ((system T cn eeq numbers (positions x) charge o.opts n b).neutral i)
        ((system T cn eeq numbers (positions x) charge o.opts n b).neutral j) =
        Spec.c6 (R.spec T env.eps)
          ((system T cn eeq numbers (positions x) charge o.opts n b).neutral i)
          ((system T cn eeq numbers (positions x) charge o.opts n b).neutral j) := fun i j =>
      c6At_spec hfl hT hgc (hM i) (hM j)
    show |c6At env T R _ _ * c6At env T R _ _ * c6At env T R _ _| ≠ env.eps
    rw [hc, hc, hc]
    exact this
  refine ⟨hfl, gradSys_generic hgeneric, ?_, ?_, ?_, gradRadii h1 h2 h12, hpad, ?_, hz,
    fun i => hs.ok ((h.call x).args.Z_lt (cn := cn) (eeq := eeq) h.batch i), fun h => absurd h (by simp [gradSys, GradSys.ofCurve]),
    fun h => absurd h (by simp [gradSys, GradSys.ofCurve]), ?_⟩
  · intro i c _
    show DifferentiableAt ℝ
      (fun y : ℝ => coords (positions (x + y • unitDisp a k)) n b i c) 0
    simp only [hatpos]
    have : (fun y : ℝ => (x + y • unitDisp a k) i c) =
        fun y : ℝ => x i c + y * unitDisp a k i c := by
      funext y
      simp
    rw [this]
    fun_prop
  · intro i
    show DifferentiableAt ℝ (fun y : ℝ => cn n (elements numbers n b)
      (coords (positions (x + y • unitDisp a k)) n b) i) 0
    simp only [hatpos]
    have hd := (hcn i).differentiableAt (by simp)
    rw [← h0] at hd
    exact DifferentiableAt.comp (0 : ℝ) hd hline.differentiableAt
  · intro i
    cases hq' : o.opts.q with
    | some q =>
      have : (gradSys T o cn eeq numbers charge positions b x a k).qFn i =
          fun _ => q.get (i.1 :: b) := by
        funext y
        simp only [gradSys, GradSys.ofCurve, system, hq']
      rw [this]
      exact differentiableAt_const _
    | none =>
      have : (gradSys T o cn eeq numbers charge positions b x a k).qFn i =
          fun y : ℝ => eeq n (o.opts.cutoff.getD {}).cnEeq (elements numbers n b)
            (x + y • unitDisp a k) (charge.get b) i := by
        funext y
        simp only [gradSys, GradSys.ofCurve, system, hq', hatpos]
      rw [this]
      have hd := (heeq hq' i).differentiableAt (by simp)
      rw [← h0] at hd
      exact DifferentiableAt.comp (0 : ℝ) hd hline.differentiableAt
  · intro i hi
    have := hq i hi
    have hs : ∀ Y, x = Y → (system T cn eeq numbers (positions Y) charge o.opts n b).q i + T.zeff 0 ≠
        env.eps := by
      intro Y hY
      rw [← hY]
      exact this
    exact hs _ h0.symm
  · intro i hi
    cases hq' : o.opts.q with
    | some q => exact ⟨q.get (i.1 :: b), by
        funext y
        simp only [gradSys, GradSys.ofCurve, system, hq']⟩
    | none => simp [gradSys, hq'] at hi

/-- At a generic geometry `positions.grad` is minus the force. Differentiability of coordination
numbers and charges, and correct backward passes of the external functions that compute them are
presupposed. Missing for the full claim: calculations with underflow. -/
theorem C48_forces_partial
    (h : TotalEnergy env T ext numbers positions charge p o B R cn eeq P b E)
    (hfl : env.fl = id) (hT : T.Physical R.rq) (hgc : 0 < R.gc) (hpad : ∀ r < nref, T.refc 0 r = 0)
    (h1 : 0 ≤ P.a1) (h2 : 0 ≤ P.a2) (h12 : P.a1 ≠ 0 ∨ P.a2 ≠ 0)
    (hcn : ∀ i, ContDiffAt ℝ 1 (fun y => cn n (elements numbers n b) y i) x)
    (heeq : o.opts.q = none → ∀ i, ContDiffAt ℝ 1 (fun y =>
      eeq n (o.opts.cutoff.getD {}).cnEeq (elements numbers n b) y (charge.get b) i) x)
    (hg : Spec.Generic (Spec.d4Settings (R.spec T env.eps) env.eps P (o.opts.cutoff.getD {}).disp2
      (o.opts.cutoff.getD {}).disp3) (R.spec T env.eps)
      (system T cn eeq numbers (positions x) charge o.opts n b))
    (hq : ∀ i, elements numbers n b i = 0 →
      (system T cn eeq numbers (positions x) charge o.opts n b).q i + T.zeff 0 ≠ env.eps)
    (hz : T.zeff 0 ≠ env.eps) (hs : T.ScaleBounded env R) (a : Fin n) (k : Fin 3) :
    positionsGrad env T R P p o cn eeq numbers charge positions b x a k =
      .fin (-Spec.force E x a k) := by
  have h0 : x + (0 : ℝ) • unitDisp a k = x := by simp
  -- energies at the displaced positions
  have hcurve : ∀ y : ℝ, E (x + y • unitDisp a k) = ∑ i, Spec.energy (gradCfg env T R P p
      (o.opts.cutoff.getD {})).S ((gradSys T o cn eeq numbers charge positions b x a k).mol y) i := by
    intro y
    rw [h.eval]
    refine Finset.sum_congr rfl fun i _ => ?_
    rw [gradCfg_S (h.call x).par, gradSys_energy rfl]
  -- the line
  have hline : HasDerivAt (fun y : ℝ => x + y • unitDisp a k) (unitDisp a k) 0 := by
    have := ((hasDerivAt_id (0 : ℝ)).smul_const (unitDisp a k)).const_add x
    simpa using this
  have hgen := gradSys_genOk h hfl hT hgc hpad h1 h2 h12 hcn heeq hg hq hz hs a k
  have hfine := Tape.Fine.sum fun i => Tape.Fine.energy hgen (h.call x).cut3 i
  have hE : DifferentiableAt ℝ E x :=
    (C42_smooth h hfl hT hgc (fun i _ => hcn i) (fun hq i _ => heeq hq i) hg).differentiableAt
      (by simp)
  have hback := hfine.back 1
  refine hback.trans ?_
  rw [one_mul]
  congr 1
  have hfun : (fun y : ℝ => ∑ i, Spec.energy (gradCfg env T R P p
      (o.opts.cutoff.getD {})).S ((gradSys T o cn eeq numbers charge positions b x a k).mol y) i) =
      fun y => E (x + y • unitDisp a k) := by
    funext y
    exact (hcurve y).symm
  rw [hfun]
  have hd : HasDerivAt (fun y : ℝ => E (x + y • unitDisp a k)) (fderiv ℝ E x (unitDisp a k)) 0 := by
    have hE' := hE.hasFDerivAt
    have := HasFDerivAt.comp_hasDerivAt (0 : ℝ) (by simpa using hE') hline
    exact this
  rw [hd.deriv]
  simp [Spec.force, unitDisp]

/-! ## Underflow -/

/-- If all Gaussians of an atom with references underflow, every component of the gradient is NaN,
although energies are computed. -/
theorem C48_underflow_nan (h : TotalEnergy env T ext numbers positions charge p o B R cn eeq P b E)
    {i : Fin n} (hi : ∃ r < nref, 0 < T.refc (elements numbers n b i) r)
    (hw : R.kind = .d4 → 1 ≤ R.wf (elements numbers n b i) (elements numbers n b i))
    (h0 : ∀ r < nref, expwSel env T R.kind (R.wf (elements numbers n b i) (elements numbers n b i))
      (elements numbers n b i) (cn n (elements numbers n b) x i) r = 0) :
    (∃ e, dftd4 env T ext numbers (positions x) charge p o = .ok e) ∧
    ∀ a k, positionsGrad env T R P p o cn eeq numbers charge positions b x a k = .nan := by
  obtain ⟨e, h1, -, -⟩ := (h.call x).eval
  refine ⟨⟨e, h1⟩, fun a k => ?_⟩
  have hl : Tape.Lost (gradCfg env T R P p (o.opts.cutoff.getD {}))
      (gradSys T o cn eeq numbers charge positions b x a k) 0 i := by
    refine ⟨hi, hw, ?_⟩
    refine Finset.sum_eq_zero fun r hr => ?_
    have hx : coords (positions (x + (0 : ℝ) • unitDisp a k)) n b = x := by
      rw [h.at_pos]
      simp
    show expwSel env T R.kind _ _ (cn n (elements numbers n b)
      (coords (positions (x + (0 : ℝ) • unitDisp a k)) n b) i) r = 0
    rw [hx]
    exact h0 r (Finset.mem_range.1 hr)
  exact Tape.Bad.sum i (hl.energy rfl _) _

end

/-! ## A concrete case: hydrogen fluoride -/

namespace Demo

theorem pad_refc : ∀ r < nref, T.refc 0 r = 0 := fun r hr =>
  beq_iff_eq.1 (forall_of_all1 Data.check_pad r hr)

theorem exp_one_le : Real.exp (1 / 2 * 2) ≤ 10 ^ 308 := by
  have h := Real.exp_one_lt_d9
  rw [show (1 / 2 * 2 : ℝ) = 1 by norm_num]
  refine h.le.trans (le_trans (by norm_num) (le_self_pow₀ (by norm_num : (1 : ℝ) ≤ 10) (by norm_num)))

theorem scaleBounded : T.ScaleBounded env .d4 :=
  shipped_scaleBounded extTables (Or.inl rfl) (by norm_num [RefCfg.d4]) (by norm_num [gam])
    (by norm_num [zeff]) fun _ _ => exp_one_le

/-- The gradient for hydrogen fluoride is minus the force. -/
example (a k) : positionsGrad env T .d4 par param {} cn eeq numbers charge positionsAt [1] xHF a k =
    .fin (-Spec.force totalHF xHF a k) := by
  refine C48_forces_partial totalEnergy rfl physical (by norm_num [RefCfg.d4]) pad_refc
    (by norm_num [par]) (by norm_num [par]) (Or.inl (by norm_num [par])) (fun i => ?_)
    (fun _ i => ?_) generic_HF (fun i hi => ?_) ?_ scaleBounded a k
  · refine cn_smooth (fun i j hi hj hij he => ?_) i
    have := dist_xHF hi hj hij
    rw [he, dist_self] at this
    norm_num at this
  · unfold eeq
    exact contDiffAt_const
  · have : (system T cn eeq numbers (positionsAt xHF) charge {} 3 [1]).q i = 0 := by
      simp [system, eeq, hi]
    show (system T cn eeq numbers (positionsAt xHF) charge {} 3 [1]).q i + zeff 0 ≠ 1 / 2 ^ 52
    rw [this]
    norm_num [zeff]
  · show zeff 0 ≠ 1 / 2 ^ 52
    norm_num [zeff]

/-- Hydrogen fluoride at any positions of its atoms, be they the same. -/
theorem regular_HF (x : Fin 3 → Spec.E3) :
    Regular env T .d4 par (system T cn eeq numbers (positionsAt x) charge {} 3 [1]) := by
  have hq : ∀ i, 0 ≤ (system T cn eeq numbers (positionsAt x) charge {} 3 [1]).q i := by
    intro i
    show 0 ≤ eeq 3 25 (elements numbers 3 [1]) (coords (positionsAt x) 3 [1]) (charge.get [1]) i
    unfold eeq charge
    split_ifs
    · exact div_nonneg zero_le_one (Finset.sum_nonneg fun j _ => by split <;> norm_num)
    · exact le_rfl
  have hq0 : ∀ i, elements numbers 3 [1] i = 0 →
      (system T cn eeq numbers (positionsAt x) charge {} 3 [1]).q i = 0 := fun i hi => by
    simp [system, eeq, hi]
  have he : (1 / 2 ^ 52 : ℝ) < 1 := by norm_num
  have hch : ∀ i (q : ℝ), 0 ≤ q → (elements numbers 3 [1] i = 0 → q = 0) →
      Tape.ChargeOk (gradCfg env T .d4 par param {}) (elements numbers 3 [1] i) q := by
    intro i q h0 h1
    have hM := (totalEnergy.call x).args.Z_lt (cn := cn) (eeq := eeq) totalEnergy.batch i
    refine (scaleBounded.ok hM).charge (fun hi => ?_) (fun hi => ?_)
    · show (1 / 2 ^ 52 : ℝ) < q + (elements numbers 3 [1] i : ℕ)
      have : (1 : ℝ) ≤ (elements numbers 3 [1] i : ℕ) := by
        exact_mod_cast Nat.one_le_iff_ne_zero.2 hi
      linarith
    · show q + ((elements numbers 3 [1] i : ℕ) : ℝ) ≠ 1 / 2 ^ 52
      have hi' : elements numbers 3 [1] i = 0 := hi
      rw [h1 hi, hi']
      norm_num
  have h0 : ∀ i, Tape.ChargeOk (gradCfg env T .d4 par param {}) (elements numbers 3 [1] i) 0 :=
    fun i => hch i 0 le_rfl fun _ => rfl
  have h1 := fun i => hch i _ (hq i) (hq0 i)
  refine ⟨by norm_num [par], by norm_num [par], Or.inl (by norm_num [par]),
    fun _ _ _ => by norm_num [RefCfg.d4], fun i j hr => ?_, fun i => (h1 i).ne,
    fun i hi => (h0 i).ne ((zero_add _).trans hi), fun i => (h1 i).le, fun i r hr => ?_⟩
  · have := Tape.normOk_id (G := gradCfg env T .d4 par param {}) (w := RefCfg.d4.wf (elements numbers 3 [1] i)
      (elements numbers 3 [1] j)) (Z := elements numbers 3 [1] i)
      (c := (system T cn eeq numbers (positionsAt x) charge {} 3 [1]).cn i) rfl hr
    by_contra hno
    push Not at hno
    exact this (Finset.sum_eq_zero fun r hr => hno r (Finset.mem_range.1 hr))
  · have := (h0 i).le r hr
    rw [zero_add] at this
    exact this

/-- The gradient is a number even if all atoms are at the same place. -/
example (a k) : ∃ g, positionsGrad env T .d4 par param {} cn eeq numbers charge positionsAt [1] (fun _ => 0) a
    k = .fin g :=
  C48_finite_partial totalEnergy (regular_HF _) a k

/-- Double precision: numbers below the smallest positive one become zero. -/
noncomputable def envUflow : Env where
  eps := 1 / 2 ^ 52
  eps_pos := by positivity
  fmax := 10 ^ 308
  one_le_fmax := one_le_pow₀ (by norm_num)
  fl y := if y < 1 / 2 ^ 1074 then 0 else y
  fl_nonneg y h := by split_ifs <;> simp [h]

/-- Large coordination numbers, as for atoms too close to each other. -/
noncomputable def cnUflow : Spec.CN := fun n Z pos i => 1000 * cn n Z pos i

noncomputable def extUflow : Ext := { ext with cnD4 := .ofSpec cnUflow }

noncomputable def totalUflow (x : Fin 3 → Spec.E3) : ℝ :=
  match dftd4 envUflow T extUflow numbers (positionsAt x) charge param with
  | .ok e => ∑ i : Fin 3, e.get [i.1, 1]
  | .error _ => 0

theorem totalEnergyUflow : TotalEnergy envUflow T extUflow numbers positionsAt charge param {} [2] .d4 cnUflow eeq par
    [1] totalUflow where
  call x := {
    keys := keys
    args := { validArgs with pos := ⟨rfl, rfl⟩ }
    model := Or.inl ⟨"d4", rfl, keys "d4" (by simp), rfl⟩
    cn := CNFunc.ofSpec_perSystem _ _ _
    eeq := eeqOfSpec_perSystem eeq rfl _
    damping := rfl
    par := reads
    cut3 := by norm_num [Defaults.disp3Cutoff] }
  batch := by simp [InB]
  at_pos x := totalEnergy.at_pos x
  total x e he := by
    simp only [totalUflow, he]

theorem refcn_F_le : ∀ r < nref, T.refcn 9 r ≤ 10 := by
  have h : (List.range 7).all (fun r => Nat.ble (at2 Data.refcn 9 r) (10 * 10 ^ 14)) = true := by
    decide +kernel
  intro r hr
  have := Nat.le_of_ble_eq_true (forall_of_all1 h r hr)
  show ((at2 Data.refcn 9 r : ℕ) : ℝ) / 10 ^ 14 ≤ 10
  rw [div_le_iff₀ (by positivity)]
  exact_mod_cast this

theorem cnUflow_F : 110 ≤ cnUflow 3 (elements numbers 3 [1]) xHF 0 := by
  have hd := dist_xHF (i := 0) (j := 1) (by simp [elements, numbers]) (by simp [elements, numbers])
    (by simp)
  have hcn : cn 3 (elements numbers 3 [1]) xHF 0 = Real.exp (-1.8) := by
    unfold cn
    rw [Fin.sum_univ_three, ← hd]
    simp [elements, numbers]
  unfold cnUflow
  rw [hcn, Real.exp_neg]
  have h1 : Real.exp 1.8 ≤ 9 := by
    have h2 : Real.exp 1.8 ≤ Real.exp 2 := Real.exp_le_exp.2 (by norm_num)
    have h3 : Real.exp 2 = Real.exp 1 ^ 2 := by rw [← Real.exp_nat_mul]; norm_num
    have h4 := Real.exp_one_lt_d9
    have h5 := Real.exp_pos 1
    nlinarith
  have h6 : (9 : ℝ)⁻¹ ≤ (Real.exp 1.8)⁻¹ := inv_anti₀ (Real.exp_pos _) h1
  norm_num at h6 ⊢
  linarith

theorem lost_F (r : ℕ) (hr : r < nref) : expwSel envUflow T .d4 6 9
    (cnUflow 3 (elements numbers 3 [1]) xHF 0) r = 0 := by
  have hd : 100 ≤ cnUflow 3 (elements numbers 3 [1]) xHF 0 - T.refcn 9 r := by
    have := cnUflow_F
    have := refcn_F_le r hr
    linarith
  have ht : tmpD4 envUflow (cnUflow 3 (elements numbers 3 [1]) xHF 0) (T.refcn 9 r) = 0 := by
    unfold tmpD4
    generalize cnUflow 3 (elements numbers 3 [1]) xHF 0 - T.refcn 9 r = d at hd
    show (if Real.exp (-d * d) < 1 / 2 ^ 1074 then (0 : ℝ) else _) = 0
    rw [if_pos]
    have h1 : Real.exp (-d * d) ≤ Real.exp (-(10000 : ℕ)) := by
      refine Real.exp_le_exp.2 ?_
      push_cast
      nlinarith
    refine lt_of_le_of_lt h1 ?_
    rw [Real.exp_neg, one_div]
    refine inv_strictAnti₀ (by positivity) ?_
    have h2 : (2 : ℝ) ≤ Real.exp 1 := by
      have := Real.add_one_le_exp (1 : ℝ)
      linarith
    have h3 : Real.exp ((10000 : ℕ) : ℝ) = Real.exp 1 ^ 10000 := by
      rw [← Real.exp_nat_mul, mul_one]
    rw [h3]
    calc (2 : ℝ) ^ 1074 < 2 ^ 10000 := pow_lt_pow_right₀ (by norm_num) (by norm_num)
      _ ≤ Real.exp 1 ^ 10000 := pow_le_pow_left₀ (by norm_num) h2 _
  have hp : ∀ i : ℕ, i ≠ 0 → powD4 envUflow 6 (cnUflow 3 (elements numbers 3 [1]) xHF 0) (T.refcn 9 r) i =
      0 := by
    intro i hi
    unfold powD4
    rw [ht, Real.zero_rpow (by positivity)]
    simp [envUflow]
  show expwD4 envUflow T 6 9 _ r = 0
  unfold expwD4
  rw [ht, hp 1 (by simp), hp 2 (by simp), hp 3 (by simp)]
  simp

theorem refs_F : ∃ r < nref, 0 < T.refc (elements numbers 3 [1] 0) r :=
  ⟨0, by decide, by
    show 0 < at2 Data.refc 9 0
    decide +kernel⟩

/-- Hydrogen fluoride with large coordination numbers: energies, but no gradient. -/
theorem nan_HF : (∃ e, dftd4 envUflow T extUflow numbers (positionsAt xHF) charge param = .ok e) ∧
    ∀ a k, positionsGrad envUflow T .d4 par param {} cnUflow eeq numbers charge positionsAt [1] xHF a k =
      .nan :=
  C48_underflow_nan totalEnergyUflow refs_F (fun _ => by norm_num [RefCfg.d4]) lost_F

end Demo

/-- The claim that the gradient is a number for every geometry is false, even if all conditions of
`C48_finite_partial` but the one on underflow hold. -/
theorem C48_always_finite_false : ¬ ∀ (env : Env) (T : Tables) (ext : Ext) (numbers : Tensor ℕ)
    (n : ℕ) (positions : (Fin n → Spec.E3) → Tensor ℝ) (charge : Tensor ℝ) (p : Param) (o : DftOpts)
    (B : Shape) (R : RefCfg) (cn : Spec.CN) (eeq : Spec.EEQ) (P : Spec.D4Par) (b : Idx)
    (E : (Fin n → Spec.E3) → ℝ) (x : Fin n → Spec.E3) (a : Fin n) (k : Fin 3),
    TotalEnergy env T ext numbers positions charge p o B R cn eeq P b E →
    0 < P.a1 → 0 < P.a2 → (R.kind = .d4 → ∀ Z Z', 1 ≤ R.wf Z Z') → T.ScaleBounded env R →
    (∀ i, elements numbers n b i ≠ 0 → env.eps < T.zeff (elements numbers n b i) ∧
      env.eps < (system T cn eeq numbers (positions x) charge o.opts n b).q i +
        T.zeff (elements numbers n b i)) →
    (∀ i, (system T cn eeq numbers (positions x) charge o.opts n b).q i +
      T.zeff (elements numbers n b i) ≠ env.eps) →
    (∀ i, T.zeff (elements numbers n b i) ≠ env.eps) →
    ∃ g, positionsGrad env T R P p o cn eeq numbers charge positions b x a k = .fin g := by
  intro hall
  have hz : ∀ i, Demo.T.zeff (elements Demo.numbers 3 [1] i) ≠ Demo.envUflow.eps := by
    intro i
    show ((elements Demo.numbers 3 [1] i : ℕ) : ℝ) ≠ 1 / 2 ^ 52
    by_cases hi : elements Demo.numbers 3 [1] i = 0
    · rw [hi]
      norm_num
    · have hz : (1 : ℝ) ≤ (elements Demo.numbers 3 [1] i : ℕ) := by
        exact_mod_cast Nat.one_le_iff_ne_zero.2 hi
      have : (1 / 2 ^ 52 : ℝ) < 1 := by norm_num
      linarith
  have hr : ∀ i, elements Demo.numbers 3 [1] i ≠ 0 →
      Demo.envUflow.eps < Demo.T.zeff (elements Demo.numbers 3 [1] i) ∧ Demo.envUflow.eps <
      (system Demo.T Demo.cnUflow Demo.eeq Demo.numbers (Demo.positionsAt Demo.xHF) Demo.charge
        {} 3 [1]).q i + Demo.T.zeff (elements Demo.numbers 3 [1] i) := by
    intro i hi
    have h0 : 0 ≤ (system Demo.T Demo.cnUflow Demo.eeq Demo.numbers (Demo.positionsAt Demo.xHF)
        Demo.charge {} 3 [1]).q i := by
      have h : (0 : ℝ) ≤ Demo.eeq 3 25 (elements Demo.numbers 3 [1])
          (coords (Demo.positionsAt Demo.xHF) 3 [1]) (Demo.charge.get [1]) i := by
        unfold Demo.eeq Demo.charge
        rw [if_pos hi]
        exact div_nonneg zero_le_one (Finset.sum_nonneg fun j _ => by split <;> norm_num)
      exact h
    have h1 : (1 : ℝ) ≤ (elements Demo.numbers 3 [1] i : ℕ) := by
      exact_mod_cast Nat.one_le_iff_ne_zero.2 hi
    have h2 : (1 / 2 ^ 52 : ℝ) < 1 := by norm_num
    exact ⟨lt_of_lt_of_le h2 h1, lt_of_lt_of_le h2 (le_add_of_nonneg_of_le h0 h1)⟩
  have hq : ∀ i, (system Demo.T Demo.cnUflow Demo.eeq Demo.numbers (Demo.positionsAt Demo.xHF) Demo.charge
      {} 3 [1]).q i + Demo.T.zeff (elements Demo.numbers 3 [1] i) ≠ Demo.envUflow.eps := by
    intro i
    by_cases hi : elements Demo.numbers 3 [1] i = 0
    · have h0 : (system Demo.T Demo.cnUflow Demo.eeq Demo.numbers (Demo.positionsAt Demo.xHF) Demo.charge
          {} 3 [1]).q i = 0 := by simp [system, Demo.eeq, hi]
      rw [h0, zero_add]
      exact hz i
    · exact (hr i hi).2.ne'
  have hs : Demo.T.ScaleBounded Demo.envUflow .d4 := shipped_scaleBounded Demo.extTables (Or.inl rfl)
    (by norm_num [RefCfg.d4]) (by norm_num [Demo.gam]) (by norm_num [Demo.zeff]) fun _ _ => Demo.exp_one_le
  obtain ⟨g, hg⟩ := hall Demo.envUflow Demo.T Demo.extUflow Demo.numbers 3 Demo.positionsAt Demo.charge
    Demo.param {} [2] .d4 Demo.cnUflow Demo.eeq Demo.par [1] Demo.totalUflow Demo.xHF 0 0 Demo.totalEnergyUflow
    (by norm_num [Demo.par]) (by norm_num [Demo.par]) (fun _ _ _ => by norm_num [RefCfg.d4]) hs hr hq hz
  rw [Demo.nan_HF.2 0 0] at hg
  cases hg

/-- The forward pass for hydrogen fluoride at any positions. -/
example (x : Fin 3 → Spec.E3) := C48_forward Demo.totalEnergy (Demo.regular_HF x)

end TadDftd4
