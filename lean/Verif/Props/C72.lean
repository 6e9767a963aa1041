import Verif.Lemmas.AutogradDisp
import Verif.Lemmas.AutogradFinite
import Verif.Props.C48
import Verif.Props.C70

/-!
# C72: forces from automatic differentiation for every dispersion class

C48 is about `dftd4`, that is rational damping and the approximate three-body term. Here the graph is that
of `Disp.calculate` of any class with any list of terms (`Model/AutogradDisp.lean`): all damping functions,
the exact three-body term with polarizabilities integrated over frequencies, and the van der Waals radii of
D3. What is to be computed is `Spec.force` of `Spec/Forces.lean`.
-/

set_option linter.unusedSimpArgs false

open scoped Classical Topology

namespace TadDftd4

open Tensor

/-- Conditions on radii that matter for gradients but not for energies. -/
structure Term.GradOk {n : ℕ} (ε : ℝ) (p : Param) (t : Term) (M : Spec.Mol n) : Prop where
  /-- optimised power damping: the critical radii of pairs are positive -/
  op : t.cls = .twoBody → t.damping = .op → ∀ a1 a2, p.a1 = .val a1 → p.a2 = .val a2 →
    ∀ i j, M.Z i ≠ 0 → M.Z j ≠ 0 → i ≠ j → 0 < a1 * √(3 * M.Q i * M.Q j) + a2
  /-- three-body terms: the critical radii of pairs are positive; or zero, if the exponent is at least three -/
  bj : t.cls = .d4ATMApprox ∨ t.cls = .d4ATMExact → ∀ a1 a2 alp, p.a1.Is Defaults.a1 a1 →
    p.a2.Is Defaults.a2 a2 → p.alp.Is Defaults.alp alp →
    ∀ i j, M.Z i ≠ 0 → M.Z j ≠ 0 → i ≠ j → 0 < a1 * Spec.rsqrt ε (3 * M.Q i * M.Q j) + a2 ∨
      (a1 * Spec.rsqrt ε (3 * M.Q i * M.Q j) + a2 = 0 ∧ 3 ≤ alp)
  vdw : t.cls = .d3ATM → ∀ rs9 alp, p.rs9.Is Defaults.rs9 rs9 → p.alp.Is Defaults.alp alp →
    ∀ i j, M.Z i ≠ 0 → M.Z j ≠ 0 → i ≠ j → 0 < rs9 * M.rvdw i j ∨ (rs9 * M.rvdw i j = 0 ∧ 3 ≤ alp)

/-- Conditions for a gradient of the energy of a term without special values, wherever the atoms are. Atoms
include padding, pairs do not. -/
structure Term.Regular {n : ℕ} (env : Env) (T : Tables) (R : RefCfg) (p : Param) (t : Term) (M : Spec.Mol n) :
    Prop where
  /-- D4: the exponent of the Gaussians is at least one -/
  wf : R.kind = .d4 → ∀ Z Z', 1 ≤ R.wf Z Z'
  /-- not all Gaussians of the references of an atom have underflown; polarizabilities have no partner -/
  weights : ∀ i Z', Z' = 0 ∨ (∃ j, Z' = M.Z j) → (∃ r < nref, 0 < T.refc (M.Z i) r) →
    ∃ r < nref, expwSel env T R.kind (R.wf (M.Z i) Z') (M.Z i) (M.cn i) r ≠ 0
  /-- charges are not where the scaling function is singular -/
  charge : ∀ i, (M.data t.chargeDep i).q + T.zeff (M.Z i) ≠ env.eps
  /-- its inner exponential does not overflow -/
  scale : ∀ i, ∀ r < nref, Real.exp (T.gam (M.Z i) * R.gc * (1 - (refqAt T R.rq (M.Z i) r +
    T.zeff (M.Z i)) / ((M.data t.chargeDep i).q + T.zeff (M.Z i) - env.eps))) ≤ env.fmax
  /-- scaling parameters of zero damping are positive, and so are radii where they are divisors -/
  damping : t.cls = .twoBody → ∀ i j, M.Z i ≠ 0 → M.Z j ≠ 0 → i ≠ j → t.damping.SmoothFor p (M.rvdw i j)
  /-- sixth and eighth powers of the smallest distance do not underflow -/
  powers : t.cls = .twoBody → t.damping ≠ .rational → ∀ z, env.eps ^ 3 ≤ z ∨ env.eps ^ 4 ≤ z → env.fl z = z

section
variable (env : Env) (T : Tables) (R : RefCfg) (p : Param) (o : CalcOpts)
  (cn : Spec.CN) (eeq : Spec.EEQ) (numbers : Tensor ℕ) {n : ℕ} (charge : Tensor ℝ)
  (positions : (Fin n → Spec.E3) → Tensor ℝ) (b : Idx)

/-- System `b` while atom `a` moves along axis `k`. Charges passed to `calculate` do not depend on the
positions.
Models src/tad_dftd4/dispersion/base.py:389-414. -/
noncomputable def dispSys (x : Fin n → Spec.E3) (a : Fin n) (k : Fin 3) : GradSys n :=
  { GradSys.ofCurve fun y => system T cn eeq numbers (positions (x + y • unitDisp a k)) charge o n b
    with qGrad := fun _ => o.q.isNone }

/-- Van der Waals radii of the pairs.
Models src/tad_dftd4/dispersion/base.py:381-387. -/
noncomputable def dispVdW : Fin n → Fin n → ℝ :=
  (system T cn eeq numbers (positions 0) charge o n b).rvdw

/-- The settings of the model; the parameters are those of the terms.
Models src/tad_dftd4/dispersion/base.py:361-364. -/
noncomputable def dispCfg : GradCfg :=
  gradCfg env T R ⟨0, 0, 0, 0, 0, 0, 0⟩ p (o.cutoff.getD {})

/-- The graph of the energy of atom `i`.
Models src/tad_dftd4/dispersion/base.py:416-431. -/
noncomputable def dispGraph (d : Disp) (x : Fin n → Spec.E3) (a : Fin n) (k : Fin 3) (i : Fin n) : Tape :=
  Tape.terms (dispCfg env T R p o) (dispSys T o cn eeq numbers charge positions b x a k)
    (rc6At env T R.ga R.gc R.rq) (alphaAt env T R.ga R.gc R.rq)
    (dispVdW T o cn eeq numbers charge positions b) p (o.cutoff.getD {}) d.terms i

/-- Component `k` for atom `a` of `positions.grad` after `energy.sum().backward()`.
Models the call in test/test_grad/test_nan.py:85-88. -/
noncomputable def dispGrad (d : Disp) (x : Fin n → Spec.E3) (a : Fin n) (k : Fin 3) : FP :=
  (Tape.sum n fun i =>
    dispGraph env T R p o cn eeq numbers charge positions b d x a k i).back 0 (.fin 1)

end

section
variable {env : Env} {T : Tables} {ext : Ext} {numbers : Tensor ℕ} {d : Disp}
  {charge : Tensor ℝ} {p : Param} {o : CalcOpts} {n : ℕ} {B : Shape} {b : Idx}
  {R : RefCfg} {cn : Spec.CN} {eeq : Spec.EEQ} {E : (Fin n → Spec.E3) → ℝ} {x : Fin n → Spec.E3}
  {positions : (Fin n → Spec.E3) → Tensor ℝ}

theorem dispSys_mol (a : Fin n) (k : Fin 3) (y : ℝ) :
    Tape.molV (dispSys T o cn eeq numbers charge positions b x a k)
      (dispVdW T o cn eeq numbers charge positions b) y =
    system T cn eeq numbers (positions (x + y • unitDisp a k)) charge o n b := rfl

/-- The graph at a generic geometry. -/
theorem dispSys_termOk (h : d.Total env T ext numbers positions charge p o B R cn eeq b E)
    (hfl : env.fl = id) (hT : T.Physical R.rq) (hgc : 0 < R.gc) (hpad : ∀ r < nref, T.refc 0 r = 0)
    (hcn : ∀ i, ContDiffAt ℝ 1 (fun y => cn n (elements numbers n b) y i) x)
    (heeq : o.q = none → ∀ i, ContDiffAt ℝ 1 (fun y =>
      eeq n (o.cutoff.getD {}).cnEeq (elements numbers n b) y (charge.get b) i) x)
    (hs : T.ScaleBounded env R) {t : Term} (ht : t ∈ d.terms)
    (hg : t.Generic env.eps (R.spec T env.eps) p (o.cutoff.getD {})
      (system T cn eeq numbers (positions x) charge o n b))
    (hr : t.GradOk env.eps p (system T cn eeq numbers (positions x) charge o n b))
    (hq : ∀ i, elements numbers n b i = 0 →
      ((system T cn eeq numbers (positions x) charge o n b).data t.chargeDep i).q + T.zeff 0 ≠ env.eps)
    (a : Fin n) (k : Fin 3) :
    Tape.TermOk (dispCfg env T R p o) (dispSys T o cn eeq numbers charge positions b x a k)
      (dispVdW T o cn eeq numbers charge positions b) p (o.cutoff.getD {}) 0 t := by
  have h0 : x + (0 : ℝ) • unitDisp a k = x := by simp
  obtain ⟨X, hX⟩ : ∃ X, X = dispSys T o cn eeq numbers charge positions b x a k := ⟨_, rfl⟩
  obtain ⟨V, hV⟩ : ∃ V, V = dispVdW T o cn eeq numbers charge positions b := ⟨_, rfl⟩
  have hM : Tape.molV X V 0 = system T cn eeq numbers (positions x) charge o n b := by
    rw [hX, hV, dispSys_mol, h0]
  rw [← hM] at hg hr hq
  have hline : HasDerivAt (fun y : ℝ => x + y • unitDisp a k) (unitDisp a k) 0 := by
    have := ((hasDerivAt_id (0 : ℝ)).smul_const (unitDisp a k)).const_add x
    simpa using this
  have hatpos : ∀ y : ℝ, coords (positions (x + y • unitDisp a k)) n b = x + y • unitDisp a k :=
    fun y => h.at_pos _
  have hlt : ∀ i, X.Z i < T.nZ := by
    intro i
    rw [hX]
    exact (h.runs x).args.Z_lt (cn := cn) (eeq := eeq) h.batch i
  have hdat : ∀ i, ((Tape.molV X V 0).data t.chargeDep i).q = Tape.qV X t.chargeDep i 0 := by
    intro i
    rw [← Tape.dat_eq]
    rfl
  have hdV : ∀ i j, Tape.pairOk X i j → Tape.dV (dispCfg env T R p o) X i j 0 =
      dist ((Tape.molV X V 0).pos i) ((Tape.molV X V 0).pos j) := by
    intro i j hij
    rw [Tape.dV, if_pos hij]
    have ha := hg.apart i j hij.1 hij.2.1 hij.2.2
    show √(max (dist ((Tape.molV X V 0).pos i) ((Tape.molV X V 0).pos j) ^ 2) env.eps) = _
    rw [max_eq_left ha.le, Real.sqrt_sq dist_nonneg]
  rw [← hX, ← hV]
  have hpos : Tape.PosOk (dispCfg env T R p o) X 0 := by
    refine ⟨fun i c _ => ?_, hg.apart, fun h => ?_⟩
    · rw [hX]
      show DifferentiableAt ℝ
        (fun y : ℝ => coords (positions (x + y • unitDisp a k)) n b i c) 0
      simp only [hatpos]
      have : (fun y : ℝ => (x + y • unitDisp a k) i c) =
          fun y : ℝ => x i c + y * unitDisp a k i c := by
        funext y
        simp
      rw [this]
      fun_prop
    · rw [hX] at h
      simp [dispSys, GradSys.ofCurve] at h
  have hcoef : Tape.CoefOk (dispCfg env T R p o) X 0 t.chargeDep := by
    refine ⟨hfl, fun i => ?_, fun h => ?_, fun _ i => ?_, fun i h => ?_, hpad, fun i => hs.ok (hlt i),
      fun i hi => ?_, fun i hi => ?_⟩
    · rw [hX]
      show DifferentiableAt ℝ (fun y : ℝ => cn n (elements numbers n b)
        (coords (positions (x + y • unitDisp a k)) n b) i) 0
      simp only [hatpos]
      have hd := (hcn i).differentiableAt (by simp)
      rw [← h0] at hd
      exact DifferentiableAt.comp (0 : ℝ) hd hline.differentiableAt
    · rw [hX] at h
      simp [dispSys, GradSys.ofCurve] at h
    · rw [hX]
      cases hq' : o.q with
      | some q =>
        have : (dispSys T o cn eeq numbers charge positions b x a k).qFn i = fun _ => q.get (i.1 :: b) := by
          funext y
          simp only [dispSys, GradSys.ofCurve, system, hq']
        rw [this]
        exact differentiableAt_const _
      | none =>
        have : (dispSys T o cn eeq numbers charge positions b x a k).qFn i =
            fun y : ℝ => eeq n (o.cutoff.getD {}).cnEeq (elements numbers n b)
              (x + y • unitDisp a k) (charge.get b) i := by
          funext y
          simp only [dispSys, GradSys.ofCurve, system, hq', hatpos]
        rw [this]
        have hd := (heeq hq' i).differentiableAt (by simp)
        rw [← h0] at hd
        exact DifferentiableAt.comp (0 : ℝ) hd hline.differentiableAt
    · rw [hX] at h ⊢
      cases hq' : o.q with
      | none => simp [dispSys, hq'] at h
      | some q =>
        refine ⟨q.get (i.1 :: b), ?_⟩
        funext y
        simp only [dispSys, GradSys.ofCurve, system, hq']
    · have := hg.charge i hi
      rw [hdat] at this
      exact this
    · rw [← hdat]
      refine hq i ?_
      rw [hX] at hi
      exact hi
  have hc6 : ∀ i j, c6At env T R ((Tape.molV X V 0).data t.chargeDep i)
      ((Tape.molV X V 0).data t.chargeDep j) = Spec.c6 (R.spec T env.eps)
        ((Tape.molV X V 0).data t.chargeDep i) ((Tape.molV X V 0).data t.chargeDep j) := by
    intro i j
    refine c6At_spec hfl hT hgc ?_ ?_
    · rw [data_eq]; exact hlt i
    · rw [data_eq]; exact hlt j
  have hU := (h.runs x).par t ht
  refine ⟨hpos, hcoef, fun hc i j hij => ?_, fun hc i j hij => ?_, fun hc i j l hij => ?_, fun hc i j hij => ?_,
    fun hc hd a1 a2 h1 h2 i j hij => hr.op hc hd a1 a2 h1 h2 i j hij.1 hij.2.1 hij.2.2, fun hc => ?_, fun hc => ?_⟩
  · rw [hdV i j hij]
    exact hg.cut2 hc i j hij.1 hij.2.1 hij.2.2
  · rw [hdV i j hij]
    exact hg.cut3 hc i j hij.1 hij.2.1 hij.2.2
  · obtain ⟨hi, hj, hk, hij, hik, hjk⟩ := hij
    have := hg.c9 hc i j l hi hj hk hij hik hjk
    rw [← hc6, ← hc6, ← hc6] at this
    simp only [Tape.dat_eq (rvdw := V)]
    exact this
  · exact hg.damping hc i j hij.1 hij.2.1 hij.2.2
  · have hc' : t.cls ≠ .twoBody := by rcases hc with hc | hc <;> rw [hc] <;> simp
    obtain ⟨a1, h1⟩ := PVal.exists_is (hU.a1 hc) Defaults.a1
    obtain ⟨a2, h2⟩ := PVal.exists_is (hU.a2 hc) Defaults.a2
    obtain ⟨alp, h3⟩ := PVal.exists_is (hU.alp hc') Defaults.alp
    intro i j hij
    have := hr.bj hc a1 a2 alp h1 h2 h3 i j hij.1 hij.2.1 hij.2.2
    simp only [Tape.radBJV, show p.read3 .a1 = a1 from Tape.PVal.Is.num h1, show p.read3 .a2 = a2 from Tape.PVal.Is.num h2,
      show p.read3 .alp = alp from Tape.PVal.Is.num h3]
    exact this.imp_right fun h => ⟨fun _ => h.1, h.2⟩
  · have hc' : t.cls ≠ .twoBody := by rw [hc]; simp
    obtain ⟨rs9, h1⟩ := PVal.exists_is (hU.rs9 hc) Defaults.rs9
    obtain ⟨alp, h3⟩ := PVal.exists_is (hU.alp hc') Defaults.alp
    intro i j hij
    have := hr.vdw hc rs9 alp h1 h3 i j hij.1 hij.2.1 hij.2.2
    simp only [Tape.radVdWV, show p.read3 .rs9 = rs9 from Tape.PVal.Is.num h1, show p.read3 .alp = alp from Tape.PVal.Is.num h3]
    exact this.imp_right fun h => ⟨fun _ => h.1, h.2⟩

section
variable (h : d.Total env T ext numbers positions charge p o B R cn eeq b E)
    (hfl : env.fl = id) (hT : T.Physical R.rq) (hgc : 0 < R.gc) (hpad : ∀ r < nref, T.refc 0 r = 0)
    (hcn : ∀ i, ContDiffAt ℝ 1 (fun y => cn n (elements numbers n b) y i) x)
    (heeq : o.q = none → ∀ i, ContDiffAt ℝ 1 (fun y =>
      eeq n (o.cutoff.getD {}).cnEeq (elements numbers n b) y (charge.get b) i) x)
    (hs : T.ScaleBounded env R)
    (hg : ∀ t ∈ d.terms, t.Generic env.eps (R.spec T env.eps) p (o.cutoff.getD {})
      (system T cn eeq numbers (positions x) charge o n b))
    (hr : ∀ t ∈ d.terms, t.GradOk env.eps p (system T cn eeq numbers (positions x) charge o n b))
    (hq : ∀ t ∈ d.terms, ∀ i, elements numbers n b i = 0 →
      ((system T cn eeq numbers (positions x) charge o n b).data t.chargeDep i).q + T.zeff 0 ≠ env.eps)
    (a : Fin n) (k : Fin 3)
include h hfl hT hgc hpad hcn heeq hs hg hr hq

/-- The graph is differentiated correctly. -/
theorem dispGraph_fine {S : Term → Spec.Settings}
    (hS : ∀ t ∈ d.terms, TermPar env T R p (o.cutoff.getD {}) t (S t)) (i : Fin n) :
    Tape.Fine (dispGraph env T R p o cn eeq numbers charge positions b d x a k i)
      (fun y => (d.terms.map fun t => t.energy (S t)
        (system T cn eeq numbers (positions (x + y • unitDisp a k)) charge o n b) i).sum) 0 :=
  Tape.terms_fine (G := dispCfg env T R p o)
    (X := dispSys T o cn eeq numbers charge positions b x a k)
    (fun t ht => dispSys_termOk h hfl hT hgc hpad hcn heeq hs ht (hg t ht) (hr t ht) (hq t ht) a k) rfl hS
    ((h.runs x).par) i

/-- Forward pass: the graph has the values `calculate` returns. -/
theorem C72_forward :
    ∃ e, d.calculate env T ext numbers (positions x) charge p o = .ok e ∧ ∀ i,
      (dispGraph env T R p o cn eeq numbers charge positions b d x a k i).eval 0 =
        .fin (e.get (i.1 :: b)) := by
  obtain ⟨S, hS⟩ := (h.runs x).settings
  obtain ⟨e, h1, -, h3⟩ := (h.runs x).eval hS
  refine ⟨e, h1, fun i => ?_⟩
  rw [(dispGraph_fine h hfl hT hgc hpad hcn heeq hs hg hr hq a k hS i).eval, h3 b h.batch i]
  simp

/-- **C72**: without underflow, at a geometry that is generic for every term, `positions.grad` of the sum
of the energies is minus the force, whatever the terms of the class are. -/
theorem C72_forces :
    dispGrad env T R p o cn eeq numbers charge positions b d x a k = .fin (-Spec.force E x a k) := by
  obtain ⟨S, hS⟩ := (h.runs x).settings
  have hfine := Tape.Fine.sum fun i => dispGraph_fine h hfl hT hgc hpad hcn heeq hs hg hr hq a k hS i
  have hline : HasDerivAt (fun y : ℝ => x + y • unitDisp a k) (unitDisp a k) 0 := by
    have := ((hasDerivAt_id (0 : ℝ)).smul_const (unitDisp a k)).const_add x
    simpa using this
  have hE : DifferentiableAt ℝ E x :=
    (C70_smooth h hfl hT hgc (fun i _ => hcn i) (fun hq i _ => heeq hq i) hg).differentiableAt
      (by simp)
  refine (hfine.back 1).trans ?_
  rw [one_mul]
  congr 1
  have hfun : (fun y : ℝ => ∑ i, (d.terms.map fun t => t.energy (S t)
      (system T cn eeq numbers (positions (x + y • unitDisp a k)) charge o n b) i).sum) =
      fun y => E (x + y • unitDisp a k) := by
    funext y
    exact (h.eval hS _).symm
  rw [hfun]
  have hd : HasDerivAt (fun y : ℝ => E (x + y • unitDisp a k)) (fderiv ℝ E x (unitDisp a k)) 0 := by
    have hE' := hE.hasFDerivAt
    have := HasFDerivAt.comp_hasDerivAt (0 : ℝ) (by simpa using hE') hline
    exact this
  rw [hd.deriv]
  simp [Spec.force, unitDisp]

end

/-- The graph wherever the atoms are. -/
theorem dispSys_finTerm (h : d.Total env T ext numbers positions charge p o B R cn eeq b E)
    {t : Term} (ht : t ∈ d.terms)
    (hg : t.Regular env T R p (system T cn eeq numbers (positions x) charge o n b))
    (hr : t.GradOk env.eps p (system T cn eeq numbers (positions x) charge o n b)) (a : Fin n) (k : Fin 3) :
    Tape.FinTerm (dispCfg env T R p o) (dispSys T o cn eeq numbers charge positions b x a k)
      (dispVdW T o cn eeq numbers charge positions b) p 0 t := by
  have h0 : x + (0 : ℝ) • unitDisp a k = x := by simp
  obtain ⟨X, hX⟩ : ∃ X, X = dispSys T o cn eeq numbers charge positions b x a k := ⟨_, rfl⟩
  obtain ⟨V, hV⟩ : ∃ V, V = dispVdW T o cn eeq numbers charge positions b := ⟨_, rfl⟩
  have hM : Tape.molV X V 0 = system T cn eeq numbers (positions x) charge o n b := by
    rw [hX, hV, dispSys_mol, h0]
  rw [← hM] at hg hr
  rw [← hX, ← hV]
  have hdat : ∀ i, ((Tape.molV X V 0).data t.chargeDep i).q = Tape.qV X t.chargeDep i 0 := by
    intro i
    rw [← Tape.dat_eq]
    rfl
  have hpow : ∀ (w : ℝ) (Z : ℕ) (c : ℝ), (R.kind = .d4 → 1 ≤ w) → Tape.PowOk (dispCfg env T R p o) w Z c :=
    fun w Z c hw hk => Or.inl (hw hk)
  have hnorm : ∀ i Z', Z' = 0 ∨ (∃ j, Z' = X.Z j) →
      Tape.NormOk (dispCfg env T R p o) (R.wf (X.Z i) Z') (X.Z i) (X.cnFn i 0) := by
    intro i Z' hZ hi
    obtain ⟨s, hs, hne⟩ := hg.weights i Z' hZ hi
    intro hz
    unfold Tape.normV at hz
    rw [Finset.sum_eq_zero_iff_of_nonneg (fun _ _ => Tape.expwSel_nonneg)] at hz
    exact hne (hz s (Finset.mem_range.2 hs))
  have hch : ∀ i, Tape.ChargeOk (dispCfg env T R p o) (X.Z i) (Tape.qV X t.chargeDep i 0) := by
    intro i
    rw [← hdat]
    exact ⟨hg.charge i, hg.scale i⟩
  have hU := (h.runs x).par t ht
  refine ⟨fun _ i j => ⟨hpow _ _ _ fun hk => hg.wf hk _ _, hnorm i _ (Or.inr ⟨j, rfl⟩), hch i⟩,
    fun _ i => hpow _ _ _ fun hk => hg.wf hk _ _, fun _ i => hnorm i 0 (Or.inl rfl), fun _ => hch,
    fun hc hd i j hij k hk => hg.powers hc hd _ ?_,
    fun hc i j hij => hg.damping hc i j hij.1 hij.2.1 hij.2.2,
    fun hc hd a1 a2 h1 h2 i j hij => hr.op hc hd a1 a2 h1 h2 i j hij.1 hij.2.1 hij.2.2, fun hc => ?_, fun hc => ?_⟩
  · rw [Tape.dV, if_pos hij]
    have hs : env.eps ≤ (Tape.molV X V 0).r env.eps i j ^ 2 := by
      unfold Spec.Mol.r Spec.rsqrt
      rw [Real.sq_sqrt (le_max_of_le_right env.eps_pos.le)]
      exact le_max_right _ _
    have he := env.eps_pos.le
    rcases hk with rfl | rfl
    · left
      calc env.eps ^ 3 ≤ ((Tape.molV X V 0).r env.eps i j ^ 2) ^ 3 := pow_le_pow_left₀ he hs 3
        _ = _ := by rw [← pow_mul]; rfl
    · right
      calc env.eps ^ 4 ≤ ((Tape.molV X V 0).r env.eps i j ^ 2) ^ 4 := pow_le_pow_left₀ he hs 4
        _ = _ := by rw [← pow_mul]; rfl
  · have hc' : t.cls ≠ .twoBody := by rcases hc with hc | hc <;> rw [hc] <;> simp
    obtain ⟨a1, h1⟩ := PVal.exists_is (hU.a1 hc) Defaults.a1
    obtain ⟨a2, h2⟩ := PVal.exists_is (hU.a2 hc) Defaults.a2
    obtain ⟨alp, h3⟩ := PVal.exists_is (hU.alp hc') Defaults.alp
    intro i j hij
    have := hr.bj hc a1 a2 alp h1 h2 h3 i j hij.1 hij.2.1 hij.2.2
    simp only [Tape.radBJV, show p.read3 .a1 = a1 from Tape.PVal.Is.num h1,
      show p.read3 .a2 = a2 from Tape.PVal.Is.num h2, show p.read3 .alp = alp from Tape.PVal.Is.num h3]
    exact this.imp_right fun h => ⟨fun _ => h.1, h.2⟩
  · have hc' : t.cls ≠ .twoBody := by rw [hc]; simp
    obtain ⟨rs9, h1⟩ := PVal.exists_is (hU.rs9 hc) Defaults.rs9
    obtain ⟨alp, h3⟩ := PVal.exists_is (hU.alp hc') Defaults.alp
    intro i j hij
    have := hr.vdw hc rs9 alp h1 h3 i j hij.1 hij.2.1 hij.2.2
    simp only [Tape.radVdWV, show p.read3 .rs9 = rs9 from Tape.PVal.Is.num h1,
      show p.read3 .alp = alp from Tape.PVal.Is.num h3]
    exact this.imp_right fun h => ⟨fun _ => h.1, h.2⟩

/-- Wherever the atoms are, at the same place or at a cutoff, the graph has the values `calculate` returns
and the gradient is a number. -/
theorem C72_finite (h : d.Total env T ext numbers positions charge p o B R cn eeq b E)
    (hg : ∀ t ∈ d.terms, t.Regular env T R p (system T cn eeq numbers (positions x) charge o n b))
    (hr : ∀ t ∈ d.terms, t.GradOk env.eps p (system T cn eeq numbers (positions x) charge o n b))
    (a : Fin n) (k : Fin 3) :
    (∃ e, d.calculate env T ext numbers (positions x) charge p o = .ok e ∧ ∀ i,
      (dispGraph env T R p o cn eeq numbers charge positions b d x a k i).eval 0 =
        .fin (e.get (i.1 :: b))) ∧
    ∃ g, dispGrad env T R p o cn eeq numbers charge positions b d x a k = .fin g := by
  obtain ⟨S, hS⟩ := (h.runs x).settings
  obtain ⟨e, h1, -, h3⟩ := (h.runs x).eval hS
  have ht := fun i => Tape.terms_tame (cutoff := o.cutoff.getD {})
    (fun t ht => dispSys_finTerm h ht (hg t ht) (hr t ht) a k) rfl hS ((h.runs x).par) i
  have h0 : x + (0 : ℝ) • unitDisp a k = x := by simp
  refine ⟨⟨e, h1, fun i => ?_⟩, ?_⟩
  · refine (ht i).1.trans ?_
    rw [dispSys_mol, h0, h3 b h.batch i]
  · obtain ⟨v, hv⟩ := (Tape.Tame.sum ht).2
    exact ⟨_, hv 1⟩

/-- If all Gaussians of an atom with references underflow, every component of the gradient is NaN although
energies are computed, whatever the terms of the class are; there has to be one that uses C6 coefficients,
as in all classes of the package. -/
theorem C72_underflow_nan (h : d.Total env T ext numbers positions charge p o B R cn eeq b E)
    (ht : ∃ t ∈ d.terms, t.cls ≠ .d4ATMExact)
    {i : Fin n} (hi : ∃ r < nref, 0 < T.refc (elements numbers n b i) r)
    (hw : R.kind = .d4 → 1 ≤ R.wf (elements numbers n b i) (elements numbers n b i))
    (h0 : ∀ r < nref, expwSel env T R.kind (R.wf (elements numbers n b i) (elements numbers n b i))
      (elements numbers n b i) (cn n (elements numbers n b) x i) r = 0) :
    (∃ e, d.calculate env T ext numbers (positions x) charge p o = .ok e) ∧
    ∀ a k, dispGrad env T R p o cn eeq numbers charge positions b d x a k = .nan := by
  obtain ⟨S, hS⟩ := (h.runs x).settings
  obtain ⟨e, h1, -, -⟩ := (h.runs x).eval hS
  refine ⟨⟨e, h1⟩, fun a k => ?_⟩
  have hl : Tape.Lost (dispCfg env T R p o) (dispSys T o cn eeq numbers charge positions b x a k) 0 i := by
    refine ⟨hi, hw, ?_⟩
    refine Finset.sum_eq_zero fun r hr => ?_
    have hx : coords (positions (x + (0 : ℝ) • unitDisp a k)) n b = x := by
      rw [h.at_pos]
      simp
    show expwSel env T R.kind _ _ (cn n (elements numbers n b)
      (coords (positions (x + (0 : ℝ) • unitDisp a k)) n b) i) r = 0
    rw [hx]
    exact h0 r (Finset.mem_range.1 hr)
  obtain ⟨t, ht, hc⟩ := ht
  exact Tape.Bad.sum i (Tape.terms_bad ht (hl.term rfl hc)) _

end

/-! ## Concrete cases: hydrogen fluoride next to water -/

namespace Demo

theorem gradOkAt (x : Fin 3 → Spec.E3) (cls : DispClass) {t : Term} (ht : t ∈ (dispOf cls).terms) :
    t.GradOk env.eps paramAll (system T cn eeq numbers (positionsAt x) charge {} 3 [1]) := by
  constructor
  · intro _ hd
    have : t ∈ cls.terms := ht
    cases cls <;> simp only [DispClass.terms, List.mem_cons, List.not_mem_nil, or_false] at this <;>
      rcases this with rfl | rfl <;> simp at hd
  · intro _ a1 a2 alp h1 h2 _ i j _ _ _
    left
    simp only [paramAll, PVal.Is, PVal.val.injEq, reduceCtorEq, false_and, or_false] at h1 h2
    rw [← h1, ← h2]
    have := Spec.rsqrt_nonneg env.eps (3 * (system T cn eeq numbers (positionsAt x) charge {} 3 [1]).Q i *
      (system T cn eeq numbers (positionsAt x) charge {} 3 [1]).Q j)
    positivity
  · intro _ rs9 alp h1 _ i j _ _ _
    left
    simp only [paramAll, PVal.Is, reduceCtorEq, true_and, false_or, Defaults.rs9] at h1
    rw [h1]
    show (0 : ℝ) < 1 * 3
    norm_num

theorem gradOkOf (cls : DispClass) {t : Term} (ht : t ∈ (dispOf cls).terms) :
    t.GradOk env.eps paramAll (system T cn eeq numbers (positionsAt xHF) charge {} 3 [1]) :=
  gradOkAt xHF cls ht

theorem regularAt (x : Fin 3 → Spec.E3) {p : Param} {t : Term}
    (h : t.cls = .twoBody → t.damping.SmoothFor p 3) :
    t.Regular env T .d4 p (system T cn eeq numbers (positionsAt x) charge {} 3 [1]) := by
  obtain ⟨-, -, -, -, -, hq, hz, hs, hs0⟩ := regular_HF x
  refine ⟨fun _ _ _ => by norm_num [RefCfg.d4], fun i Z' _ hr => ?_, fun i => ?_, fun i r hr => ?_,
    fun hc i j _ _ _ => h hc, fun _ _ _ _ => rfl⟩
  · have := Tape.normOk_id (G := gradCfg env T .d4 par param {}) (w := RefCfg.d4.wf (elements numbers 3 [1] i) Z')
      (Z := elements numbers 3 [1] i)
      (c := (system T cn eeq numbers (positionsAt x) charge {} 3 [1]).cn i) rfl hr
    by_contra hno
    push Not at hno
    exact this (Finset.sum_eq_zero fun r hr => hno r (Finset.mem_range.1 hr))
  · cases t.chargeDep
    · exact fun h => hz i ((zero_add _).symm.trans h)
    · exact hq i
  · cases t.chargeDep
    · rw [show ((system T cn eeq numbers (positionsAt x) charge {} 3 [1]).data false i).q = 0 from rfl, zero_add]
      exact hs0 i r hr
    · exact hs i r hr

/-- All classes, with all atoms at the same place. -/
example (cls : DispClass) (a k) : ∃ g, dispGrad env T .d4 paramAll {} cn eeq numbers charge positionsAt [1]
    (dispOf cls) (fun _ => 0) a k = .fin g := by
  refine (C72_finite (totalOf_total cls) (fun t ht => regularAt _ fun hc => ?_)
    (fun t ht => gradOkAt _ cls ht) a k).2
  have : t ∈ cls.terms := ht
  cases cls <;> simp only [DispClass.terms, List.mem_cons, List.not_mem_nil, or_false] at this <;>
    rcases this with rfl | rfl <;> simp [Damping.SmoothFor, paramAll] at hc ⊢
  norm_num

theorem padChargeOf (dep : Bool) {i : Fin 3} (hi : elements numbers 3 [1] i = 0) :
    ((system T cn eeq numbers (positionsAt xHF) charge {} 3 [1]).data dep i).q + T.zeff 0 ≠ env.eps := by
  have hq : (system T cn eeq numbers (positionsAt xHF) charge {} 3 [1]).q i = 0 := by
    simp [system, eeq, hi]
  have : ((system T cn eeq numbers (positionsAt xHF) charge {} 3 [1]).data dep i).q = 0 := by
    cases dep
    · rfl
    · exact hq
  rw [this]
  show (0 : ℝ) + zeff 0 ≠ 1 / 2 ^ 52
  norm_num [zeff]

theorem cn_smooth_HF (i : Fin 3) : ContDiffAt ℝ 1 (fun y => cn 3 (elements numbers 3 [1]) y i) xHF := by
  refine cn_smooth (fun i j hi hj hij he => ?_) i
  have := dist_xHF hi hj hij
  rw [he, dist_self] at this
  norm_num at this

theorem eeq_smooth_HF (c : ℝ) (q : ℝ) (i : Fin 3) :
    ContDiffAt ℝ 1 (fun y => eeq 3 c (elements numbers 3 [1]) y q i) xHF := by
  unfold eeq
  exact contDiffAt_const

/-- All four classes of the package. -/
example (cls : DispClass) (a k) :
    dispGrad env T .d4 paramAll {} cn eeq numbers charge positionsAt [1] (dispOf cls) xHF a k =
      .fin (-Spec.force (totalOf cls) xHF a k) :=
  C72_forces (totalOf_total cls) rfl physical (by norm_num [RefCfg.d4]) pad_refc cn_smooth_HF
    (fun _ => eeq_smooth_HF _ _) scaleBounded (fun t ht => genericOf cls ht) (fun t ht => gradOkOf cls ht)
    (fun t _ i hi => padChargeOf t.chargeDep hi) a k

example (cls : DispClass) (a k) : ∃ e, (dispOf cls).calculate env T ext numbers (positionsAt xHF) charge
      paramAll {} = .ok e ∧ ∀ i,
    (dispGraph env T .d4 paramAll {} cn eeq numbers charge positionsAt [1] (dispOf cls) xHF a k i).eval 0 =
      .fin (e.get [i.1, 1]) :=
  C72_forward (totalOf_total cls) rfl physical (by norm_num [RefCfg.d4]) pad_refc cn_smooth_HF
    (fun _ => eeq_smooth_HF _ _) scaleBounded (fun t ht => genericOf cls ht) (fun t ht => gradOkOf cls ht)
    (fun t _ i hi => padChargeOf t.chargeDep hi) a k

/-- Modified zero and optimised power damping. -/
example (a k) :
    dispGrad env T .d4 paramBet {} cn eeq numbers charge positionsAt [1] dispBet xHF a k =
      .fin (-Spec.force totalBet xHF a k) := by
  refine C72_forces totalBet_total rfl physical (by norm_num [RefCfg.d4]) pad_refc cn_smooth_HF
    (fun _ => eeq_smooth_HF _ _) scaleBounded (fun t ht => genericBet ht) (fun t ht => ?_)
    (fun t _ i hi => padChargeOf t.chargeDep hi) a k
  have hc : t.cls = .twoBody := by
    simp only [dispBet, List.mem_cons, List.not_mem_nil, or_false] at ht
    rcases ht with rfl | rfl <;> rfl
  refine ⟨fun _ _ a1 a2 h1 h2 i j _ _ _ => ?_, fun h => ?_, fun h => ?_⟩
  · simp only [paramBet, paramAll, PVal.val.injEq] at h1 h2
    rw [← h1, ← h2]
    positivity
  · rw [hc] at h; simp at h
  · rw [hc] at h; cases h

/-- Large coordination numbers in double precision. -/
noncomputable def dispUflow (cls : DispClass) : Disp :=
  { dispOf cls with cnFn := .ofSpec cnUflow }

theorem dispUflow_runs (cls : DispClass) (x : Fin 3 → Spec.E3) :
    (dispUflow cls).Runs envUflow T extUflow numbers (positionsAt x) charge paramAll {} 3 [2] .d4 cnUflow
      eeq where
  args := { validArgs with pos := ⟨rfl, rfl⟩ }
  model := by
    obtain ⟨d, m, h1, h2, h3, h4, h5, h6⟩ := new_getModel (env := envUflow) (ext := extUflow) (cls := cls)
      (sel := .key "d4") (f := .ofSpec cnUflow) (counting := none) (R := .d4) keys
      (Or.inl ⟨"d4", rfl, keys "d4" (by simp), rfl⟩) validArgs.num validArgs.lt validArgs.fits
    refine ⟨m, ?_, h5⟩
    have hk : extUflow.casefold "d4" = "d4" := keys "d4" (by simp)
    have : d = dispUflow cls := by
      simp [Disp.new, hk, DispClass.allowedModels, bind, Except.bind, pure, Except.pure] at h1
      rw [← h1]; rfl
    rw [← this]
    exact h6 d.terms
  cn := CNFunc.ofSpec_perSystem _ _ _
  eeq _ := eeqOfSpec_perSystem eeq rfl _
  q := Or.inl rfl
  par t ht := by
    have h3 : (0 : ℝ) ≤ ((({} : CalcOpts).cutoff).getD {}).disp3 := by
      norm_num [Defaults.disp3Cutoff]
    have hr : Damping.Usable envUflow .rational paramAll := by
      constructor <;> simp [Damping.point, Damping.required, Damping.pointF, Param.kw, PVal.kw,
        paramAll]
    have hz : Damping.Usable envUflow .zero paramAll := by
      constructor <;> simp [Damping.point, Damping.required, Damping.pointF, Param.kw, PVal.kw,
        paramAll]
    have ht' : t ∈ cls.terms := ht
    cases cls <;> simp only [DispClass.terms, List.mem_cons, List.not_mem_nil, or_false] at ht'
    all_goals
      rcases ht' with rfl | rfl <;>
      exact ⟨fun _ => by first | exact hr | exact hz | simp_all, by simp, by simp [paramAll],
        by simp [paramAll], fun _ => h3, by simp [paramAll], by simp [paramAll],
        by simp [paramAll], fun _ => rfl⟩

noncomputable def totalUflowOf (cls : DispClass) (x : Fin 3 → Spec.E3) : ℝ :=
  match (dispUflow cls).calculate envUflow T extUflow numbers (positionsAt x) charge paramAll {} with
  | .ok e => ∑ i : Fin 3, e.get [i.1, 1]
  | .error _ => 0

/-- All classes with terms: energies, but no gradient. -/
example (cls : DispClass) (hc : cls ≠ .base) : (∃ e, (dispUflow cls).calculate envUflow T extUflow numbers (positionsAt xHF) charge
      paramAll {} = .ok e) ∧ ∀ a k,
    dispGrad envUflow T .d4 paramAll {} cnUflow eeq numbers charge positionsAt [1] (dispUflow cls) xHF a k =
      .nan := by
  refine C72_underflow_nan (B := [2]) (E := totalUflowOf cls)
    ⟨dispUflow_runs cls, by simp [InB], totalEnergy.at_pos, fun x e he => by simp only [totalUflowOf, he]⟩
    ?_ refs_F (fun _ => by norm_num [RefCfg.d4]) lost_F
  show ∃ t ∈ cls.terms, t.cls ≠ .d4ATMExact
  cases cls
  · exact absurd rfl hc
  all_goals simp [DispClass.terms]

end Demo

end TadDftd4
