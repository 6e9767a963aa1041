import Verif.Lemmas.HessianDisp
import Verif.Props.C61
import Verif.Props.C72

/-!
# C77: Hessians of every dispersion class from automatic differentiation

C61 is about `dftd4`. Here the graph is that of `Disp.calculate` of any class with any list of terms, as in
C72: all damping functions, exact and approximate three-body terms, van der Waals radii. The first backward
pass is recorded (`Tape.backT`, `create_graph=True`), a second one runs through the enlarged graph.

* `C77_hessian`: without underflow, at a geometry that is generic for every term, the entries are the second
  derivatives of the total energy;
* `C77_symmetric`: hence the matrix is symmetric, although rows and columns are computed differently;
* `C77_zero_modes`: its rows add up to zero, their first moments are the components of the gradient that the
  first pass yields, and rows and columns of padding are zero;
* `C77_finite`: wherever the atoms are, the entries are numbers.
-/

set_option linter.unusedSimpArgs false

open scoped Classical Topology

namespace TadDftd4

open Tensor

/-- Conditions on radii that matter for second derivatives; stronger than `Term.GradOk`. -/
structure Term.HessOk {n : ℕ} (ε : ℝ) (p : Param) (t : Term) (M : Spec.Mol n) : Prop where
  /-- optimised power damping: the critical radii of pairs are positive -/
  op : t.cls = .twoBody → t.damping = .op → ∀ a1 a2, p.a1 = .val a1 → p.a2 = .val a2 →
    ∀ i j, M.Z i ≠ 0 → M.Z j ≠ 0 → i ≠ j → 0 < a1 * √(3 * M.Q i * M.Q j) + a2
  /-- three-body terms: the critical radii of pairs are positive; or zero, if the exponent is three or at
  least six -/
  bj : t.cls = .d4ATMApprox ∨ t.cls = .d4ATMExact → ∀ a1 a2 alp, p.a1.Is Defaults.a1 a1 →
    p.a2.Is Defaults.a2 a2 → p.alp.Is Defaults.alp alp →
    ∀ i j, M.Z i ≠ 0 → M.Z j ≠ 0 → i ≠ j → 0 < a1 * Spec.rsqrt ε (3 * M.Q i * M.Q j) + a2 ∨
      (a1 * Spec.rsqrt ε (3 * M.Q i * M.Q j) + a2 = 0 ∧ (alp = 3 ∨ 6 ≤ alp))
  vdw : t.cls = .d3ATM → ∀ rs9 alp, p.rs9.Is Defaults.rs9 rs9 → p.alp.Is Defaults.alp alp →
    ∀ i j, M.Z i ≠ 0 → M.Z j ≠ 0 → i ≠ j → 0 < rs9 * M.rvdw i j ∨
      (rs9 * M.rvdw i j = 0 ∧ (alp = 3 ∨ 6 ≤ alp))

theorem Term.HessOk.gradOk {n : ℕ} {ε : ℝ} {p : Param} {t : Term} {M : Spec.Mol n}
    (h : t.HessOk ε p M) : t.GradOk ε p M where
  op := h.op
  bj hc a1 a2 alp h1 h2 h3 i j hi hj hij := (h.bj hc a1 a2 alp h1 h2 h3 i j hi hj hij).imp_right
    fun h => ⟨h.1, by rcases h.2 with h | h <;> linarith⟩
  vdw hc rs9 alp h1 h2 i j hi hj hij := (h.vdw hc rs9 alp h1 h2 i j hi hj hij).imp_right
    fun h => ⟨h.1, by rcases h.2 with h | h <;> linarith⟩

section
variable (env : Env) (T : Tables) (R : RefCfg) (p : Param) (o : CalcOpts)
  (cn : Spec.CN) (eeq : Spec.EEQ) (numbers : Tensor ℕ) {n : ℕ} (charge : Tensor ℝ)
  (positions : (Fin n → Spec.E3) → Tensor ℝ) (b : Idx)

/-- System `b` while atom `a'` moves along axis `k'`. The inputs also carry their derivatives with
respect to the displacement of atom `a` along axis `k`, which the first backward pass uses.
Models src/tad_dftd4/dispersion/base.py:389-414. -/
noncomputable def dispHessSys (x : Fin n → Spec.E3) (a : Fin n) (k : Fin 3) (a' : Fin n) (k' : Fin 3) :
    GradSys n :=
  { dispSys T o cn eeq numbers charge positions b x a' k' with
    posDot := fun i c t => deriv (fun s : ℝ => (system T cn eeq numbers
      (positions (x + t • unitDisp a' k' + s • unitDisp a k)) charge o n b).pos i c) 0
    cnDot := fun i t => deriv (fun s : ℝ => (system T cn eeq numbers
      (positions (x + t • unitDisp a' k' + s • unitDisp a k)) charge o n b).cn i) 0
    qDot := fun i t => deriv (fun s : ℝ => (system T cn eeq numbers
      (positions (x + t • unitDisp a' k' + s • unitDisp a k)) charge o n b).q i) 0 }

/-- The graph of the total energy.
Models src/tad_dftd4/dispersion/base.py:416-431. -/
noncomputable def dispTotalGraph (d : Disp) (x : Fin n → Spec.E3) (a : Fin n) (k : Fin 3) (a' : Fin n)
    (k' : Fin 3) : Tape :=
  Tape.sum n fun i => Tape.terms (dispCfg env T R p o)
    (dispHessSys T o cn eeq numbers charge positions b x a k a' k')
    (rc6At env T R.ga R.gc R.rq) (alphaAt env T R.ga R.gc R.rq)
    (dispVdW T o cn eeq numbers charge positions b) p (o.cutoff.getD {}) d.terms i

/-- Component `k'` for atom `a'` of the gradient of `positions.grad[a, k]`: the backward pass of the
total energy is recorded, and a second backward pass runs through the recorded graph.
Models the call in test/test_grad/test_hessian.py:97-101 (there for `dftd4`). -/
noncomputable def dispHess (d : Disp) (x : Fin n → Spec.E3) (a : Fin n) (k : Fin 3) (a' : Fin n)
    (k' : Fin 3) : FP :=
  ((dispTotalGraph env T R p o cn eeq numbers charge positions b d x a k a' k').backT (.const 1)).back 0
    (.fin 1)

end

section
variable {env : Env} {T : Tables} {ext : Ext} {numbers : Tensor ℕ} {d : Disp}
  {charge : Tensor ℝ} {p : Param} {o : CalcOpts} {n : ℕ} {B : Shape} {b : Idx}
  {R : RefCfg} {cn : Spec.CN} {eeq : Spec.EEQ} {E : (Fin n → Spec.E3) → ℝ} {x : Fin n → Spec.E3}
  {positions : (Fin n → Spec.E3) → Tensor ℝ}

theorem dispHessSys_radBJ (h : d.Total env T ext numbers positions charge p o B R cn eeq b E) {t : Term}
    (ht : t ∈ d.terms) (hr : t.HessOk env.eps p (system T cn eeq numbers (positions x) charge o n b))
    (a : Fin n) (k : Fin 3) (a' : Fin n) (k' : Fin 3) (hc : t.cls = .d4ATMApprox ∨ t.cls = .d4ATMExact) :
    Tape.RadOk2 (Tape.pairOk (dispHessSys T o cn eeq numbers charge positions b x a k a' k'))
      (fun i j => Tape.radBJV (dispCfg env T R p o)
        (dispHessSys T o cn eeq numbers charge positions b x a k a' k') (fun _ => p) i j 0) (p.read3 .alp) := by
  have hU := (h.runs x).par t ht
  have hc' : t.cls ≠ .twoBody := by rcases hc with hc | hc <;> rw [hc] <;> simp
  obtain ⟨a1, h1⟩ := PVal.exists_is (hU.a1 hc) Defaults.a1
  obtain ⟨a2, h2⟩ := PVal.exists_is (hU.a2 hc) Defaults.a2
  obtain ⟨alp, h3⟩ := PVal.exists_is (hU.alp hc') Defaults.alp
  intro i j hij
  have := hr.bj hc a1 a2 alp h1 h2 h3 i j hij.1 hij.2.1 hij.2.2
  simp only [Tape.radBJV, show p.read3 .a1 = a1 from Tape.PVal.Is.num h1,
    show p.read3 .a2 = a2 from Tape.PVal.Is.num h2, show p.read3 .alp = alp from Tape.PVal.Is.num h3]
  exact this

theorem dispHessSys_radVdW (h : d.Total env T ext numbers positions charge p o B R cn eeq b E) {t : Term}
    (ht : t ∈ d.terms) (hr : t.HessOk env.eps p (system T cn eeq numbers (positions x) charge o n b))
    (a : Fin n) (k : Fin 3) (a' : Fin n) (k' : Fin 3) (hc : t.cls = .d3ATM) :
    Tape.RadOk2 (Tape.pairOk (dispHessSys T o cn eeq numbers charge positions b x a k a' k'))
      (fun i j => Tape.radVdWV (dispVdW T o cn eeq numbers charge positions b) (fun _ => p) i j 0)
      (p.read3 .alp) := by
  have hU := (h.runs x).par t ht
  have hc' : t.cls ≠ .twoBody := by rw [hc]; simp
  obtain ⟨rs9, h1⟩ := PVal.exists_is (hU.rs9 hc) Defaults.rs9
  obtain ⟨alp, h3⟩ := PVal.exists_is (hU.alp hc') Defaults.alp
  intro i j hij
  have := hr.vdw hc rs9 alp h1 h3 i j hij.1 hij.2.1 hij.2.2
  simp only [Tape.radVdWV, show p.read3 .rs9 = rs9 from Tape.PVal.Is.num h1,
    show p.read3 .alp = alp from Tape.PVal.Is.num h3]
  exact this

/-- Whatever the geometry, the entries of the Hessian are numbers, if not all Gaussians of an atom have
underflown (`Term.Regular`) and, for D4, the exponents are one or at least two. -/
theorem C77_finite (h : d.Total env T ext numbers positions charge p o B R cn eeq b E)
    (hg : ∀ t ∈ d.terms, t.Regular env T R p (system T cn eeq numbers (positions x) charge o n b))
    (hr : ∀ t ∈ d.terms, t.HessOk env.eps p (system T cn eeq numbers (positions x) charge o n b))
    (hw : R.kind = .d4 → ∀ Z Z', R.wf Z Z' = 1 ∨ 2 ≤ R.wf Z Z') (a : Fin n) (k : Fin 3) (a' : Fin n)
    (k' : Fin 3) :
    ∃ g, dispHess env T R p o cn eeq numbers charge positions b d x a k a' k' = .fin g := by
  obtain ⟨S, hS⟩ := (h.runs x).settings
  have hf2 : ∀ t ∈ d.terms, Tape.FinTerm2 (dispCfg env T R p o)
      (dispHessSys T o cn eeq numbers charge positions b x a k a' k')
      (dispVdW T o cn eeq numbers charge positions b) p 0 t := by
    intro t ht
    have hf := dispSys_finTerm h ht (hg t ht) (hr t ht).gradOk a' k'
    exact ⟨⟨fun hc i j => ⟨(hf.weights hc i j).1, (hf.weights hc i j).2, (hf.weights hc i j).3⟩,
      hf.pow0, hf.norm0, hf.charge0, hf.fl, hf.damping, hf.op, hf.bj, hf.vdw⟩,
      fun _ i j hk => Or.inl (hw hk _ _), fun _ i hk => Or.inl (hw hk _ _),
      dispHessSys_radBJ h ht (hr t ht) a k a' k', dispHessSys_radVdW h ht (hr t ht) a k a' k'⟩
  obtain ⟨u, v, w, hj⟩ := Tape.Tame2.sum fun i =>
    Tape.terms_tame2 (cutoff := o.cutoff.getD {}) hf2 rfl hS ((h.runs x).par) i
  exact ⟨_, (hj.2 (.const 1) 1 0 Tape.Lin.const).2 1⟩

section
variable (h : d.Total env T ext numbers positions charge p o B R cn eeq b E)
    (hfl : env.fl = id) (hT : T.Physical R.rq) (hgc : 0 < R.gc) (hpad : ∀ r < nref, T.refc 0 r = 0)
    (hcn : ∀ i, ContDiffAt ℝ 2 (fun y => cn n (elements numbers n b) y i) x)
    (heeq : o.q = none → ∀ i, ContDiffAt ℝ 2 (fun y =>
      eeq n (o.cutoff.getD {}).cnEeq (elements numbers n b) y (charge.get b) i) x)
    (hs : T.ScaleBounded env R)
    (hg : ∀ t ∈ d.terms, t.Generic env.eps (R.spec T env.eps) p (o.cutoff.getD {})
      (system T cn eeq numbers (positions x) charge o n b))
    (hr : ∀ t ∈ d.terms, t.HessOk env.eps p (system T cn eeq numbers (positions x) charge o n b))
    (hq : ∀ t ∈ d.terms, ∀ i, elements numbers n b i = 0 →
      ((system T cn eeq numbers (positions x) charge o n b).data t.chargeDep i).q + T.zeff 0 ≠ env.eps)
    (a : Fin n) (k : Fin 3) (a' : Fin n) (k' : Fin 3)
include h hfl hT hgc hpad hcn heeq hs hg hr hq

/-- The graph at a generic geometry. -/
theorem dispHessSys_termOk2 {t : Term} (ht : t ∈ d.terms) :
    Tape.TermOk2 (dispCfg env T R p o) (dispHessSys T o cn eeq numbers charge positions b x a k a' k')
      (dispVdW T o cn eeq numbers charge positions b) p (o.cutoff.getD {})
      (fun i c s t => (system T cn eeq numbers
        (positions (x + t • unitDisp a' k' + s • unitDisp a k)) charge o n b).pos i c)
      (fun i s t => (system T cn eeq numbers
        (positions (x + t • unitDisp a' k' + s • unitDisp a k)) charge o n b).cn i)
      (fun i s t => (system T cn eeq numbers
        (positions (x + t • unitDisp a' k' + s • unitDisp a k)) charge o n b).q i) t := by
  have hb := dispSys_termOk h hfl hT hgc hpad (fun i => (hcn i).of_le (by norm_num))
    (fun hq i => (heeq hq i).of_le (by norm_num)) hs ht (hg t ht) (hr t ht).gradOk (hq t ht) a' k'
  have hatpos : ∀ y, coords (positions y) n b = y := fun y => h.at_pos _
  refine ⟨⟨⟨hb.pos.1, hb.pos.2, hb.pos.3⟩, ⟨hb.coef.1, hb.coef.2, hb.coef.3, hb.coef.4, hb.coef.5,
    hb.coef.6, hb.coef.7, hb.coef.8, hb.coef.9⟩, hb.cut2, hb.cut3, hb.c9, hb.damping, hb.op, hb.bj, hb.vdw⟩,
    ?_, fun i c _ => ?_, fun i => ?_, fun _ i => ?_,
    dispHessSys_radBJ h ht (hr t ht) a k a' k', dispHessSys_radVdW h ht (hr t ht) a k a' k'⟩
  · simp [GradSys.moved, dispHessSys, dispSys, GradSys.ofCurve]
  · have hf : (fun y => (system T cn eeq numbers (positions y) charge o n b).pos i c) =
        fun y => y i c := by
      funext y
      show coords (positions y) n b i c = y i c
      rw [hatpos]
    have hd : ContDiffAt ℝ 2 (fun y => (system T cn eeq numbers (positions y) charge o n b).pos i c)
        x := by
      rw [hf]
      have : (fun y : Fin n → Spec.E3 => y i c) = (EuclideanSpace.proj c : Spec.E3 →L[ℝ] ℝ).comp
          (ContinuousLinearMap.proj i : (Fin n → Spec.E3) →L[ℝ] Spec.E3) := rfl
      rw [this]
      exact (ContinuousLinearMap.contDiff _).contDiffAt
    exact fine2_smooth hd (unitDisp a k) (unitDisp a' k')
  · have hf : (fun y => (system T cn eeq numbers (positions y) charge o n b).cn i) =
        fun y => cn n (elements numbers n b) y i := by
      funext y
      show cn n (elements numbers n b) (coords (positions y) n b) i = _
      rw [hatpos]
    have hd : ContDiffAt ℝ 2 (fun y => (system T cn eeq numbers (positions y) charge o n b).cn i)
        x := by
      rw [hf]
      exact hcn i
    exact fine2_smooth hd (unitDisp a k) (unitDisp a' k')
  · cases hq' : o.q with
    | some q =>
      have hf : ∀ y, (system T cn eeq numbers (positions y) charge o n b).q i =
          q.get (i.1 :: b) := fun y => by simp only [system, hq']
      have hc : Tape.Fine2 (.frozen fun _ => q.get (i.1 :: b)) fun _ _ => q.get (i.1 :: b) :=
        ⟨.of_forall fun _ => rfl, 0, 0, 0, Tape.Jet.frozen, HasJet.const⟩
      have he : (dispHessSys T o cn eeq numbers charge positions b x a k a' k').q i =
          .frozen fun _ => q.get (i.1 :: b) := by
        unfold GradSys.q Tape.input
        have : (dispHessSys T o cn eeq numbers charge positions b x a k a' k').qGrad i = false := by
          simp [dispHessSys, dispSys, hq']
        rw [if_neg (by simp [this])]
        congr 1
        funext y
        exact hf _
      rw [he]
      exact hc.congr' fun s t => (hf _).symm
    | none =>
      have hf : (fun y => (system T cn eeq numbers (positions y) charge o n b).q i) =
          fun y => eeq n (o.cutoff.getD {}).cnEeq (elements numbers n b) y (charge.get b) i := by
        funext y
        simp only [system, hq', hatpos]
      have hd : ContDiffAt ℝ 2 (fun y => (system T cn eeq numbers (positions y) charge o n b).q i)
          x := by
        rw [hf]
        exact heeq hq' i
      have := fine2_smooth hd (unitDisp a k) (unitDisp a' k')
      unfold GradSys.q
      have hgr : (dispHessSys T o cn eeq numbers charge positions b x a k a' k').qGrad i = true := by
        simp [dispHessSys, dispSys, hq']
      rw [hgr]
      exact this

/-- **C77**: at a geometry that is generic for every term, the second backward pass yields the second
derivatives of the total energy, whatever the terms of the class are. That coordination numbers and charges
are twice differentiable, and correct backward passes of the external functions that compute them are
presupposed. -/
theorem C77_hessian :
    dispHess env T R p o cn eeq numbers charge positions b d x a k a' k' =
      .fin (Spec.hessian E x a k a' k') := by
  obtain ⟨S, hS⟩ := (h.runs x).settings
  have hE : ContDiffAt ℝ 2 E x :=
    C70_smooth h hfl hT hgc (fun i _ => hcn i) (fun hq i _ => heeq hq i) hg
  have hfine := Tape.Fine2.sum fun i => Tape.terms_fine2 (cutoff := o.cutoff.getD {})
    (fun t ht => dispHessSys_termOk2 h hfl hT hgc hpad hcn heeq hs hg hr hq a k a' k' ht) rfl hS
    ((h.runs x).par) i
  have hsum := hfine.congr' (F' := fun s t => E (x + t • unitDisp a' k' + s • unitDisp a k)) fun s t => by
    rw [h.eval hS]
    rfl
  refine (hsum.back (eventually_along hE (unitDisp a k) (unitDisp a' k')) Tape.Lin.const).trans ?_
  rw [(hasDerivAt_along2 hE (unitDisp a k) (unitDisp a' k')).deriv, one_mul, hessian_eq hE]
  rfl

/-- The computed Hessian is symmetric. -/
theorem C77_symmetric :
    dispHess env T R p o cn eeq numbers charge positions b d x a k a' k' =
      dispHess env T R p o cn eeq numbers charge positions b d x a' k' a k := by
  have hE : ContDiffAt ℝ 2 E x :=
    C70_smooth h hfl hT hgc (fun i _ => hcn i) (fun hq i _ => heeq hq i) hg
  rw [C77_hessian h hfl hT hgc hpad hcn heeq hs hg hr hq, C77_hessian h hfl hT hgc hpad hcn heeq hs hg hr hq,
    C55_symmetric hE]

omit a' k' in
/-- The rows of the computed Hessian add up to zero; their first moments in the plane of two axes are
components of the computed gradient; rows and columns of padding atoms are zero. -/
theorem C77_zero_modes (icn : cn.Invariant) (ieeq : eeq.Invariant) (pcn : cn.IgnoresPaddingPositions)
    (peeq : eeq.IgnoresPaddingPositions) (l : Fin 3) :
    FP.sum (List.ofFn fun a' =>
      dispHess env T R p o cn eeq numbers charge positions b d x a k a' l) = .fin 0 ∧
    (∀ c ≠ l, FP.sum (List.ofFn fun a' => FP.add
        (FP.mul (.fin (x a' c)) (dispHess env T R p o cn eeq numbers charge positions b d x a k a' l))
        (FP.neg (FP.mul (.fin (x a' l)) (dispHess env T R p o cn eeq numbers charge positions b d x a k a' c)))) =
      FP.add (if k = l then dispGrad env T R p o cn eeq numbers charge positions b d x a c else .fin 0)
        (FP.neg (if k = c then dispGrad env T R p o cn eeq numbers charge positions b d x a l else .fin 0))) ∧
    (elements numbers n b a = 0 → ∀ a',
      dispHess env T R p o cn eeq numbers charge positions b d x a k a' l = .fin 0 ∧
      dispHess env T R p o cn eeq numbers charge positions b d x a' l a k = .fin 0) := by
  have hE : ContDiffAt ℝ 2 E x :=
    C70_smooth h hfl hT hgc (fun i _ => hcn i) (fun hq i _ => heeq hq i) hg
  have hH := fun a k a' l => C77_hessian h hfl hT hgc hpad hcn heeq hs hg hr hq a k a' l
  have hG := fun k => C72_forces h hfl hT hgc hpad (fun i => (hcn i).of_le (by norm_num))
    (fun hq i => (heeq hq i).of_le (by norm_num)) hs hg (fun t ht => (hr t ht).gradOk) hq a k
  simp only [hH, hG]
  refine ⟨?_, fun c hc => ?_, fun ha a' => ?_⟩
  · rw [FP.sum_fin, hessian_translation (h.isometry icn ieeq) hE]
  · have hrot := hessian_rotation (h.isometry icn ieeq) hE hc a k
    simp only [FP.mul, FP.neg, FP.add, FP.sum_fin, id, ← sub_eq_add_neg, hrot]
    by_cases h1 : k = l
    · have h2 : k ≠ c := fun h2 => hc (h2.symm.trans h1)
      have h2' : l ≠ c := fun h => hc h.symm
      simp [h1, h2', hc, FP.add, FP.neg]
    · by_cases h2 : k = c
      · simp [h1, h2, hc, FP.add, FP.neg]
      · simp [h1, h2, FP.add, FP.neg]
  · have h1 : Spec.hessian E x a k a' l = 0 := by
      unfold Spec.hessian
      have : (fun y => Spec.force E y a k) = fun _ => 0 :=
        funext fun y => C70_padding_force_zero h pcn peeq ha k
      rw [this]
      simp
    rw [h1, C55_symmetric hE, h1]
    exact ⟨rfl, rfl⟩

end

end

/-! ## Concrete cases: hydrogen fluoride next to water -/

namespace Demo

theorem hessOkAt (x : Fin 3 → Spec.E3) (cls : DispClass) {t : Term} (ht : t ∈ (dispOf cls).terms) :
    t.HessOk env.eps paramAll (system T cn eeq numbers (positionsAt x) charge {} 3 [1]) := by
  constructor
  · intro _ hd
    have : t ∈ cls.terms := ht
    cases cls <;> simp only [DispClass.terms, List.mem_cons, List.not_mem_nil, or_false] at this <;>
      rcases this with rfl | rfl <;> simp at hd
  · intro _ a1 a2 alp h1 h2 _ i j _ _ _
    left
    simp only [paramAll, PVal.Is, PVal.val.injEq, reduceCtorEq, false_and, or_false] at h1 h2
    rw [← h1, ← h2]
    have := Spec.rsqrt_nonneg env.eps (3 * (system T cn eeq numbers (positionsAt x) charge {} 3 [1]).Q i *
      (system T cn eeq numbers (positionsAt x) charge {} 3 [1]).Q j)
    positivity
  · intro _ rs9 alp h1 _ i j _ _ _
    left
    simp only [paramAll, PVal.Is, reduceCtorEq, true_and, false_or, Defaults.rs9] at h1
    rw [h1]
    show (0 : ℝ) < 1 * 3
    norm_num

theorem cn_smooth2_HF (i : Fin 3) : ContDiffAt ℝ 2 (fun y => cn 3 (elements numbers 3 [1]) y i) xHF := by
  refine cn_smooth (fun i j hi hj hij he => ?_) i
  have := dist_xHF hi hj hij
  rw [he, dist_self] at this
  norm_num at this

theorem eeq_smooth2_HF (c : ℝ) (q : ℝ) (i : Fin 3) :
    ContDiffAt ℝ 2 (fun y => eeq 3 c (elements numbers 3 [1]) y q i) xHF := by
  unfold eeq
  exact contDiffAt_const

/-- All four classes of the package. -/
example (cls : DispClass) (a k a' k') :
    dispHess env T .d4 paramAll {} cn eeq numbers charge positionsAt [1] (dispOf cls) xHF a k a' k' =
      .fin (Spec.hessian (totalOf cls) xHF a k a' k') :=
  C77_hessian (totalOf_total cls) rfl physical (by norm_num [RefCfg.d4]) pad_refc cn_smooth2_HF
    (fun _ => eeq_smooth2_HF _ _) scaleBounded (fun t ht => genericOf cls ht) (fun t ht => hessOkAt xHF cls ht)
    (fun t _ i hi => padChargeOf t.chargeDep hi) a k a' k'

example (cls : DispClass) (a k a' k') :
    dispHess env T .d4 paramAll {} cn eeq numbers charge positionsAt [1] (dispOf cls) xHF a k a' k' =
      dispHess env T .d4 paramAll {} cn eeq numbers charge positionsAt [1] (dispOf cls) xHF a' k' a k :=
  C77_symmetric (totalOf_total cls) rfl physical (by norm_num [RefCfg.d4]) pad_refc cn_smooth2_HF
    (fun _ => eeq_smooth2_HF _ _) scaleBounded (fun t ht => genericOf cls ht) (fun t ht => hessOkAt xHF cls ht)
    (fun t _ i hi => padChargeOf t.chargeDep hi) a k a' k'

/-- Atom 2 is padding. -/
example (cls : DispClass) (a k l) : FP.sum (List.ofFn fun a' => dispHess env T .d4 paramAll {} cn eeq numbers
      charge positionsAt [1] (dispOf cls) xHF a k a' l) = .fin 0 ∧
    dispHess env T .d4 paramAll {} cn eeq numbers charge positionsAt [1] (dispOf cls) xHF 2 k a l = .fin 0 := by
  have key := fun a => C77_zero_modes (totalOf_total cls) rfl physical (by norm_num [RefCfg.d4]) pad_refc
    cn_smooth2_HF (fun _ => eeq_smooth2_HF _ _) scaleBounded (fun t ht => genericOf cls ht)
    (fun t ht => hessOkAt xHF cls ht) (fun t _ i hi => padChargeOf t.chargeDep hi) a k
    cn_invariant eeq_invariant cn_ignores eeq_ignores l
  exact ⟨(key a).1, ((key 2).2.2 rfl a).1⟩

/-- Modified zero and optimised power damping. -/
example (a k a' k') :
    dispHess env T .d4 paramBet {} cn eeq numbers charge positionsAt [1] dispBet xHF a k a' k' =
      .fin (Spec.hessian totalBet xHF a k a' k') := by
  refine C77_hessian totalBet_total rfl physical (by norm_num [RefCfg.d4]) pad_refc cn_smooth2_HF
    (fun _ => eeq_smooth2_HF _ _) scaleBounded (fun t ht => genericBet ht) (fun t ht => ?_)
    (fun t _ i hi => padChargeOf t.chargeDep hi) a k a' k'
  have hc : t.cls = .twoBody := by
    simp only [dispBet, List.mem_cons, List.not_mem_nil, or_false] at ht
    rcases ht with rfl | rfl <;> rfl
  refine ⟨fun _ _ a1 a2 h1 h2 i j _ _ _ => ?_, fun h => ?_, fun h => ?_⟩
  · simp only [paramBet, paramAll, PVal.val.injEq] at h1 h2
    rw [← h1, ← h2]
    positivity
  · rw [hc] at h; simp at h
  · rw [hc] at h; cases h

/-- All classes, with all atoms at the same place. -/
example (cls : DispClass) (a k a' k') : ∃ g, dispHess env T .d4 paramAll {} cn eeq numbers charge
    positionsAt [1] (dispOf cls) (fun _ => 0) a k a' k' = .fin g := by
  refine C77_finite (totalOf_total cls) (fun t ht => regularAt _ fun hc => ?_)
    (fun t ht => hessOkAt _ cls ht) (fun _ _ _ => Or.inr (by norm_num [RefCfg.d4])) a k a' k'
  have : t ∈ cls.terms := ht
  cases cls <;> simp only [DispClass.terms, List.mem_cons, List.not_mem_nil, or_false] at this <;>
    rcases this with rfl | rfl <;> simp [Damping.SmoothFor, paramAll] at hc ⊢
  norm_num

end Demo

end TadDftd4
