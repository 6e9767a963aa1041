import Verif.Props.C72

/-!
# C85: gradients with respect to whatever the input depends on

C72 is about gradients with respect to positions. A user may also let positions, the total charge and given atomic
charges depend on something else (a lattice strain, the weights of a network that predicts charges, an electronic
temperature, …) and differentiate with respect to that; or differentiate with respect to the total charge itself. By
the chain rule only one scalar has to be considered.

* `C85_gradient`: value and gradient of weighted sums of energies of any atoms of any systems;
* `C85_chain`: gradients with respect to a scalar on which only the positions depend, in terms of forces;
* `C85_finite`: wherever the atoms are, at the same place or at a cutoff, the gradient is a number.
-/

set_option linter.unusedSimpArgs false

open scoped Classical Topology

namespace TadDftd4

open Tensor

/-- Options with the atomic charges at hand. -/
def CalcOpts.withQ (o : CalcOpts) (q : Option (ℝ → Tensor ℝ)) (y : ℝ) : CalcOpts :=
  { o with q := q.map fun f => f y }

section
variable (env : Env) (T : Tables) (R : RefCfg) (p : Param) (o : CalcOpts) (q : Option (ℝ → Tensor ℝ))
  (cn : Spec.CN) (eeq : Spec.EEQ) (numbers : Tensor ℕ) (n : ℕ) (positions charge : ℝ → Tensor ℝ)
  (gp gq : Bool) (b : Idx)

/-- System `b`; `gp` and `gq` tell whether positions and charges require gradients. Coordination numbers do if
positions do.
Models src/tad_dftd4/dispersion/base.py:389-414. -/
noncomputable def pathSys : GradSys n :=
  { GradSys.ofCurve fun y => system T cn eeq numbers (positions y) (charge y) (o.withQ q y) n b with
    posGrad := gp, cnGrad := gp, qGrad := fun _ => gq }

/-- The graph of the energy of atom `i`.
Models src/tad_dftd4/dispersion/base.py:416-431. -/
noncomputable def pathGraph (d : Disp) (i : Fin n) : Tape :=
  Tape.terms (dispCfg env T R p o) (pathSys T o q cn eeq numbers n positions charge gp gq b)
    (rc6At env T R.ga R.gc R.rq) (alphaAt env T R.ga R.gc R.rq)
    (system T cn eeq numbers (positions 0) (charge 0) (o.withQ q 0) n b).rvdw p (o.cutoff.getD {}) d.terms i

end

section
variable {env : Env} {T : Tables} {ext : Ext} {numbers : Tensor ℕ} {d : Disp}
  {positions charge : ℝ → Tensor ℝ} {p : Param} {o : CalcOpts} {q : Option (ℝ → Tensor ℝ)} {n : ℕ} {B : Shape}
  {b : Idx} {R : RefCfg} {cn : Spec.CN} {eeq : Spec.EEQ} {gp gq : Bool} {y : ℝ}

theorem pathSys_mol (y : ℝ) :
    Tape.molV (pathSys T o q cn eeq numbers n positions charge gp gq b)
      (system T cn eeq numbers (positions 0) (charge 0) (o.withQ q 0) n b).rvdw y =
    system T cn eeq numbers (positions y) (charge y) (o.withQ q y) n b := rfl

/-- What is needed of the dependence on the scalar at `y`: differentiability of positions, coordination numbers
and, if a term uses them, charges; nothing that does not require gradients may depend on it. -/
structure InputPath (T : Tables) (d : Disp) (o : CalcOpts) (q : Option (ℝ → Tensor ℝ)) (cn : Spec.CN) (eeq : Spec.EEQ)
    (numbers : Tensor ℕ) (n : ℕ) (positions charge : ℝ → Tensor ℝ) (gp gq : Bool) (b : Idx) (y : ℝ) : Prop where
  pos : ∀ i c, elements numbers n b i ≠ 0 →
    DifferentiableAt ℝ (fun z => coords (positions z) n b i c) y
  coord : ∀ i, DifferentiableAt ℝ (fun z => cn n (elements numbers n b) (coords (positions z) n b) i) y
  charges : d.UsesCharges → ∀ i, DifferentiableAt ℝ
    (fun z => (system T cn eeq numbers (positions z) (charge z) (o.withQ q z) n b).q i) y
  posConst : gp = false → ∀ z z', coords (positions z) n b = coords (positions z') n b
  qConst : gq = false → ∀ z z', (system T cn eeq numbers (positions z) (charge z) (o.withQ q z) n b).q =
    (system T cn eeq numbers (positions z') (charge z') (o.withQ q z') n b).q

theorem pathSys_termOk
    (h : ∀ z, d.Runs env T ext numbers (positions z) (charge z) p (o.withQ q z) n B R cn eeq)
    (hb : InB B b) (hfl : env.fl = id) (hT : T.Physical R.rq) (hgc : 0 < R.gc)
    (hpad : ∀ r < nref, T.refc 0 r = 0)
    (hp : InputPath T d o q cn eeq numbers n positions charge gp gq b y)
    (hs : T.ScaleBounded env R) {t : Term} (ht : t ∈ d.terms)
    (hg : t.Generic env.eps (R.spec T env.eps) p (o.cutoff.getD {})
      (system T cn eeq numbers (positions y) (charge y) (o.withQ q y) n b))
    (hr : t.GradOk env.eps p (system T cn eeq numbers (positions y) (charge y) (o.withQ q y) n b))
    (hq : ∀ i, elements numbers n b i = 0 →
      ((system T cn eeq numbers (positions y) (charge y) (o.withQ q y) n b).data t.chargeDep i).q + T.zeff 0 ≠
        env.eps) :
    Tape.TermOk (dispCfg env T R p o) (pathSys T o q cn eeq numbers n positions charge gp gq b)
      (system T cn eeq numbers (positions 0) (charge 0) (o.withQ q 0) n b).rvdw p (o.cutoff.getD {}) y t := by
  obtain ⟨X, hX⟩ : ∃ X, X = pathSys T o q cn eeq numbers n positions charge gp gq b := ⟨_, rfl⟩
  obtain ⟨V, hV⟩ : ∃ V, V = (system T cn eeq numbers (positions 0) (charge 0) (o.withQ q 0) n b).rvdw := ⟨_, rfl⟩
  have hM : Tape.molV X V y = system T cn eeq numbers (positions y) (charge y) (o.withQ q y) n b := by
    rw [hX, hV, pathSys_mol]
  rw [← hM] at hg hr hq
  have hlt : ∀ i, X.Z i < T.nZ := by
    intro i
    rw [hX]
    exact (h 0).args.Z_lt (cn := cn) (eeq := eeq) hb i
  have hdat : ∀ i, ((Tape.molV X V y).data t.chargeDep i).q = Tape.qV X t.chargeDep i y := by
    intro i
    rw [← Tape.dat_eq]
    rfl
  have hdV : ∀ i j, Tape.pairOk X i j → Tape.dV (dispCfg env T R p o) X i j y =
      dist ((Tape.molV X V y).pos i) ((Tape.molV X V y).pos j) := by
    intro i j hij
    rw [Tape.dV, if_pos hij]
    have ha := hg.apart i j hij.1 hij.2.1 hij.2.2
    show √(max (dist ((Tape.molV X V y).pos i) ((Tape.molV X V y).pos j) ^ 2) env.eps) = _
    rw [max_eq_left ha.le, Real.sqrt_sq dist_nonneg]
  rw [← hX, ← hV]
  have hpos : Tape.PosOk (dispCfg env T R p o) X y := by
    refine ⟨fun i c hi => ?_, hg.apart, fun hc i c => ?_⟩
    · rw [hX] at hi ⊢
      exact hp.pos i c hi
    · rw [hX] at hc ⊢
      refine ⟨coords (positions 0) n b i c, ?_⟩
      funext z
      show coords (positions z) n b i c = _
      rw [hp.posConst hc z 0]
  have hcoef : Tape.CoefOk (dispCfg env T R p o) X y t.chargeDep := by
    refine ⟨hfl, fun i => ?_, fun hc i => ?_, fun hch i => ?_, fun i hc => ?_, hpad, fun i => hs.ok (hlt i),
      fun i hi => ?_, fun i hi => ?_⟩
    · rw [hX]
      exact hp.coord i
    · rw [hX] at hc ⊢
      refine ⟨cn n (elements numbers n b) (coords (positions 0) n b) i, ?_⟩
      funext z
      show cn n (elements numbers n b) (coords (positions z) n b) i = _
      rw [hp.posConst hc z 0]
    · rw [hX]
      exact hp.charges ⟨t, ht, hch⟩ i
    · rw [hX] at hc ⊢
      refine ⟨(system T cn eeq numbers (positions 0) (charge 0) (o.withQ q 0) n b).q i, ?_⟩
      funext z
      exact congrFun (hp.qConst hc z 0) i
    · have := hg.charge i hi
      rw [hdat] at this
      exact this
    · rw [← hdat]
      refine hq i ?_
      rw [hX] at hi
      exact hi
  have hc6 : ∀ i j, c6At env T R ((Tape.molV X V y).data t.chargeDep i)
      ((Tape.molV X V y).data t.chargeDep j) = Spec.c6 (R.spec T env.eps)
        ((Tape.molV X V y).data t.chargeDep i) ((Tape.molV X V y).data t.chargeDep j) := by
    intro i j
    refine c6At_spec hfl hT hgc ?_ ?_
    · rw [data_eq]; exact hlt i
    · rw [data_eq]; exact hlt j
  have hU := (h y).par t ht
  refine ⟨hpos, hcoef, fun hc i j hij => ?_, fun hc i j hij => ?_, fun hc i j l hij => ?_, fun hc i j hij => ?_,
    fun hc hd a1 a2 h1 h2 i j hij => hr.op hc hd a1 a2 h1 h2 i j hij.1 hij.2.1 hij.2.2, fun hc => ?_, fun hc => ?_⟩
  · rw [hdV i j hij]
    exact hg.cut2 hc i j hij.1 hij.2.1 hij.2.2
  · rw [hdV i j hij]
    exact hg.cut3 hc i j hij.1 hij.2.1 hij.2.2
  · obtain ⟨hi, hj, hk, hij, hik, hjk⟩ := hij
    have := hg.c9 hc i j l hi hj hk hij hik hjk
    rw [← hc6, ← hc6, ← hc6] at this
    simp only [Tape.dat_eq (rvdw := V)]
    exact this
  · exact hg.damping hc i j hij.1 hij.2.1 hij.2.2
  · have hc' : t.cls ≠ .twoBody := by rcases hc with hc | hc <;> rw [hc] <;> simp
    obtain ⟨a1, h1⟩ := PVal.exists_is (hU.a1 hc) Defaults.a1
    obtain ⟨a2, h2⟩ := PVal.exists_is (hU.a2 hc) Defaults.a2
    obtain ⟨alp, h3⟩ := PVal.exists_is (hU.alp hc') Defaults.alp
    intro i j hij
    have := hr.bj hc a1 a2 alp h1 h2 h3 i j hij.1 hij.2.1 hij.2.2
    simp only [Tape.radBJV, show p.read3 .a1 = a1 from Tape.PVal.Is.num h1, show p.read3 .a2 = a2 from Tape.PVal.Is.num h2,
      show p.read3 .alp = alp from Tape.PVal.Is.num h3]
    exact this.imp_right fun h => ⟨fun _ => h.1, h.2⟩
  · have hc' : t.cls ≠ .twoBody := by rw [hc]; simp
    obtain ⟨rs9, h1⟩ := PVal.exists_is (hU.rs9 hc) Defaults.rs9
    obtain ⟨alp, h3⟩ := PVal.exists_is (hU.alp hc') Defaults.alp
    intro i j hij
    have := hr.vdw hc rs9 alp h1 h3 i j hij.1 hij.2.1 hij.2.2
    simp only [Tape.radVdWV, show p.read3 .rs9 = rs9 from Tape.PVal.Is.num h1, show p.read3 .alp = alp from Tape.PVal.Is.num h3]
    exact this.imp_right fun h => ⟨fun _ => h.1, h.2⟩

/-- The graph wherever the atoms are. -/
theorem pathSys_finTerm {t : Term} (hU : t.Usable env R p (o.cutoff.getD {}))
    (hg : t.Regular env T R p (system T cn eeq numbers (positions y) (charge y) (o.withQ q y) n b))
    (hr : t.GradOk env.eps p (system T cn eeq numbers (positions y) (charge y) (o.withQ q y) n b)) :
    Tape.FinTerm (dispCfg env T R p o) (pathSys T o q cn eeq numbers n positions charge gp gq b)
      (system T cn eeq numbers (positions 0) (charge 0) (o.withQ q 0) n b).rvdw p y t := by
  obtain ⟨X, hX⟩ : ∃ X, X = pathSys T o q cn eeq numbers n positions charge gp gq b := ⟨_, rfl⟩
  obtain ⟨V, hV⟩ : ∃ V, V = (system T cn eeq numbers (positions 0) (charge 0) (o.withQ q 0) n b).rvdw := ⟨_, rfl⟩
  have hM : Tape.molV X V y = system T cn eeq numbers (positions y) (charge y) (o.withQ q y) n b := by
    rw [hX, hV, pathSys_mol]
  rw [← hM] at hg hr
  rw [← hX, ← hV]
  have hdat : ∀ i, ((Tape.molV X V y).data t.chargeDep i).q = Tape.qV X t.chargeDep i y := by
    intro i
    rw [← Tape.dat_eq]
    rfl
  have hpow : ∀ (w : ℝ) (Z : ℕ) (c : ℝ), (R.kind = .d4 → 1 ≤ w) → Tape.PowOk (dispCfg env T R p o) w Z c :=
    fun w Z c hw hk => Or.inl (hw hk)
  have hnorm : ∀ i Z', Z' = 0 ∨ (∃ j, Z' = X.Z j) →
      Tape.NormOk (dispCfg env T R p o) (R.wf (X.Z i) Z') (X.Z i) (X.cnFn i y) := by
    intro i Z' hZ hi
    obtain ⟨s, hs, hne⟩ := hg.weights i Z' hZ hi
    intro hz
    unfold Tape.normV at hz
    rw [Finset.sum_eq_zero_iff_of_nonneg (fun _ _ => Tape.expwSel_nonneg)] at hz
    exact hne (hz s (Finset.mem_range.2 hs))
  have hch : ∀ i, Tape.ChargeOk (dispCfg env T R p o) (X.Z i) (Tape.qV X t.chargeDep i y) := by
    intro i
    rw [← hdat]
    exact ⟨hg.charge i, hg.scale i⟩
  refine ⟨fun _ i j => ⟨hpow _ _ _ fun hk => hg.wf hk _ _, hnorm i _ (Or.inr ⟨j, rfl⟩), hch i⟩,
    fun _ i => hpow _ _ _ fun hk => hg.wf hk _ _, fun _ i => hnorm i 0 (Or.inl rfl), fun _ => hch,
    fun hc hd i j hij k hk => hg.powers hc hd _ ?_,
    fun hc i j hij => hg.damping hc i j hij.1 hij.2.1 hij.2.2,
    fun hc hd a1 a2 h1 h2 i j hij => hr.op hc hd a1 a2 h1 h2 i j hij.1 hij.2.1 hij.2.2, fun hc => ?_, fun hc => ?_⟩
  · rw [Tape.dV, if_pos hij]
    have hs : env.eps ≤ (Tape.molV X V y).r env.eps i j ^ 2 := by
      unfold Spec.Mol.r Spec.rsqrt
      rw [Real.sq_sqrt (le_max_of_le_right env.eps_pos.le)]
      exact le_max_right _ _
    have he := env.eps_pos.le
    rcases hk with rfl | rfl
    · left
      calc env.eps ^ 3 ≤ ((Tape.molV X V y).r env.eps i j ^ 2) ^ 3 := pow_le_pow_left₀ he hs 3
        _ = _ := by rw [← pow_mul]; rfl
    · right
      calc env.eps ^ 4 ≤ ((Tape.molV X V y).r env.eps i j ^ 2) ^ 4 := pow_le_pow_left₀ he hs 4
        _ = _ := by rw [← pow_mul]; rfl
  · have hc' : t.cls ≠ .twoBody := by rcases hc with hc | hc <;> rw [hc] <;> simp
    obtain ⟨a1, h1⟩ := PVal.exists_is (hU.a1 hc) Defaults.a1
    obtain ⟨a2, h2⟩ := PVal.exists_is (hU.a2 hc) Defaults.a2
    obtain ⟨alp, h3⟩ := PVal.exists_is (hU.alp hc') Defaults.alp
    intro i j hij
    have := hr.bj hc a1 a2 alp h1 h2 h3 i j hij.1 hij.2.1 hij.2.2
    simp only [Tape.radBJV, show p.read3 .a1 = a1 from Tape.PVal.Is.num h1,
      show p.read3 .a2 = a2 from Tape.PVal.Is.num h2, show p.read3 .alp = alp from Tape.PVal.Is.num h3]
    exact this.imp_right fun h => ⟨fun _ => h.1, h.2⟩
  · have hc' : t.cls ≠ .twoBody := by rw [hc]; simp
    obtain ⟨rs9, h1⟩ := PVal.exists_is (hU.rs9 hc) Defaults.rs9
    obtain ⟨alp, h3⟩ := PVal.exists_is (hU.alp hc') Defaults.alp
    intro i j hij
    have := hr.vdw hc rs9 alp h1 h3 i j hij.1 hij.2.1 hij.2.2
    simp only [Tape.radVdWV, show p.read3 .rs9 = rs9 from Tape.PVal.Is.num h1,
      show p.read3 .alp = alp from Tape.PVal.Is.num h3]
    exact this.imp_right fun h => ⟨fun _ => h.1, h.2⟩

/-- **C85**: let the input depend on a scalar and `L` be a weighted sum of energies of any atoms of any systems,
as a function of the scalar. Without underflow, where the dependence is differentiable and the geometries are generic
for every term, back-propagation gives the derivative of `L`. -/
theorem C85_gradient
    (h : ∀ z, d.Runs env T ext numbers (positions z) (charge z) p (o.withQ q z) n B R cn eeq)
    (hfl : env.fl = id) (hT : T.Physical R.rq) (hgc : 0 < R.gc) (hpad : ∀ r < nref, T.refc 0 r = 0)
    (hs : T.ScaleBounded env R) {l : ℕ} (atom : Fin l → Fin n) (sys : Fin l → Idx) (hb : ∀ k, InB B (sys k))
    (hp : ∀ k, InputPath T d o q cn eeq numbers n positions charge gp gq (sys k) y)
    (hg : ∀ k, ∀ t ∈ d.terms, t.Generic env.eps (R.spec T env.eps) p (o.cutoff.getD {})
      (system T cn eeq numbers (positions y) (charge y) (o.withQ q y) n (sys k)))
    (hr : ∀ k, ∀ t ∈ d.terms, t.GradOk env.eps p
      (system T cn eeq numbers (positions y) (charge y) (o.withQ q y) n (sys k)))
    (hq : ∀ k, ∀ t ∈ d.terms, ∀ i, elements numbers n (sys k) i = 0 →
      ((system T cn eeq numbers (positions y) (charge y) (o.withQ q y) n (sys k)).data t.chargeDep i).q +
        T.zeff 0 ≠ env.eps)
    (w : Fin l → ℝ) {L : ℝ → ℝ}
    (hL : ∀ z e, d.calculate env T ext numbers (positions z) (charge z) p (o.withQ q z) = .ok e →
      L z = ∑ k, w k * e.get ((atom k).1 :: sys k)) :
    ∃ g, HasDerivAt L g y ∧
      (Tape.sum l fun k => .mul (.const (w k))
        (pathGraph env T R p o q cn eeq numbers n positions charge gp gq (sys k) d (atom k))).eval y =
          .fin (L y) ∧
      (Tape.sum l fun k => .mul (.const (w k))
        (pathGraph env T R p o q cn eeq numbers n positions charge gp gq (sys k) d (atom k))).back y (.fin 1) =
          .fin g := by
  obtain ⟨S, hS⟩ := (h y).settings
  have hfun : L = fun z => ∑ k, w k * (d.terms.map fun t => t.energy (S t)
      (system T cn eeq numbers (positions z) (charge z) (o.withQ q z) n (sys k)) (atom k)).sum := by
    funext z
    obtain ⟨e, h1, -, h3⟩ := (h z).eval (S := S) hS
    rw [hL z e h1]
    exact Finset.sum_congr rfl fun k _ => by rw [h3 _ (hb k)]
  have hf := Tape.Fine.sum (x := y) fun k : Fin l => (Tape.Fine.const (c := w k)).mul
    (Tape.terms_fine (G := dispCfg env T R p o)
      (X := pathSys T o q cn eeq numbers n positions charge gp gq (sys k))
      (fun t ht => pathSys_termOk h (hb k) hfl hT hgc hpad (hp k) hs ht (hg k t ht) (hr k t ht) (hq k t ht)) rfl hS
      ((h y).par) (atom k))
  rw [hfun]
  refine ⟨_, hf.differentiableAt.hasDerivAt, hf.eval, (hf.back 1).trans ?_⟩
  rw [one_mul]

/-- **C85**, only the positions of a system depend on the scalar: the gradient of its energy is minus the sum of the
forces times the velocities. -/
theorem C85_chain {charge : Tensor ℝ} {positions : (Fin n → Spec.E3) → Tensor ℝ} {E : (Fin n → Spec.E3) → ℝ}
    (h : d.Total env T ext numbers positions charge p o B R cn eeq b E)
    (hfl : env.fl = id) (hT : T.Physical R.rq) (hgc : 0 < R.gc) (hpad : ∀ r < nref, T.refc 0 r = 0)
    (hs : T.ScaleBounded env R) {x : ℝ → Fin n → Spec.E3} {v : Fin n → Spec.E3} (hx : HasDerivAt x v y)
    (hcn : ∀ i, ContDiffAt ℝ 1 (fun z => cn n (elements numbers n b) z i) (x y))
    (heeq : o.q = none → ∀ i, ContDiffAt ℝ 1 (fun z =>
      eeq n (o.cutoff.getD {}).cnEeq (elements numbers n b) z (charge.get b) i) (x y))
    (hg : ∀ t ∈ d.terms, t.Generic env.eps (R.spec T env.eps) p (o.cutoff.getD {})
      (system T cn eeq numbers (positions (x y)) charge o n b))
    (hr : ∀ t ∈ d.terms, t.GradOk env.eps p (system T cn eeq numbers (positions (x y)) charge o n b))
    (hq : ∀ t ∈ d.terms, ∀ i, elements numbers n b i = 0 →
      ((system T cn eeq numbers (positions (x y)) charge o n b).data t.chargeDep i).q + T.zeff 0 ≠ env.eps) :
    (Tape.sum n fun i => pathGraph env T R p o (o.q.map fun q _ => q) cn eeq numbers n
        (fun z => positions (x z)) (fun _ => charge) true o.q.isNone b d i).back y (.fin 1) =
      .fin (-∑ a, ∑ k, Spec.force E (x y) a k * v a k) := by
  have ho : ∀ z, o.withQ (o.q.map fun q _ => q) z = o := by
    intro z
    obtain ⟨c, q, r1, r2, r3⟩ := o
    cases q <;> rfl
  obtain ⟨S, hS⟩ := (h.runs (x y)).settings
  have hxd := hx.differentiableAt
  have hp : InputPath T d o (o.q.map fun q _ => q) cn eeq numbers n (fun z => positions (x z)) (fun _ => charge) true
      o.q.isNone b y := by
    refine ⟨fun i c _ => ?_, fun i => ?_, fun _ i => ?_, by simp, fun hn z z' => ?_⟩
    · simp only [h.at_pos]
      have h1 : DifferentiableAt ℝ (fun z => x z i) y := differentiableAt_pi.1 hxd i
      exact (differentiableAt_euclidean (𝕜 := ℝ)).1 h1 c
    · simp only [h.at_pos]
      exact DifferentiableAt.comp y ((hcn i).differentiableAt (by simp)) hxd
    · simp only [ho]
      cases hq' : o.q with
      | some q =>
        simp only [system, hq']
        exact differentiableAt_const _
      | none =>
        simp only [system, hq', h.at_pos]
        exact DifferentiableAt.comp y ((heeq hq' i).differentiableAt (by simp)) hxd
    · simp only [ho]
      cases hq' : o.q with
      | some q =>
        funext i
        simp only [system, hq']
      | none => simp [hq'] at hn
  have hf := Tape.Fine.sum (x := y) fun i : Fin n => Tape.terms_fine (G := dispCfg env T R p o)
      (X := pathSys T o (o.q.map fun q _ => q) cn eeq numbers n (fun z => positions (x z)) (fun _ => charge) true
        o.q.isNone b)
      (fun t ht => pathSys_termOk (B := B) (ext := ext) (fun z => by rw [ho]; exact h.runs (x z)) h.batch hfl hT hgc hpad hp hs
        ht (by rw [ho]; exact hg t ht) (by rw [ho]; exact hr t ht) (by rw [ho]; exact hq t ht)) rfl hS
      ((h.runs (x y)).par) i
  have hE : DifferentiableAt ℝ E (x y) :=
    (C70_smooth h hfl hT hgc (fun i _ => hcn i) (fun hq i _ => heeq hq i) hg).differentiableAt
      (by simp)
  refine (hf.back 1).trans ?_
  rw [one_mul]
  congr 1
  have hfun : (fun z : ℝ => ∑ i, (d.terms.map fun t => t.energy (S t)
      (system T cn eeq numbers (positions (x z)) charge (o.withQ (o.q.map fun q _ => q) z) n b) i).sum) =
      fun z => E (x z) := by
    funext z
    rw [ho]
    exact (h.eval hS _).symm
  refine Eq.trans (congrArg (fun f => deriv f y) hfun) ?_
  have hd : HasDerivAt (fun z : ℝ => E (x z)) (fderiv ℝ E (x y) v) y :=
    hE.hasFDerivAt.comp_hasDerivAt y hx
  rw [hd.deriv]
  have hv : v = ∑ a, ∑ k, v a k • unitDisp a k := by
    funext a
    ext k
    simp [unitDisp, Finset.sum_apply, Pi.single_apply, EuclideanSpace.single_apply]
  conv_lhs => rw [hv]
  simp [map_sum, Spec.force, unitDisp, mul_comm]

/-- Wherever the atoms are, at the same place or at a cutoff, whether or not the input depends on the scalar in a
differentiable way, the graph has the values `calculate` returns and the gradient is a number. (Gradients of positions,
coordination numbers and charges are taken to be numbers.) -/
theorem C85_finite
    (h : ∀ z, d.Runs env T ext numbers (positions z) (charge z) p (o.withQ q z) n B R cn eeq)
    {l : ℕ} (atom : Fin l → Fin n) (sys : Fin l → Idx) (hb : ∀ k, InB B (sys k))
    (hg : ∀ k, ∀ t ∈ d.terms, t.Regular env T R p
      (system T cn eeq numbers (positions y) (charge y) (o.withQ q y) n (sys k)))
    (hr : ∀ k, ∀ t ∈ d.terms, t.GradOk env.eps p
      (system T cn eeq numbers (positions y) (charge y) (o.withQ q y) n (sys k)))
    (w : Fin l → ℝ) :
    ∃ e, d.calculate env T ext numbers (positions y) (charge y) p (o.withQ q y) = .ok e ∧
      (Tape.sum l fun k => .mul (.const (w k))
        (pathGraph env T R p o q cn eeq numbers n positions charge gp gq (sys k) d (atom k))).eval y =
          .fin (∑ k, w k * e.get ((atom k).1 :: sys k)) ∧
      ∃ g, (Tape.sum l fun k => .mul (.const (w k))
        (pathGraph env T R p o q cn eeq numbers n positions charge gp gq (sys k) d (atom k))).back y (.fin 1) =
          .fin g := by
  obtain ⟨S, hS⟩ := (h y).settings
  obtain ⟨e, h1, -, h3⟩ := (h y).eval (S := S) hS
  have ht := Tape.Tame.sum fun k : Fin l => (Tape.Tame.const (c := w k)).mul
    (Tape.terms_tame (G := dispCfg env T R p o) (cutoff := o.cutoff.getD {})
      (X := pathSys T o q cn eeq numbers n positions charge gp gq (sys k)) (x := y)
      (fun t ht => pathSys_finTerm ((h y).par t ht) (hg k t ht) (hr k t ht)) rfl hS ((h y).par) (atom k))
  refine ⟨e, h1, ht.1.trans ?_, ?_⟩
  · congr 1
    refine Finset.sum_congr rfl fun k _ => ?_
    rw [h3 _ (hb k)]
    rfl
  · obtain ⟨v, hv⟩ := ht.2
    exact ⟨_, hv 1⟩

end

/-! ## Concrete cases: hydrogen fluoride next to water -/

namespace Demo

/-- The total charge of hydrogen fluoride is variable. -/
noncomputable def chargeAt (z : ℝ) : Tensor ℝ :=
  { charge with get := fun idx => if idx = [1] then z else charge.get idx }

theorem chargeAt_self : chargeAt (charge.get [1]) = charge := by
  have : (fun idx => if idx = [1] then charge.get [1] else charge.get idx) = charge.get := by
    funext idx
    split_ifs with h
    · rw [h]
    · rfl
  unfold chargeAt
  rw [this]

theorem chargeAt_runs (cls : DispClass) (z : ℝ) : (dispOf cls).Runs env T ext numbers (positionsAt xHF) (chargeAt z)
    paramAll (CalcOpts.withQ {} none z) 3 [2] .d4 cn eeq :=
  dispOf_runs cls { validArgs with pos := ⟨rfl, rfl⟩, charge := ⟨rfl, rfl⟩ }

theorem chargeAt_path (d : Disp) (y : ℝ) : InputPath T d {} none cn eeq numbers 3 (fun _ => positionsAt xHF) chargeAt
    false true [1] y := by
  refine ⟨fun _ _ _ => differentiableAt_const _, fun _ => differentiableAt_const _, fun _ i => ?_, fun _ _ _ => rfl,
    by simp⟩
  have : (fun z => (system T cn eeq numbers (positionsAt xHF) (chargeAt z) (CalcOpts.withQ {} none z) 3 [1]).q i) =
      fun z => if elements numbers 3 [1] i ≠ 0 then
        z / ∑ j, (if elements numbers 3 [1] j ≠ 0 then 1 else 0) else 0 := by
    funext z
    simp [system, CalcOpts.withQ, eeq, chargeAt]
  rw [this]
  split_ifs
  · exact differentiableAt_id.div_const _
  · exact differentiableAt_const _

/-- The derivative with respect to the total charge, all classes. -/
example (cls : DispClass) {L : ℝ → ℝ}
    (hL : ∀ z e, (dispOf cls).calculate env T ext numbers (positionsAt xHF) (chargeAt z) paramAll {} = .ok e →
      L z = ∑ i : Fin 3, 1 * e.get (i.1 :: [1])) :
    ∃ g, HasDerivAt L g (charge.get [1]) ∧
      (Tape.sum 3 fun i => .mul (.const 1) (pathGraph env T .d4 paramAll {} none cn eeq numbers 3
        (fun _ => positionsAt xHF) chargeAt false true [1] (dispOf cls) i)).eval (charge.get [1]) =
          .fin (L (charge.get [1])) ∧
      (Tape.sum 3 fun i => .mul (.const 1) (pathGraph env T .d4 paramAll {} none cn eeq numbers 3
        (fun _ => positionsAt xHF) chargeAt false true [1] (dispOf cls) i)).back (charge.get [1]) (.fin 1) =
          .fin g := by
  refine C85_gradient (atom := fun i => i) (sys := fun _ => [1]) (w := fun _ => 1) (chargeAt_runs cls) rfl physical
    (by norm_num [RefCfg.d4]) pad_refc scaleBounded (fun _ => by simp [InB]) (fun _ => chargeAt_path _ _) ?_ ?_ ?_ hL
  all_goals rw [chargeAt_self]
  · exact fun _ t ht => genericOf cls ht
  · exact fun _ t ht => gradOkOf cls ht
  · exact fun _ t ht i hi => padChargeOf t.chargeDep hi

/-- Uniform stretching of hydrogen fluoride: the gradient is the virial. -/
example (cls : DispClass) :
    (Tape.sum 3 fun i => pathGraph env T .d4 paramAll {} none cn eeq numbers 3
        (fun s => positionsAt ((1 + s) • xHF)) (fun _ => charge) true true [1] (dispOf cls) i).back 0 (.fin 1) =
      .fin (-∑ a, ∑ k, Spec.force (totalOf cls) xHF a k * xHF a k) := by
  have h0 : ((1 : ℝ) + 0) • xHF = xHF := by simp
  have hx : HasDerivAt (fun s : ℝ => (1 + s) • xHF) xHF 0 := by
    have := ((hasDerivAt_id (0 : ℝ)).const_add 1).smul_const xHF
    simpa using this
  have := C85_chain (o := {}) (totalOf_total cls) rfl physical (by norm_num [RefCfg.d4]) pad_refc scaleBounded hx
    (by rw [h0]; exact cn_smooth_HF) (fun _ => by rw [h0]; exact eeq_smooth_HF _ _)
    (fun t ht => by rw [h0]; exact genericOf cls ht) (fun t ht => by rw [h0]; exact gradOkOf cls ht)
    (fun t _ i hi => by rw [h0]; exact padChargeOf t.chargeDep hi)
  rw [h0] at this
  exact this

/-- All atoms at the same place. -/
example (cls : DispClass) : ∃ g,
    (Tape.sum 3 fun i => .mul (.const 1) (pathGraph env T .d4 paramAll {} none cn eeq numbers 3
      (fun s => positionsAt (s • xHF)) (fun _ => charge) true true [1] (dispOf cls) i)).back 0 (.fin 1) = .fin g := by
  have h0 : ((0 : ℝ)) • xHF = fun _ => 0 := by funext i; simp
  obtain ⟨e, -, -, hg⟩ := C85_finite (env := env) (ext := ext) (B := [2]) (d := dispOf cls) (q := none) (o := {}) (y := 0) (R := .d4)
    (gp := true) (gq := true) (positions := fun s => positionsAt (s • xHF)) (charge := fun _ => charge)
    (fun z => dispOf_runs cls { validArgs with pos := ⟨rfl, rfl⟩ }) (fun i : Fin 3 => i) (fun _ => [1])
    (fun _ => by simp [InB]) (cn := cn) (eeq := eeq) (fun _ t ht => by
      show t.Regular env T .d4 paramAll (system T cn eeq numbers (positionsAt ((0 : ℝ) • xHF)) charge {} 3 [1])
      rw [h0]
      refine regularAt _ fun hc => ?_
      have : t ∈ cls.terms := ht
      cases cls <;> simp only [DispClass.terms, List.mem_cons, List.not_mem_nil, or_false] at this <;>
        rcases this with rfl | rfl <;> simp [Damping.SmoothFor, paramAll] at hc ⊢
      norm_num)
    (fun _ t ht => gradOkAt _ cls ht) fun _ => 1
  exact hg

end Demo

end TadDftd4
