import Verif.Model.AutogradProps
import Verif.Props.C72
import Verif.Props.C74

/-!
# C75: derivatives of properties from automatic differentiation

`torch.autograd.grad` of the results of `get_properties` with any `grad_outputs` (`Model/AutogradProps.lean`).
What is to be computed is the derivative of the weighted sum of the results. The inputs may depend on a
scalar in any way: it may be a component of a position, a parameter of the geometry, or the total charge.
-/

set_option linter.unusedSimpArgs false

open scoped Classical Topology

namespace TadDftd4

open Tensor

/-- The weighted sum of the results `c`, `q`, `c6`, `α` for system `b`. -/
noncomputable def Spec.weighted {n : ℕ} (u v : Fin n → ℝ) (t : Fin n → Fin n → ℝ) (s : Fin n → ℝ)
    (c q c6 α : Tensor ℝ) (b : Idx) : ℝ :=
  (∑ i, u i * c.get (i.1 :: b)) + (∑ i, v i * q.get (i.1 :: b)) +
    (∑ i, ∑ j, t i j * c6.get (j.1 :: i.1 :: b)) + ∑ i, s i * α.get (i.1 :: b)

section
variable (env : Env) (T : Tables) (cn : Spec.CN) (eeq : Spec.EEQ) (numbers : Tensor ℕ)
  (cutoff : Option Cutoff) (n : ℕ) (b : Idx) (positions charge : ℝ → Tensor ℝ)

/-- System `b` for inputs that depend on a scalar.
Models src/tad_dftd4/disp.py:149-197. -/
noncomputable def propSys : GradSys n :=
  GradSys.ofCurve fun y => system T cn eeq numbers (positions y) (charge y) { cutoff := cutoff } n b

/-- Settings of the D4 model; damping parameters are not used.
Models src/tad_dftd4/disp.py:149-197. -/
noncomputable def propCfg : GradCfg := gradCfg env T .d4 ⟨0, 0, 0, 0, 0, 0, 0⟩ {} (cutoff.getD {})

end

section
variable {env : Env} {T : Tables} {ext : Ext} {numbers : Tensor ℕ} {cutoff : Option Cutoff} {n : ℕ}
  {B : Shape} {b : Idx} {cn : Spec.CN} {eeq : Spec.EEQ} {positions charge : ℝ → Tensor ℝ} {y : ℝ}

/-- All results of `get_properties`, in terms of the graph. -/
theorem propSys_values (hv : ∀ y, ValidArgs T numbers (positions y) (charge y) {} n B)
    (hcn : CNFunc.PerSystem ext.cnD4 none T.nZ cn) (heeq : ext.EEQPerSystem T.nZ eeq) (hb : InB B b)
    (u v : Fin n → ℝ) (t : Fin n → Fin n → ℝ) (s : Fin n → ℝ) (y : ℝ) {X : GradSys n}
    (hX : X = propSys T cn eeq numbers cutoff n b positions charge) :
    ∃ c q c6 α, getProperties env T ext numbers (positions y) (some (charge y)) cutoff = .ok (c, q, c6, α) ∧
      Spec.weighted u v t s c q c6 α b = (∑ i, u i * X.cnFn i y) + (∑ i, v i * X.qFn i y) +
        (∑ i, ∑ j, t i j * c6At env T .d4 (Tape.dat X true i y) (Tape.dat X true j y)) +
        ∑ i, s i * polAt env T .d4 (Tape.dat X true i y) 0 := by
  obtain ⟨c, q, c6, α, h, g⟩ := properties_system (env := env) (cutoff := cutoff) (hv y) hcn heeq
  refine ⟨c, q, c6, α, h, ?_⟩
  obtain ⟨g1, g2⟩ := g b hb _ rfl
  subst hX
  unfold Spec.weighted
  simp only [fun i => (g1 i).1, fun i => (g1 i).2.1, fun i => (g1 i).2.2, g2]
  rfl

/-- **C75**: without underflow, back-propagation through `get_properties` with any factors `u`, `v`, `t`, `s`
(`grad_outputs`) gives the derivative of the weighted sum of its results with respect to a scalar the
positions or the total charge depend on. Positions need not be apart from each other. -/
theorem C75_gradient (hv : ∀ y, ValidArgs T numbers (positions y) (charge y) {} n B)
    (hcn : CNFunc.PerSystem ext.cnD4 none T.nZ cn) (heeq : ext.EEQPerSystem T.nZ eeq) (hb : InB B b)
    (hfl : env.fl = id) (hs : T.ScaleBounded env .d4) (hpad : ∀ r < nref, T.refc 0 r = 0)
    (hc : ∀ i, DifferentiableAt ℝ (fun y =>
      cn n (elements numbers n b) (coords (positions y) n b) i) y)
    (hq : ∀ i, DifferentiableAt ℝ (fun y => eeq n (cutoff.getD {}).cnEeq (elements numbers n b)
      (coords (positions y) n b) ((charge y).get b) i) y)
    (hreal : ∀ i, elements numbers n b i ≠ 0 → env.eps < eeq n (cutoff.getD {}).cnEeq
      (elements numbers n b) (coords (positions y) n b) ((charge y).get b) i + T.zeff (elements numbers n b i))
    (hzero : ∀ i, elements numbers n b i = 0 → eeq n (cutoff.getD {}).cnEeq (elements numbers n b)
      (coords (positions y) n b) ((charge y).get b) i + T.zeff 0 ≠ env.eps)
    (u v : Fin n → ℝ) (t : Fin n → Fin n → ℝ) (s : Fin n → ℝ) {L : ℝ → ℝ}
    (hL : ∀ y c q c6 α, getProperties env T ext numbers (positions y) (some (charge y)) cutoff =
      .ok (c, q, c6, α) → L y = Spec.weighted u v t s c q c6 α b) :
    ∃ g, HasDerivAt L g y ∧
      (Tape.properties (propCfg env T cutoff) (propSys T cn eeq numbers cutoff n b positions charge)
        (rc6At env T 3 2 "eeq") (alphaAt env T 3 2 "eeq") u v t s).eval y = .fin (L y) ∧
      (Tape.properties (propCfg env T cutoff) (propSys T cn eeq numbers cutoff n b positions charge)
        (rc6At env T 3 2 "eeq") (alphaAt env T 3 2 "eeq") u v t s).back y (.fin 1) = .fin g := by
  obtain ⟨X, hX⟩ : ∃ X, X = propSys T cn eeq numbers cutoff n b positions charge := ⟨_, rfl⟩
  rw [← hX]
  have hcX : ∀ i, DifferentiableAt ℝ (X.cnFn i) y := by rw [hX]; exact hc
  have hqX : ∀ i, DifferentiableAt ℝ (X.qFn i) y := by rw [hX]; exact hq
  have hlt : ∀ i, X.Z i < T.nZ := by
    intro i
    rw [hX]
    exact (hv 0).Z_lt (cn := cn) (eeq := eeq) hb i
  have hok : Tape.CoefOk (propCfg env T cutoff) X y true := by
    refine ⟨hfl, hcX, fun h => ?_, fun _ => hqX, fun i h => ?_, hpad, fun i => hs.ok (hlt i), fun i hi => ?_,
      fun i hi => ?_⟩
    · rw [hX] at h; simp [propSys, GradSys.ofCurve] at h
    · rw [hX] at h; simp [propSys, GradSys.ofCurve] at h
    · rw [hX] at hi ⊢; exact hreal i hi
    · rw [hX] at hi ⊢; exact hzero i hi
  have hcF : ∀ i, Tape.Fine (X.cn i) (X.cnFn i) y := fun i =>
    Tape.Fine.input (hcX i) fun h => hok.cnConst h i
  have hqF : ∀ i, Tape.Fine (X.q i) (X.qFn i) y := fun i => Tape.Fine.input (hqX i) (hok.qConst i)
  have hfine := (((Tape.Fine.sum fun i => (Tape.Fine.const (c := u i)).mul (hcF i)).add
    (Tape.Fine.sum fun i => (Tape.Fine.const (c := v i)).mul (hqF i))).add
    (Tape.Fine.sum fun i => Tape.Fine.sum fun j => (Tape.Fine.const (c := t i j)).mul (hok.C i j))).add
    (Tape.Fine.sum fun i => (Tape.Fine.const (c := s i)).mul (hok.pol i 0))
  have hval : ∀ y, L y = (∑ i, u i * X.cnFn i y) + (∑ i, v i * X.qFn i y) +
      (∑ i, ∑ j, t i j * c6At env T .d4 (Tape.dat X true i y) (Tape.dat X true j y)) +
      ∑ i, s i * polAt env T .d4 (Tape.dat X true i y) 0 := by
    intro y
    obtain ⟨c, q, c6, α, h, hw⟩ := propSys_values (env := env) hv hcn heeq hb u v t s y hX
    rw [hL y c q c6 α h, hw]
  obtain ⟨h1, g, h2, h3⟩ := hfine
  refine ⟨g, ?_, ?_, ?_⟩
  · have : L = _ := funext hval
    rw [this]
    exact h2
  · rw [hval]
    exact h1.self_of_nhds
  · have := h3 1
    rw [one_mul] at this
    exact this

/-- Wherever the atoms are, and with underflow and rounding of the Gaussians: if not all Gaussians of an atom
have underflown, and charges are where the scaling is regular, the gradient is a number. -/
theorem C75_finite (hv : ∀ y, ValidArgs T numbers (positions y) (charge y) {} n B)
    (hcn : CNFunc.PerSystem ext.cnD4 none T.nZ cn) (heeq : ext.EEQPerSystem T.nZ eeq) (hb : InB B b)
    (hw : ∀ i, (∃ r < nref, 0 < T.refc (elements numbers n b i) r) → ∃ r < nref,
      expwSel env T .d4 6 (elements numbers n b i)
        (cn n (elements numbers n b) (coords (positions y) n b) i) r ≠ 0)
    (hq : ∀ i, eeq n (cutoff.getD {}).cnEeq (elements numbers n b) (coords (positions y) n b)
      ((charge y).get b) i + T.zeff (elements numbers n b i) ≠ env.eps)
    (hexp : ∀ i, ∀ r < nref, Real.exp (T.gam (elements numbers n b i) * 2 *
      (1 - (refqAt T "eeq" (elements numbers n b i) r + T.zeff (elements numbers n b i)) /
        (eeq n (cutoff.getD {}).cnEeq (elements numbers n b) (coords (positions y) n b)
          ((charge y).get b) i + T.zeff (elements numbers n b i) - env.eps))) ≤ env.fmax)
    (u v : Fin n → ℝ) (t : Fin n → Fin n → ℝ) (s : Fin n → ℝ) :
    (∃ c q c6 α, getProperties env T ext numbers (positions y) (some (charge y)) cutoff =
        .ok (c, q, c6, α) ∧
      (Tape.properties (propCfg env T cutoff) (propSys T cn eeq numbers cutoff n b positions charge)
        (rc6At env T 3 2 "eeq") (alphaAt env T 3 2 "eeq") u v t s).eval y =
        .fin (Spec.weighted u v t s c q c6 α b)) ∧
    ∃ g, (Tape.properties (propCfg env T cutoff) (propSys T cn eeq numbers cutoff n b positions charge)
      (rc6At env T 3 2 "eeq") (alphaAt env T 3 2 "eeq") u v t s).back y (.fin 1) = .fin g := by
  obtain ⟨X, hX⟩ : ∃ X, X = propSys T cn eeq numbers cutoff n b positions charge := ⟨_, rfl⟩
  obtain ⟨c, q, c6, α, h, hval⟩ := propSys_values (env := env) hv hcn heeq hb u v t s y hX
  rw [← hX]
  have hpow : ∀ i Zp, Tape.PowOk (propCfg env T cutoff) (RefCfg.d4.wf (X.Z i) Zp) (X.Z i) (X.cnFn i y) :=
    fun i Zp _ => Or.inl (by norm_num [RefCfg.d4])
  have hnorm : ∀ i Zp, Tape.NormOk (propCfg env T cutoff) (RefCfg.d4.wf (X.Z i) Zp) (X.Z i) (X.cnFn i y) := by
    intro i Zp hi
    rw [hX] at hi ⊢
    obtain ⟨r, hr, hne⟩ := hw i hi
    intro hz
    unfold Tape.normV at hz
    rw [Finset.sum_eq_zero_iff_of_nonneg (fun _ _ => Tape.expwSel_nonneg)] at hz
    exact hne (hz r (Finset.mem_range.2 hr))
  have hch : ∀ i, Tape.ChargeOk (propCfg env T cutoff) (X.Z i) (Tape.qV X true i y) := by
    intro i
    rw [hX]
    exact ⟨hq i, hexp i⟩
  have hC : ∀ i j, Tape.Tame (Tape.c6 (propCfg env T cutoff) X (rc6At env T 3 2 "eeq") (Tape.qIn X true) i j) y
      (c6At env T .d4 (Tape.dat X true i y) (Tape.dat X true j y)) := fun i j =>
    Tape.Tame.c6 (d := fun i => Tape.qV X true i y) rfl (Tape.qIn_tame true)
      ⟨hpow i (X.Z j), hnorm i (X.Z j), hch i⟩ ⟨hpow j (X.Z i), hnorm j (X.Z i), hch j⟩
  have hα : ∀ i, Tape.Tame (Tape.pol (propCfg env T cutoff) X (alphaAt env T 3 2 "eeq") true i 0) y
      (polAt env T .d4 (Tape.dat X true i y) 0) := by
    intro i
    unfold Tape.pol polAt polOf
    refine (Tape.Tame.sum fun r : Fin nref => (Tape.Tame.weight (Zp := 0) (c := X.cnFn i y) Tape.Tame.input
      (Tape.qIn_tame true i) r.2 (hpow i 0) (hnorm i 0) (hch i)).mul
      (Tape.Tame.const (c := alphaAt env T 3 2 "eeq" (X.Z i) r 0))).congr ?_
    rw [Finset.sum_range]
    rfl
  have ht := (((Tape.Tame.sum fun i => (Tape.Tame.const (c := u i)).mul
      (show Tape.Tame (X.cn i) y (X.cnFn i y) from Tape.Tame.input)).add
    (Tape.Tame.sum fun i => (Tape.Tame.const (c := v i)).mul
      (show Tape.Tame (X.q i) y (X.qFn i y) from Tape.Tame.input))).add
    (Tape.Tame.sum fun i => Tape.Tame.sum fun j => (Tape.Tame.const (c := t i j)).mul (hC i j))).add
    (Tape.Tame.sum fun i => (Tape.Tame.const (c := s i)).mul (hα i))
  refine ⟨⟨c, q, c6, α, h, ?_⟩, ?_⟩
  · rw [hval]
    exact ht.1
  · obtain ⟨g, hg⟩ := ht.2
    exact ⟨_, hg 1⟩

end

/-! ## Derivatives with respect to positions -/

section
variable {env : Env} {T : Tables} {ext : Ext} {numbers : Tensor ℕ} {cutoff : Option Cutoff} {n : ℕ}
  {B : Shape} {b : Idx} {cn : Spec.CN} {eeq : Spec.EEQ} {positions : (Fin n → Spec.E3) → Tensor ℝ}
  {charge : Tensor ℝ} {x : Fin n → Spec.E3}

/-- The properties depend smoothly on the positions. -/
theorem weighted_differentiable (hv : ∀ x, ValidArgs T numbers (positions x) charge {} n B)
    (hat : ∀ x, coords (positions x) n b = x)
    (hcn : CNFunc.PerSystem ext.cnD4 none T.nZ cn) (heeq : ext.EEQPerSystem T.nZ eeq) (hb : InB B b)
    (hfl : env.fl = id) (hT : T.Physical "eeq") (hpad : ∀ r < nref, T.refc 0 r = 0)
    (hc : ∀ i, ContDiffAt ℝ 1 (fun y => cn n (elements numbers n b) y i) x)
    (hq : ∀ i, ContDiffAt ℝ 1 (fun y =>
      eeq n (cutoff.getD {}).cnEeq (elements numbers n b) y (charge.get b) i) x)
    (hreal : ∀ i, elements numbers n b i ≠ 0 → env.eps < eeq n (cutoff.getD {}).cnEeq
      (elements numbers n b) x (charge.get b) i + T.zeff (elements numbers n b i))
    (u v : Fin n → ℝ) (t : Fin n → Fin n → ℝ) (s : Fin n → ℝ) {L : (Fin n → Spec.E3) → ℝ}
    (hL : ∀ x c q c6 α, getProperties env T ext numbers (positions x) (some charge) cutoff =
      .ok (c, q, c6, α) → L x = Spec.weighted u v t s c q c6 α b) :
    DifferentiableAt ℝ L x := by
  obtain ⟨Z, hZ⟩ : ∃ Z, Z = elements numbers n b := ⟨_, rfl⟩
  rw [← hZ] at hc hq hreal
  obtain ⟨C, hC⟩ : ∃ C : Fin n → (Fin n → Spec.E3) → ℝ, C = fun i y => cn n Z y i := ⟨_, rfl⟩
  obtain ⟨Q, hQ⟩ : ∃ Q : Fin n → (Fin n → Spec.E3) → ℝ, Q = fun i y =>
    eeq n (cutoff.getD {}).cnEeq Z y (charge.get b) i := ⟨_, rfl⟩
  have hgc : 0 < RefCfg.d4.gc := by norm_num [RefCfg.d4]
  have hlt : ∀ i, Z i < T.nZ := by
    intro i
    rw [hZ]
    exact (hv 0).Z_lt (cn := cn) (eeq := eeq) hb i
  have hval : L = fun y => (∑ i, u i * C i y) + (∑ i, v i * Q i y) +
      (∑ i, ∑ j, t i j * c6At env T .d4 ⟨Z i, C i y, Q i y⟩ ⟨Z j, C j y, Q j y⟩) +
      ∑ i, s i * polAt env T .d4 ⟨Z i, C i y, Q i y⟩ 0 := by
    funext y
    obtain ⟨c, q, c6, α, h, g⟩ := properties_system (env := env) (cutoff := cutoff) (hv y) hcn heeq
    rw [hL y c q c6 α h]
    obtain ⟨g1, g2⟩ := g b hb _ rfl
    unfold Spec.weighted
    simp only [fun i => (g1 i).1, fun i => (g1 i).2.1, fun i => (g1 i).2.2, g2]
    simp only [Spec.Mol.atom, system, hat, ← hZ, hC, hQ]
  have hCd : ∀ i, ContDiffAt ℝ 1 (C i) x := by rw [hC]; exact hc
  have hQd : ∀ i, ContDiffAt ℝ 1 (Q i) x := by rw [hQ]; exact hq
  have hr : ∀ i, Z i ≠ 0 → (RefCfg.d4.spec T env.eps).ε < Q i x +
      (RefCfg.d4.spec T env.eps).T.zeff (Z i) := by
    rw [hQ]; exact hreal
  have hε : 0 < (RefCfg.d4.spec T env.eps).ε := env.eps_pos
  have h6 : ∀ i j, ContDiffAt ℝ 1
      (fun y => c6At env T .d4 ⟨Z i, C i y, Q i y⟩ ⟨Z j, C j y, Q j y⟩) x := by
    intro i j
    by_cases hi : Z i = 0
    · have : (fun y => c6At env T .d4 ⟨Z i, C i y, Q i y⟩ ⟨Z j, C j y, Q j y⟩) = fun _ => 0 := by
        funext y
        exact c6At_pad hpad hi
      rw [this]
      exact contDiffAt_const
    by_cases hj : Z j = 0
    · have : (fun y => c6At env T .d4 ⟨Z i, C i y, Q i y⟩ ⟨Z j, C j y, Q j y⟩) = fun _ => 0 := by
        funext y
        rw [c6At_symm]
        exact c6At_pad hpad hj
      rw [this]
      exact contDiffAt_const
    have : (fun y => c6At env T .d4 ⟨Z i, C i y, Q i y⟩ ⟨Z j, C j y, Q j y⟩) = fun y =>
        Spec.c6 (RefCfg.d4.spec T env.eps) ⟨Z i, C i y, Q i y⟩ ⟨Z j, C j y, Q j y⟩ := by
      funext y
      exact c6At_spec hfl hT hgc (hlt i) (hlt j)
    rw [this]
    exact Spec.contDiffAt_c6 hε (hCd i) (hQd i) (hCd j) (hQd j) (hr i hi) (hr j hj)
  have hα : ∀ i, ContDiffAt ℝ 1 (fun y => polAt env T .d4 ⟨Z i, C i y, Q i y⟩ 0) x := by
    intro i
    by_cases hi : Z i = 0
    · have : (fun y => polAt env T .d4 ⟨Z i, C i y, Q i y⟩ 0) = fun _ => 0 := by
        funext y
        unfold polAt polOf
        refine Finset.sum_eq_zero fun r hr => ?_
        have : wtAt env T .d4 ⟨Z i, C i y, Q i y⟩ 0 r = 0 := by
          simp [wtAt, wtOf, zetaAt, hi, hpad r (Finset.mem_range.1 hr)]
        rw [this, zero_mul]
      rw [this]
      exact contDiffAt_const
    have : (fun y => polAt env T .d4 ⟨Z i, C i y, Q i y⟩ 0) = fun y =>
        Spec.alpha (RefCfg.d4.spec T env.eps) ⟨Z i, C i y, Q i y⟩ 0 0 := by
      funext y
      exact polAt_spec hfl hT hgc (hlt i) 0
    rw [this]
    exact Spec.contDiffAt_alpha hε (hCd i) (hQd i) (hr i hi)
  rw [hval]
  refine ContDiffAt.differentiableAt (n := 1) ?_ (by simp)
  refine (((ContDiffAt.sum fun i _ => contDiffAt_const.mul (hCd i)).add
    (ContDiffAt.sum fun i _ => contDiffAt_const.mul (hQd i))).add
    (ContDiffAt.sum fun i _ => ContDiffAt.sum fun j _ => contDiffAt_const.mul (h6 i j))).add
    (ContDiffAt.sum fun i _ => contDiffAt_const.mul (hα i))

/-- Derivatives with respect to the positions: `torch.autograd.grad` with any `grad_outputs` gives the partial
derivatives of the weighted sum of the properties. They add up to zero over all atoms if coordination numbers
and charges do not depend on the frame of reference. -/
theorem C75_positions (hv : ∀ x, ValidArgs T numbers (positions x) charge {} n B)
    (hat : ∀ x, coords (positions x) n b = x)
    (hcn : CNFunc.PerSystem ext.cnD4 none T.nZ cn) (heeq : ext.EEQPerSystem T.nZ eeq) (hb : InB B b)
    (hfl : env.fl = id) (hT : T.Physical "eeq") (hs : T.ScaleBounded env .d4)
    (hpad : ∀ r < nref, T.refc 0 r = 0)
    (hc : ∀ i, ContDiffAt ℝ 1 (fun y => cn n (elements numbers n b) y i) x)
    (hq : ∀ i, ContDiffAt ℝ 1 (fun y =>
      eeq n (cutoff.getD {}).cnEeq (elements numbers n b) y (charge.get b) i) x)
    (hreal : ∀ i, elements numbers n b i ≠ 0 → env.eps < eeq n (cutoff.getD {}).cnEeq
      (elements numbers n b) x (charge.get b) i + T.zeff (elements numbers n b i))
    (hzero : ∀ i, elements numbers n b i = 0 → eeq n (cutoff.getD {}).cnEeq (elements numbers n b)
      x (charge.get b) i + T.zeff 0 ≠ env.eps)
    (u v : Fin n → ℝ) (t : Fin n → Fin n → ℝ) (s : Fin n → ℝ) {L : (Fin n → Spec.E3) → ℝ}
    (hL : ∀ x c q c6 α, getProperties env T ext numbers (positions x) (some charge) cutoff =
      .ok (c, q, c6, α) → L x = Spec.weighted u v t s c q c6 α b) :
    DifferentiableAt ℝ L x ∧
    (∀ a k, (Tape.properties (propCfg env T cutoff) (propSys T cn eeq numbers cutoff n b
        (fun y => positions (x + y • unitDisp a k)) fun _ => charge)
      (rc6At env T 3 2 "eeq") (alphaAt env T 3 2 "eeq") u v t s).back 0 (.fin 1) =
        .fin (fderiv ℝ L x (unitDisp a k))) ∧
    (cn.Invariant → eeq.Invariant → ∀ k, ∑ a, fderiv ℝ L x (unitDisp a k) = 0) := by
  have hd := weighted_differentiable hv hat hcn heeq hb hfl hT hpad hc hq hreal u v t s hL
  have hline : ∀ a k, HasDerivAt (fun y : ℝ => x + y • unitDisp a k) (unitDisp a k) 0 := by
    intro a k
    have := ((hasDerivAt_id (0 : ℝ)).smul_const (unitDisp a k)).const_add x
    simpa using this
  have h0 : ∀ a k, x + (0 : ℝ) • unitDisp a k = x := by intro a k; simp
  refine ⟨hd, fun a k => ?_, fun hci hqi k => ?_⟩
  · obtain ⟨g, h1, -, h3⟩ := C75_gradient (env := env) (ext := ext) (y := 0)
      (positions := fun y => positions (x + y • unitDisp a k)) (charge := fun _ => charge)
      (cutoff := cutoff) (b := b)
      (fun y => hv _) hcn heeq hb hfl hs hpad
      (fun i => by
        simp only [hat]
        have hd := (hc i).differentiableAt (by simp)
        rw [← h0 a k] at hd
        exact DifferentiableAt.comp (0 : ℝ) hd (hline a k).differentiableAt)
      (fun i => by
        simp only [hat]
        have hd := (hq i).differentiableAt (by simp)
        rw [← h0 a k] at hd
        exact DifferentiableAt.comp (0 : ℝ) hd (hline a k).differentiableAt)
      (by simpa only [hat, h0] using hreal) (by simpa only [hat, h0] using hzero) u v t s
      (L := fun y => L (x + y • unitDisp a k)) (fun y c q c6 α h => hL _ c q c6 α h)
    rw [h3]
    congr 1
    have hE' := hd.hasFDerivAt
    exact h1.unique (HasFDerivAt.comp_hasDerivAt (0 : ℝ) (by simpa using hE') (hline a k))
  · have hinv : ∀ y : ℝ, L (x + y • ∑ a, unitDisp a k) = L x := by
      intro y
      obtain ⟨c, q, c6, α, c', q', c6', α', h, h', g⟩ := C74_isometry (env := env) (cutoff := cutoff) (hv x)
        (hv (x + y • ∑ a, unitDisp a k)).pos hcn heeq hci hqi
      rw [hL _ _ _ _ _ h, hL _ _ _ _ _ h']
      have hi := g b hb (IsometryEquiv.addRight (y • EuclideanSpace.single k (1 : ℝ))) (fun i => ?_)
      · unfold Spec.weighted
        simp only [fun i => (hi i).1, fun i => (hi i).2.1, fun i => (hi i).2.2.1,
          fun i j => (hi i).2.2.2 j]
      · rw [hat, hat]
        ext l
        simp [unitDisp, Finset.sum_apply, Pi.single_apply]
    have hder : HasDerivAt (fun y : ℝ => L (x + y • ∑ a, unitDisp a k))
        (fderiv ℝ L x (∑ a, unitDisp a k)) 0 := by
      have hl : HasDerivAt (fun y : ℝ => x + y • ∑ a, unitDisp a k) (∑ a, unitDisp a k) 0 := by
        have := ((hasDerivAt_id (0 : ℝ)).smul_const (∑ a, unitDisp a k)).const_add x
        simpa using this
      exact HasFDerivAt.comp_hasDerivAt (0 : ℝ) (by simpa using hd.hasFDerivAt) hl
    rw [← map_sum]
    simp only [hinv] at hder
    exact hder.unique (hasDerivAt_const _ _)

/-- If all Gaussians of an atom with references underflow, the properties are computed, but derivatives of
polarizabilities and of C6 coefficients of the system are NaN for any `grad_outputs`. -/
theorem C75_underflow_nan (hv : ∀ x, ValidArgs T numbers (positions x) charge {} n B)
    (hat : ∀ x, coords (positions x) n b = x)
    (hcn : CNFunc.PerSystem ext.cnD4 none T.nZ cn) (heeq : ext.EEQPerSystem T.nZ eeq)
    {i : Fin n} (hi : ∃ r < nref, 0 < T.refc (elements numbers n b i) r)
    (h0 : ∀ r < nref, expwSel env T .d4 6 (elements numbers n b i)
      (cn n (elements numbers n b) x i) r = 0) :
    (∃ c q c6 α, getProperties env T ext numbers (positions x) (some charge) cutoff =
      .ok (c, q, c6, α)) ∧
    ∀ a k, (∀ s g, (Tape.alphaSum (propCfg env T cutoff) (propSys T cn eeq numbers cutoff n b
        (fun y => positions (x + y • unitDisp a k)) fun _ => charge)
      (alphaAt env T 3 2 "eeq") s).back 0 g = .nan) ∧
    ∀ t g, (Tape.c6Sum (propCfg env T cutoff) (propSys T cn eeq numbers cutoff n b
        (fun y => positions (x + y • unitDisp a k)) fun _ => charge)
      (rc6At env T 3 2 "eeq") t).back 0 g = .nan := by
  obtain ⟨c, q, c6, α, h, -⟩ := properties_system (env := env) (cutoff := cutoff) (hv x) hcn heeq
  refine ⟨⟨c, q, c6, α, h⟩, fun a k => ?_⟩
  obtain ⟨X, hX⟩ : ∃ X, X = propSys T cn eeq numbers cutoff n b
    (fun y => positions (x + y • unitDisp a k)) fun _ => charge := ⟨_, rfl⟩
  rw [← hX]
  have hg : X.cnGrad = true := by rw [hX]; rfl
  have hl : Tape.Lost (propCfg env T cutoff) X 0 i := by
    rw [hX]
    refine ⟨hi, fun _ => by norm_num [propCfg, gradCfg, RefCfg.d4], ?_⟩
    refine Finset.sum_eq_zero fun r hr => ?_
    show expwSel env T .d4 6 (elements numbers n b i) (cn n (elements numbers n b)
      (coords (positions (x + (0 : ℝ) • unitDisp a k)) n b) i) r = 0
    rw [hat, zero_smul, add_zero]
    exact h0 r (Finset.mem_range.1 hr)
  refine ⟨fun s => ?_, fun t => ?_⟩
  · obtain ⟨r, hr, hm⟩ := hl.refs
    have hc : Tape.Tame (X.cn i) 0 (X.cnFn i 0) := Tape.Tame.input
    have hw : Tape.Bad (Tape.weight (propCfg env T cutoff) ((propCfg env T cutoff).wf (X.Z i) 0) (X.Z i) r
        (X.cn i) (Tape.qIn X true i)) 0 :=
      (Tape.gw_bad hc hr (fun hk => Or.inl (hl.wf hk)) hm hl.norm
        (fun hk => by have := hl.wf hk; linarith)
        (by simp [GradSys.cn, Tape.input, hg, Tape.back])).mul_right
    exact Tape.Bad.sum i (Tape.Bad.mul_right (Tape.Bad.sum ⟨r, hr⟩ hw.mul_left))
  · exact Tape.Bad.sum i (Tape.Bad.sum i (Tape.Bad.mul_right (hl.C hg _)))

end

/-! ## Concrete cases: hydrogen fluoride next to water -/

namespace Demo

/-- Molecular polarizability and sum of all C6 coefficients. -/
noncomputable def propsHF (x : Fin 3 → Spec.E3) : ℝ :=
  match getProperties env T ext numbers (positionsAt x) (some charge) none with
  | .ok (c, q, c6, α) => Spec.weighted (n := 3) (fun _ => 0) (fun _ => 0) (fun _ _ => 1) (fun _ => 1) c q c6 α [1]
  | .error _ => 0

theorem cnHF_perSystem : CNFunc.PerSystem ext.cnD4 none T.nZ cn := CNFunc.ofSpec_perSystem _ _ _

theorem realHF (i : Fin 3) (hi : elements numbers 3 [1] i ≠ 0) :
    env.eps < eeq 3 25 (elements numbers 3 [1]) xHF (charge.get [1]) i + T.zeff (elements numbers 3 [1] i) := by
  have h : 1 ≤ T.zeff (elements numbers 3 [1] i) := by
    fin_cases i
    · show (1 : ℝ) ≤ zeff 9; norm_num [zeff]
    · show (1 : ℝ) ≤ zeff 1; norm_num [zeff]
    · exact absurd rfl hi
  have h1 : 0 ≤ eeq 3 25 (elements numbers 3 [1]) xHF (charge.get [1]) i := by
    unfold eeq charge
    split_ifs
    exact div_nonneg zero_le_one (Finset.sum_nonneg fun j _ => by split <;> norm_num)
  have he : env.eps < 1 := by
    show (1 / 2 ^ 52 : ℝ) < 1
    norm_num
  linarith

example : DifferentiableAt ℝ propsHF xHF ∧
    (∀ a k, (Tape.properties (propCfg env T none) (propSys T cn eeq numbers none 3 [1]
        (fun y => positionsAt (xHF + y • unitDisp a k)) fun _ => charge)
      (rc6At env T 3 2 "eeq") (alphaAt env T 3 2 "eeq") (fun _ => 0) (fun _ => 0) (fun _ _ => 1)
      (fun _ => 1)).back 0 (.fin 1) = .fin (fderiv ℝ propsHF xHF (unitDisp a k))) ∧
    ∀ k, ∑ a, fderiv ℝ propsHF xHF (unitDisp a k) = 0 := by
  obtain ⟨h1, h2, h3⟩ := C75_positions (env := env) (ext := ext) (cutoff := none) (B := [2]) (x := xHF)
    (fun x => { validArgs with pos := ⟨rfl, rfl⟩ }) totalEnergy.at_pos cnHF_perSystem call.eeq (by simp [InB])
    rfl physical scaleBounded pad_refc cn_smooth_HF (eeq_smooth_HF _ _) realHF
    (fun i hi => padChargeOf true hi) (fun _ => 0) (fun _ => 0) (fun _ _ => 1) (fun _ => 1) (L := propsHF)
    (fun x c q c6 α h => by simp only [propsHF, h])
  exact ⟨h1, h2, h3 cn_invariant eeq_invariant⟩

/-- The response of the polarizabilities to the total charge. -/
example (L : ℝ → ℝ) (hL : ∀ y c q c6 α, getProperties env T ext numbers (positionsAt xHF)
    (some ⟨none, [2], fun _ => y⟩) none = .ok (c, q, c6, α) →
      L y = Spec.weighted (n := 3) (fun _ => 0) (fun _ => 0) (fun _ _ => 0) (fun _ => 1) c q c6 α [1]) :
    ∃ g, HasDerivAt L g 1 ∧
      (Tape.properties (propCfg env T none) (propSys T cn eeq numbers none 3 [1]
          (fun _ => positionsAt xHF) fun y => ⟨none, [2], fun _ => y⟩)
        (rc6At env T 3 2 "eeq") (alphaAt env T 3 2 "eeq") (fun _ => 0) (fun _ => 0) (fun _ _ => 0)
        (fun _ => 1)).back 1 (.fin 1) = .fin g := by
  obtain ⟨g, h1, -, h3⟩ := C75_gradient (env := env) (ext := ext) (cutoff := none) (B := [2]) (b := [1])
    (positions := fun _ => positionsAt xHF) (charge := fun y => ⟨none, [2], fun _ => y⟩) (y := 1)
    (fun y => { validArgs with pos := ⟨rfl, rfl⟩, charge := ⟨rfl, rfl⟩ }) cnHF_perSystem call.eeq
    (by simp [InB]) rfl scaleBounded pad_refc (fun i => differentiableAt_const _)
    (fun i => by unfold eeq; split_ifs <;> fun_prop)
    (fun i hi => by rw [totalEnergy.at_pos]; exact realHF i hi)
    (fun i hi => by rw [totalEnergy.at_pos]; exact padChargeOf true hi) (fun _ => 0) (fun _ => 0)
    (fun _ _ => 0) (fun _ => 1) hL
  exact ⟨g, h1, h3⟩

/-- All atoms at the same place. -/
example (a : Fin 3) (k : Fin 3) : ∃ g, (Tape.properties (propCfg env T none) (propSys T cn eeq numbers none 3 [1]
      (fun y => positionsAt ((fun _ => 0) + y • unitDisp a k)) fun _ => charge)
    (rc6At env T 3 2 "eeq") (alphaAt env T 3 2 "eeq") (fun _ => 0) (fun _ => 0) (fun _ _ => 1)
    (fun _ => 1)).back 0 (.fin 1) = .fin g := by
  obtain ⟨-, -, -, -, -, hq, -, hs, -⟩ := regular_HF ((fun _ => 0) + (0 : ℝ) • unitDisp a k)
  refine (C75_finite (env := env) (ext := ext) (cutoff := none) (B := [2]) (y := 0)
    (fun y => { validArgs with pos := ⟨rfl, rfl⟩ }) cnHF_perSystem call.eeq (by simp [InB])
    (fun i hr => ?_) hq hs _ _ _ _).2
  have := Tape.normOk_id (G := gradCfg env T .d4 par param {}) (w := 6) (Z := elements numbers 3 [1] i)
    (c := cn 3 (elements numbers 3 [1])
      (coords (positionsAt ((fun _ => 0) + (0 : ℝ) • unitDisp a k)) 3 [1]) i) rfl hr
  by_contra hno
  push Not at hno
  exact this (Finset.sum_eq_zero fun r hr => hno r (Finset.mem_range.1 hr))

/-- Large coordination numbers in double precision. -/
example (a : Fin 3) (k : Fin 3) : (∃ c q c6 α, getProperties envUflow T extUflow numbers
      (positionsAt xHF) (some charge) none = .ok (c, q, c6, α)) ∧
    (Tape.alphaSum (propCfg envUflow T none) (propSys T cnUflow eeq numbers none 3 [1]
      (fun y => positionsAt (xHF + y • unitDisp a k)) fun _ => charge) (alphaAt envUflow T 3 2 "eeq")
      fun _ => 1).back 0 (.fin 1) = .nan := by
  obtain ⟨h1, h2⟩ := C75_underflow_nan (env := envUflow) (ext := extUflow) (cutoff := none) (B := [2])
    (b := [1]) (positions := positionsAt) (x := xHF) (i := 0)
    (fun y => { validArgs with pos := ⟨rfl, rfl⟩ }) totalEnergy.at_pos
    (CNFunc.ofSpec_perSystem cnUflow none T.nZ) call.eeq
    refs_F lost_F
  exact ⟨h1, (h2 a k).1 _ _⟩

end Demo

end TadDftd4
