import Verif.Lemmas.Central
import Verif.Props.C51
import Verif.Props.C61
import Verif.Props.C82

/-!
# C95 Numerical derivatives agree with those of automatic differentiation

The workflow of `examples/forces.py`: displace one coordinate by `± step`, recompute the energy and
divide the difference by `2 * step`. Displaced energies may carry errors of at most `η`.
-/

open Filter Topology

namespace TadDftd4

/-- Displacement of atom `a` along axis `k` by `t`. -/
noncomputable def Spec.displaced {n : ℕ} (x : Fin n → Spec.E3) (a : Fin n) (k : Fin 3) (t : ℝ) :
    Fin n → Spec.E3 :=
  Function.update x a (x a + EuclideanSpace.single k t)

/-- `(vp - vm) / (2 t)` is a central difference quotient with step `t` of values which are those of `f` up to
errors of `η`. -/
def Spec.Measured (f : ℝ → ℝ) (t η vp vm : ℝ) : Prop := |vp - f t| ≤ η ∧ |vm - f (-t)| ≤ η

/-- Central difference quotients of `f` with steps `t`, formed from values that have errors of at most `η`, approach
`g`: the error is at most `K t² + η / t` for small steps. -/
def Spec.Approximates (f : ℝ → ℝ) (g : ℝ) : Prop :=
  ∃ K δ : ℝ, 0 ≤ K ∧ 0 < δ ∧ ∀ t η vp vm, 0 < t → t < δ → Spec.Measured f t η vp vm →
    |(vp - vm) / (2 * t) - g| ≤ K * t ^ 2 + η / t

theorem displaced_eq {n : ℕ} (x : Fin n → Spec.E3) (a : Fin n) (k : Fin 3) (t : ℝ) :
    Spec.displaced x a k t = x + t • unitAt a k := by
  funext i
  unfold Spec.displaced unitAt
  by_cases h : i = a
  · subst h
    ext l
    by_cases hl : l = k <;> simp [hl]
  · simp [h]

theorem approximates_deriv {f : ℝ → ℝ} (hf : ContDiffAt ℝ 3 f 0) : Spec.Approximates f (deriv f 0) := by
  obtain ⟨K, δ, hK, hδ, hc⟩ := central_le hf
  refine ⟨K, δ, hK, hδ, fun t η vp vm h0 ht hm => ?_⟩
  have h1 := hc t h0 ht
  have h2 := central_noise (f := f) (g := fun s => if s = t then vp else vm) h0 (by simpa using hm.1)
    (by simpa [show ¬ -t = t by linarith] using hm.2)
  have e : Spec.central (fun s => if s = t then vp else vm) t = (vp - vm) / (2 * t) := by
    unfold Spec.central
    simp [show ¬ -t = t by linarith]
  rw [e] at h2
  calc |(vp - vm) / (2 * t) - deriv f 0| ≤ |(vp - vm) / (2 * t) - Spec.central f t| +
        |Spec.central f t - deriv f 0| := abs_sub_le _ _ _
    _ ≤ K * t ^ 2 + η / t := by linarith

section
variable {env : Env} {T : Tables} {ext : Ext} {numbers : Tensor ℕ} {n : ℕ}
  {positions : (Fin n → Spec.E3) → Tensor ℝ} {charge : Tensor ℝ} {p : Param} {o : DftOpts}
  {B : List ℕ} {R : RefCfg} {cn : Spec.CN} {eeq : Spec.EEQ} {P : Spec.D4Par} {b : List ℕ}
  {E : (Fin n → Spec.E3) → ℝ} {x : Fin n → Spec.E3}

theorem contDiffAt_line {F : (Fin n → Spec.E3) → ℝ} {m : WithTop ℕ∞} (h : ContDiffAt ℝ m F x)
    (u : Fin n → Spec.E3) : ContDiffAt ℝ m (fun t : ℝ => F (x + t • u)) 0 := by
  have hl : ContDiffAt ℝ m (fun t : ℝ => x + t • u) 0 :=
    contDiffAt_const.add (contDiffAt_id.smul contDiffAt_const)
  exact ContDiffAt.comp (0 : ℝ) (by simpa using h) hl

/-- **C95**: central differences of total energies approach `positions.grad`: the error is at most a
constant times the square of the step plus the error of the energies divided by the step. -/
theorem C95_forces
    (h : TotalEnergy env T ext numbers positions charge p o B R cn eeq P b E)
    (hfl : env.fl = id) (hT : T.Physical R.rq) (hgc : 0 < R.gc) (hpad : ∀ r < nref, T.refc 0 r = 0)
    (h1 : 0 ≤ P.a1) (h2 : 0 ≤ P.a2) (h12 : P.a1 ≠ 0 ∨ P.a2 ≠ 0)
    (hcn : ∀ i, ContDiffAt ℝ 3 (fun y => cn n (elements numbers n b) y i) x)
    (heeq : o.opts.q = none → ∀ i, ContDiffAt ℝ 3 (fun y =>
      eeq n (o.opts.cutoff.getD {}).cnEeq (elements numbers n b) y (charge.get b) i) x)
    (hg : Spec.Generic (Spec.d4Settings (R.spec T env.eps) env.eps P (o.opts.cutoff.getD {}).disp2
      (o.opts.cutoff.getD {}).disp3) (R.spec T env.eps)
      (system T cn eeq numbers (positions x) charge o.opts n b))
    (hq : ∀ i, elements numbers n b i = 0 →
      (system T cn eeq numbers (positions x) charge o.opts n b).q i + T.zeff 0 ≠ env.eps)
    (hz : T.zeff 0 ≠ env.eps) (hs : T.ScaleBounded env R) (a : Fin n) (k : Fin 3) :
    ∃ g, positionsGrad env T R P p o cn eeq numbers charge positions b x a k = .fin g ∧
      Spec.Approximates (fun t => E (Spec.displaced x a k t)) g := by
  refine ⟨_, C48_forces_partial h hfl hT hgc hpad h1 h2 h12 (fun i => (hcn i).of_le (by norm_num))
    (fun hn i => (heeq hn i).of_le (by norm_num)) hg hq hz hs a k, ?_⟩
  have hE : ContDiffAt ℝ 3 E x := C42_smooth h hfl hT hgc (fun i _ => hcn i) (fun hn i _ => heeq hn i) hg
  have hd := hasDerivAt_along (hE.differentiableAt (by norm_num)) (unitAt a k)
  have := approximates_deriv (contDiffAt_line hE (unitAt a k))
  rw [hd.deriv] at this
  simp only [displaced_eq]
  rw [force_eq, neg_neg]
  exact this

/-- Generic geometries form an open set. -/
theorem generic_eventually {X : Type} [NormedAddCommGroup X] [NormedSpace ℝ X] {M : X → Spec.Mol n} {y : X}
    {C : Spec.C6Settings} {ε cut2 cut3 : ℝ} (hCε : 0 < C.ε) (h : Spec.SmoothAt 1 M y)
    (hg : Spec.Generic (Spec.d4Settings C ε P cut2 cut3) C (M y)) :
    ∀ᶠ z in 𝓝 y, Spec.Generic (Spec.d4Settings C ε P cut2 cut3) C (M z) := by
  have hd : ∀ i j, (M y).Z i ≠ 0 → (M y).Z j ≠ 0 →
      ContinuousAt (fun z => dist ((M z).pos i) ((M z).pos j)) y := fun i j hi hj =>
    (h.pos i hi).continuousAt.dist (h.pos j hj).continuousAt
  have hc : ∀ {i j : Fin n}, (M y).Z i ≠ 0 → (M y).Z j ≠ 0 →
      ContinuousAt (fun z => Spec.c6 C ((M z).neutral i) ((M z).neutral j)) y := by
    intro i j hi hj
    unfold Spec.Mol.neutral
    simp only [h.Z]
    exact (Spec.contDiffAt_c6 hCε (h.cn i hi) contDiffAt_const (h.cn j hj) contDiffAt_const
      (by simpa using hg.zeff i hi) (by simpa using hg.zeff j hj)).continuousAt
  have a1 : ∀ᶠ z in 𝓝 y, ∀ i j, (M z).Z i ≠ 0 → (M z).Z j ≠ 0 → i ≠ j →
      ε < dist ((M z).pos i) ((M z).pos j) ^ 2 := by
    simp only [h.Z]
    refine eventually_all.2 fun i => eventually_all.2 fun j => ?_
    by_cases hi : (M y).Z i ≠ 0 <;> by_cases hj : (M y).Z j ≠ 0 <;> by_cases hij : i ≠ j <;>
      simp only [hi, hj, hij, not_false_eq_true, not_true_eq_false, forall_const, IsEmpty.forall_iff,
        eventually_true, ne_eq]
    exact continuousAt_const.eventually_lt ((hd i j hi hj).pow 2) (hg.apart i j hi hj hij)
  have hne : ∀ {c : ℝ}, (∀ i j, (M y).Z i ≠ 0 → (M y).Z j ≠ 0 → i ≠ j → dist ((M y).pos i) ((M y).pos j) ≠ c) →
      ∀ᶠ z in 𝓝 y, ∀ i j, (M z).Z i ≠ 0 → (M z).Z j ≠ 0 → i ≠ j → dist ((M z).pos i) ((M z).pos j) ≠ c := by
    intro c hc
    simp only [h.Z]
    refine eventually_all.2 fun i => eventually_all.2 fun j => ?_
    by_cases hi : (M y).Z i ≠ 0 <;> by_cases hj : (M y).Z j ≠ 0 <;> by_cases hij : i ≠ j <;>
      simp only [hi, hj, hij, not_false_eq_true, not_true_eq_false, forall_const, IsEmpty.forall_iff,
        eventually_true, ne_eq]
    exact (hd i j hi hj).eventually_ne (hc i j hi hj hij)
  have a4 : ∀ᶠ z in 𝓝 y, ∀ i, (M z).Z i ≠ 0 → C.ε < (M z).q i + C.T.zeff ((M z).Z i) := by
    simp only [h.Z]
    refine eventually_all.2 fun i => ?_
    by_cases hi : (M y).Z i ≠ 0 <;>
      simp only [hi, not_false_eq_true, not_true_eq_false, forall_const, IsEmpty.forall_iff,
        eventually_true, ne_eq]
    exact continuousAt_const.eventually_lt ((h.q i hi).continuousAt.add continuousAt_const) (hg.charge i hi)
  have a6 : ∀ᶠ z in 𝓝 y, ∀ i j k, (M z).Z i ≠ 0 → (M z).Z j ≠ 0 → (M z).Z k ≠ 0 → i ≠ j → i ≠ k → j ≠ k →
      |Spec.c6 C ((M z).neutral i) ((M z).neutral j) * Spec.c6 C ((M z).neutral i) ((M z).neutral k) *
        Spec.c6 C ((M z).neutral j) ((M z).neutral k)| ≠ ε := by
    simp only [h.Z]
    refine eventually_all.2 fun i => eventually_all.2 fun j => eventually_all.2 fun k => ?_
    by_cases hall : (M y).Z i ≠ 0 ∧ (M y).Z j ≠ 0 ∧ (M y).Z k ≠ 0 ∧ i ≠ j ∧ i ≠ k ∧ j ≠ k
    · obtain ⟨hi, hj, hk, hij, hik, hjk⟩ := hall
      have := (((hc hi hj).mul (hc hi hk)).mul (hc hj hk)).abs.eventually_ne (hg.c9 i j k hi hj hk hij hik hjk)
      exact this.mono fun z hz _ _ _ _ _ _ => hz
    · exact Eventually.of_forall fun z h1 h2 h3 h4 h5 h6 => absurd ⟨h1, h2, h3, h4, h5, h6⟩ hall
  filter_upwards [a1, hne hg.cut2, hne hg.cut3, a4, a6] with z z1 z2 z3 z4 z6
  refine ⟨z1, z2, z3, z4, ?_, z6, ?_⟩
  · rw [h.Z]
    exact hg.zeff
  · have hR : ∀ i j, Spec.R0 (Spec.d4Settings C ε P cut2 cut3) (M z) i j =
        Spec.R0 (Spec.d4Settings C ε P cut2 cut3) (M y) i j := fun i j => by simp only [Spec.R0, h.Q z]
    intro i j
    rw [h.Z, hR]
    exact hg.radii i j

theorem system_q_contDiffAt (h : TotalEnergy env T ext numbers positions charge p o B R cn eeq P b E)
    {m : WithTop ℕ∞} (heeq : o.opts.q = none → ∀ i, ContDiffAt ℝ m (fun y =>
      eeq n (o.opts.cutoff.getD {}).cnEeq (elements numbers n b) y (charge.get b) i) x) (i : Fin n) :
    ContDiffAt ℝ m (fun y => (system T cn eeq numbers (positions y) charge o.opts n b).q i) x := by
  cases hq : o.opts.q with
  | some q =>
    have : (fun y => (system T cn eeq numbers (positions y) charge o.opts n b).q i) =
        fun _ => q.get (i.1 :: b) := by funext y; simp only [system, hq]
    rw [this]
    exact contDiffAt_const
  | none =>
    have : (fun y => (system T cn eeq numbers (positions y) charge o.opts n b).q i) =
        fun y => eeq n (o.opts.cutoff.getD {}).cnEeq (elements numbers n b) y (charge.get b) i := by
      funext y; simp only [system, hq, h.at_pos]
    rw [this]
    exact heeq hq i

/-- **C95**: the hypotheses of the other theorems hold at all geometries near one at which they do, and there
`positions.grad` is the derivative of the energy. -/
theorem C95_neighbourhood
    (h : TotalEnergy env T ext numbers positions charge p o B R cn eeq P b E)
    (hfl : env.fl = id) (hT : T.Physical R.rq) (hgc : 0 < R.gc) (hpad : ∀ r < nref, T.refc 0 r = 0)
    (h1 : 0 ≤ P.a1) (h2 : 0 ≤ P.a2) (h12 : P.a1 ≠ 0 ∨ P.a2 ≠ 0)
    (hcn : ∀ i, ContDiffAt ℝ 1 (fun y => cn n (elements numbers n b) y i) x)
    (heeq : o.opts.q = none → ∀ i, ContDiffAt ℝ 1 (fun y =>
      eeq n (o.opts.cutoff.getD {}).cnEeq (elements numbers n b) y (charge.get b) i) x)
    (hg : Spec.Generic (Spec.d4Settings (R.spec T env.eps) env.eps P (o.opts.cutoff.getD {}).disp2
      (o.opts.cutoff.getD {}).disp3) (R.spec T env.eps)
      (system T cn eeq numbers (positions x) charge o.opts n b))
    (hq : ∀ i, elements numbers n b i = 0 →
      (system T cn eeq numbers (positions x) charge o.opts n b).q i + T.zeff 0 ≠ env.eps)
    (hz : T.zeff 0 ≠ env.eps) (hs : T.ScaleBounded env R) :
    ∀ᶠ y in 𝓝 x, ∀ a k, positionsGrad env T R P p o cn eeq numbers charge positions b y a k =
      .fin (-Spec.force E y a k) := by
  have hsm : Spec.SmoothAt 1 (fun y => system T cn eeq numbers (positions y) charge o.opts n b) x := by
    refine ⟨fun y => rfl, fun y => rfl, fun i _ => ?_, fun i _ => ?_, fun i _ => system_q_contDiffAt h heeq i⟩
    · have : (fun y => (system T cn eeq numbers (positions y) charge o.opts n b).pos i) =
          fun y : Fin n → Spec.E3 => y i := by
        funext y; exact congrFun (h.at_pos y) i
      rw [this]
      exact (contDiff_apply ℝ Spec.E3 i).contDiffAt
    · show ContDiffAt ℝ 1 (fun y => cn n (elements numbers n b) (coords (positions y) n b) i) x
      simp only [h.at_pos]
      exact hcn i
  have e1 := generic_eventually env.eps_pos hsm hg
  have e2 : ∀ᶠ y in 𝓝 x, ∀ i, ContDiffAt ℝ 1 (fun y => cn n (elements numbers n b) y i) y :=
    eventually_all.2 fun i => (hcn i).eventually (by simp)
  have e3 : ∀ᶠ y in 𝓝 x, o.opts.q = none → ∀ i, ContDiffAt ℝ 1 (fun y =>
      eeq n (o.opts.cutoff.getD {}).cnEeq (elements numbers n b) y (charge.get b) i) y := by
    by_cases hn : o.opts.q = none
    · simp only [hn, forall_const]
      exact eventually_all.2 fun i => (heeq hn i).eventually (by simp)
    · exact Eventually.of_forall fun y h => absurd h hn
  have e4 : ∀ᶠ y in 𝓝 x, ∀ i, elements numbers n b i = 0 →
      (system T cn eeq numbers (positions y) charge o.opts n b).q i + T.zeff 0 ≠ env.eps := by
    refine eventually_all.2 fun i => ?_
    by_cases hi : elements numbers n b i = 0
    · simp only [hi, forall_const]
      exact ((system_q_contDiffAt h heeq i).continuousAt.add continuousAt_const).eventually_ne (hq i hi)
    · exact Eventually.of_forall fun y h => absurd h hi
  filter_upwards [e1, e2, e3, e4] with y y1 y2 y3 y4
  exact fun a k => C48_forces_partial h hfl hT hgc hpad h1 h2 h12 y2 y3 y1 y4 hz hs a k

/-- **C95**: central differences of `positions.grad` approach the Hessian of automatic differentiation. -/
theorem C95_hessian
    (h : TotalEnergy env T ext numbers positions charge p o B R cn eeq P b E)
    (hfl : env.fl = id) (hT : T.Physical R.rq) (hgc : 0 < R.gc) (hpad : ∀ r < nref, T.refc 0 r = 0)
    (h1 : 0 ≤ P.a1) (h2 : 0 ≤ P.a2) (h12 : P.a1 ≠ 0 ∨ P.a2 ≠ 0)
    (hcn : ∀ i, ContDiffAt ℝ 4 (fun y => cn n (elements numbers n b) y i) x)
    (heeq : o.opts.q = none → ∀ i, ContDiffAt ℝ 4 (fun y =>
      eeq n (o.opts.cutoff.getD {}).cnEeq (elements numbers n b) y (charge.get b) i) x)
    (hg : Spec.Generic (Spec.d4Settings (R.spec T env.eps) env.eps P (o.opts.cutoff.getD {}).disp2
      (o.opts.cutoff.getD {}).disp3) (R.spec T env.eps)
      (system T cn eeq numbers (positions x) charge o.opts n b))
    (hq : ∀ i, elements numbers n b i = 0 →
      (system T cn eeq numbers (positions x) charge o.opts n b).q i + T.zeff 0 ≠ env.eps)
    (hz : T.zeff 0 ≠ env.eps) (hs : T.ScaleBounded env R) (a : Fin n) (k : Fin 3) (a' : Fin n)
    (k' : Fin 3) :
    ∃ H G, positionsHess env T R P p o cn eeq numbers charge positions b x a k a' k' = .fin H ∧
      (∀ᶠ t in 𝓝 (0 : ℝ), positionsGrad env T R P p o cn eeq numbers charge positions b
        (Spec.displaced x a' k' t) a k = .fin (G t)) ∧
      Spec.Approximates G H := by
  refine ⟨_, fun t => -Spec.force E (Spec.displaced x a' k' t) a k,
    C61_hessian h hfl hT hgc hpad h1 h2 h12 (fun i => (hcn i).of_le (by norm_num))
    (fun hn i => (heeq hn i).of_le (by norm_num)) hg hq hz hs a k a' k', ?_, ?_⟩
  · have hn := C95_neighbourhood h hfl hT hgc hpad h1 h2 h12 (fun i => (hcn i).of_le (by norm_num))
      (fun hn i => (heeq hn i).of_le (by norm_num)) hg hq hz hs
    have ht : Tendsto (fun t : ℝ => Spec.displaced x a' k' t) (𝓝 0) (𝓝 x) := by
      simp only [displaced_eq]
      have := (hasDerivAt_line x (unitAt a' k')).continuousAt
      unfold ContinuousAt at this
      simpa using this
    exact (ht.eventually hn).mono fun t ht => ht a k
  have hE : ContDiffAt ℝ 4 E x := C42_smooth h hfl hT hgc (fun i _ => hcn i) (fun hn i _ => heeq hn i) hg
  have hE2 : ContDiffAt ℝ 2 E x := hE.of_le (by norm_num)
  have hF : ContDiffAt ℝ 3 (fun y => fderiv ℝ E y (unitAt a k)) x :=
    (hE.fderiv_right (m := 3) (by norm_num)).clm_apply contDiffAt_const
  have := approximates_deriv (contDiffAt_line hF (unitAt a' k'))
  rw [(hasDerivAt_along2 hE2 (unitAt a k) (unitAt a' k')).deriv] at this
  simp only [displaced_eq, force_eq, neg_neg]
  rw [hessian_eq hE2]
  exact this

/-- **C95** for damping parameters: central differences of an atom's energy approach the gradient
of the parameter. -/
theorem C95_param {positions : Tensor ℝ}
    (h : Call env T ext numbers positions charge p o n B R cn eeq P)
    (h1 : 0 ≤ P.a1) (h2 : 0 ≤ P.a2) (h12 : P.a1 ≠ 0 ∨ P.a2 ≠ 0) (name : ParName) (hb : InB B b)
    (i : Fin n) {E : ℝ → ℝ}
    (hE : ∀ v e, dftd4 env T ext numbers positions charge (p.assign name v) o = .ok e →
      E v = e.get (i.1 :: b)) :
    ∃ g, (paramGraph env T R P p o cn eeq numbers n positions charge name b i).back (P.get name) (.fin 1) =
        .fin g ∧
      Spec.Approximates (fun t => E (P.get name + t)) g := by
  obtain ⟨hd, hback⟩ := C51_gradient h h1 h2 h12 name hb i hE 1
  rw [one_mul] at hback
  refine ⟨_, hback, ?_⟩
  have hfun : (fun t => E (P.get name + t)) = fun t => paramValue env T R (.ofValues (Function.update P.get name
      (P.get name + t))) o cn eeq numbers n positions charge b i := by
    funext t
    obtain ⟨e, he, -, hv⟩ := (h.reads (h.par.assign name (P.get name + t))).eval
    rw [hE _ e he, hv b hb i]
    rfl
  have hsm : ContDiffAt ℝ 3 (fun t => E (P.get name + t)) 0 := by
    rw [hfun]
    have hu : ContDiffAt ℝ 3 (fun t : ℝ => Function.update P.get name (P.get name + t)) 0 := by
      refine contDiffAt_pi.2 fun m => ?_
      by_cases hm : m = name
      · subst hm
        simpa using contDiffAt_const.add contDiffAt_id
      · simpa [hm] using contDiffAt_const
    have h0 : Function.update P.get name (P.get name + 0) = P.get := by simp
    refine ContDiffAt.comp (0 : ℝ) (g := fun v => paramValue env T R (.ofValues v) o cn eeq numbers n
      positions charge b i) ?_ hu
    rw [h0]
    exact paramValue_contDiffAt h1 h2 h12 i
  have := approximates_deriv hsm
  rwa [deriv_comp_const_add, add_zero] at this

end

/-- **C95**: with energies precise to `η`, the step `η ^ (1/3)` yields derivatives precise to `(K + 1) η ^ (2/3)`. -/
theorem C95_step {f : ℝ → ℝ} {g : ℝ} (h : Spec.Approximates f g) :
    ∃ C η₀ : ℝ, 0 < η₀ ∧ ∀ η vp vm, 0 < η → η < η₀ → Spec.Measured f (η ^ (1 / 3 : ℝ)) η vp vm →
      |(vp - vm) / (2 * η ^ (1 / 3 : ℝ)) - g| ≤ C * η ^ (2 / 3 : ℝ) := by
  obtain ⟨K, δ, hK, hδ, hc⟩ := h
  refine ⟨K + 1, δ ^ 3, by positivity, fun η vp vm h0 hη hm => ?_⟩
  have ht : η ^ (1 / 3 : ℝ) < δ := by
    have := Real.rpow_lt_rpow h0.le hη (by norm_num : (0 : ℝ) < 1 / 3)
    rwa [← Real.rpow_natCast, ← Real.rpow_mul hδ.le, show ((3 : ℕ) : ℝ) * (1 / 3) = 1 by norm_num,
      Real.rpow_one] at this
  refine (hc _ η vp vm (Real.rpow_pos_of_pos h0 _) ht hm).trans (le_of_eq ?_)
  have e1 : (η ^ (1 / 3 : ℝ)) ^ 2 = η ^ (2 / 3 : ℝ) := by
    rw [← Real.rpow_natCast, ← Real.rpow_mul h0.le]
    norm_num
  have e2 : η / η ^ (1 / 3 : ℝ) = η ^ (2 / 3 : ℝ) := by
    conv_lhs => rw [← Real.rpow_one η, ← Real.rpow_mul h0.le, one_mul]
    rw [← Real.rpow_sub h0]
    norm_num
  rw [e1, e2]
  ring

section
variable {env : Env} {T : Tables} {ext : Ext} {numbers : Tensor ℕ} {n : ℕ}
  {positions : (Fin n → Spec.E3) → Tensor ℝ} {charge : Tensor ℝ} {p : Param} {o : DftOpts}
  {B : List ℕ} {R : RefCfg} {cn : Spec.CN} {eeq : Spec.EEQ} {P : Spec.D4Par} {b : List ℕ}
  {E : (Fin n → Spec.E3) → Fin n → ℝ} {x : Fin n → Spec.E3}

/-- **C95** fails at cutoffs: if a distance equals the two-body cutoff, central differences under dilation of the
system grow without bound as the step decreases, so that they approach no gradient whatever. -/
theorem C95_cutoff_false
    (h : AtomEnergies env T ext numbers positions charge p o B R cn eeq P b E)
    (hx : Continuable env T numbers positions charge o R cn eeq P b x)
    (h3 : ∀ i j, ¬ AtCutoff numbers b x (o.opts.cutoff.getD {}).disp3 i j) (h6 : 0 < P.s6) (h8 : 0 ≤ P.s8)
    (h10 : 0 ≤ P.s10) (hQ : ∀ i, 0 ≤ (system T cn eeq numbers (positions x) charge o.opts n b).Q i)
    {i j : Fin n} (hij : AtCutoff numbers b x (o.opts.cutoff.getD {}).disp2 i j)
    (hpi : T.Polarizable env R (elements numbers n b i))
    (hpj : T.Polarizable env R (elements numbers n b j)) :
    Tendsto (fun t : ℝ => (E (fun k => (1 + t) • x k) i - E (fun k => (1 - t) • x k) i) / (2 * t)) (𝓝[>] 0)
        atTop ∧
      ∀ g, ¬ Spec.Approximates (fun t => E (fun k => (1 + t) • x k) i) g := by
  obtain ⟨hJ, hout, -⟩ := C82_jump h hx h3 h6 h8 h10 hQ hij hpi hpj
  have hy : Tendsto (fun t : ℝ => fun k => (1 - t) • x k) (𝓝[>] 0) (𝓝 x) := by
    have : Continuous fun t : ℝ => fun k => (1 - t) • x k :=
      continuous_pi fun k => (continuous_const.sub continuous_id).smul continuous_const
    have := (this.tendsto 0).mono_left (nhdsWithin_le_nhds (s := Set.Ioi 0))
    simpa using this
  have hin : Tendsto (fun t : ℝ => E (fun k => (1 - t) • x k) i) (𝓝[>] 0) (𝓝 (E x i)) := by
    refine C82_inside h hx hy (fun i j hc => ?_) (fun i j hc => absurd hc (h3 i j)) i
    filter_upwards [Ioo_mem_nhdsGT (show (0 : ℝ) < 1 by norm_num)] with t ht
    have hd := hc.2.2.2
    rw [dist_smul₀, Real.norm_eq_abs, abs_of_pos (by linarith [ht.2]), hd]
    have : 0 ≤ (o.opts.cutoff.getD {}).disp2 := by rw [← hd]; exact dist_nonneg
    nlinarith [ht.1]
  have hlim := hout.sub hin
  rw [add_sub_cancel_left] at hlim
  have hinv : Tendsto (fun t : ℝ => (2 * t)⁻¹) (𝓝[>] 0) atTop := by
    have h2 : Tendsto (fun t : ℝ => 2⁻¹ * t⁻¹) (𝓝[>] 0) atTop :=
      tendsto_inv_nhdsGT_zero.const_mul_atTop (by norm_num)
    refine h2.congr fun t => ?_
    rw [mul_inv]
  have hdiv : Tendsto (fun t : ℝ => (E (fun k => (1 + t) • x k) i - E (fun k => (1 - t) • x k) i) / (2 * t))
      (𝓝[>] 0) atTop := by
    simp only [div_eq_mul_inv]
    exact hlim.pos_mul_atTop hJ hinv
  refine ⟨hdiv, fun g hg => ?_⟩
  obtain ⟨K, δ, hK, hδ, hc⟩ := hg
  have hbig := (hdiv.eventually (eventually_gt_atTop (|g| + K * δ ^ 2))).and
    (Ioo_mem_nhdsGT hδ)
  obtain ⟨t, ht, h0, h1⟩ := hbig.exists
  have hle := hc t 0 (E (fun k => (1 + t) • x k) i) (E (fun k => (1 - t) • x k) i) h0 h1
    ⟨by simp, by simp [sub_eq_add_neg]⟩
  have hsq : K * t ^ 2 ≤ K * δ ^ 2 :=
    mul_le_mul_of_nonneg_left (pow_le_pow_left₀ h0.le h1.le 2) hK
  rw [zero_div, add_zero] at hle
  have := (abs_le.1 hle).2
  linarith [le_abs_self g]

end

namespace Demo

theorem xHF_ne (i j : Fin 3) (hi : elements numbers 3 [1] i ≠ 0) (hj : elements numbers 3 [1] j ≠ 0)
    (hij : i ≠ j) : xHF i ≠ xHF j := fun he => by
  have := dist_xHF hi hj hij
  rw [he, dist_self] at this
  norm_num at this

/-- The derivatives of the energy of hydrogen fluoride obtained numerically, as in `examples/forces.py`. -/
example (a k) : ∃ g, positionsGrad env T .d4 par param {} cn eeq numbers charge positionsAt [1] xHF a k = .fin g ∧
    Spec.Approximates (fun t => totalHF (Spec.displaced xHF a k t)) g := by
  refine C95_forces totalEnergy rfl physical (by norm_num [RefCfg.d4]) pad_refc
    (by norm_num [par]) (by norm_num [par]) (Or.inl (by norm_num [par])) (fun i => cn_smooth xHF_ne i)
    (fun _ i => ?_) generic_HF (fun i hi => ?_) ?_ scaleBounded a k
  · unfold eeq
    exact contDiffAt_const
  · have : (system T cn eeq numbers (positionsAt xHF) charge {} 3 [1]).q i = 0 := by
      simp [system, eeq, hi]
    show (system T cn eeq numbers (positionsAt xHF) charge {} 3 [1]).q i + zeff 0 ≠ 1 / 2 ^ 52
    rw [this]
    norm_num [zeff]
  · show zeff 0 ≠ 1 / 2 ^ 52
    norm_num [zeff]

/-- Gradients near the geometry. -/
example : ∀ᶠ y in 𝓝 xHF, ∀ a k, positionsGrad env T .d4 par param {} cn eeq numbers charge positionsAt [1] y a k =
    .fin (-Spec.force totalHF y a k) := by
  refine C95_neighbourhood totalEnergy rfl physical (by norm_num [RefCfg.d4]) pad_refc
    (by norm_num [par]) (by norm_num [par]) (Or.inl (by norm_num [par])) (fun i => cn_smooth xHF_ne i)
    (fun _ i => ?_) generic_HF (fun i hi => ?_) ?_ scaleBounded
  · unfold eeq
    exact contDiffAt_const
  · have : (system T cn eeq numbers (positionsAt xHF) charge {} 3 [1]).q i = 0 := by
      simp [system, eeq, hi]
    show (system T cn eeq numbers (positionsAt xHF) charge {} 3 [1]).q i + zeff 0 ≠ 1 / 2 ^ 52
    rw [this]
    norm_num [zeff]
  · show zeff 0 ≠ 1 / 2 ^ 52
    norm_num [zeff]

example (a k a' k') : ∃ H G, positionsHess env T .d4 par param {} cn eeq numbers charge positionsAt [1] xHF a k a' k' =
    .fin H ∧ (∀ᶠ t in 𝓝 (0 : ℝ), positionsGrad env T .d4 par param {} cn eeq numbers charge positionsAt [1]
      (Spec.displaced xHF a' k' t) a k = .fin (G t)) ∧ Spec.Approximates G H := by
  refine C95_hessian totalEnergy rfl physical (by norm_num [RefCfg.d4]) pad_refc
    (by norm_num [par]) (by norm_num [par]) (Or.inl (by norm_num [par])) (fun i => cn_smooth xHF_ne i)
    (fun _ i => ?_) generic_HF (fun i hi => ?_) ?_ scaleBounded a k a' k'
  · unfold eeq
    exact contDiffAt_const
  · have : (system T cn eeq numbers (positionsAt xHF) charge {} 3 [1]).q i = 0 := by
      simp [system, eeq, hi]
    show (system T cn eeq numbers (positionsAt xHF) charge {} 3 [1]).q i + zeff 0 ≠ 1 / 2 ^ 52
    rw [this]
    norm_num [zeff]
  · show zeff 0 ≠ 1 / 2 ^ 52
    norm_num [zeff]

example := C95_step (C95_param call (by norm_num [par]) (by norm_num [par]) (Or.inl (by norm_num [par])) .a1
  (b := [1]) (by simp [InB]) 1 (E := energyA1) (fun v e he => by simp [energyA1, he])).choose_spec.2

/-- Hydrogen fluoride stretched to the two-body cutoff: no gradient is approached. -/
example : ∀ g, ¬ Spec.Approximates (fun t => atomHF (fun k => (1 + t) • stretched 60 k) 0) g := by
  refine (C95_cutoff_false atomEnergies (continuableHF _)
    (not_cut (by norm_num) (by norm_num [Defaults.disp3Cutoff])) (by norm_num [par]) (by norm_num [par])
    (by norm_num [par]) (fun i => ?_) (i := 0) (j := 1) ⟨by simp [elements, numbers],
      by simp [elements, numbers], by decide, ?_⟩ (shipped_polarizable ?_ ?_ ?_)
    (shipped_polarizable ?_ ?_ ?_)).2
  · exact Real.sqrt_nonneg _
  · exact dist_stretched (by norm_num) (by simp [elements, numbers]) (by simp [elements, numbers])
      (by decide)
  all_goals simp [elements, numbers]

end Demo

end TadDftd4
