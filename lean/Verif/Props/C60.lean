import Verif.Lemmas.AutogradCharge
import Verif.Lemmas.C6Charge
import Verif.Props.C19
import Verif.Props.C48

/-!
# C60: response of the energy to atomic charges

Atomic charges may be passed to `dftd4` (keyword `q`), and gradients with respect to them are wanted when
the charges come from another method that depends on the geometry.

* `C60_monotone`, `C60_strict`: withdrawing electrons makes the dispersion energy less negative, atom by atom;
* `C60_gradient_partial`: `charges.grad` after `energy.sum().backward()` is the derivative of the total
  energy, also when all Gaussian weights of an atom have underflown;
* `C60_gradient_nonneg`: it is not negative;
* `C60_padding`: it vanishes for padding atoms;
* `C60_gradient_nan`: it is NaN if the effective nuclear charge is not positive and the exponential in
  the unselected branch of the scaling function overflows; `C60_always_finite_false`: this happens for
  the hydride ion.
-/

set_option linter.unusedSimpArgs false

open scoped Classical Topology

namespace TadDftd4

open Tensor

/-- The keyword arguments with other charges. -/
def DftOpts.withQ (o : DftOpts) (q : Tensor ℝ) : DftOpts := { o with opts := { o.opts with q := some q } }

section
variable (env : Env) (T : Tables) (R : RefCfg) (P : Spec.D4Par) (p : Param) (o : DftOpts)
  (cn : Spec.CN) (eeq : Spec.EEQ) (numbers : Tensor ℕ) {n : ℕ} (charge : Tensor ℝ)
  (positions : Tensor ℝ) (b : Idx)

/-- System `b` as function of the charge of atom `a`, the only tensor that requires gradients.
Models src/tad_dftd4/dispersion/base.py:389-414. -/
noncomputable def chargeSys (q : Tensor ℝ) (a : Fin n) : GradSys n :=
  { GradSys.ofCurve fun y => system T cn eeq numbers positions charge
      (o.withQ (q.setAt (a.1 :: b) y)).opts n b with
    posGrad := false
    cnGrad := false
    qGrad := fun i => decide (i = a) }

/-- Entry of atom `a` of `charges.grad` after `energy.sum().backward()`.
Models src/tad_dftd4/dispersion/base.py:416-431. -/
noncomputable def chargesGrad (q : Tensor ℝ) (a : Fin n) : FP :=
  (Tape.sum n fun i => Tape.energy (gradCfg env T R P p (o.opts.cutoff.getD {}))
    (chargeSys T o cn eeq numbers charge positions b q a) (rc6At env T R.ga R.gc R.rq) i).back
      (q.get (a.1 :: b)) (.fin 1)

end

section
variable {env : Env} {T : Tables} {ext : Ext} {numbers : Tensor ℕ} {positions charge : Tensor ℝ}
  {p : Param} {o : DftOpts} {n : ℕ} {B : Shape} {b : Idx} {R : RefCfg} {cn : Spec.CN}
  {eeq : Spec.EEQ} {P : Spec.D4Par} {q q' : Tensor ℝ}

theorem Call.withQ (h : Call env T ext numbers positions charge p o n B R cn eeq P)
    (hq : q.Ok (n :: B)) : Call env T ext numbers positions charge p (o.withQ q) n B R cn eeq P where
  keys := h.keys
  args := { h.args with q := fun x hx => by cases hx; exact hq }
  model := h.model
  cn := h.cn
  eeq := h.eeq
  damping := h.damping
  par := h.par
  cut3 := h.cut3

theorem sameButCharges (q q' : Tensor ℝ) : SameButCharges
    (system T cn eeq numbers positions charge (o.withQ q).opts n b)
    (system T cn eeq numbers positions charge (o.withQ q').opts n b) := ⟨rfl, rfl, rfl, rfl⟩

/-! ## Monotonicity -/

/-- More positive charges of real atoms: no atomic energy is lowered. The smaller effective charges must
not lie between 0 and `eps`. -/
theorem C60_monotone (h : Call env T ext numbers positions charge p o n B R cn eeq P)
    (hq : q.Ok (n :: B)) (hq' : q'.Ok (n :: B)) (hT : T.Physical R.rq) (hga : 0 ≤ R.ga) (hgc : 0 < R.gc)
    (h6 : 0 ≤ P.s6) (h8 : 0 ≤ P.s8) (h10 : 0 ≤ P.s10) (hb : InB B b)
    (hQ : ∀ i : Fin n, numbers.get (i.1 :: b) ≠ 0 →
      0 ≤ (system T cn eeq numbers positions charge o.opts n b).Q i)
    (hle : ∀ i : Fin n, numbers.get (i.1 :: b) ≠ 0 → q.get (i.1 :: b) ≤ q'.get (i.1 :: b))
    (hg : ∀ i : Fin n, numbers.get (i.1 :: b) ≠ 0 →
      q.get (i.1 :: b) + T.zeff (numbers.get (i.1 :: b)) ≤ 0 ∨
      env.eps ≤ q.get (i.1 :: b) + T.zeff (numbers.get (i.1 :: b))) :
    ∃ e e', dftd4 env T ext numbers positions charge p (o.withQ q) = .ok e ∧
      dftd4 env T ext numbers positions charge p (o.withQ q') = .ok e' ∧
      ∀ i : Fin n, e.get (i.1 :: b) ≤ e'.get (i.1 :: b) := by
  obtain ⟨e, he, -, hv⟩ := (h.withQ hq).eval
  obtain ⟨e', he', -, hv'⟩ := (h.withQ hq').eval
  refine ⟨e, e', he, he', fun i => ?_⟩
  rw [hv b hb i, hv' b hb i]
  exact (energy_anti hT hga hgc h6 h8 h10 (sameButCharges q q')
    ((h.withQ hq).args.Z_lt (cn := cn) (eeq := eeq) hb) hQ hle hg i).1

/-- Strictly, for an atom that becomes more positive and has a partner within the cutoff (no
underflow). -/
theorem C60_strict (h : Call env T ext numbers positions charge p o n B R cn eeq P)
    (hq : q.Ok (n :: B)) (hq' : q'.Ok (n :: B)) (hT : T.Physical R.rq) (hga : 0 < R.ga) (hgc : 0 < R.gc)
    (h6 : 0 < P.s6) (h8 : 0 ≤ P.s8) (h10 : 0 ≤ P.s10) (hb : InB B b) (hfl : env.fl = id)
    (hQ : ∀ i : Fin n, numbers.get (i.1 :: b) ≠ 0 →
      0 ≤ (system T cn eeq numbers positions charge o.opts n b).Q i)
    (hle : ∀ i : Fin n, numbers.get (i.1 :: b) ≠ 0 → q.get (i.1 :: b) ≤ q'.get (i.1 :: b))
    (hg : ∀ i : Fin n, numbers.get (i.1 :: b) ≠ 0 →
      q.get (i.1 :: b) + T.zeff (numbers.get (i.1 :: b)) ≤ 0 ∨
      env.eps ≤ q.get (i.1 :: b) + T.zeff (numbers.get (i.1 :: b)))
    {a j : Fin n} (haj : a ≠ j) (ha : numbers.get (a.1 :: b) ≠ 0) (hj : numbers.get (j.1 :: b) ≠ 0)
    (hpa : T.Polarizable env R (numbers.get (a.1 :: b)))
    (hpj : T.Polarizable env R (numbers.get (j.1 :: b)))
    (hlt : q.get (a.1 :: b) < q'.get (a.1 :: b))
    (hz : env.eps < q.get (a.1 :: b) + T.zeff (numbers.get (a.1 :: b)))
    (hcut : (system T cn eeq numbers positions charge o.opts n b).r env.eps a j ≤
      (o.opts.cutoff.getD {}).disp2) :
    ∃ e e', dftd4 env T ext numbers positions charge p (o.withQ q) = .ok e ∧
      dftd4 env T ext numbers positions charge p (o.withQ q') = .ok e' ∧
      e.get (a.1 :: b) < e'.get (a.1 :: b) := by
  obtain ⟨e, he, -, hv⟩ := (h.withQ hq).eval
  obtain ⟨e', he', -, hv'⟩ := (h.withQ hq').eval
  refine ⟨e, e', he, he', ?_⟩
  rw [hv b hb a, hv' b hb a]
  exact (energy_anti hT hga.le hgc h6.le h8 h10 (sameButCharges q q')
    ((h.withQ hq).args.Z_lt (cn := cn) (eeq := eeq) hb) hQ hle hg a).2 hfl hga h6 ha hpa hz hlt j hj haj
      hpj hcut

/-! ## Gradients -/

theorem onlyCharge (a : Fin n) :
    Tape.OnlyCharge (chargeSys T o cn eeq numbers charge positions b q a) a where
  pos := rfl
  cn := rfl
  q i hi := by simp [chargeSys, hi]
  posC _ _ _ _ := rfl
  cnC _ _ _ := rfl
  qC i hi y y' := by
    have hne : (i.1 :: b) ≠ (a.1 :: b) := fun h => hi (Fin.ext (List.cons.inj h).1)
    show (q.setAt (a.1 :: b) y).get (i.1 :: b) = (q.setAt (a.1 :: b) y').get (i.1 :: b)
    rw [setAt_ne _ hne, setAt_ne _ hne]
  qa y := setAt_same q _ y

/-- `E y` is the total energy of system `b` if the charge of atom `a` is `y`. -/
def ChargeEnergy (env : Env) (T : Tables) (ext : Ext) (numbers : Tensor ℕ) (positions charge : Tensor ℝ)
    (p : Param) (o : DftOpts) (q : Tensor ℝ) {n : ℕ} (b : Idx) (a : Fin n) (E : ℝ → ℝ) : Prop :=
  ∀ y e, dftd4 env T ext numbers positions charge p (o.withQ (q.setAt (a.1 :: b) y)) = .ok e →
    E y = ∑ i : Fin n, e.get (i.1 :: b)

variable {a : Fin n} {E : ℝ → ℝ}

theorem ChargeEnergy.eval (h : Call env T ext numbers positions charge p o n B R cn eeq P)
    (hq : q.Ok (n :: B)) (hb : InB B b)
    (hE : ChargeEnergy env T ext numbers positions charge p o q b a E) (y : ℝ) :
    E y = ∑ i, Spec.energy (d4Computed env T R P (o.opts.cutoff.getD {}))
      (system T cn eeq numbers positions charge (o.withQ (q.setAt (a.1 :: b) y)).opts n b) i := by
  obtain ⟨e, he, -, hv⟩ := (h.withQ (hq.setAt (a.1 :: b) y)).eval
  rw [hE y e he]
  exact Finset.sum_congr rfl fun i _ => hv b hb i

/-- Where the charge scaling of all atoms is smooth and its inner exponential does not overflow. -/
structure ChargeRegular (env : Env) (T : Tables) (R : RefCfg) (P : Spec.D4Par) (numbers : Tensor ℕ)
    (q : Tensor ℝ) {n : ℕ} (b : Idx) (a : Fin n) : Prop where
  a1 : 0 ≤ P.a1
  a2 : 0 ≤ P.a2
  a12 : P.a1 ≠ 0 ∨ P.a2 ≠ 0
  wf : R.kind = .d4 → ∀ Z Z', 1 ≤ R.wf Z Z'
  scale : T.ScaleBounded env R
  pad : ∀ r < nref, T.refc 0 r = 0
  zeff : ∀ i : Fin n, numbers.get (i.1 :: b) ≠ 0 → env.eps < T.zeff (numbers.get (i.1 :: b))
  /-- other atoms -/
  others : ∀ i : Fin n, i ≠ a → numbers.get (i.1 :: b) ≠ 0 →
    q.get (i.1 :: b) + T.zeff (numbers.get (i.1 :: b)) ≤ 0 ∨
    env.eps < q.get (i.1 :: b) + T.zeff (numbers.get (i.1 :: b))
  /-- the atom itself: more than `eps`, or negative without overflow -/
  self : numbers.get (a.1 :: b) ≠ 0 →
    env.eps < q.get (a.1 :: b) + T.zeff (numbers.get (a.1 :: b)) ∨
    (q.get (a.1 :: b) + T.zeff (numbers.get (a.1 :: b)) < 0 ∧ ∀ r < nref,
      Real.exp (T.gam (numbers.get (a.1 :: b)) * R.gc *
        (1 - (refqAt T R.rq (numbers.get (a.1 :: b)) r + T.zeff (numbers.get (a.1 :: b))) /
          (q.get (a.1 :: b) + T.zeff (numbers.get (a.1 :: b)) - env.eps))) ≤ env.fmax)
  selfPad : numbers.get (a.1 :: b) = 0 → q.get (a.1 :: b) + T.zeff 0 ≠ env.eps

theorem ChargeRegular.chOk (h : Call env T ext numbers positions charge p o n B R cn eeq P)
    (hb : InB B b) (hr : ChargeRegular env T R P numbers q b a) :
    Tape.ChOk (gradCfg env T R P p (o.opts.cutoff.getD {}))
      (chargeSys T o cn eeq numbers charge positions b q a) a (q.get (a.1 :: b)) := by
  have hZ : ∀ i : Fin n, numbers.get (i.1 :: b) < T.nZ := h.args.Z_lt (cn := cn) (eeq := eeq) hb
  have hne : ∀ {Z r : ℕ}, r < nref → 0 < T.refc Z r → Z ≠ 0 := by
    intro Z r hr' hc hz
    rw [hz, hr.pad r hr'] at hc
    exact lt_irrefl _ hc
  have hev : ∀ (i : Fin n) (c : ℝ), (numbers.get (i.1 :: b) ≠ 0 →
      c + T.zeff (numbers.get (i.1 :: b)) ≤ 0 ∨ env.eps < c + T.zeff (numbers.get (i.1 :: b))) →
      Tape.EvOk (gradCfg env T R P p (o.opts.cutoff.getD {})) (numbers.get (i.1 :: b)) c := by
    intro i c hc r hr' hm
    have h0 := hne hr' hm
    have heps := env.eps_pos
    refine ⟨?_, fun hp => ?_⟩
    · rcases hc h0 with h1 | h1
      · exact ne_of_lt (lt_of_le_of_lt h1 heps)
      · exact h1.ne'
    · have h1 : env.eps < c + T.zeff (numbers.get (i.1 :: b)) := by
        rcases hc h0 with h1 | h1
        · exact absurd hp (not_lt.2 h1)
        · exact h1
      exact Tape.exp_scale_le (hr.scale.gam _ (hZ i)) (hr.scale.qref _ (hZ i) h0 r hr')
        (sub_pos.2 h1) (hr.scale.le _ (hZ i))
  have hself : Tape.ChargeOk (gradCfg env T R P p (o.opts.cutoff.getD {})) (numbers.get (a.1 :: b))
      (q.get (a.1 :: b)) := by
    by_cases h0 : numbers.get (a.1 :: b) = 0
    · exact (hr.scale.ok (hZ a)).charge (fun h => absurd h0 h) (fun _ => by
        show q.get (a.1 :: b) + T.zeff (numbers.get (a.1 :: b)) ≠ env.eps
        rw [h0]
        exact hr.selfPad h0)
    · rcases hr.self h0 with h1 | ⟨h1, h2⟩
      · exact (hr.scale.ok (hZ a)).charge (fun _ => h1) (fun h => absurd h h0)
      · exact ⟨ne_of_lt (h1.trans env.eps_pos), h2⟩
  exact {
    only := onlyCharge a
    pow := fun _ _ hk => Or.inl (hr.wf hk _ _)
    radii := gradRadii hr.a1 hr.a2 hr.a12
    neutral := fun i => hev i 0 fun h0 => Or.inr (by rw [zero_add]; exact hr.zeff i h0)
    others := fun i hi => by
      have hne : (i.1 :: b) ≠ (a.1 :: b) := fun h => hi (Fin.ext (List.cons.inj h).1)
      have e : (chargeSys T o cn eeq numbers charge positions b q a).qFn i (q.get (a.1 :: b)) =
          q.get (i.1 :: b) := setAt_ne q hne _
      rw [e]
      exact hev i _ (hr.others i hi)
    charge := hself
    sign := fun ⟨r, hr', hc⟩ => (hr.self (hne hr' hc)).imp id And.left
    scale := hr.scale.ok (hZ a)
    refc := hr.pad
    tracked := by simp [chargeSys] }

/-- The gradient is the derivative of the total energy, which exists; weights may underflow. Missing for
the full claim: effective charges from 0 to `eps`, and those for which an exponential overflows, where it
is wrong (`C60_gradient_nan`). -/
theorem C60_gradient_partial (h : Call env T ext numbers positions charge p o n B R cn eeq P)
    (hq : q.Ok (n :: B)) (hb : InB B b)
    (hE : ChargeEnergy env T ext numbers positions charge p o q b a E)
    (hr : ChargeRegular env T R P numbers q b a) :
    DifferentiableAt ℝ E (q.get (a.1 :: b)) ∧
    chargesGrad env T R P p o cn eeq numbers charge positions b q a =
      .fin (deriv E (q.get (a.1 :: b))) := by
  have hfine := Tape.Fine.sum fun i => (hr.chOk h hb).energy h.cut3 i
  have hfun : (fun y : ℝ => ∑ i, Spec.energy (gradCfg env T R P p (o.opts.cutoff.getD {})).S
      ((chargeSys T o cn eeq numbers charge positions b q a).mol y) i) = E := by
    funext y
    rw [hE.eval h hq hb y, gradCfg_S h.par]
    rfl
  rw [hfun] at hfine
  refine ⟨hfine.2.choose_spec.1.differentiableAt, ?_⟩
  have := hfine.back 1
  rw [one_mul] at this
  exact this

/-- It is not negative. -/
theorem C60_gradient_nonneg (h : Call env T ext numbers positions charge p o n B R cn eeq P)
    (hq : q.Ok (n :: B)) (hb : InB B b)
    (hE : ChargeEnergy env T ext numbers positions charge p o q b a E)
    (hr : ChargeRegular env T R P numbers q b a)
    (hT : T.Physical R.rq) (hga : 0 ≤ R.ga) (hgc : 0 < R.gc)
    (h6 : 0 ≤ P.s6) (h8 : 0 ≤ P.s8) (h10 : 0 ≤ P.s10)
    (hQ : ∀ i : Fin n, numbers.get (i.1 :: b) ≠ 0 →
      0 ≤ (system T cn eeq numbers positions charge o.opts n b).Q i) :
    ∃ g, chargesGrad env T R P p o cn eeq numbers charge positions b q a = .fin g ∧ 0 ≤ g := by
  obtain ⟨hd, hg⟩ := C60_gradient_partial h hq hb hE hr
  refine ⟨_, hg, ?_⟩
  have hmono : ∀ y, q.get (a.1 :: b) ≤ y → E (q.get (a.1 :: b)) ≤ E y := by
    intro y hy
    rw [hE.eval h hq hb, hE.eval h hq hb]
    refine Finset.sum_le_sum fun i _ => ?_
    have hZ : ∀ i : Fin n, numbers.get (i.1 :: b) < T.nZ := h.args.Z_lt (cn := cn) (eeq := eeq) hb
    refine (energy_anti hT hga hgc h6 h8 h10
      (sameButCharges (q.setAt (a.1 :: b) (q.get (a.1 :: b))) (q.setAt (a.1 :: b) y))
      hZ hQ ?_ ?_ i).1
    · intro j _
      show (q.setAt _ _).get (j.1 :: b) ≤ (q.setAt _ y).get (j.1 :: b)
      by_cases hj : j = a
      · rw [hj, setAt_same, setAt_same]
        exact hy
      · have hne : (j.1 :: b) ≠ (a.1 :: b) := fun h => hj (Fin.ext (List.cons.inj h).1)
        rw [setAt_ne _ hne, setAt_ne _ hne]
    · intro j hj0
      show OffGap env ((q.setAt _ _).get (j.1 :: b) + _)
      by_cases hj : j = a
      · subst hj
        rw [setAt_same]
        exact (hr.self hj0).symm.imp (fun h => h.1.le) le_of_lt
      · have hne : (j.1 :: b) ≠ (a.1 :: b) := fun h => hj (Fin.ext (List.cons.inj h).1)
        rw [setAt_ne _ hne]
        exact (hr.others j hj hj0).imp id le_of_lt
  by_contra hneg
  push Not at hneg
  have hlt := hd.hasDerivAt.hasDerivWithinAt (s := Set.Ioi (q.get (a.1 :: b)))
  have hslope := (hasDerivWithinAt_iff_tendsto_slope' (by simp)).1 hlt
  have hev := hslope.eventually_lt_const hneg
  obtain ⟨y, hy, hy'⟩ := (hev.and self_mem_nhdsWithin).exists
  have hyp : 0 < y - q.get (a.1 :: b) := sub_pos.2 hy'
  rw [slope_def_field, div_neg_iff] at hy
  have := hmono y (le_of_lt hy')
  rcases hy with h | h <;> linarith

/-- It vanishes for padding. -/
theorem C60_padding (h : Call env T ext numbers positions charge p o n B R cn eeq P)
    (hq : q.Ok (n :: B)) (hb : InB B b)
    (hr : ChargeRegular env T R P numbers q b a) (ha : numbers.get (a.1 :: b) = 0) :
    chargesGrad env T R P p o cn eeq numbers charge positions b q a = .fin 0 := by
  have hE : ChargeEnergy env T ext numbers positions charge p o q b a fun y =>
      ∑ i, Spec.energy (d4Computed env T R P (o.opts.cutoff.getD {}))
      (system T cn eeq numbers positions charge (o.withQ (q.setAt (a.1 :: b) y)).opts n b) i := by
    intro y e he
    obtain ⟨e', he', -, hv⟩ := (h.withQ (hq.setAt (a.1 :: b) y)).eval
    obtain rfl : e' = e := by
      rw [he] at he'
      cases he'
      rfl
    exact (Finset.sum_congr rfl fun i _ => hv b hb i).symm
  have hconst : (fun y : ℝ => ∑ i, Spec.energy (d4Computed env T R P (o.opts.cutoff.getD {}))
      (system T cn eeq numbers positions charge (o.withQ (q.setAt (a.1 :: b) y)).opts n b) i) =
      fun _ => ∑ i, Spec.energy (d4Computed env T R P (o.opts.cutoff.getD {}))
      (system T cn eeq numbers positions charge (o.withQ q).opts n b) i := by
    funext y
    refine Finset.sum_congr rfl fun i _ => energy_pad (sameButCharges _ _) (fun j hj => ?_) i
    have hne : (j.1 :: b) ≠ (a.1 :: b) := fun h => hj (by
      show numbers.get (j.1 :: b) = 0
      rw [h, ha])
    exact setAt_ne q hne y
  rw [(C60_gradient_partial h hq hb hE hr).2, hconst]
  simp

/-- NaN if the exponential in the branch that `torch.where` does not select overflows; energies are
computed nevertheless. -/
theorem C60_gradient_nan (h : Call env T ext numbers positions charge p o n B R cn eeq P)
    (hq : q.Ok (n :: B)) (hga : 0 < R.ga)
    (hz : q.get (a.1 :: b) + T.zeff (numbers.get (a.1 :: b)) ≤ 0) {r : ℕ} (hr : r < nref)
    (ho : env.fmax < Real.exp (T.gam (numbers.get (a.1 :: b)) * R.gc *
        (1 - (refqAt T R.rq (numbers.get (a.1 :: b)) r + T.zeff (numbers.get (a.1 :: b))) /
          (q.get (a.1 :: b) + T.zeff (numbers.get (a.1 :: b)) - env.eps)))) :
    (∃ e, dftd4 env T ext numbers positions charge p (o.withQ q) = .ok e) ∧
    chargesGrad env T R P p o cn eeq numbers charge positions b q a = .nan := by
  obtain ⟨e, he, -, -⟩ := (h.withQ hq).eval
  refine ⟨⟨e, he⟩, ?_⟩
  set G := gradCfg env T R P p (o.opts.cutoff.getD {}) with hG
  set X := chargeSys T o cn eeq numbers charge positions b q a with hX
  have hqa : (X.q a).eval (q.get (a.1 :: b)) = .fin (q.get (a.1 :: b)) := by
    have : X.qFn a (q.get (a.1 :: b)) = q.get (a.1 :: b) := setAt_same q _ _
    simp [GradSys.q, Tape.input, hX, chargeSys, Tape.eval]
    exact this
  have hzeta : Tape.Bad (Tape.zeta G (G.T.gam (X.Z a) * G.gc) (refqAt G.T G.rq (X.Z a) r + G.T.zeff (X.Z a))
      (.add (X.q a) (.const (G.T.zeff (X.Z a))))) (q.get (a.1 :: b)) := by
    refine Tape.zeta_bad (c := q.get (a.1 :: b) + T.zeff (numbers.get (a.1 :: b))) ?_ hz hga ho ?_
    · rw [Tape.eval, hqa]
      rfl
    · have : (X.q a).back (q.get (a.1 :: b)) .nan = .nan := by
        simp [GradSys.q, Tape.input, hX, chargeSys, Tape.back, FP.mul]
      rw [Tape.back, this]
      rfl
  have hw : Tape.Bad (Tape.weight G (G.wf (X.Z a) (X.Z a)) (X.Z a) r (X.cn a) (X.q a))
      (q.get (a.1 :: b)) := by
    refine Tape.Bad.mul_left fun g => ?_
    rw [Tape.back]
    exact (congrArg (FP.add · _) (hzeta _)).trans rfl
  have hC : Tape.Bad (Tape.c6 G X (rc6At env T R.ga R.gc R.rq) X.q a a) (q.get (a.1 :: b)) :=
    Tape.Bad.sum ⟨r, hr⟩ (Tape.Bad.sum ⟨r, hr⟩ hw.mul_left.mul_right)
  have h6 : Tape.Bad (Tape.sum n fun j => Tape.mul (Tape.c6 G X (rc6At env T R.ga R.gc R.rq) X.q a j)
      (Tape.damped G X 6 a j)) (q.get (a.1 :: b)) := Tape.Bad.sum a hC.mul_left
  refine Tape.Bad.sum a (Tape.Bad.add_left (Tape.Bad.add_right ?_)) _
  unfold Tape.twoBody
  cases G.s10 with
  | none => exact h6.mul_right.add_left.mul_right
  | some s => exact h6.mul_right.add_left.add_left.mul_right

end

/-! ## Concrete cases -/

namespace Demo

/-- The charges of hydrogen fluoride, charge `x` on hydrogen, and neutral water. -/
noncomputable def qHF (x : ℝ) : Tensor ℝ := ⟨none, [3, 2], fun
  | [1, 1] => x
  | _ => 0⟩

theorem qHF_ok (x : ℝ) : (qHF x).Ok [3, 2] := ⟨rfl, rfl⟩

noncomputable def energyHF (y : ℝ) : ℝ :=
  match dftd4 env T ext numbers positions charge param
    (({} : DftOpts).withQ ((qHF (1 / 10)).setAt [1, 1] y)) with
  | .ok e => ∑ i : Fin 3, e.get [i.1, 1]
  | .error _ => 0

theorem chargeEnergy : ChargeEnergy env T ext numbers positions charge param {} (qHF (1 / 10)) [1]
    (1 : Fin 3) energyHF := by
  intro y e he
  have he' : dftd4 env T ext numbers positions charge param
      (({} : DftOpts).withQ ((qHF (1 / 10)).setAt [1, 1] y)) = .ok e := he
  simp only [energyHF, he']

theorem zeff_gt {Z : ℕ} (h : Z ≠ 0) : env.eps < T.zeff Z := by
  have h1 : (1 : ℝ) ≤ Z := by exact_mod_cast Nat.one_le_iff_ne_zero.2 h
  have h2 : (1 / 2 ^ 52 : ℝ) < 1 := by norm_num
  exact lt_of_lt_of_le h2 h1

theorem qHF_nonneg {x : ℝ} (hx : 0 ≤ x) (i : Idx) : 0 ≤ (qHF x).get i := by
  unfold qHF
  dsimp only
  split <;> simp [hx]

theorem qHF_gt {x : ℝ} (hx : 0 ≤ x) (i : Idx) {Z : ℕ} (h : Z ≠ 0) : env.eps < (qHF x).get i + T.zeff Z :=
  lt_of_lt_of_le (zeff_gt h) (le_add_of_nonneg_left (qHF_nonneg hx i))

theorem chargeRegular (a : Fin 3) :
    ChargeRegular env T .d4 par numbers (qHF (1 / 10)) [1] a where
  a1 := by norm_num [par]
  a2 := by norm_num [par]
  a12 := Or.inl (by norm_num [par])
  wf _ _ _ := by norm_num [RefCfg.d4]
  scale := scaleBounded
  pad := pad_refc
  zeff _ h := zeff_gt h
  others _ _ h := Or.inr (qHF_gt (by norm_num) _ h)
  self h := Or.inl (qHF_gt (by norm_num) _ h)
  selfPad h := by
    have ha : (qHF (1 / 10)).get [a.1, 1] = 0 := by
      fin_cases a
      · rfl
      · exact absurd h (by decide)
      · rfl
    rw [ha]
    show (0 : ℝ) + zeff 0 ≠ 1 / 2 ^ 52
    norm_num [zeff]

theorem Q_nonneg (i : Fin 3) : numbers.get [i.1, 1] ≠ 0 →
    0 ≤ (system T cn eeq numbers positions charge {} 3 [1]).Q i := fun h =>
  (shipped_r4r2_pos (nExt := 119) (gam := gam) (zeff := zeff) (vdw := fun _ _ => 3)
    (Nat.pos_of_ne_zero h) ((numbers_lt [i.1, 1]).trans (by norm_num))).le

/-- The derivative with respect to the charge of hydrogen in hydrogen fluoride. -/
example : ∃ g, chargesGrad env T .d4 par param {} cn eeq numbers charge positions [1] (qHF (1 / 10))
    (1 : Fin 3) = .fin g ∧ g = deriv energyHF (1 / 10) ∧ 0 ≤ g := by
  obtain ⟨g, h1, h2⟩ := C60_gradient_nonneg call (qHF_ok _) (by simp [InB]) chargeEnergy (chargeRegular 1)
    physical (by norm_num [RefCfg.d4]) (by norm_num [RefCfg.d4]) (by norm_num [par]) (by norm_num [par])
    (by norm_num [par]) Q_nonneg
  have h3 := (C60_gradient_partial call (qHF_ok _) (by simp [InB]) chargeEnergy (chargeRegular 1)).2
  refine ⟨g, h1, ?_, h2⟩
  rw [h3] at h1
  exact (FP.fin.inj h1).symm

/-- Its padding atom. -/
example : chargesGrad env T .d4 par param {} cn eeq numbers charge positions [1] (qHF (1 / 10))
    (2 : Fin 3) = .fin 0 :=
  C60_padding call (qHF_ok _) (by simp [InB]) (chargeRegular 2) rfl

/-- More charge on hydrogen: less dispersion energy. -/
example : ∃ e e', dftd4 env T ext numbers positions charge param (({} : DftOpts).withQ (qHF 0)) = .ok e ∧
    dftd4 env T ext numbers positions charge param (({} : DftOpts).withQ (qHF (1 / 10))) = .ok e' ∧
    ∀ i : Fin 3, e.get [i.1, 1] ≤ e'.get [i.1, 1] :=
  C60_monotone call (qHF_ok _) (qHF_ok _) physical (by norm_num [RefCfg.d4]) (by norm_num [RefCfg.d4])
    (by norm_num [par]) (by norm_num [par]) (by norm_num [par]) (by simp [InB]) Q_nonneg
    (fun i _ => by
      fin_cases i
      · exact le_rfl
      · show (0 : ℝ) ≤ 1 / 10
        norm_num
      · exact le_rfl)
    (fun i h => Or.inr (qHF_gt le_rfl _ h).le)

example : ∃ e e', dftd4 env T ext numbers positions charge param (({} : DftOpts).withQ (qHF 0)) = .ok e ∧
    dftd4 env T ext numbers positions charge param (({} : DftOpts).withQ (qHF (1 / 10))) = .ok e' ∧
    e.get [1, 1] < e'.get [1, 1] := by
  refine C60_strict (a := (1 : Fin 3)) (j := (0 : Fin 3)) call (qHF_ok _) (qHF_ok _) physical
    (by norm_num [RefCfg.d4]) (by norm_num [RefCfg.d4])
    (by norm_num [par]) (by norm_num [par]) (by norm_num [par]) (by simp [InB]) rfl Q_nonneg
    (fun i _ => by
      fin_cases i
      · exact le_rfl
      · show (0 : ℝ) ≤ 1 / 10
        norm_num
      · exact le_rfl)
    (fun i h => Or.inr (qHF_gt le_rfl _ h).le) (by decide) (by decide) (by decide)
    (shipped_polarizable (Z := 1) (by norm_num) (by norm_num) (by norm_num))
    (shipped_polarizable (Z := 9) (by norm_num) (by norm_num) (by norm_num)) ?_
    (qHF_gt le_rfl _ (by decide)) ?_
  · show (0 : ℝ) < 1 / 10
    norm_num
  · have hd : dist (coords positions 3 [1] 1) (coords positions 3 [1] 0) ≤ 60 := by
      rw [EuclideanSpace.dist_eq, Real.sqrt_le_left (by norm_num)]
      simp [coords, positions, Fin.sum_univ_three, Real.dist_eq]
      norm_num
    show √(max (dist (coords positions 3 [1] 1) (coords positions 3 [1] 0) ^ 2) (1 / 2 ^ 52)) ≤ 60
    rw [Real.sqrt_le_left (by norm_num)]
    exact max_le (pow_le_pow_left₀ dist_nonneg hd 2) (by norm_num)

/-- A hydride ion next to fluorine: energies, but no gradient. -/
theorem nan_hydride : (∃ e, dftd4 env T ext numbers positions charge param
      (({} : DftOpts).withQ (qHF (-1))) = .ok e) ∧
    chargesGrad env T .d4 par param {} cn eeq numbers charge positions [1] (qHF (-1)) (1 : Fin 3) = .nan := by
  refine C60_gradient_nan call (qHF_ok _) (by norm_num [RefCfg.d4]) ?_ (r := 0) (by norm_num) ?_
  · show (-1 : ℝ) + ((1 : ℕ) : ℝ) ≤ 0
    norm_num
  · have hq : refqAt T RefCfg.d4.rq 1 0 = 0 := by
      show ((at2 Data.eeqQ 1 0 : ℤ) : ℝ) / 10 ^ 14 = 0
      have : at2 Data.eeqQ 1 0 = 0 := by decide +kernel
      rw [this]
      simp
    show (10 : ℝ) ^ 308 < Real.exp (1 / 2 * 2 * (1 - (refqAt T RefCfg.d4.rq 1 0 + ((1 : ℕ) : ℝ)) /
      ((-1 : ℝ) + ((1 : ℕ) : ℝ) - 1 / 2 ^ 52)))
    rw [hq]
    have h1 : Real.exp ((1400 : ℕ) : ℝ) ≤ Real.exp (1 / 2 * 2 * (1 - (0 + ((1 : ℕ) : ℝ)) /
        ((-1 : ℝ) + ((1 : ℕ) : ℝ) - 1 / 2 ^ 52))) := by
      refine Real.exp_le_exp.2 ?_
      norm_num
    refine lt_of_lt_of_le ?_ h1
    have h2 : (2 : ℝ) ≤ Real.exp 1 := by
      have := Real.add_one_le_exp (1 : ℝ)
      linarith
    have h3 : Real.exp ((1400 : ℕ) : ℝ) = Real.exp 1 ^ 1400 := by
      rw [← Real.exp_nat_mul, mul_one]
    rw [h3]
    calc (10 : ℝ) ^ 308 ≤ (2 ^ 4) ^ 308 := pow_le_pow_left₀ (by norm_num) (by norm_num) _
      _ = 2 ^ 1232 := by rw [← pow_mul]
      _ < 2 ^ 1400 := pow_lt_pow_right₀ (by norm_num) (by norm_num)
      _ ≤ Real.exp 1 ^ 1400 := pow_le_pow_left₀ (by norm_num) h2 _

end Demo

/-- The claim that gradients with respect to charges are numbers is false, even for the shipped tables
and without underflow. -/
theorem C60_always_finite_false : ¬ ∀ (env : Env) (T : Tables) (ext : Ext) (numbers : Tensor ℕ)
    (positions charge : Tensor ℝ) (p : Param) (o : DftOpts) (n : ℕ) (B : Shape) (R : RefCfg) (cn : Spec.CN)
    (eeq : Spec.EEQ) (P : Spec.D4Par) (q : Tensor ℝ) (b : Idx) (a : Fin n),
    Call env T ext numbers positions charge p o n B R cn eeq P → q.Ok (n :: B) → InB B b →
    env.fl = id → T.Physical R.rq → T.ScaleBounded env R → 0 < P.a1 → 0 < P.a2 →
    ∃ g, chargesGrad env T R P p o cn eeq numbers charge positions b q a = .fin g := by
  intro hall
  obtain ⟨g, hg⟩ := hall Demo.env Demo.T Demo.ext Demo.numbers Demo.positions Demo.charge Demo.param {} 3
    [2] .d4 Demo.cn Demo.eeq Demo.par (Demo.qHF (-1)) [1] 1 Demo.call (Demo.qHF_ok _) (by simp [InB]) rfl
    Demo.physical Demo.scaleBounded (by norm_num [Demo.par]) (by norm_num [Demo.par])
  rw [Demo.nan_hydride.2] at hg
  cases hg

end TadDftd4
