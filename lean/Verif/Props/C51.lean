import Verif.Lemmas.AutogradParam
import Verif.Props.C48

/-!
# C51: gradients with respect to damping parameters

Fits of damping parameters differentiate a loss function of the energies with respect to `s6`, `s8`, `s10`,
`s9`, `a1`, `a2` or `alp`. The graph recorded for the energy of an atom and the backward pass through it are
modelled in `Model/AutogradParam.lean`.

* `C51_forward`: the forward pass yields the energies `dftd4` returns;
* `C51_gradient`: back-propagation yields the derivative of the returned energy, for every parameter, atom,
  system of the batch and incoming gradient, wherever the atoms are;
* `C51_loss`: the same for every weighted sum of energies (and thereby, with the derivatives of the loss as
  weights, for the gradient of any loss);
* `C51_smooth`: the energies are arbitrarily often differentiable in all seven parameters together.
-/

set_option linter.unusedSimpArgs false

open scoped Classical Topology

namespace TadDftd4

open Tensor

/-- Names of the damping parameters of DFT-D4. -/
inductive ParName | s6 | s8 | s10 | s9 | a1 | a2 | alp
deriving DecidableEq

instance : Fintype ParName :=
  ⟨{ParName.s6, ParName.s8, ParName.s10, ParName.s9, ParName.a1, ParName.a2, ParName.alp},
    fun x => by cases x <;> simp⟩

namespace Spec

/-- Value of a parameter. -/
def D4Par.get (P : D4Par) : ParName → ℝ
  | .s6 => P.s6
  | .s8 => P.s8
  | .s10 => P.s10
  | .s9 => P.s9
  | .a1 => P.a1
  | .a2 => P.a2
  | .alp => P.alp

/-- Parameters with these values. -/
def D4Par.ofValues (v : ParName → ℝ) : D4Par :=
  ⟨v .s6, v .s8, v .s10, v .s9, v .a1, v .a2, v .alp⟩

end Spec

/-- `param[name] = v` -/
def Param.assign (p : Param) (name : ParName) (v : ℝ) : Param :=
  match name with
  | .s6 => { p with s6 := .val v }
  | .s8 => { p with s8 := .val v }
  | .s10 => { p with s10 := .val v }
  | .s9 => { p with s9 := .val v }
  | .a1 => { p with a1 := .val v }
  | .a2 => { p with a2 := .val v }
  | .alp => { p with alp := .val v }

/-- A parameter dictionary with all seven entries. -/
def Param.ofValues (v : ParName → ℝ) : Param where
  s6 := .val (v .s6)
  s8 := .val (v .s8)
  s10 := .val (v .s10)
  s9 := .val (v .s9)
  a1 := .val (v .a1)
  a2 := .val (v .a2)
  alp := .val (v .alp)

namespace Spec

theorem D4Par.get_update (P : D4Par) (name : ParName) :
    D4Par.ofValues (Function.update P.get name (P.get name)) = P := by
  rw [Function.update_eq_self]
  rfl

end Spec

/-- The leaves of the graph: the named parameter is the variable, the others are constants. `s10` only is in
the graph if it is in the dictionary. -/
noncomputable def parCurve (P : Spec.D4Par) (p : Param) (name : ParName) : ParCurve where
  s6 y := Function.update P.get name y .s6
  s8 y := Function.update P.get name y .s8
  s10 := match (p.assign name 0).s10 with
    | .val _ => some fun y => Function.update P.get name y .s10
    | _ => none
  s9 y := Function.update P.get name y .s9
  a1 y := Function.update P.get name y .a1
  a2 y := Function.update P.get name y .a2
  alp y := Function.update P.get name y .alp

section
variable (env : Env) (T : Tables) (R : RefCfg) (P : Spec.D4Par) (p : Param) (o : DftOpts)
  (cn : Spec.CN) (eeq : Spec.EEQ) (numbers : Tensor ℕ) (n : ℕ) (positions charge : Tensor ℝ)

/-- The graph of the energy of atom `i` of system `b`, with the parameter `name` as the variable.
Models src/tad_dftd4/dispersion/base.py:416-431. -/
noncomputable def paramGraph (name : ParName) (b : Idx) (i : Fin n) : Tape :=
  let G := gradCfg env T R P p (o.opts.cutoff.getD {})
  Tape.Par.energy env G.cut2 (parCurve P p name)
    (parSys G (.ofCurve fun _ => system T cn eeq numbers positions charge o.opts n b)) i

end

section
variable {env : Env} {T : Tables} {ext : Ext} {numbers : Tensor ℕ} {positions charge : Tensor ℝ}
  {p : Param} {o : DftOpts} {n : ℕ} {B : Shape} {b : Idx} {R : RefCfg} {cn : Spec.CN} {eeq : Spec.EEQ}
  {P : Spec.D4Par}

theorem Param.Reads.assign (h : p.Reads P) (name : ParName) (v : ℝ) :
    (p.assign name v).Reads (.ofValues (Function.update P.get name v)) := by
  obtain ⟨h1, h2, h3, h4, h5, h6, h7, h8⟩ := h
  cases name <;> constructor <;>
    simp_all [Param.assign, Spec.D4Par.ofValues, Spec.D4Par.get, Function.update]

theorem Param.Reads.ofValues (v : ParName → ℝ) : (Param.ofValues v).Reads (.ofValues v) := by
  constructor <;> simp [Param.ofValues, Spec.D4Par.ofValues]

/-- A call with another parameter dictionary. -/
theorem Call.reads (h : Call env T ext numbers positions charge p o n B R cn eeq P) {p' : Param}
    {P' : Spec.D4Par} (hp : p'.Reads P') : Call env T ext numbers positions charge p' o n B R cn eeq P' :=
  { h with par := hp }

theorem parCurve_at (hp : p.Reads P) (name : ParName) (y : ℝ) {cutoff : Cutoff} :
    (parCurve P p name).at (gradCfg env T R P p cutoff) y =
      gradCfg env T R (.ofValues (Function.update P.get name y)) (p.assign name y) cutoff := by
  rcases hp.s10 with hs | ⟨hs, -⟩ <;> cases name <;>
    simp [ParCurve.at, parCurve, gradCfg, Param.assign, Spec.D4Par.ofValues, Spec.D4Par.get, hs,
      Function.update]

/-- The value of the graph. -/
noncomputable def paramValue (env : Env) (T : Tables) (R : RefCfg) (P : Spec.D4Par) (o : DftOpts)
    (cn : Spec.CN) (eeq : Spec.EEQ) (numbers : Tensor ℕ) (n : ℕ) (positions charge : Tensor ℝ)
    (b : Idx) (i : Fin n) : ℝ :=
  Spec.energy (d4Computed env T R P (o.opts.cutoff.getD {}))
    (system T cn eeq numbers positions charge o.opts n b) i

theorem paramGraph_fine (hp : p.Reads P) (hcut : 0 ≤ (o.opts.cutoff.getD {}).disp3)
    (h1 : 0 ≤ P.a1) (h2 : 0 ≤ P.a2) (h12 : P.a1 ≠ 0 ∨ P.a2 ≠ 0) (name : ParName) (i : Fin n) :
    Tape.Fine (paramGraph env T R P p o cn eeq numbers n positions charge name b i)
      (fun v => paramValue env T R (.ofValues (Function.update P.get name v)) o cn eeq numbers n positions
        charge b i) (P.get name) := by
  set G := gradCfg env T R P p (o.opts.cutoff.getD {}) with hG
  set M := system T cn eeq numbers positions charge o.opts n b with hM
  have hupd : Function.update P.get name (P.get name) = P.get := by simp
  have hdiff : ∀ m, DifferentiableAt ℝ (fun y => Function.update P.get name y m) (P.get name) := by
    intro m
    by_cases hm : m = name
    · subst hm
      simp [Function.update]
    · simp [Function.update, hm]
  have hd : ∀ i j, 0 < Tape.dV G (.ofCurve fun _ => M) i j 0 := fun i j => Tape.dV_pos i j 0
  have hr : ∀ i j, 0 < Tape.Par.radP env (parCurve P p name) (parSys G (.ofCurve fun _ => M)) i j
      (P.get name) := by
    intro i j
    have := gradRadii (env := env) (T := T) (R := R) (p := p) (cutoff := o.opts.cutoff.getD {})
      (X := .ofCurve fun _ => M) h1 h2 h12 i j
    show 0 < Function.update P.get name (P.get name) .a1 * _ +
      Function.update P.get name (P.get name) .a2
    rw [hupd]
    exact this
  have hok : Tape.Par.Ok env (parCurve P p name) (parSys G (.ofCurve fun _ => M)) (P.get name) :=
    { s6 := hdiff .s6, s8 := hdiff .s8, s9 := hdiff .s9, a1 := hdiff .a1, a2 := hdiff .a2
      alp := hdiff .alp, dist := hd, radii := hr
      s10 := by
        intro s hs
        unfold parCurve at hs
        simp only at hs
        split at hs
        · cases hs
          exact hdiff .s10
        · cases hs }
  have := Tape.Par.fine_energy (cut2 := G.cut2) hok i
  have heq : (fun y => 0 + Tape.Par.e2P G.cut2 (parCurve P p name) (parSys G (.ofCurve fun _ => M)) i y +
      Tape.Par.e3P env (parCurve P p name) (parSys G (.ofCurve fun _ => M)) i y) =
      fun v => paramValue env T R (.ofValues (Function.update P.get name v)) o cn eeq numbers n positions
        charge b i := by
    funext y
    have h := Tape.Par.energyP_eq (F := parCurve P p name) (G := G) (X := .ofCurve fun _ => M) hcut i y
    rw [hG, parCurve_at hp, gradCfg_S (hp.assign name y), ← hG] at h
    rw [show env = G.env from rfl, h]
    rfl
  rw [heq] at this
  exact this

/-- **C51**, forward pass: the value of the graph is the energy `dftd4` returns. -/
theorem C51_forward (h : Call env T ext numbers positions charge p o n B R cn eeq P)
    (h1 : 0 ≤ P.a1) (h2 : 0 ≤ P.a2) (h12 : P.a1 ≠ 0 ∨ P.a2 ≠ 0) (name : ParName) :
    ∃ e, dftd4 env T ext numbers positions charge p o = .ok e ∧ e.Ok (n :: B) ∧
      ∀ b, InB B b → ∀ i : Fin n,
        (paramGraph env T R P p o cn eeq numbers n positions charge name b i).eval (P.get name) =
          .fin (e.get (i.1 :: b)) := by
  obtain ⟨e, he, hok, hv⟩ := h.eval
  refine ⟨e, he, hok, fun b hb i => ?_⟩
  rw [(paramGraph_fine h.par h.cut3 h1 h2 h12 name i).eval, hv b hb i, Spec.D4Par.get_update]
  rfl

/-- **C51**: if `E v` is the energy of atom `i` of system `b` returned by `dftd4` after `param[name] = v`,
then `E` is differentiable, and back-propagation of an incoming gradient `g` yields `g * E'`. Nothing is assumed
of the geometry, nor that exponentials do not underflow. -/
theorem C51_gradient (h : Call env T ext numbers positions charge p o n B R cn eeq P)
    (h1 : 0 ≤ P.a1) (h2 : 0 ≤ P.a2) (h12 : P.a1 ≠ 0 ∨ P.a2 ≠ 0) (name : ParName) (hb : InB B b)
    (i : Fin n) {E : ℝ → ℝ}
    (hE : ∀ v e, dftd4 env T ext numbers positions charge (p.assign name v) o = .ok e →
      E v = e.get (i.1 :: b)) (g : ℝ) :
    DifferentiableAt ℝ E (P.get name) ∧
      (paramGraph env T R P p o cn eeq numbers n positions charge name b i).back (P.get name) (.fin g) =
        .fin (g * deriv E (P.get name)) := by
  have hfun : E = fun v => paramValue env T R (.ofValues (Function.update P.get name v)) o cn eeq numbers n
      positions charge b i := by
    funext v
    obtain ⟨e, he, -, hv⟩ := (h.reads (h.par.assign name v)).eval
    rw [hE v e he, hv b hb i]
    rfl
  have hf := paramGraph_fine (env := env) (T := T) (R := R) (cn := cn) (eeq := eeq) (numbers := numbers)
    (positions := positions) (charge := charge) (b := b) h.par h.cut3 h1 h2 h12 name i
  rw [hfun]
  exact ⟨hf.differentiableAt, hf.back g⟩

/-- **C51** for weighted sums of energies of any atoms of any systems. -/
theorem C51_loss (h : Call env T ext numbers positions charge p o n B R cn eeq P)
    (h1 : 0 ≤ P.a1) (h2 : 0 ≤ P.a2) (h12 : P.a1 ≠ 0 ∨ P.a2 ≠ 0) (name : ParName) {m : ℕ}
    (atom : Fin m → Fin n) (sys : Fin m → Idx) (hb : ∀ k, InB B (sys k)) (w : Fin m → ℝ) {L : ℝ → ℝ}
    (hL : ∀ v e, dftd4 env T ext numbers positions charge (p.assign name v) o = .ok e →
      L v = ∑ k, w k * e.get ((atom k).1 :: sys k)) :
    (Tape.sum m fun k => .mul (.const (w k))
        (paramGraph env T R P p o cn eeq numbers n positions charge name (sys k) (atom k))).back
      (P.get name) (.fin 1) = .fin (deriv L (P.get name)) := by
  have hfun : L = fun v => ∑ k, w k * paramValue env T R (.ofValues (Function.update P.get name v)) o cn eeq
      numbers n positions charge (sys k) (atom k) := by
    funext v
    obtain ⟨e, he, -, hv⟩ := (h.reads (h.par.assign name v)).eval
    rw [hL v e he]
    refine Finset.sum_congr rfl fun k _ => ?_
    rw [hv _ (hb k) (atom k)]
    rfl
  have hf := Tape.Fine.sum (x := P.get name) fun k : Fin m => (Tape.Fine.const (c := w k)).mul
    (paramGraph_fine (env := env) (T := T) (R := R) (cn := cn) (eeq := eeq) (numbers := numbers)
      (positions := positions) (charge := charge) (b := sys k) h.par h.cut3 h1 h2 h12 name (atom k))
  rw [hfun, hf.back, one_mul]

/-! ## All parameters together -/

section
variable {m : ℕ∞} {c ε : ℝ} {S : (ParName → ℝ) → Spec.Settings} {M : Spec.Mol n} {v : ParName → ℝ}

theorem contDiffAt_par (name : ParName) : ContDiffAt ℝ m (fun v : ParName → ℝ => v name) v :=
  (contDiff_apply ℝ ℝ name).contDiffAt

theorem contDiffAt_damp {r x : ℝ} (hr : 0 < r) {k : ℕ} (hk : Even k) :
    ContDiffAt ℝ m (fun v : ParName → ℝ => 1 / (r ^ k + (v .a1 * √x + v .a2) ^ k)) v :=
  contDiffAt_const.div (contDiffAt_const.add ((((contDiffAt_par .a1).mul contDiffAt_const).add
    (contDiffAt_par .a2)).pow k)) (add_pos_of_pos_of_nonneg (pow_pos hr k) (hk.pow_nonneg _)).ne'

theorem paramValue_contDiffAt (h1 : 0 ≤ v .a1) (h2 : 0 ≤ v .a2) (h12 : v .a1 ≠ 0 ∨ v .a2 ≠ 0)
    (i : Fin n) : ContDiffAt ℝ m (fun v => paramValue env T R (.ofValues v) o cn eeq numbers n positions
      charge b i) v := by
  obtain ⟨M, hM⟩ : ∃ M, M = system T cn eeq numbers positions charge o.opts n b := ⟨_, rfl⟩
  have hr : ∀ i j, 0 < M.r env.eps i j := fun i j => Spec.Mol.r_pos env.eps_pos M i j
  have hR : ∀ i j, 0 < v .a1 * Spec.rsqrt env.eps (3 * M.Q i * M.Q j) + v .a2 := by
    intro i j
    have hs : 0 < Spec.rsqrt env.eps (3 * M.Q i * M.Q j) :=
      Real.sqrt_pos.2 (lt_max_of_lt_right env.eps_pos)
    rcases h12 with h | h
    · have := lt_of_le_of_ne h1 h.symm
      positivity
    · have := lt_of_le_of_ne h2 h.symm
      positivity
  have hR0 : ∀ i j, ContDiffAt ℝ m (fun v : ParName → ℝ =>
      v .a1 * Spec.rsqrt env.eps (3 * M.Q i * M.Q j) + v .a2) v := fun i j =>
    ((contDiffAt_par .a1).mul contDiffAt_const).add (contDiffAt_par .a2)
  unfold paramValue
  rw [← hM]
  refine ContDiffAt.add ?_ ?_
  · have h6 : Even 6 := by decide
    have h8 : Even 8 := by decide
    have h10 : Even 10 := by decide
    refine contDiffAt_const.mul (ContDiffAt.sum fun j _ => ?_)
    by_cases hc : M.Z i ≠ 0 ∧ M.Z j ≠ 0 ∧ i ≠ j ∧ M.r env.eps i j ≤ (o.opts.cutoff.getD {}).disp2
    · refine ContDiffAt.congr_of_eventuallyEq ?_ (.of_forall fun v => if_pos hc)
      obtain ⟨C, hC⟩ : ∃ C, C = c6At env T R (M.atom i) (M.atom j) := ⟨_, rfl⟩
      obtain ⟨x, hx⟩ : ∃ x, x = 3 * M.Q i * M.Q j := ⟨_, rfl⟩
      have ht := (((contDiffAt_par (m := m) (v := v) .s6).mul ((contDiffAt_const (c := C)).mul
        (contDiffAt_damp (x := x) (hr i j) h6))).add ((contDiffAt_par .s8).mul
          ((contDiffAt_const (c := C * x)).mul (contDiffAt_damp (x := x) (hr i j) h8)))).add
        ((contDiffAt_par .s10).mul ((contDiffAt_const (c := C * x ^ 2 * 49 / 40)).mul
          (contDiffAt_damp (x := x) (hr i j) h10)))
      subst hC hx
      exact ht
    · exact contDiffAt_const.congr_of_eventuallyEq (.of_forall fun v => if_neg hc)
  · refine contDiffAt_const.mul (ContDiffAt.sum fun j _ => ContDiffAt.sum fun k _ => ?_)
    have hx : 0 < M.r env.eps i j * M.r env.eps i k * M.r env.eps j k :=
      mul_pos (mul_pos (hr i j) (hr i k)) (hr j k)
    have hq : ContDiffAt ℝ m (fun v : ParName → ℝ =>
        (v .a1 * Spec.rsqrt env.eps (3 * M.Q i * M.Q j) + v .a2) *
        (v .a1 * Spec.rsqrt env.eps (3 * M.Q i * M.Q k) + v .a2) *
        (v .a1 * Spec.rsqrt env.eps (3 * M.Q j * M.Q k) + v .a2) /
        (M.r env.eps i j * M.r env.eps i k * M.r env.eps j k)) v :=
      (((hR0 i j).mul (hR0 i k)).mul (hR0 j k)).div contDiffAt_const hx.ne'
    have hq0 := div_pos (mul_pos (mul_pos (hR i j) (hR i k)) (hR j k)) hx
    have hpow := hq.rpow ((contDiffAt_par (m := m) .alp).div (contDiffAt_const (c := 3)) (by norm_num))
      hq0.ne'
    have hf := (contDiffAt_const (c := (1 : ℝ))).div ((contDiffAt_const (c := (1 : ℝ))).add
      ((contDiffAt_const (c := (6 : ℝ))).mul hpow)) (by
        have := Real.rpow_pos_of_pos hq0 (v .alp / 3)
        positivity)
    by_cases hc : M.Z i ≠ 0 ∧ M.Z j ≠ 0 ∧ M.Z k ≠ 0 ∧ i ≠ j ∧ i ≠ k ∧ j ≠ k ∧
        Spec.withinCut3 (d4Computed env T R (.ofValues v) (o.opts.cutoff.getD {})) M i j k
    · refine ContDiffAt.congr_of_eventuallyEq ?_ (.of_forall fun v => if_pos hc)
      obtain ⟨S, hS⟩ : ∃ S, S = d4Computed env T R (.ofValues v) (o.opts.cutoff.getD {}) := ⟨_, rfl⟩
      have ht := (((contDiffAt_par .s9).mul (contDiffAt_const (c := Spec.c9 S M.neutral i j k))).mul
        hf).mul (contDiffAt_const (c := (3 *
          Spec.cosSides (M.r env.eps i j) (M.r env.eps i k) (M.r env.eps j k) *
          Spec.cosSides (M.r env.eps i j) (M.r env.eps j k) (M.r env.eps i k) *
          Spec.cosSides (M.r env.eps i k) (M.r env.eps j k) (M.r env.eps i j) + 1) /
          (M.r env.eps i j * M.r env.eps i k * M.r env.eps j k) ^ 3))
      subst hS
      exact ht
    · exact contDiffAt_const.congr_of_eventuallyEq (.of_forall fun v => if_neg hc)

end

/-- **C51**: if `E v` is the energy of an atom returned by `dftd4` for the parameters `v`, then `E` is
arbitrarily often differentiable in all parameters together. -/
theorem C51_smooth (h : Call env T ext numbers positions charge p o n B R cn eeq P) (hb : InB B b)
    (i : Fin n) {E : (ParName → ℝ) → ℝ}
    (hE : ∀ v e, dftd4 env T ext numbers positions charge (.ofValues v) o = .ok e →
      E v = e.get (i.1 :: b)) {v : ParName → ℝ} (h1 : 0 ≤ v .a1) (h2 : 0 ≤ v .a2)
    (h12 : v .a1 ≠ 0 ∨ v .a2 ≠ 0) (m : ℕ∞) : ContDiffAt ℝ m E v := by
  have hfun : E = fun v => paramValue env T R (.ofValues v) o cn eeq numbers n positions charge b i := by
    funext v
    obtain ⟨e, he, -, hv⟩ := (h.reads (.ofValues v)).eval
    rw [hE v e he, hv b hb i]
    rfl
  rw [hfun]
  exact paramValue_contDiffAt h1 h2 h12 i

end

namespace Demo

/-- The energy of hydrogen in HF, the second system of the batch, after `param["a1"] = v`. -/
noncomputable def energyA1 (v : ℝ) : ℝ :=
  match dftd4 env T ext numbers positions charge (param.assign .a1 v) {} with
  | .ok e => e.get [1, 1]
  | .error _ => 0

example : DifferentiableAt ℝ energyA1 0.4 ∧
    (paramGraph env T .d4 par param {} cn eeq numbers 3 positions charge .a1 [1] 1).back 0.4 (.fin 1) =
      .fin (deriv energyA1 0.4) := by
  have := C51_gradient call (by norm_num [par]) (by norm_num [par]) (Or.inl (by norm_num [par])) .a1
    (b := [1]) (by simp [InB]) 1 (E := energyA1) (fun v e he => by simp [energyA1, he]) 1
  rw [one_mul] at this
  exact this

/-- The same energy for arbitrary parameters. -/
noncomputable def energyPar (v : ParName → ℝ) : ℝ :=
  match dftd4 env T ext numbers positions charge (.ofValues v) {} with
  | .ok e => e.get [1, 1]
  | .error _ => 0

example : ContDiffAt ℝ 3 energyPar par.get :=
  C51_smooth call (b := [1]) (by simp [InB]) 1 (fun v e he => by simp [energyPar, he])
    (by norm_num [par, Spec.D4Par.get]) (by norm_num [par, Spec.D4Par.get])
    (Or.inl (by norm_num [par, Spec.D4Par.get])) 3

end Demo

example := C51_forward Demo.call (by norm_num [Demo.par]) (by norm_num [Demo.par])
  (Or.inl (by norm_num [Demo.par])) .s8

/-- The weighted sum of the energies of two atoms of different systems, as a function of `a1`. -/
noncomputable def Demo.lossA1 (v : ℝ) : ℝ :=
  match dftd4 Demo.env Demo.T Demo.ext Demo.numbers Demo.positions Demo.charge
    (Demo.param.assign .a1 v) {} with
  | .ok e => 2 * e.get [0, 0] - e.get [1, 1]
  | .error _ => 0

example := C51_loss Demo.call (by norm_num [Demo.par]) (by norm_num [Demo.par])
  (Or.inl (by norm_num [Demo.par])) .a1 (m := 2) ![0, 1] ![[0], [1]]
  (fun k => by fin_cases k <;> simp [InB]) ![2, -1] (L := Demo.lossA1)
  (fun v e he => by simp [Demo.lossA1, he, sub_eq_add_neg])

end TadDftd4
