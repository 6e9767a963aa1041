import Verif.Lemmas.AutogradFit
import Verif.Props.C72

/-!
# C73: gradients with respect to damping parameters for every dispersion class

C51 is about `dftd4`, C71 about `dispersion2`. Here the graph is that of `Disp.calculate` of any class with
any list of terms, an entry of the parameter dictionary being the variable (`Model/AutogradDisp.lean`).

* `C73_forward`, `C73_gradient`, `C73_loss`: value and gradient, also of weighted sums of energies of any atoms
  of any systems, as used to fit parameters;
* `C73_vdw_padding_nan`: the condition on the radii of padding is needed.
-/

set_option linter.unusedSimpArgs false

open scoped Classical Topology

namespace TadDftd4

open Tensor

/-- Conditions for gradients with respect to parameters, `p` being the dictionary at hand. Other than for
forces, pairs with padding and of an atom with itself count. Numbers from `τ` on do not underflow. -/
structure Term.FitOk {n : ℕ} (env : Env) (τ : ℝ) (p : Param) (t : Term) (M : Spec.Mol n) : Prop where
  /-- zero damping: positive scaling of radii; modified zero damping: positive radii, too -/
  damping : t.cls = .twoBody → ∀ i j, t.damping.SmoothFor p (M.rvdw i j)
  /-- optimised power damping: the critical radii are positive -/
  op : t.cls = .twoBody → t.damping = .op → ∀ a1 a2, p.a1 = .val a1 → p.a2 = .val a2 →
    ∀ i j, 0 < a1 * √(3 * M.Q i * M.Q j) + a2
  /-- other than rational damping: powers of distances do not underflow -/
  large : t.cls = .twoBody → t.damping ≠ .rational → ∀ i j, M.Z i ≠ 0 → M.Z j ≠ 0 → i ≠ j →
    ∀ k ∈ [5, 6, 7, 8], τ < M.r env.eps i j ^ k
  /-- optimised power damping: powers of the smallest distance do not underflow -/
  under : t.cls = .twoBody → t.damping = .op → 0 < env.fl (env.eps ^ 6) ∧ 0 < env.fl (env.eps ^ 8)
  /-- three-body terms: the critical radii are positive; or zero, if the exponent is at least three -/
  bj : t.cls = .d4ATMApprox ∨ t.cls = .d4ATMExact → ∀ a1 a2, p.a1.Is Defaults.a1 a1 →
    p.a2.Is Defaults.a2 a2 → ∀ i j, 0 < a1 * Spec.rsqrt env.eps (3 * M.Q i * M.Q j) + a2
  vdw : t.cls = .d3ATM → ∀ rs9 alp, p.rs9.Is Defaults.rs9 rs9 → p.alp.Is Defaults.alp alp →
    ∀ i j, 0 < rs9 * M.rvdw i j ∨ (M.rvdw i j = 0 ∧ 3 ≤ alp)

section
variable (env : Env) (T : Tables) (R : RefCfg) (p : Param) (o : CalcOpts)
  (cn : Spec.CN) (eeq : Spec.EEQ) (numbers : Tensor ℕ) (n : ℕ) (positions charge : Tensor ℝ) (b : Idx)

/-- System `b`; nothing but the parameter requires gradients.
Models src/tad_dftd4/dispersion/base.py:389-414. -/
noncomputable def fitSys : GradSys n :=
  { GradSys.ofCurve fun _ => system T cn eeq numbers positions charge o n b with
    posGrad := false, cnGrad := false, qGrad := fun _ => false }

/-- The graph of the energy of atom `i` with `param[m]` as variable. C6 and C9 coefficients do not depend on
parameters, they are constants.
Models src/tad_dftd4/dispersion/base.py:416-431. -/
noncomputable def fitGraph (d : Disp) (m : DName) (i : Fin n) : Tape :=
  let M := system T cn eeq numbers positions charge o n b
  let C := fun t : Term => fun i j => c6At env T R (M.data t.chargeDep i) (M.data t.chargeDep j)
  Tape.termsPar (dispCfg env T R p o) (fitSys T o cn eeq numbers n positions charge b) C
    (fun t i j k => env.ssqrt |C t i j * C t i k * C t j k|)
    (fun t i j k => c9At env T R (M.data t.chargeDep i) (M.data t.chargeDep j) (M.data t.chargeDep k))
    M.rvdw (fun y => p.put m y) (fun m' => decide (m' = m)) (o.cutoff.getD {}) d.terms i

end

section
variable {env : Env} {T : Tables} {ext : Ext} {numbers : Tensor ℕ} {d : Disp}
  {positions charge : Tensor ℝ} {p : Param} {o : CalcOpts} {n : ℕ} {B : Shape} {b : Idx}
  {R : RefCfg} {cn : Spec.CN} {eeq : Spec.EEQ} {m : DName} {v τ : ℝ}

theorem fitSys_mol (y : ℝ) : Tape.molV (fitSys T o cn eeq numbers n positions charge b)
    (system T cn eeq numbers positions charge o n b).rvdw y =
      system T cn eeq numbers positions charge o n b := rfl

theorem fitSys_still : Tape.Still (fitSys T o cn eeq numbers n positions charge b) :=
  ⟨rfl, fun _ _ _ _ => rfl⟩

/-- If a dictionary can be used for one value of an entry, it can be used for all. -/
theorem Disp.Runs.put (h : d.Runs env T ext numbers positions charge (p.put m v) o n B R cn eeq) (y : ℝ) :
    d.Runs env T ext numbers positions charge (p.put m y) o n B R cn eeq :=
  ⟨h.args, h.model, h.cn, h.eeq, h.q, fun t ht => (h.par t ht).put y⟩

theorem fitSys_term {t : Term} (hU : t.Usable env R (p.put m v) (o.cutoff.getD {}))
    (hfl : ∀ z, τ ≤ z → env.fl z = z)
    (hr : t.FitOk env τ (p.put m v) (system T cn eeq numbers positions charge o n b)) :
    Tape.FitTerm (dispCfg env T R p o) (fitSys T o cn eeq numbers n positions charge b)
      (system T cn eeq numbers positions charge o n b).rvdw p m τ v t where
  still := fitSys_still
  damping := hr.damping
  op := hr.op
  fl := hfl
  large hc hd i j hij k hk := by
    have := hr.large hc hd i j hij.1 hij.2.1 hij.2.2 k hk
    rw [Tape.dV, if_pos hij]
    exact this
  under := hr.under
  bj hc i j := by
    obtain ⟨a1, h1⟩ := PVal.exists_is (hU.a1 hc) Defaults.a1
    obtain ⟨a2, h2⟩ := PVal.exists_is (hU.a2 hc) Defaults.a2
    have := hr.bj hc a1 a2 h1 h2 i j
    unfold Tape.radBJV
    rw [show (p.put m v).read3 .a1 = a1 from Tape.PVal.Is.num h1,
      show (p.put m v).read3 .a2 = a2 from Tape.PVal.Is.num h2]
    exact this
  vdw hc i j := by
    have hc' : t.cls ≠ .twoBody := by rw [hc]; simp
    obtain ⟨rs9, h1⟩ := PVal.exists_is (hU.rs9 hc) Defaults.rs9
    obtain ⟨alp, h3⟩ := PVal.exists_is (hU.alp hc') Defaults.alp
    have := hr.vdw hc rs9 alp h1 h3 i j
    unfold Tape.radVdWV
    rw [show (p.put m v).read3 .rs9 = rs9 from Tape.PVal.Is.num h1,
      show (p.put m v).read3 .alp = alp from Tape.PVal.Is.num h3]
    exact this

section
variable (h : d.Runs env T ext numbers positions charge (p.put m v) o n B R cn eeq)
  (hfl : ∀ z, τ ≤ z → env.fl z = z)
include h hfl

/-- The graph is differentiated correctly. -/
theorem fitGraph_fine (hr : ∀ t ∈ d.terms, t.FitOk env τ (p.put m v)
    (system T cn eeq numbers positions charge o n b)) {S : ℝ → Term → Spec.Settings}
    (hS : ∀ y, ∀ t ∈ d.terms, TermPar env T R (p.put m y) (o.cutoff.getD {}) t (S y t)) (i : Fin n) :
    Tape.Fine (fitGraph env T R p o cn eeq numbers n positions charge b d m i)
      (fun y => (d.terms.map fun t =>
        t.energy (S y t) (system T cn eeq numbers positions charge o n b) i).sum) v :=
  Tape.total_fine (f := fun t y => t.energy (S y t) (system T cn eeq numbers positions charge o n b) i)
    fun t ht => Tape.termPut_fine (G := dispCfg env T R p o)
      (X := fitSys T o cn eeq numbers n positions charge b)
      (fitSys_term (h.par t ht) hfl (hr t ht)) rfl (fun y => hS y t ht)
      (fun y => (h.par t ht).put y) (fun y => by rw [fitSys_mol]) i

/-- Forward pass: the graph has the values `calculate` returns. -/
theorem C73_forward (hr : ∀ b, InB B b → ∀ t ∈ d.terms, t.FitOk env τ (p.put m v)
    (system T cn eeq numbers positions charge o n b)) :
    ∃ e, d.calculate env T ext numbers positions charge (p.put m v) o = .ok e ∧ e.Ok (n :: B) ∧
      ∀ b, InB B b → ∀ i : Fin n,
        (fitGraph env T R p o cn eeq numbers n positions charge b d m i).eval v = .fin (e.get (i.1 :: b)) := by
  choose S hS using fun y => (h.put y).settings
  obtain ⟨e, h1, h2, h3⟩ := h.eval (hS v)
  refine ⟨e, h1, h2, fun b hb i => ?_⟩
  rw [(fitGraph_fine h hfl (hr b hb) hS i).eval, h3 b hb i]

/-- **C73**: if `E y` is the energy of atom `i` of system `b` that `calculate` returns after `param[m] = y`,
then `E` is differentiable, and back-propagation of an incoming gradient `g` yields `g * E'`. Any class, any
entry of the dictionary, wherever the atoms are and whichever Gaussian weights underflow. -/
theorem C73_gradient (hb : InB B b) (hr : ∀ t ∈ d.terms, t.FitOk env τ (p.put m v)
    (system T cn eeq numbers positions charge o n b)) (i : Fin n) {E : ℝ → ℝ}
    (hE : ∀ y e, d.calculate env T ext numbers positions charge (p.put m y) o = .ok e →
      E y = e.get (i.1 :: b)) (g : ℝ) :
    DifferentiableAt ℝ E v ∧
      (fitGraph env T R p o cn eeq numbers n positions charge b d m i).back v (.fin g) =
        .fin (g * deriv E v) := by
  choose S hS using fun y => (h.put y).settings
  have hfun : E = fun y => (d.terms.map fun t =>
      t.energy (S y t) (system T cn eeq numbers positions charge o n b) i).sum := by
    funext y
    obtain ⟨e, h1, -, h3⟩ := (h.put y).eval (hS y)
    rw [hE y e h1, h3 b hb i]
  have hf := fitGraph_fine h hfl hr hS i
  rw [hfun]
  exact ⟨hf.differentiableAt, hf.back g⟩

/-- **C73** for weighted sums of energies of any atoms of any systems. -/
theorem C73_loss {l : ℕ} (atom : Fin l → Fin n) (sys : Fin l → Idx) (hb : ∀ k, InB B (sys k))
    (hr : ∀ k, ∀ t ∈ d.terms, t.FitOk env τ (p.put m v)
      (system T cn eeq numbers positions charge o n (sys k))) (w : Fin l → ℝ) {L : ℝ → ℝ}
    (hL : ∀ y e, d.calculate env T ext numbers positions charge (p.put m y) o = .ok e →
      L y = ∑ k, w k * e.get ((atom k).1 :: sys k)) :
    (Tape.sum l fun k => .mul (.const (w k))
        (fitGraph env T R p o cn eeq numbers n positions charge (sys k) d m (atom k))).back v (.fin 1) =
      .fin (deriv L v) := by
  choose S hS using fun y => (h.put y).settings
  have hfun : L = fun y => ∑ k, w k * (d.terms.map fun t =>
      t.energy (S y t) (system T cn eeq numbers positions charge o n (sys k)) (atom k)).sum := by
    funext y
    obtain ⟨e, h1, -, h3⟩ := (h.put y).eval (hS y)
    rw [hL y e h1]
    exact Finset.sum_congr rfl fun k _ => by rw [h3 _ (hb k)]
  have hf := Tape.Fine.sum (x := v) fun k : Fin l => (Tape.Fine.const (c := w k)).mul
    (fitGraph_fine h hfl (hr k) hS (atom k))
  rw [hfun, hf.back, one_mul]

end

/-- The condition on the radii of padding is needed: if atom `j` is padding whose van der Waals radius with
atom `i` is zero and the exponent is below three, the gradient of the energy of atom `i` with respect to the
scaling of the radii is NaN whatever arrives, although the energy is computed and forces are as in C72. (The
masked triple contributes zero times the derivative of a power at zero.) -/
theorem C73_vdw_padding_nan (h : d.Runs env T ext numbers positions charge (p.put .rs9 v) o n B R cn eeq)
    {t : Term} (ht : t ∈ d.terms) (hc : t.cls = .d3ATM) {i j : Fin n} (hj : elements numbers n b j = 0)
    (hr : (system T cn eeq numbers positions charge o n b).rvdw i j = 0) {alp : ℝ}
    (ha : p.alp.Is Defaults.alp alp) (h0 : 0 < alp) (h3 : alp < 3) :
    (∃ e, d.calculate env T ext numbers positions charge (p.put .rs9 v) o = .ok e) ∧
      ∀ g, (fitGraph env T R p o cn eeq numbers n positions charge b d .rs9 i).back v g = .nan := by
  obtain ⟨S, hS⟩ := h.settings
  obtain ⟨e, h1, -, -⟩ := h.eval hS
  refine ⟨⟨e, h1⟩, ?_⟩
  have hm : ¬ Tape.tripleOk (fitSys T o cn eeq numbers n positions charge b) i j i := fun ht => ht.2.1 hj
  refine Tape.total_bad ht ?_
  unfold Tape.termOf
  rw [hc]
  refine Tape.atm_nan hm (Tape.zero9_nan (ρ := fun i j => v * (system T cn eeq numbers positions charge o n b).rvdw i j)
    (α := alp) hm (fun i j => ?_) ?_ ?_ h0 h3 ?_)
  · simp [Tape.radVdW, Tape.entry, Tape.input, Tape.eval, FP.mul, Param.put_read3]
  · have : p.read3 .alp = alp := Tape.PVal.Is.num ha
    simp [Tape.entry, Tape.input, Tape.eval, Param.put_read3, this]
  · simp [hr]
  · simp [Tape.radVdW, Tape.entry, Tape.input, Tape.back]

end

/-! ## Concrete cases: hydrogen fluoride next to water -/

namespace Demo

/-- Every class, every entry of the dictionary except `s10` (which zero damping does not know). -/
theorem fitOf_runs (cls : DispClass) {m : DName} (hm : m ≠ .s10) (v : ℝ) :
    (dispOf cls).Runs env T ext numbers positions charge (paramAll.put m v) {} 3 [2] .d4 cn eeq := by
  have h := dispOf_runs cls validArgs
  refine ⟨h.args, h.model, h.cn, h.eeq, h.q, fun t ht => ?_⟩
  have hr : Damping.Usable env .rational (paramAll.put m v) := by
    cases m <;> first | exact absurd rfl hm | constructor <;> simp [Param.put, Damping.point, Damping.required, Damping.pointF, Param.kw,
      PVal.kw, paramAll]
  have hz : Damping.Usable env .zero (paramAll.put m v) := by
    cases m <;> first | exact absurd rfl hm | constructor <;> simp [Param.put, Damping.point, Damping.required, Damping.pointF, Param.kw,
      PVal.kw, paramAll]
  have ht' : t ∈ cls.terms := ht
  obtain ⟨h1, h2, h3, h4, h5, h6, h7, h8, h9⟩ := h.par t ht
  refine ⟨fun hc => ?_, h2, fun _ => ?_, fun _ => ?_, h5, fun _ => ?_, fun _ => ?_, fun _ => ?_, h9⟩
  · cases cls <;> simp only [DispClass.terms, List.mem_cons, List.not_mem_nil, or_false] at ht'
    all_goals rcases ht' with rfl | rfl <;> first | exact hr | exact hz | simp_all
  all_goals cases m <;> simp [Param.put, paramAll]

theorem hfl : ∀ z, (0 : ℝ) ≤ z → env.fl z = z := fun _ _ => rfl

/-- Positive parameters meet the conditions, also for the padding of the second system. -/
theorem fitOf_ok (cls : DispClass) {m : DName} {v : ℝ} (hv : 0 < v) {t : Term}
    (ht : t ∈ (dispOf cls).terms) (b : Idx) :
    t.FitOk env 0 (paramAll.put m v) (system T cn eeq numbers positions charge {} 3 b) := by
  have hd : t.damping = .rational ∨ t.damping = .zero := by
    have : t ∈ cls.terms := ht
    cases cls <;> simp only [DispClass.terms, List.mem_cons, List.not_mem_nil, or_false] at this <;>
      rcases this with rfl | rfl <;> simp
  have h3 : ∀ i j, (system T cn eeq numbers positions charge {} 3 b).rvdw i j = 3 := fun _ _ => rfl
  refine ⟨fun _ i j => ?_, fun _ ho => ?_, fun _ _ i j _ _ _ k _ => ?_, fun _ ho => ?_, fun _ a1 a2 h1 h2 i j => ?_,
    fun _ rs9 alp h1 h2 i j => ?_⟩
  · rw [h3]
    rcases hd with hd | hd <;> rw [hd]
    · trivial
    · refine ⟨fun x hx => ?_, fun x hx => ?_, by norm_num⟩ <;>
        cases m <;> simp only [Param.put, paramAll, PVal.val.injEq] at hx <;> rw [← hx] <;>
          first | exact hv | norm_num
  · rw [ho] at hd; simp at hd
  · exact pow_pos (Spec.rsqrt_pos env.eps_pos _) k
  · rw [ho] at hd; simp at hd
  · have hs : 0 < Spec.rsqrt env.eps (3 * (system T cn eeq numbers positions charge {} 3 b).Q i *
      (system T cn eeq numbers positions charge {} 3 b).Q j) := Spec.rsqrt_pos env.eps_pos _
    have h1' : 0 < a1 := by
      cases m <;> simp [Param.put, paramAll, PVal.Is] at h1 <;> rw [← h1] <;> first | exact hv | norm_num
    have h2' : 0 < a2 := by
      cases m <;> simp [Param.put, paramAll, PVal.Is] at h2 <;> rw [← h2] <;> first | exact hv | norm_num
    positivity
  · left
    have h1' : 0 < rs9 := by
      cases m <;> simp [Param.put, paramAll, PVal.Is, Defaults.rs9] at h1 <;>
        first | (rw [← h1]; exact hv) | (rw [h1]; norm_num)
    rw [h3]
    positivity

/-- The energy of hydrogen in HF after `param[m] = y`. -/
noncomputable def fitEnergy (cls : DispClass) (m : DName) (y : ℝ) : ℝ :=
  match (dispOf cls).calculate env T ext numbers positions charge (paramAll.put m y) {} with
  | .ok e => e.get [1, 1]
  | .error _ => 0

example (cls : DispClass) {m : DName} (hm : m ≠ .s10) {v : ℝ} (hv : 0 < v) (g : ℝ) :
    DifferentiableAt ℝ (fitEnergy cls m) v ∧
    (fitGraph env T .d4 paramAll {} cn eeq numbers 3 positions charge [1] (dispOf cls) m 1).back v (.fin g) =
      .fin (g * deriv (fitEnergy cls m) v) :=
  C73_gradient (fitOf_runs cls hm v) hfl (by simp [InB]) (fun _ ht => fitOf_ok cls hv ht _) 1
    (fun y e he => by simp only [fitEnergy, he]; rfl) g

example (cls : DispClass) {m : DName} (hm : m ≠ .s10) {v : ℝ} (hv : 0 < v) :=
  C73_forward (fitOf_runs cls hm v) hfl fun b _ _ ht => fitOf_ok cls hv ht b

/-- Difference of the energies of two atoms of different systems. -/
example (cls : DispClass) {m : DName} (hm : m ≠ .s10) {v : ℝ} (hv : 0 < v) {L : ℝ → ℝ}
    (hL : ∀ y e, (dispOf cls).calculate env T ext numbers positions charge (paramAll.put m y) {} = .ok e →
      L y = ∑ k : Fin 2, ![1, -1] k * e.get ((![0, 1] k : Fin 3).1 :: ![[0], [1]] k)) :=
  C73_loss (fitOf_runs cls hm v) hfl ![0, 1] ![[0], [1]] (by
    intro k
    fin_cases k <;> simp [InB]) (fun k _ ht => fitOf_ok cls hv ht _) ![1, -1] hL

/-- Zero damping of D3 with a small exponent, van der Waals radii of padding zero. -/
noncomputable def optsPad : CalcOpts :=
  { rvdw := some ⟨none, [3, 3, 2], fun
      | [2, _, 1] => 0
      | [_, 2, 1] => 0
      | _ => 3⟩ }

noncomputable def paramSmall : Param := { paramAll with alp := .val 2 }

example : (∃ e, (dispOf .d3Zero).calculate env T ext numbers positions charge (paramSmall.put .rs9 1)
      optsPad = .ok e) ∧
    ∀ g, (fitGraph env T .d4 paramSmall optsPad cn eeq numbers 3 positions charge [1] (dispOf .d3Zero)
      .rs9 0).back 1 g = .nan := by
  have hc := dispOf_runs .d3Zero validArgs
  refine C73_vdw_padding_nan (ext := ext) (B := [2]) (alp := 2) (j := 2) ⟨{ validArgs with
    q := fun _ h => by simp [optsPad] at h
    rcov := fun _ h => by simp [optsPad] at h
    r4r2 := fun _ h => by simp [optsPad] at h
    rvdw := fun x hx => ?_ }, hc.model, hc.cn, hc.eeq, Or.inl rfl, fun t ht => ?_⟩
    (t := ⟨.d3ATM, .zero, false⟩) ?_ rfl rfl rfl (Or.inl rfl) two_pos (by norm_num)
  · simp only [optsPad, Option.some.injEq] at hx
    rw [← hx]
    exact ⟨rfl, rfl⟩
  · have h3 : (0 : ℝ) ≤ ((optsPad.cutoff).getD {}).disp3 := by
      norm_num [optsPad, Defaults.disp3Cutoff]
    have hz : Damping.Usable env .zero (paramSmall.put .rs9 1) := by
      constructor <;> simp [Param.put, Damping.point, Damping.required, Damping.pointF, Param.kw, PVal.kw,
        paramSmall, paramAll]
    have ht' : t ∈ DispClass.d3Zero.terms := ht
    simp only [DispClass.terms, List.mem_cons, List.not_mem_nil, or_false] at ht'
    rcases ht' with rfl | rfl <;>
      exact ⟨fun _ => hz, by simp, by simp [Param.put, paramSmall, paramAll],
        by simp [Param.put, paramSmall, paramAll], fun _ => h3, by simp [Param.put, paramSmall, paramAll],
        by simp [Param.put, paramSmall, paramAll], by simp [Param.put, paramSmall, paramAll], fun _ => rfl⟩
  · show _ ∈ DispClass.d3Zero.terms
    simp [DispClass.terms]

end Demo

end TadDftd4
