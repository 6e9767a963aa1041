import Verif.Props.C57
import Verif.Lemmas.RoundedRef
import Verif.Lemmas.RoundedStages
import Verif.Lemmas.C6Spec

/-!
# C63: rounding errors from coordinates to energies

Reference weights and C6 coefficients that are computed with a relative error of at most `u` per operation
have a small relative error; so do energies that are computed from such coefficients and from distances
computed from the coordinates. Normalised Gaussians may be computed with higher precision than the rest,
as they are for single precision. Coordination numbers, charges and reference C6 coefficients are inputs here,
known up to a number of roundings.
-/

set_option linter.unusedSimpArgs false

open scoped Classical

namespace TadDftd4

open Tensor Rounded

/-- Number of roundings in normalised Gaussians: `kn` and `kw` in coordination numbers and exponents; for
`N`, `E`, `W` see `RefInput.Good`. -/
def Spec.gaussRoundings (kn kw N E W : ℕ) : ℕ :=
  2 * (W * (2 * (2 * kn + kw + 6) * N + 1) + kw * E + 4) + 7

/-- Number of roundings in a C6 coefficient: `kr`, `kq`, `G` in reference C6, charges and normalised
Gaussians; for `c`, `H1`, `H2` see `RefInput.Good`. -/
def Spec.c6Roundings (kr kq G c H1 H2 : ℕ) : ℕ :=
  let scale := 2 * (4 * (kq + 3) * c + 7) * H1 + 1
  let zeta := 2 * (scale + 2) * H2 + 1
  kr + 2 * (zeta + G + 2) + 14

/-- What a machine starts from in the calculation of the weights of atom `A` next to a partner of element
`Zp`. -/
noncomputable def atomInput (env : Env) (T : Tables) (R : RefCfg) (A : Spec.AtomData)
    (Zp kn kq kw : ℕ) : RefInput where
  T := T
  kind := R.kind
  ga := R.ga
  gc := R.gc
  refq := refqAt T R.rq
  ε := env.eps
  fmax := env.fmax
  Z := A.Z
  cn := A.cn
  q := A.q
  w := R.wf A.Z Zp
  kn := kn
  kq := kq
  kw := kw

/-- `z` can be computed for the C6 coefficient of two atoms: the normalised Gaussians `g` and `h` with a
relative error of `v` per operation, everything else with `u`. -/
structure Spec.MachineC6 (env : Env) (T : Tables) (R : RefCfg) (A A' : Spec.AtomData) (u v : ℝ)
    (kr kn kq kw : ℕ) (z : ℝ) : Prop where
  run : ∃ g h : ℕ → ℝ,
    (∀ r < nref, ((atomInput env T R A A'.Z kn kq kw).quot r).Rounds v (g r)) ∧
    (∀ r < nref, ((atomInput env T R A' A.Z kn kq kw).quot r).Rounds v (h r)) ∧
    (c6From (rc6At env T R.ga R.gc R.rq A.Z A'.Z) kr (atomInput env T R A A'.Z kn kq kw)
      (atomInput env T R A' A.Z kn kq kw) (fun r => .inp (g r) 0) (fun r => .inp (h r) 0)).Rounds u z

section
variable {env : Env} {T : Tables} {R : RefCfg}

theorem atomInput_wt (hT : T.Physical R.rq) {A : Spec.AtomData} (hA : A.Z < T.nZ) {Zp kn kq kw : ℕ}
    {v : ℝ} {N E W c H1 H2 : ℕ} (h : (atomInput env T R A Zp kn kq kw).Good v N E W c H1 H2) {r : ℕ}
    (hr : r < nref) {g : Ex} (hg : g.val = ((atomInput env T R A Zp kn kq kw).quot r).val) :
    ((atomInput env T R A Zp kn kq kw).wt g r).val = Spec.zetaRef (R.spec T env.eps) A r *
      Spec.weight (R.spec T env.eps) (R.wf A.Z Zp) A.Z A.cn r := by
  obtain ⟨X, hX⟩ : ∃ X, X = atomInput env T R A Zp kn kq kw := ⟨_, rfl⟩
  have hE : ∀ s < nref, (X.expw s).val =
      Spec.gaussRef (R.spec T env.eps) (R.wf A.Z Zp) A.Z A.cn s := by
    intro s hs
    have e : Spec.gaussRef (R.spec T env.eps) (R.wf A.Z Zp) A.Z A.cn s =
      Spec.gaussians X.w (X.T.refc X.Z s) (X.cn - X.T.refcn X.Z s) := by subst hX; rfl
    rw [e]
    have hc : X.T.refc X.Z s = 0 ∨ X.T.refc X.Z s = 1 ∨ X.T.refc X.Z s = 3 := by
      subst hX; exact hT.refc _ hA s hs
    unfold RefInput.expw Spec.gaussians
    rcases hc with hc | hc | hc <;> rw [hc] <;>
      simp [Ex.val, RefInput.pow_val, Finset.sum_range_succ] <;> norm_num
  rw [← hX] at hg
  have hw : (X.gw g r).val = Spec.weight (R.spec T env.eps) (R.wf A.Z Zp) A.Z A.cn r := by
    rw [RefInput.gw_val (by rw [hX]; exact h.fmax) (by rw [hg]; exact RefInput.quot_le hr), hg]
    have hs : ∑ s : Fin nref, (X.expw s).val =
        ∑ s ∈ Finset.range nref, Spec.gaussRef (R.spec T env.eps) (R.wf A.Z Zp) A.Z A.cn s := by
      rw [← Fin.sum_univ_eq_sum_range]
      exact Finset.sum_congr rfl fun s _ => hE s.1 s.2
    unfold Spec.weight RefInput.quot RefInput.norm
    split_ifs with hc
    · simp only [Ex.val, hE r hr, hs]
    · have h0 := hE r hr
      have hz : (X.expw r).val = 0 := by unfold RefInput.expw; rw [if_neg hc]; rfl
      simp only [Ex.val]
      rw [hz, ← h0, hz, zero_div, zero_div]
  have hv : (X.wt g r).val = (X.zeta r).val * (X.gw g r).val := rfl
  rw [← hX, hv, hw]
  by_cases hc : 0 < X.T.refc X.Z r
  · rw [RefInput.zeta_val (by rw [hX]; exact h) hr hc]
    congr 1
    have hq := (h.charge r hr (by subst hX; exact hc)).1
    have hε := h.ε
    subst hX
    change 0 < A.q + T.zeff A.Z - env.eps at hq
    change 0 ≤ env.eps at hε
    unfold Spec.zetaRef Spec.zeta
    rw [if_neg]
    · rfl
    · change ¬(A.q + T.zeff A.Z ≤ 0 ∨ A.q + T.zeff A.Z = env.eps)
      rintro (h1 | h1) <;> linarith
  · have : T.refc A.Z r = 0 := by subst hX; exact Nat.eq_zero_of_not_pos hc
    have h0 : Spec.weight (R.spec T env.eps) (R.wf A.Z Zp) A.Z A.cn r = 0 := by
      simp [Spec.weight, Spec.gaussRef, RefCfg.spec, this, Spec.gaussians]
    rw [h0, mul_zero, mul_zero]

theorem c6From_val (hfl : env.fl = id) (hT : T.Physical R.rq) (hgc : 0 < R.gc)
    {A A' : Spec.AtomData} (hA : A.Z < T.nZ) (hA' : A'.Z < T.nZ) {kr kn kq kw : ℕ} {v : ℝ}
    {N E W c H1 H2 : ℕ} (h : (atomInput env T R A A'.Z kn kq kw).Good v N E W c H1 H2)
    (h' : (atomInput env T R A' A.Z kn kq kw).Good v N E W c H1 H2) {f g : ℕ → Ex}
    (hf : ∀ r < nref, (f r).val = ((atomInput env T R A A'.Z kn kq kw).quot r).val)
    (hg : ∀ r < nref, (g r).val = ((atomInput env T R A' A.Z kn kq kw).quot r).val) :
    (c6From (rc6At env T R.ga R.gc R.rq A.Z A'.Z) kr (atomInput env T R A A'.Z kn kq kw)
      (atomInput env T R A' A.Z kn kq kw) f g).val = c6At env T R A A' := by
  have w : ∀ r < nref, ((atomInput env T R A A'.Z kn kq kw).wt (f r) r).val = wtAt env T R A A'.Z r :=
    fun r hr => by rw [atomInput_wt hT hA h hr (hf r hr), wtAt_spec hfl hT hgc hA _ hr]
  have w' : ∀ r < nref, ((atomInput env T R A' A.Z kn kq kw).wt (g r) r).val = wtAt env T R A' A.Z r :=
    fun r hr => by rw [atomInput_wt hT hA' h' hr (hg r hr), wtAt_spec hfl hT hgc hA' _ hr]
  unfold c6From c6At c6Of
  simp only [Ex.val]
  rw [Finset.sum_comm, ← Fin.sum_univ_eq_sum_range]
  refine Finset.sum_congr rfl fun b _ => ?_
  rw [Finset.sum_mul, ← Fin.sum_univ_eq_sum_range]
  refine Finset.sum_congr rfl fun a _ => ?_
  rw [w a.1 a.2, w' b.1 b.2, mul_assoc]

theorem rc6At_nonneg (ga gc : ℝ) (rq : String) (Z Z' a b : ℕ) : 0 ≤ rc6At env T ga gc rq Z Z' a b := by
  unfold rc6At
  exact mul_nonneg thopi_pos.le (Finset.sum_nonneg fun w _ => mul_nonneg (trapzWeights_nonneg w)
    (mul_nonneg (alphaAt_nonneg _ _ _ _ _ _) (alphaAt_nonneg _ _ _ _ _ _)))

theorem machineC6_near (hfl : env.fl = id) (hT : T.Physical R.rq) (hgc : 0 < R.gc)
    {A A' : Spec.AtomData} (hA : A.Z < T.nZ) (hA' : A'.Z < T.nZ) {kr kn kq kw : ℕ} {u v : ℝ} {f : ℕ}
    {N E W c H1 H2 G : ℕ} (hv : 0 ≤ v) (hu1 : u < 1) (hf : 1 ≤ f) (hfv : f * v = u) (hN : 1 ≤ N)
    (hc : 1 ≤ c) (h1 : 1 ≤ H1) (h2 : 1 ≤ H2) (hG : Spec.gaussRoundings kn kw N E W ≤ G * f)
    (hK : Spec.c6Roundings kr kq G c H1 H2 * u ≤ 1 / 2)
    (h : (atomInput env T R A A'.Z kn kq kw).Good v N E W c H1 H2)
    (h' : (atomInput env T R A' A.Z kn kq kw).Good v N E W c H1 H2) {z : ℝ}
    (hz : Spec.MachineC6 env T R A A' u v kr kn kq kw z) :
    Near u (Spec.c6Roundings kr kq G c H1 H2) (c6At env T R A A') z := by
  have hvu : v ≤ u := by
    rw [← hfv]; exact le_mul_of_one_le_left hv (by exact_mod_cast hf)
  have hu : 0 ≤ u := hv.trans hvu
  have e : Spec.c6Roundings kr kq G c H1 H2 = kr + 2 * (kZeta kq c H1 H2 + G + 2) + 14 := rfl
  have hKw : (kZeta kq c H1 H2 + G + 2 : ℕ) * u ≤ 1 / 2 := by
    refine le_trans (mul_le_mul_of_nonneg_right ?_ hu) hK
    rw [e]; exact_mod_cast (by omega)
  have hk : (2 * kn + kw + 6 : ℕ) * v ≤ 1 / 2 := by
    have a1 : 2 * kn + kw + 6 ≤ Spec.gaussRoundings kn kw N E W := by
      have hW := h.three
      unfold Spec.gaussRoundings
      have : 1 * (1 * (2 * kn + kw + 6) * 1 + 1) ≤ W * (2 * (2 * kn + kw + 6) * N + 1) := by gcongr <;> omega
      nlinarith
    calc ((2 * kn + kw + 6 : ℕ) : ℝ) * v ≤ (G * f : ℕ) * v :=
          mul_le_mul_of_nonneg_right (by exact_mod_cast a1.trans hG) hv
      _ = G * u := by rw [← hfv]; push_cast; ring
      _ ≤ (kZeta kq c H1 H2 + G + 2 : ℕ) * u := mul_le_mul_of_nonneg_right (by exact_mod_cast (by omega)) hu
      _ ≤ 1 / 2 := hKw
  obtain ⟨g, g', hg, hg', hz⟩ := hz.run
  have near : ∀ {X : RefInput}, X.kn = kn → X.kw = kw → X.Good v N E W c H1 H2 → ∀ {r : ℕ}, r < nref →
      ∀ {y : ℝ}, (X.quot r).Rounds v y → Near u G (X.quot r).val y := by
    intro X hn hw hX r hr y hy
    refine Near.coarse hv hu1 hf hfv (RefInput.quot_nonneg hr)
      ((RefInput.rel_quot hv (by linarith) hX (by rw [hn, hw]; exact hk) hr).2 y hy) ?_
    rw [hn, hw]
    exact hG
  have z' := c6From_relaxes (rc6At env T R.ga R.gc R.rq A.Z A'.Z) kr (atomInput env T R A A'.Z kn kq kw)
    (atomInput env T R A' A.Z kn kq kw)
    (g' := fun r => .inp ((atomInput env T R A A'.Z kn kq kw).quot r).val G)
    (h' := fun r => .inp ((atomInput env T R A' A.Z kn kq kw).quot r).val G)
    (fun r hr => .inp (near rfl rfl h hr (hg r hr))) (fun r hr => .inp (near rfl rfl h' hr (hg' r hr))) z hz
  have r := rel_c6 hu hu1 (rc := rc6At env T R.ga R.gc R.rq A.Z A'.Z)
    (fun a b => rc6At_nonneg _ _ _ _ _ _ _) (kr := kr)
    (fun r hr => RefInput.rel_wt (X := atomInput env T R A A'.Z kn kq kw) hu hu1 h
      (g := .inp ((atomInput env T R A A'.Z kn kq kw).quot r).val G) (Ex.rel_inp (RefInput.quot_nonneg hr))
      (RefInput.quot_le hr) (le_refl (kZeta kq c H1 H2 + G + 2)) hKw h1 h2 hc hr)
    (fun r hr => RefInput.rel_wt (X := atomInput env T R A' A.Z kn kq kw) hu hu1 h'
      (g := .inp ((atomInput env T R A' A.Z kn kq kw).quot r).val G) (Ex.rel_inp (RefInput.quot_nonneg hr))
      (RefInput.quot_le hr) (le_refl (kZeta kq c H1 H2 + G + 2)) hKw h1 h2 hc hr)
  have n := r.2 z z'
  have e2 := c6From_val (kr := kr) (f := fun r => .inp ((atomInput env T R A A'.Z kn kq kw).quot r).val G)
    (g := fun r => .inp ((atomInput env T R A' A.Z kn kq kw).quot r).val G) hfl hT hgc hA hA' h h'
    (fun _ _ => rfl) (fun _ _ => rfl)
  rw [e2] at n
  exact n

/-- **C63.** The result of any machine for a C6 coefficient has a relative error of at most `2 K u`. The
normalised Gaussians have been computed with a relative error of `v = u / f` per operation. -/
theorem C63_c6 (hfl : env.fl = id) (hT : T.Physical R.rq) (hgc : 0 < R.gc)
    {A A' : Spec.AtomData} (hA : A.Z < T.nZ) (hA' : A'.Z < T.nZ) {kr kn kq kw : ℕ} {u v : ℝ} {f : ℕ}
    {N E W c H1 H2 G : ℕ} (hv : 0 ≤ v) (hu1 : u < 1) (hf : 1 ≤ f) (hfv : f * v = u) (hN : 1 ≤ N)
    (hc : 1 ≤ c) (h1 : 1 ≤ H1) (h2 : 1 ≤ H2) (hG : Spec.gaussRoundings kn kw N E W ≤ G * f)
    (hK : Spec.c6Roundings kr kq G c H1 H2 * u ≤ 1 / 2)
    (h : (atomInput env T R A A'.Z kn kq kw).Good v N E W c H1 H2)
    (h' : (atomInput env T R A' A.Z kn kq kw).Good v N E W c H1 H2) {z : ℝ}
    (hz : Spec.MachineC6 env T R A A' u v kr kn kq kw z) :
    |z - Spec.c6 (R.spec T env.eps) A A'| ≤ 2 * Spec.c6Roundings kr kq G c H1 H2 * u *
      Spec.c6 (R.spec T env.eps) A A' := by
  have hu : 0 ≤ u := by rw [← hfv]; positivity
  rw [← c6At_spec hfl hT hgc hA hA']
  have n := machineC6_near hfl hT hgc hA hA' hv hu1 hf hfv hN hc h1 h2 hG hK h h' hz
  have d := (n.dev hu hu1 (c6At_nonneg A A')).2
  exact d.trans (mul_le_mul_of_nonneg_right (inv_pow_le hu hu1 hK) (c6At_nonneg A A'))

end

section
variable {env : Env} {T : Tables} {ext : Ext} {numbers : Tensor ℕ} {positions charge : Tensor ℝ}
  {p : Param} {o : DftOpts} {n : ℕ} {B : Shape} {R : RefCfg} {cn : Spec.CN} {eeq : Spec.EEQ}
  {P : Spec.D4Par}

/-- A machine computes distances `d` from the coordinates, C6 coefficients `c6` of the atoms and `c6n` of
the atoms without charge from coordination numbers and charges, and from these the energy `z` of an atom.
`u` and `v` are the relative errors of the data type and of double precision. -/
structure Spec.MachineRun (env : Env) (T : Tables) (R : RefCfg) (P : Spec.D4Par) (p : Param)
    (cutoff : Cutoff) {n : ℕ} (M : Spec.Mol n) (u v : ℝ) (kr kn kq kw kQ : ℕ) (i : Fin n) (z : ℝ) :
    Prop where
  run : ∃ d c6 c6n : Fin n → Fin n → ℝ,
    (∀ j k, (cdistEx env.eps (M.pos j) (M.pos k)).Rounds u (d j k)) ∧
    (∀ j k, Spec.MachineC6 env T R (M.atom j) (M.atom k) u v kr kn kq kw (c6 j k)) ∧
    (∀ j k, Spec.MachineC6 env T R (M.neutral j) (M.neutral k) u v kr kn kq kw (c6n j k)) ∧
    (((machineInput env T R P p cutoff M 0 0 kQ).computed d c6 c6n).energy i).Rounds u z

/-- Assumptions on a system: those of C57 and, for every atom with and without its charge next to an atom
of every element, those of `RefInput.Good`; the atoms are not far from the origin. -/
structure Spec.MachineSystem (env : Env) (T : Tables) (R : RefCfg) {n : ℕ} (M : Spec.Mol n) (v : ℝ)
    (m N E W c H1 H2 kn kq kw : ℕ) : Prop where
  charged : ∀ i j, (atomInput env T R (M.atom i) (M.Z j) kn kq kw).Good v N E W c H1 H2
  neutral : ∀ i j, (atomInput env T R (M.neutral i) (M.Z j) kn kq kw).Good v N E W c H1 H2
  near : ∀ i j, M.Z i ≠ 0 → M.Z j ≠ 0 → i ≠ j →
    10 * Spec.far3 (M.pos i) (M.pos j) ≤ m * Spec.sq3 (M.pos i) (M.pos j)

/-- **C63.** The energy that any machine computes from the coordinates differs from the exact one by at
most `2 K u` times the sum of the absolute values of the contributions. Coordination numbers and exponents
have `kn` and `kw` roundings of double precision, `f` of which make one of the data type; `G` is the number
of roundings of normalised Gaussians in the data type. -/
theorem C63_energy (h : Call env T ext numbers positions charge p o n B R cn eeq P)
    (hfl : env.fl = id) (hT : T.Physical R.rq) (hgc : 0 < R.gc) :
    ∃ e, dftd4 env T ext numbers positions charge p o = .ok e ∧
      ∀ (u v : ℝ) (f m kr kn kq kw kQ q L N E W c H1 H2 G : ℕ), 0 ≤ v → 1 ≤ f → f * v = u → 10 * u ≤ 1 →
      2 * m * u ≤ 1 → 1 ≤ N → 1 ≤ c → 1 ≤ H1 → 1 ≤ H2 → Spec.gaussRoundings kn kw N E W ≤ G * f →
      let K := Spec.roundings n (m + 1) (Spec.c6Roundings kr kq G c H1 H2) kQ q L
      K * u ≤ 1 / 2 → ∀ b, InB B b →
        let S := d4Computed env T R P (o.opts.cutoff.getD {})
        let M := system T cn eeq numbers positions charge o.opts n b
        Spec.Roundable u (m + 1) q L S P M → Spec.MachineSystem env T R M v m N E W c H1 H2 kn kq kw →
        ∀ (i : Fin n) (z : ℝ),
          Spec.MachineRun env T R P p (o.opts.cutoff.getD {}) M u v kr kn kq kw kQ i z →
          |z - e.get (i.1 :: b)| ≤ 2 * K * u * (|Spec.e2 S M M.atom i| + Spec.abs3 S M i) := by
  obtain ⟨e, h1, h2⟩ := C57_energy h
  refine ⟨e, h1, ?_⟩
  intro u v f m kr kn kq kw kQ q L N E W c H1 H2 G hv hf hfv hu10 hm hN hc hH1 hH2 hG K hK b hb S M hR hM i
    z hz
  have hu : 0 ≤ u := by rw [← hfv]; positivity
  have hu1 : u < 1 := by linarith
  obtain ⟨d, c6, c6n, hd, h6, h6n, hz⟩ := hz.run
  refine h2 u (m + 1) (Spec.c6Roundings kr kq G c H1 H2) kQ q L hu hu1 hK b hb hR i z ?_
  have hKc : Spec.c6Roundings kr kq G c H1 H2 * u ≤ 1 / 2 := by
    refine le_trans (mul_le_mul_of_nonneg_right ?_ hu) hK
    simp only [K, Spec.roundings]
    exact_mod_cast (by omega)
  have hZ : ∀ j, (M.Z j) < T.nZ := fun j => h.args.Z_lt hb j
  refine Input.relaxes (machineInput env T R P p (o.opts.cutoff.getD {}) M (m + 1)
    (Spec.c6Roundings kr kq G c H1 H2) kQ) (fun j k hp => ?_) (fun j k => ?_) (fun j k => ?_) i z hz
  · have g := C57_distance hu hu10 env.eps_pos hm (hM.near j k hp.1 hp.2.1 hp.2.2) (hd j k)
    have e1 : (machineInput env T R P p (o.opts.cutoff.getD {}) M (m + 1)
      (Spec.c6Roundings kr kq G c H1 H2) kQ).d j k =
        Spec.rsqrt env.eps (Spec.sq3 (M.pos j) (M.pos k)) := by
      show Spec.rsqrt env.eps (dist (M.pos j) (M.pos k) ^ 2) = _
      rw [EuclideanSpace.dist_eq, Real.sq_sqrt (Finset.sum_nonneg fun _ _ => sq_nonneg _)]
      unfold Spec.sq3
      simp only [Real.dist_eq, sq_abs]
    rw [e1]
    exact g
  · exact machineC6_near hfl hT hgc (hZ j) (hZ k) hv hu1 hf hfv hN hc hH1 hH2 hG hKc (hM.charged j k)
      (hM.charged k j) (h6 j k)
  · refine machineC6_near hfl hT hgc (A := M.neutral j) (A' := M.neutral k) (hZ j) (hZ k) hv hu1 hf hfv hN hc
      hH1 hH2 hG hKc (hM.neutral j k) (hM.neutral k j) (h6n j k)

end

/-! ## Cases -/

namespace Demo

theorem check_water : ([1, 8] : List ℕ).all (fun Z => (List.range 7).all fun r =>
    Nat.ble (at2 Data.refcn Z r) (3 * 10 ^ 14) && decide (-10 ^ 14 ≤ at2 Data.eeqQ Z r) &&
      decide (at2 Data.eeqQ Z r ≤ 10 ^ 14)) = true := by decide +kernel

theorem water_tables {Z r : ℕ} (hZ : Z = 1 ∨ Z = 8) (hr : r < nref) :
    |T.refcn Z r| ≤ 3 ∧ |refqAt T "eeq" Z r| ≤ 1 := by
  have h := check_water
  rw [List.all_eq_true] at h
  have h1 := List.all_eq_true.1 (h Z (by simpa using hZ)) r (List.mem_range.2 hr)
  simp only [Bool.and_eq_true, Nat.ble_eq, decide_eq_true_eq] at h1
  obtain ⟨⟨a, b⟩, c⟩ := h1
  have a' : ((at2 Data.refcn Z r : ℕ) : ℝ) ≤ 3 * 10 ^ 14 := by exact_mod_cast a
  have b' : (-10 ^ 14 : ℝ) ≤ ((at2 Data.eeqQ Z r : ℤ) : ℝ) := by exact_mod_cast b
  have c' : ((at2 Data.eeqQ Z r : ℤ) : ℝ) ≤ 10 ^ 14 := by exact_mod_cast c
  constructor
  · show |((at2 Data.refcn Z r : ℕ) : ℝ) / 10 ^ 14| ≤ 3
    rw [abs_of_nonneg (by positivity), div_le_iff₀ (by positivity)]
    exact a'
  · show |if "eeq" = "eeq" then ((at2 Data.eeqQ Z r : ℤ) : ℝ) / 10 ^ 14 else _| ≤ 1
    rw [if_pos rfl, abs_le, le_div_iff₀ (by positivity), div_le_iff₀ (by positivity)]
    exact ⟨by linarith, by linarith⟩

section
variable {D : Env} (hD : D.eps ≤ 1 / 2 ^ 23)
include hD

/-- Hydrogen and oxygen with a coordination number up to 2 and a charge between 0 and 1. -/
theorem water_good (hf : 2 ≤ D.fmax) {v : ℝ} {kw : ℕ} (hv : kw * v ≤ 1 / 2 ^ 20) {A : Spec.AtomData}
    (hZ : A.Z = 1 ∨ A.Z = 8) (h0 : 0 ≤ A.cn) (h2 : A.cn ≤ 2) (hq0 : 0 ≤ A.q) (hq1 : A.q ≤ 1)
    (Zp kn kq : ℕ) : (atomInput D T .d4 A Zp kn kq kw).Good v 25 450 19 2 4 12 := by
  have hz : 1 ≤ (A.Z : ℝ) := by rcases hZ with h | h <;> rw [h] <;> norm_num
  have heps : D.eps ≤ 1 / 4 := hD.trans (by norm_num)
  have hden : (A.Z : ℝ) - D.eps ≤ A.q + A.Z - D.eps := by linarith
  have hden0 : (0 : ℝ) < A.q + A.Z - D.eps := by linarith
  have hsq : ∀ r < nref, (|A.cn| + |T.refcn A.Z r|) ^ 2 ≤ 5 ^ 2 := by
    intro r hr
    have h := (water_tables hZ hr).1
    rw [abs_of_nonneg h0]
    exact pow_le_pow_left₀ (add_nonneg h0 (abs_nonneg _)) (by linarith) 2
  refine ⟨?_, by norm_num, ?_, ?_, ?_, hf, ?_, ?_, D.eps_pos.le, ?_, ?_, ?_, ?_, ?_⟩
  · show (0 : ℝ) ≤ 6
    norm_num
  · show (3 : ℝ) * 6 ≤ (19 : ℕ) * (1 - kw * v)
    push_cast
    linarith
  · intro r hr _
    show (|A.cn| + |T.refcn A.Z r|) ^ 2 * (if ModelKind.d4 = .d4 then 1 else 6) ≤ (25 : ℕ)
    rw [if_pos rfl]
    push_cast
    linarith [hsq r hr]
  · intro r hr _
    show (3 : ℝ) * 6 * (|A.cn| + |T.refcn A.Z r|) ^ 2 ≤ (450 : ℕ)
    push_cast
    linarith [hsq r hr]
  · show (0 : ℝ) ≤ 3
    norm_num
  · show (0 : ℝ) ≤ 2
    norm_num
  · intro _ _ _
    show (0 : ℝ) ≤ 1 / 2
    norm_num
  · intro _ _ _
    show (0 : ℝ) ≤ (A.Z : ℝ)
    positivity
  · intro _ _ _
    refine ⟨hden0, ?_⟩
    show |A.q| + (A.Z : ℝ) + D.eps ≤ (2 : ℕ) * (A.q + A.Z - D.eps)
    rw [abs_of_nonneg hq0]
    push_cast
    linarith
  · intro r hr _
    have h := (water_tables hZ hr).2
    show (1 / 2 : ℝ) * 2 * (1 + (|refqAt T "eeq" A.Z r| + A.Z) / (A.q + A.Z - D.eps)) ≤ (4 : ℕ)
    have : (|refqAt T "eeq" A.Z r| + A.Z) / (A.q + A.Z - D.eps) ≤ 3 := by
      rw [div_le_iff₀ hden0]
      linarith
    push_cast
    linarith
  · intro r hr _
    have h := (abs_le.1 (water_tables hZ hr).2).1
    show (3 : ℝ) * (1 + Real.exp ((1 / 2 : ℝ) * 2 *
      (1 - (refqAt T "eeq" A.Z r + A.Z) / (A.q + A.Z - D.eps)))) ≤ (12 : ℕ)
    have hx : (1 / 2 : ℝ) * 2 * (1 - (refqAt T "eeq" A.Z r + A.Z) / (A.q + A.Z - D.eps)) ≤ 1 := by
      have := div_nonneg (show 0 ≤ refqAt T "eeq" A.Z r + A.Z by linarith) hden0.le
      linarith
    have := Real.exp_le_exp.2 hx
    have := Real.exp_one_lt_d9
    push_cast
    linarith

omit hD in
theorem water_Z (i : Fin 3) : waterMol.Z i = 1 ∨ waterMol.Z i = 8 := by
  have e : waterMol.Z i = numbers.get [i.1, 0] := rfl
  rw [e]
  fin_cases i <;> simp [numbers]

omit hD in
theorem water_cn (i : Fin 3) : 0 ≤ waterMol.cn i ∧ waterMol.cn i ≤ 2 := by
  have e : waterMol.cn i = ∑ j, if waterMol.Z i ≠ 0 ∧ waterMol.Z j ≠ 0 ∧ i ≠ j then
    Real.exp (-dist (waterMol.pos i) (waterMol.pos j)) else 0 := rfl
  have hb : ∀ j ∈ Finset.univ.erase i, (if waterMol.Z i ≠ 0 ∧ waterMol.Z j ≠ 0 ∧ i ≠ j then
      Real.exp (-dist (waterMol.pos i) (waterMol.pos j)) else 0) ≤ (1 : ℝ) := by
    intro j _
    split_ifs
    · exact Real.exp_le_one_iff.2 (by linarith [dist_nonneg (x := waterMol.pos i) (y := waterMol.pos j)])
    · norm_num
  rw [e]
  refine ⟨Finset.sum_nonneg fun j _ => by split_ifs <;> positivity, ?_⟩
  rw [← Finset.sum_erase Finset.univ (a := i) (if_neg fun h => h.2.2 rfl)]
  refine (Finset.sum_le_card_nsmul _ _ 1 hb).trans ?_
  rw [Finset.card_erase_of_mem (Finset.mem_univ i), Finset.card_univ, Fintype.card_fin]
  norm_num

omit hD in
theorem water_q (i : Fin 3) : waterMol.q i = 1 / 3 := by
  have e : waterMol.q i = if waterMol.Z i ≠ 0 then 1 / ∑ j, (if waterMol.Z j ≠ 0 then 1 else 0) else 0 := rfl
  have hz : ∀ i, waterMol.Z i ≠ 0 := fun i => by rcases water_Z i with h | h <;> rw [h] <;> norm_num
  rw [e, if_pos (hz i), Fin.sum_univ_three, if_pos (hz 0), if_pos (hz 1), if_pos (hz 2)]
  norm_num

theorem water_system (hf : 2 ≤ D.fmax) {v : ℝ} {kw : ℕ} (hv : kw * v ≤ 1 / 2 ^ 20) (kn kq : ℕ) :
    Spec.MachineSystem D T .d4 waterMol v 29 25 450 19 2 4 12 kn kq kw where
  charged i j := water_good hD hf hv (A := waterMol.atom i) (water_Z i) (water_cn i).1 (water_cn i).2
    (by show 0 ≤ waterMol.q i; rw [water_q]; norm_num) (by show waterMol.q i ≤ 1; rw [water_q]; norm_num)
    _ _ _
  neutral i j := water_good hD hf hv (A := waterMol.neutral i) (water_Z i) (water_cn i).1 (water_cn i).2
    (le_refl 0) zero_le_one _ _ _
  near i j _ _ hij := by
    have e : ∀ i j, 10 * Spec.far3 (waterMol.pos i) (waterMol.pos j) ≤
        29 * Spec.sq3 (waterMol.pos i) (waterMol.pos j) ↔
        10 * ∑ k : Fin 3, (|positions.get [k.1, i.1, 0]| + |positions.get [k.1, j.1, 0]|) ^ 2 ≤
          29 * ∑ k : Fin 3, (positions.get [k.1, i.1, 0] - positions.get [k.1, j.1, 0]) ^ 2 :=
      fun i j => Iff.rfl
    refine (e i j).2 ?_
    fin_cases i <;> fin_cases j <;>
      first
      | exact absurd rfl hij
      | norm_num [Fin.sum_univ_three, positions, abs_of_nonneg]

end

theorem env_fmax : 2 ≤ env.fmax :=
  (by norm_num : (2 : ℝ) ≤ 10 ^ 1).trans (pow_le_pow_right₀ (by norm_num) (by norm_num))

/-- Double precision: coordination numbers, charges and `r4r2` rounded once, reference C6 coefficients with
up to ten roundings. -/
example : ∃ e, dftd4 env T ext numbers positions charge param {} = .ok e ∧
    ∀ (i : Fin 3) (z : ℝ), Spec.MachineRun env T .d4 par param {} waterMol dbl dbl 10 1 1 1 1 i z →
      |z - e.get [i.1, 0]| ≤ 3e-11 * (|Spec.e2 (d4Computed env T .d4 par {}) waterMol waterMol.atom i| +
        Spec.abs3 (d4Computed env T .d4 par {}) waterMol i) := by
  obtain ⟨e, h1, h2⟩ := C63_energy call rfl physical (by norm_num [RefCfg.d4])
  refine ⟨e, h1, fun i z hz => ?_⟩
  have := h2 dbl dbl 1 29 10 1 1 1 1 6 26 25 450 19 2 4 12 18053 (by norm_num [dbl]) le_rfl
    (by rw [Nat.cast_one, one_mul]) (by norm_num [dbl]) (by norm_num [dbl]) (by norm_num) (by norm_num)
    (by norm_num) (by norm_num) (by norm_num [Spec.gaussRoundings])
    (by norm_num [Spec.roundings, Spec.c6Roundings, dbl]) [0] (by simp [InB]) water_double
    (water_system env_eps env_fmax (by norm_num [dbl]) 1 1) i z hz
  refine this.trans (mul_le_mul_of_nonneg_right (by norm_num [Spec.roundings, Spec.c6Roundings, dbl]) ?_)
  exact nonneg_of_mul_nonneg_right ((abs_nonneg _).trans this)
    (by norm_num [Spec.roundings, Spec.c6Roundings, dbl])

/-- Single precision. -/
noncomputable def env32 : Env where
  eps := 1 / 2 ^ 23
  eps_pos := by positivity
  fmax := 10 ^ 38
  one_le_fmax := one_le_pow₀ (by norm_num)
  fl := id
  fl_nonneg _ h := h

noncomputable def sgl : ℝ := 1 / 2 ^ 24

theorem call32 : Call env32 T ext numbers positions charge param {} 3 [2] .d4 cn eeq par where
  keys := keys
  args := validArgs
  model := Or.inl ⟨"d4", rfl, keys "d4" (by simp), rfl⟩
  cn := CNFunc.ofSpec_perSystem _ _ _
  eeq := eeqOfSpec_perSystem eeq rfl _
  damping := rfl
  par := reads
  cut3 := by norm_num [Defaults.disp3Cutoff]

/-- A rounding of single precision is contained in `2 ^ 30` roundings of double precision. -/
example {k : ℕ} {x z : ℝ} (hx : 0 ≤ x) (h : Near sgl k x z) : Near dbl (2 ^ 30 * k) x z := by
  have := Near.fine (f := 2 ^ 29) (v := dbl) (by norm_num [dbl]) (by norm_num [dbl, sgl])
    (by norm_num [sgl]) (by norm_num) hx h
  norm_num at this ⊢
  exact this

/-- Single precision with Gaussians in double precision: coordination numbers, exponents, charges and
`r4r2` rounded once to single precision, reference C6 coefficients with up to ten roundings. -/
example : ∃ e, dftd4 env32 T ext numbers positions charge param {} = .ok e ∧
    ∀ (i : Fin 3) (z : ℝ),
      Spec.MachineRun env32 T .d4 par param {} waterMol sgl dbl 10 (2 ^ 30) 1 (2 ^ 30) 1 i z →
      |z - e.get [i.1, 0]| ≤ 0.011 * (|Spec.e2 (d4Computed env32 T .d4 par {}) waterMol waterMol.atom i| +
        Spec.abs3 (d4Computed env32 T .d4 par {}) waterMol i) := by
  obtain ⟨e, h1, h2⟩ := C63_energy call32 rfl physical (by norm_num [RefCfg.d4])
  refine ⟨e, h1, fun i z hz => ?_⟩
  have hD : env32.eps ≤ 1 / 2 ^ 23 := le_rfl
  have := h2 sgl dbl (2 ^ 29) 29 10 (2 ^ 30) 1 (2 ^ 30) 1 6 26 25 450 19 2 4 12 13201 (by norm_num [dbl])
    (by norm_num) (by norm_num [sgl, dbl]) (by norm_num [sgl]) (by norm_num [sgl]) (by norm_num)
    (by norm_num) (by norm_num) (by norm_num) (by norm_num [Spec.gaussRoundings])
    (by norm_num [Spec.roundings, Spec.c6Roundings, sgl]) [0] (by simp [InB])
    (water_roundable hD (by norm_num [sgl]) (by norm_num [sgl]))
    (water_system hD ((by norm_num : (2 : ℝ) ≤ 10 ^ 1).trans
      (pow_le_pow_right₀ (by norm_num) (by norm_num))) (by norm_num [dbl]) (2 ^ 30) 1) i z hz
  refine this.trans (mul_le_mul_of_nonneg_right (by norm_num [Spec.roundings, Spec.c6Roundings, sgl]) ?_)
  exact nonneg_of_mul_nonneg_right ((abs_nonneg _).trans this)
    (by norm_num [Spec.roundings, Spec.c6Roundings, sgl])

/-- Exact arithmetic is such a run. -/
example (i : Fin 3) : ∃ z, Spec.MachineRun env T .d4 par param {} waterMol dbl dbl 10 1 1 1 1 i z := by
  have hu : (0 : ℝ) ≤ dbl := by norm_num [dbl]
  have hu1 : dbl < 1 := by norm_num [dbl]
  have hM := water_system env_eps env_fmax (v := dbl) (kw := 1) (by norm_num [dbl]) 1 1
  have hZ : ∀ i, waterMol.Z i < T.nZ := fun i => by
    show waterMol.Z i < 104
    rcases water_Z i with h | h <;> rw [h] <;> norm_num
  have hR : Spec.Roundable dbl 0 6 26 (d4Computed env T .d4 par {}) par waterMol :=
    { water_double with
      clear := fun i j h1 h2 h3 => by
        obtain ⟨a, b⟩ := water_double.clear i j h1 h2 h3
        have hp : (1 - dbl) ^ (30 + 1) ≤ (1 - dbl) ^ (0 + 1) :=
          pow_le_pow_of_le_one (by linarith) (by linarith) (by norm_num)
        have hr := (waterMol.r_pos env.eps_pos i j).le
        exact ⟨a.imp (fun h => h.trans (mul_le_mul_of_nonneg_right hp water_double.cut2))
            (fun h => h.trans_le (mul_le_mul_of_nonneg_right hp hr)),
          b.imp (fun h => h.trans (mul_le_mul_of_nonneg_right hp water_double.cut3))
            (fun h => h.trans_le (mul_le_mul_of_nonneg_right hp hr))⟩ }
  have hd : ∀ j k, (cdistEx env.eps (waterMol.pos j) (waterMol.pos k)).val = waterMol.r env.eps j k := by
    intro j k
    show √(max _ _) = √(max (dist (waterMol.pos j) (waterMol.pos k) ^ 2) _)
    rw [EuclideanSpace.dist_eq, Real.sq_sqrt (Finset.sum_nonneg fun _ _ => sq_nonneg _)]
    congr 2
    simp only [Ex.val, Real.dist_eq, sq_abs, Fin.sum_univ_three]
    ring
  have p1 := fun j k => Ex.Proper.exact hu hu1 (cdistEx_proper env.eps (waterMol.pos j) (waterMol.pos k))
  have c6 : ∀ A A' : Spec.AtomData, A.Z < T.nZ → A'.Z < T.nZ →
      (atomInput env T .d4 A A'.Z 1 1 1).Good dbl 25 450 19 2 4 12 →
      (atomInput env T .d4 A' A.Z 1 1 1).Good dbl 25 450 19 2 4 12 →
      Spec.MachineC6 env T .d4 A A' dbl dbl 10 1 1 1 (c6At env T .d4 A A') := by
    intro A A' hA hA' h h'
    refine ⟨⟨_, _, fun r _ => Ex.Proper.exact hu hu1 (h.quot_proper r),
      fun r _ => Ex.Proper.exact hu hu1 (h'.quot_proper r), ?_⟩⟩
    rw [← c6From_val (kr := 10) (f := fun r => .inp ((atomInput env T .d4 A A'.Z 1 1 1).quot r).val 0)
      (g := fun r => .inp ((atomInput env T .d4 A' A.Z 1 1 1).quot r).val 0) rfl physical
      (by norm_num [RefCfg.d4]) hA hA' h h' (fun _ _ => rfl) (fun _ _ => rfl)]
    exact Ex.Proper.exact hu hu1 (c6From_proper (fun a b => rc6At_nonneg _ _ _ _ _ _ _) h h'
      (fun r hr => RefInput.quot_nonneg hr) (fun r hr => RefInput.quot_nonneg hr))
  have p4 := Ex.Proper.exact hu hu1 (Input.proper (Input.good (kc := 0) (kQ := 1) (c := c6At env T .d4)
    hu hu1 env.eps_pos (fun A A' => c6At_nonneg A A') reads.kw10 hR) i)
  refine ⟨_, ⟨⟨fun j k => waterMol.r env.eps j k, fun j k => c6At env T .d4 (waterMol.atom j)
    (waterMol.atom k), fun j k => c6At env T .d4 (waterMol.neutral j) (waterMol.neutral k), fun j k => ?_,
    fun j k => c6 _ _ (hZ j) (hZ k) (hM.charged j k) (hM.charged k j),
    fun j k => c6 _ _ (hZ j) (hZ k) (hM.neutral j k) (hM.neutral k j), p4⟩⟩⟩
  dsimp only; rw [← hd]; exact p1 j k

end Demo

/-- C6 of oxygen and hydrogen in water, double precision. -/
example {z : ℝ} (hz : Spec.MachineC6 Demo.env Demo.T .d4 (Demo.waterMol.atom 0) (Demo.waterMol.atom 1)
    Demo.dbl Demo.dbl 10 1 1 1 z) :=
  C63_c6 (R := .d4) (N := 25) (E := 450) (W := 19) (c := 2) (H1 := 4) (H2 := 12) (G := 18053) (f := 1)
    rfl Demo.physical (by norm_num [RefCfg.d4]) (A := Demo.waterMol.atom 0) (A' := Demo.waterMol.atom 1)
    (by show 8 < 104; norm_num) (by show 1 < 104; norm_num) (by norm_num [Demo.dbl])
    (by norm_num [Demo.dbl]) (by norm_num) (by rw [Nat.cast_one, one_mul]) (by norm_num) (by norm_num)
    (by norm_num) (by norm_num) (by norm_num [Spec.gaussRoundings])
    (by norm_num [Spec.c6Roundings, Demo.dbl])
    ((Demo.water_system Demo.env_eps Demo.env_fmax (by norm_num [Demo.dbl]) 1 1).charged 0 1)
    ((Demo.water_system Demo.env_eps Demo.env_fmax (by norm_num [Demo.dbl]) 1 1).charged 1 0) hz

end TadDftd4
