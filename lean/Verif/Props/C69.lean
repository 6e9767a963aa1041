import Verif.Lemmas.TextbookStable
import Verif.Props.C02
import Verif.Props.C03
import Verif.Props.C04
import Verif.Props.C13
import Verif.Props.C42
import Verif.Props.C55
import Verif.Props.C65

/-!
# C69: energies and forces with the coordination numbers and charges of D4

The theorems on `dftd4` leave the external coordination number and charge functions open and state what
they need of them. Here these functions are the published ones (`Spec/Textbook.lean`): coordination
numbers with an error function and EEQ charges, for all parameters of these models. Nothing remains to be
assumed but that the charge equations have a solution, where forces are concerned.
-/

open scoped Classical Matrix

namespace TadDftd4

open Tensor

section
variable {env : Env} {T : Tables} {ext : Ext} {numbers numbers' : Tensor ℕ}
  {positions positions' charge charge' : Tensor ℝ} {p : Param} {o o' : DftOpts} {n m k : ℕ}
  {B B' : Shape} {b b' : Idx} {R : RefCfg} {C : Spec.CNPar} {E : Spec.EEQPar} {P : Spec.D4Par} {r : ℝ}

/-- Energies follow the labels of the atoms. -/
theorem C69_relabelling
    (h : Call env T ext numbers positions charge p o n B R (Spec.cnErf C r) (Spec.eeqCharges E) P)
    (h' : Call env T ext numbers' positions' charge' p o' n B R (Spec.cnErf C r) (Spec.eeqCharges E) P)
    (hcut : o'.opts.cutoff = o.opts.cutoff) :
    ∃ e e', dftd4 env T ext numbers positions charge p o = .ok e ∧
      dftd4 env T ext numbers' positions' charge' p o' = .ok e' ∧
      ∀ b, InB B b → ∀ π : Equiv.Perm (Fin n),
        Relabelled π b numbers numbers' positions positions' charge charge' o.opts o'.opts →
        (∀ i : Fin n, e'.get (i.1 :: b) = e.get ((π i).1 :: b)) ∧
        ∑ i ∈ Finset.range n, e'.get (i :: b) = ∑ i ∈ Finset.range n, e.get (i :: b) :=
  C02_relabelling h h' Spec.cnErf_equivariant Spec.eeqCharges_equivariant hcut

/-- Rotating, reflecting and translating the positions leaves all energies unchanged. -/
theorem C69_rigid_motion
    (h : Call env T ext numbers positions charge p o n B R (Spec.cnErf C r) (Spec.eeqCharges E) P)
    (hpos : positions'.Ok (3 :: n :: B)) {O : Matrix (Fin 3) (Fin 3) ℝ}
    (hO : O ∈ Matrix.orthogonalGroup (Fin 3) ℝ) (t : Fin 3 → ℝ)
    (hrot : ∀ b, InB B b → ∀ i : Fin n, ∀ k : Fin 3, positions'.get (k.1 :: i.1 :: b) =
      ∑ l : Fin 3, O k l * positions.get (l.1 :: i.1 :: b) + t k) :
    ∃ e e', dftd4 env T ext numbers positions charge p o = .ok e ∧
      dftd4 env T ext numbers positions' charge p o = .ok e' ∧
      ∀ b, InB B b → ∀ i : Fin n, e'.get (i.1 :: b) = e.get (i.1 :: b) :=
  C03_rigid_motion h hpos Spec.cnErf_invariant Spec.eeqCharges_invariant hO t hrot

/-- Padding and batching leave the energies of a system unchanged. -/
theorem C69_padding
    (h : Call env T ext numbers positions charge p o (m + k) B R (Spec.cnErf C r) (Spec.eeqCharges E) P)
    (h' : Call env T ext numbers' positions' charge' p o' m B' R (Spec.cnErf C r) (Spec.eeqCharges E) P) :
    ∃ e e', dftd4 env T ext numbers positions charge p o = .ok e ∧
      dftd4 env T ext numbers' positions' charge' p o' = .ok e' ∧
      ∀ b b', InB B b → InB B' b' →
        Padded m k b b' numbers numbers' positions positions' charge charge' o.opts o'.opts →
        (∀ i < m, e.get (i :: b) = e'.get (i :: b')) ∧
        ∀ i, m ≤ i → i < m + k → e.get (i :: b) = 0 :=
  C04_padding h h' Spec.cnErf_ignoresPadding Spec.eeqCharges_ignoresPadding

/-- With given charges, a fragment that is farther from all other atoms than every cutoff (two-body,
three-body, coordination number) has the energies of the fragment alone. -/
theorem C69_fragment {q q' : Tensor ℝ} {eeq : Spec.EEQ}
    (h : Call env T ext numbers positions charge p o n B R (Spec.cnErf C r) eeq P)
    (h' : Call env T ext numbers' positions' charge' p o' m B' R (Spec.cnErf C r) eeq P)
    (hcut : o.opts.cutoff = o'.opts.cutoff) (hb : InB B b) (hb' : InB B' b')
    (F : Fin m → Fin n) (hF : Function.Injective F)
    (hnum : ∀ i, numbers'.get (i.1 :: b') = numbers.get ((F i).1 :: b))
    (hpos : ∀ i (l : Fin 3), positions'.get (l.1 :: i.1 :: b') = positions.get (l.1 :: (F i).1 :: b))
    (hq : o.opts.q = some q) (hq' : o'.opts.q = some q')
    (hqq : ∀ i, q'.get (i.1 :: b') = q.get ((F i).1 :: b))
    (hr : o.opts.r4r2 = none) (hr' : o'.opts.r4r2 = none)
    (hv : o.opts.rvdw = none) (hv' : o'.opts.rvdw = none)
    (hfar : ∀ i k, k ∉ Set.range F → numbers.get ((F i).1 :: b) ≠ 0 → numbers.get (k.1 :: b) ≠ 0 →
      (o.opts.cutoff.getD {}).disp2 < dist (coords positions n b (F i)) (coords positions n b k) ∧
      (o.opts.cutoff.getD {}).disp3 < dist (coords positions n b (F i)) (coords positions n b k) ∧
      r < dist (coords positions n b (F i)) (coords positions n b k)) :
    ∃ e e', dftd4 env T ext numbers positions charge p o = .ok e ∧
      dftd4 env T ext numbers' positions' charge' p o' = .ok e' ∧
      ∀ i : Fin m, e.get ((F i).1 :: b) = e'.get (i.1 :: b') := by
  refine C13_dftd4 h h' hcut hb hb' F hF ?_ fun i k hk hi h0 =>
    ⟨(hfar i k hk hi h0).1, (hfar i k hk hi h0).2.1⟩
  have hZ : elements numbers' m b' = elements numbers n b ∘ F := funext hnum
  have hp : coords positions' m b' = coords positions n b ∘ F := by
    funext i
    simp only [coords, Function.comp]
    congr 1
    funext l
    exact hpos i l
  unfold system Spec.Mol.comap
  simp only [hq, hq', hr, hr', hv, hv', Spec.Mol.mk.injEq]
  refine ⟨hZ, hp, ?_, ?_, ?_, ?_⟩
  · funext i
    show Spec.cnErf C r m _ _ i = Spec.cnErf C r n _ _ (F i)
    rw [hZ, hp]
    unfold Spec.cnErf
    rw [← Finset.sum_subset (Finset.subset_univ (Finset.univ.image F)), Finset.sum_image hF.injOn]
    · simp only [Function.comp, ne_eq, hF.eq_iff]
    · intro j _ hj
      refine if_neg fun hc => ?_
      have hj' : j ∉ Set.range F := fun ⟨a, ha⟩ => hj (Finset.mem_image.2 ⟨a, Finset.mem_univ _, ha⟩)
      exact absurd hc.2.2.2 (not_le.2 (hfar i j hj' hc.1 hc.2.1).2.2)
  · funext i; exact hqq i
  · rw [hZ]; rfl
  · rw [hZ]; rfl

end

/-! ## Forces -/

section
variable {env : Env} {T : Tables} {ext : Ext} {numbers : Tensor ℕ} {charge : Tensor ℝ} {p : Param}
  {o : DftOpts} {n : ℕ} {B : Shape} {b : Idx} {R : RefCfg} {C : Spec.CNPar} {E : Spec.EEQPar}
  {P : Spec.D4Par} {r : ℝ} {positions : (Fin n → Spec.E3) → Tensor ℝ} {U : (Fin n → Spec.E3) → ℝ}
  {x : Fin n → Spec.E3}

/-- At generic geometries the total energy is differentiable any number of times. -/
theorem C69_smooth
    (h : TotalEnergy env T ext numbers positions charge p o B R (Spec.cnErf C r) (Spec.eeqCharges E) P b U)
    (hfl : env.fl = id) (hT : T.Physical R.rq) (hgc : 0 < R.gc)
    (hf : ∀ z z', 0 < E.cn.factor z z')
    (hcn : ∀ i j, elements numbers n b i ≠ 0 → elements numbers n b j ≠ 0 → i ≠ j →
      dist (x i) (x j) ≠ r)
    (hreg : E.Regular (o.opts.cutoff.getD {}).cnEeq (elements numbers n b) x)
    (hsol : E.Solvable (o.opts.cutoff.getD {}).cnEeq (elements numbers n b) x (charge.get b))
    (hg : Spec.Generic (Spec.d4Settings (R.spec T env.eps) env.eps P (o.opts.cutoff.getD {}).disp2
      (o.opts.cutoff.getD {}).disp3) (R.spec T env.eps)
      (system T (Spec.cnErf C r) (Spec.eeqCharges E) numbers (positions x) charge o.opts n b)) (k : ℕ) :
    ContDiffAt ℝ k U x := by
  have hk : ((k : ℕ∞) : WithTop ℕ∞) ≤ ((⊤ : ℕ∞) : WithTop ℕ∞) := by exact_mod_cast le_top
  refine C42_smooth h hfl hT hgc (fun i hi => ?_) (fun _ i hi => ?_) hg
  · exact Spec.cnErf_smooth hk fun j hj hij => ⟨hreg.apart i j hi hj hij, hcn i j hi hj hij⟩
  · exact Spec.eeqCharges_smooth hk hf hreg hsol hi

/-- At such geometries the forces add up to zero, exert no torque, and padding atoms feel none; the Hessian
is symmetric and its rows add up to zero. -/
theorem C69_forces
    (h : TotalEnergy env T ext numbers positions charge p o B R (Spec.cnErf C r) (Spec.eeqCharges E) P b U)
    (hfl : env.fl = id) (hT : T.Physical R.rq) (hgc : 0 < R.gc)
    (hf : ∀ z z', 0 < E.cn.factor z z')
    (hcn : ∀ i j, elements numbers n b i ≠ 0 → elements numbers n b j ≠ 0 → i ≠ j →
      dist (x i) (x j) ≠ r)
    (hreg : E.Regular (o.opts.cutoff.getD {}).cnEeq (elements numbers n b) x)
    (hsol : E.Solvable (o.opts.cutoff.getD {}).cnEeq (elements numbers n b) x (charge.get b))
    (hg : Spec.Generic (Spec.d4Settings (R.spec T env.eps) env.eps P (o.opts.cutoff.getD {}).disp2
      (o.opts.cutoff.getD {}).disp3) (R.spec T env.eps)
      (system T (Spec.cnErf C r) (Spec.eeqCharges E) numbers (positions x) charge o.opts n b)) :
    (∀ k, ∑ i, Spec.force U x i k = 0) ∧ ∑ i, (x i).ofLp ⨯₃ Spec.force U x i = 0 ∧
    (∀ i, elements numbers n b i = 0 → ∀ k, Spec.force U x i k = 0) ∧
    (∀ i k j l, Spec.hessian U x i k j l = Spec.hessian U x j l i k) ∧
    ∀ i k l, ∑ j, Spec.hessian U x i k j l = 0 := by
  have hs := C69_smooth h hfl hT hgc hf hcn hreg hsol hg 2
  have hd : DifferentiableAt ℝ U x := hs.differentiableAt (by norm_num)
  exact ⟨C42_forces_sum_zero h Spec.cnErf_invariant Spec.eeqCharges_invariant hd,
    C42_torque_zero h Spec.cnErf_invariant Spec.eeqCharges_invariant hd,
    fun i hi => C42_padding_force_zero h Spec.cnErf_ignoresPaddingPositions
      Spec.eeqCharges_ignoresPaddingPositions hi,
    C55_symmetric hs, C55_translation h Spec.cnErf_invariant Spec.eeqCharges_invariant hs⟩

/-- Forces turn with the molecule, at all geometries. -/
theorem C69_rotation
    (h : TotalEnergy env T ext numbers positions charge p o B R (Spec.cnErf C r) (Spec.eeqCharges E) P b U)
    {O : Matrix (Fin 3) (Fin 3) ℝ} (hO : O ∈ Matrix.orthogonalGroup (Fin 3) ℝ) (t : Fin 3 → ℝ)
    {y : Fin n → Spec.E3} (hy : ∀ i k, y i k = ∑ l, O k l * x i l + t k) (i : Fin n) (k : Fin 3) :
    Spec.force U y i k = ∑ l, O k l * Spec.force U x i l :=
  C65_rotation h Spec.cnErf_invariant Spec.eeqCharges_invariant hO t hy i k

/-- The charge equations of a system with real atoms have exactly one solution if the interaction of the
charges is positive definite; it adds up to the total charge. -/
theorem C69_charges {Z : Fin n → ℕ} {c Q : ℝ} (h : E.Stable Z x) {i : Fin n} (hi : Z i ≠ 0) :
    E.Solvable c Z x Q ∧ E.IsCharges c Z x Q (Spec.eeqCharges E n c Z x Q) ∧
      ∑ j, Spec.eeqCharges E n c Z x Q j = Q := by
  have hs := h.solvable (c := c) (Q := Q) hi
  have hc := Spec.eeqCharges_spec hs
  refine ⟨hs, hc, ?_⟩
  refine Eq.trans ?_ hc.2.1
  refine Finset.sum_congr rfl fun j _ => ?_
  by_cases hj : Z j ≠ 0
  · rw [if_pos hj]
  · rw [if_neg hj, hc.2.2 j (not_not.1 hj)]

/-- With positive hardnesses and radii the charge equations of distinct atoms have exactly one solution. -/
theorem C69_solvable {Z : Fin n → ℕ} {c Q : ℝ} (heta : ∀ i, Z i ≠ 0 → 0 < E.eta (Z i))
    (hrad : ∀ i, Z i ≠ 0 → 0 < E.rad (Z i)) (hx : ∀ i j, Z i ≠ 0 → Z j ≠ 0 → i ≠ j → x i ≠ x j)
    {i : Fin n} (hi : Z i ≠ 0) : E.Solvable c Z x Q :=
  (Spec.EEQPar.stable_of_hardness heta hrad hx).solvable hi

end

/-! ## A concrete case: water and hydrogen fluoride -/

namespace Demo

noncomputable def cnPar : Spec.CNPar := ⟨fun Z => 0.6 + Z / 20, fun _ _ => 1, 7.5⟩
noncomputable def eeqPar : Spec.EEQPar := ⟨fun Z => Z / 100, fun _ => 1, fun _ => 0.1, fun _ => 1, cnPar, 8⟩
noncomputable def cnT : Spec.CN := Spec.cnErf cnPar 25
noncomputable def eeqT : Spec.EEQ := Spec.eeqCharges eeqPar

noncomputable def extT : Ext := { ext with cnD4 := .ofSpec cnT, eeq := eeqOfSpec eeqT }

theorem callT : Call env T extT numbers positions charge param {} 3 [2] .d4 (Spec.cnErf cnPar 25)
    (Spec.eeqCharges eeqPar) par where
  keys := keys
  args := validArgs
  model := Or.inl ⟨"d4", rfl, keys "d4" (by simp), rfl⟩
  cn := CNFunc.ofSpec_perSystem _ _ _
  eeq := eeqOfSpec_perSystem _ rfl _
  damping := rfl
  par := reads
  cut3 := by norm_num [Defaults.disp3Cutoff]

noncomputable def totalHFT (x : Fin 3 → Spec.E3) : ℝ :=
  match dftd4 env T extT numbers (positionsAt x) charge param with
  | .ok e => ∑ i : Fin 3, e.get [i.1, 1]
  | .error _ => 0

theorem totalEnergyT : TotalEnergy env T extT numbers positionsAt charge param {} [2] .d4
    (Spec.cnErf cnPar 25) (Spec.eeqCharges eeqPar) par [1] totalHFT where
  call x := { callT with args := { validArgs with pos := ⟨rfl, rfl⟩ } }
  batch := by simp [InB]
  at_pos x := totalEnergy.at_pos x
  total x e he := by
    simp only [totalHFT, he]

theorem coulombHF {i j : Fin 3} (hi : elements numbers 3 [1] i ≠ 0) (hj : elements numbers 3 [1] j ≠ 0)
    (hij : i ≠ j) : 0 ≤ eeqPar.coulomb (elements numbers 3 [1]) xHF i j ∧
      eeqPar.coulomb (elements numbers 3 [1]) xHF i j ≤ 1 / 1.8 := by
  unfold Spec.EEQPar.coulomb
  rw [if_neg hij, dist_xHF hi hj hij]
  have h1 : 0 < 1.8 / √(eeqPar.rad (elements numbers 3 [1] i) ^ 2 +
      eeqPar.rad (elements numbers 3 [1] j) ^ 2) := by
    refine div_pos (by norm_num) (Real.sqrt_pos.2 ?_)
    norm_num [eeqPar]
  exact ⟨div_nonneg (Spec.erf_pos h1).le (by norm_num),
    div_le_div_of_nonneg_right (Spec.erf_lt_one _).le (by norm_num)⟩

theorem coulombHF_diag (i : Fin 3) : 1 ≤ eeqPar.coulomb (elements numbers 3 [1]) xHF i i := by
  unfold Spec.EEQPar.coulomb
  rw [if_pos rfl]
  have : 0 ≤ √(2 / Real.pi) / eeqPar.rad (elements numbers 3 [1] i) :=
    div_nonneg (Real.sqrt_nonneg _) (by norm_num [eeqPar])
  have h1 : eeqPar.eta (elements numbers 3 [1] i) = 1 := rfl
  linarith

/-- The equations of the charges of hydrogen fluoride have a solution. -/
theorem stableHF : eeqPar.Stable (elements numbers 3 [1]) xHF :=
  Spec.EEQPar.stable_of_hardness (fun _ _ => by norm_num [eeqPar]) (fun _ _ => by norm_num [eeqPar])
    fun i j hi hj hij he => by
      have := dist_xHF hi hj hij
      rw [he, dist_self] at this
      norm_num at this

example : eeqPar.Solvable 25 (elements numbers 3 [1]) xHF (-1) :=
  C69_solvable (fun _ _ => by norm_num [eeqPar]) (fun _ _ => by norm_num [eeqPar])
    (fun i j hi hj hij he => by
      have := dist_xHF hi hj hij
      rw [he, dist_self] at this
      norm_num at this) (i := 0) (by decide)

example := C69_charges (c := 25) (Q := 1) stableHF (i := 0) (by decide)

theorem regularHF : eeqPar.Regular 25 (elements numbers 3 [1]) xHF where
  apart i j hi hj hij he := by
    have := dist_xHF hi hj hij
    rw [he, dist_self] at this
    norm_num at this
  cutoff i j hi hj hij := by
    rw [dist_xHF hi hj hij]; norm_num
  neighbour i hi := by
    refine Or.inr ?_
    have hd : ∀ i j : Fin 3, elements numbers 3 [1] i ≠ 0 → elements numbers 3 [1] j ≠ 0 → i ≠ j →
        dist (xHF i) (xHF j) ≤ 25 := fun i j h1 h2 h3 => by rw [dist_xHF h1 h2 h3]; norm_num
    fin_cases i
    · exact ⟨1, by decide, by decide, hd 0 1 (by decide) (by decide) (by decide)⟩
    · exact ⟨0, by decide, by decide, hd 1 0 (by decide) (by decide) (by decide)⟩
    · exact absurd rfl hi

theorem cnHF : Spec.cnErf cnPar 25 3 (elements numbers 3 [1]) xHF 0 =
    Spec.cnErf cnPar 25 3 (elements numbers 3 [1]) xHF 1 := by
  have h0 : elements numbers 3 [1] 0 = 9 := rfl
  have h1 : elements numbers 3 [1] 1 = 1 := rfl
  have h2 : elements numbers 3 [1] 2 = 0 := rfl
  have d := dist_xHF (i := 0) (j := 1) (by decide) (by decide) (by decide)
  have d' := dist_xHF (i := 1) (j := 0) (by decide) (by decide) (by decide)
  unfold Spec.cnErf
  rw [Fin.sum_univ_three, Fin.sum_univ_three]
  simp only [h0, h1, h2, d, d']
  norm_num [Spec.CNPar.count, cnPar]

/-- The charges of hydrogen fluoride (total charge 1) are positive. -/
theorem chargesHF (i : Fin 3) :
    0 ≤ Spec.eeqCharges eeqPar 3 25 (elements numbers 3 [1]) xHF (charge.get [1]) i := by
  obtain ⟨-, hc, -⟩ := C69_charges (c := 25) (Q := charge.get [1]) stableHF (i := 0) (by decide)
  obtain ⟨q, hq⟩ : ∃ q, q = Spec.eeqCharges eeqPar 3 25 (elements numbers 3 [1]) xHF (charge.get [1]) :=
    ⟨_, rfl⟩
  rw [← hq] at hc ⊢
  obtain ⟨⟨μ, hμ⟩, hs, h0⟩ := hc
  have z0 : elements numbers 3 [1] 0 ≠ 0 := by decide
  have z1 : elements numbers 3 [1] 1 ≠ 0 := by decide
  have z2 : elements numbers 3 [1] 2 = 0 := rfl
  have q2 : q 2 = 0 := h0 2 z2
  have e0 := hμ 0 z0
  have e1 := hμ 1 z1
  have hc : charge.get [1] = 1 := rfl
  simp only [Fin.sum_univ_three, if_pos z0, if_pos z1, q2, mul_zero, ite_self, add_zero] at e0 e1 hs
  obtain ⟨p1, p2⟩ := coulombHF z0 z1 (by decide)
  have hsym : eeqPar.coulomb (elements numbers 3 [1]) xHF 1 0 =
      eeqPar.coulomb (elements numbers 3 [1]) xHF 0 1 := by
    unfold Spec.EEQPar.coulomb
    rw [if_neg (by decide), if_neg (by decide), dist_comm, add_comm]
  have hdiag : eeqPar.coulomb (elements numbers 3 [1]) xHF 1 1 =
      eeqPar.coulomb (elements numbers 3 [1]) xHF 0 0 := by
    unfold Spec.EEQPar.coulomb
    rw [if_pos rfl, if_pos rfl]
    rfl
  have hdr : eeqPar.drive 25 (elements numbers 3 [1]) xHF 0 + 0.08 =
      eeqPar.drive 25 (elements numbers 3 [1]) xHF 1 := by
    have h0 : eeqPar.chi (elements numbers 3 [1] 0) = 9 / 100 := by
      show ((9 : ℕ) : ℝ) / 100 = 9 / 100
      norm_num
    have h1 : eeqPar.chi (elements numbers 3 [1] 1) = 1 / 100 := by
      show ((1 : ℕ) : ℝ) / 100 = 1 / 100
      norm_num
    unfold Spec.EEQPar.drive
    rw [h0, h1, show eeqPar.cn = cnPar from rfl, cnHF,
      show eeqPar.kappa (elements numbers 3 [1] 0) = eeqPar.kappa (elements numbers 3 [1] 1) from rfl]
    ring
  have d0 := coulombHF_diag 0
  rw [hsym, hdiag] at e1
  rw [hc] at hs
  have key : (eeqPar.coulomb (elements numbers 3 [1]) xHF 0 0 -
      eeqPar.coulomb (elements numbers 3 [1]) xHF 0 1) * (q 1 - q 0) = 0.08 := by linarith
  have c1 : (1 : ℝ) / 1.8 ≤ 0.6 := by norm_num
  have hD : (0.4 : ℝ) ≤ eeqPar.coulomb (elements numbers 3 [1]) xHF 0 0 -
      eeqPar.coulomb (elements numbers 3 [1]) xHF 0 1 := by linarith
  have k1 : 0 ≤ q 1 - q 0 := by
    by_contra hlt
    nlinarith
  have k2 : q 1 - q 0 ≤ 1 := by nlinarith
  fin_cases i
  · show 0 ≤ q 0; linarith
  · show 0 ≤ q 1; linarith
  · exact q2.ge

theorem generic_HFT : Spec.Generic (Spec.d4Settings (RefCfg.d4.spec T env.eps) env.eps par 60 40)
    (RefCfg.d4.spec T env.eps) (system T (Spec.cnErf cnPar 25) (Spec.eeqCharges eeqPar) numbers
      (positionsAt xHF) charge {} 3 [1]) := by
  have hp : coords (positionsAt xHF) 3 [1] = xHF := totalEnergy.at_pos xHF
  constructor
  · exact generic_HF.apart
  · exact generic_HF.cut2
  · exact generic_HF.cut3
  · intro i hi
    have hq : (0 : ℝ) ≤ Spec.eeqCharges eeqPar 3 25 (elements numbers 3 [1]) (coords (positionsAt xHF) 3 [1])
        (charge.get [1]) i := by
      rw [hp]; exact chargesHF i
    have hz : (1 : ℝ) ≤ (elements numbers 3 [1] i : ℕ) := by
      exact_mod_cast Nat.one_le_iff_ne_zero.2 hi
    show (1 / 2 ^ 52 : ℝ) < Spec.eeqCharges eeqPar 3 25 (elements numbers 3 [1])
      (coords (positionsAt xHF) 3 [1]) (charge.get [1]) i + (elements numbers 3 [1] i : ℕ)
    have : (1 / 2 ^ 52 : ℝ) < 1 := by norm_num
    linarith
  · exact generic_HF.zeff
  · intro i j k hi hj hk hij hik hjk
    exfalso
    change elements numbers 3 [1] i ≠ 0 at hi
    change elements numbers 3 [1] j ≠ 0 at hj
    change elements numbers 3 [1] k ≠ 0 at hk
    fin_cases i <;> fin_cases j <;> fin_cases k <;>
      simp [elements, numbers] at hi hj hk hij hik hjk
  · exact generic_HF.radii

/-- Forces on hydrogen fluoride with coordination numbers and charges of D4. -/
example := C69_forces totalEnergyT rfl physical (by norm_num [RefCfg.d4]) (fun _ _ => one_pos)
  (fun i j hi hj hij => by rw [dist_xHF hi hj hij]; norm_num) regularHF
  (stableHF.solvable (i := 0) (by decide)) generic_HFT

example := C69_smooth totalEnergyT rfl physical (by norm_num [RefCfg.d4]) (fun _ _ => one_pos)
  (fun i j hi hj hij => by rw [dist_xHF hi hj hij]; norm_num) regularHF
  (stableHF.solvable (i := 0) (by decide)) generic_HFT 5

example := C69_rotation totalEnergyT (x := xHF) (planeRot_mem (a := 0) (c := 1) (by decide) 1) ![1, 2, 3]
  (y := fun i => WithLp.toLp 2 fun k => ∑ l, planeRot 0 1 1 k l * xHF i l + ![1, 2, 3] k)
  (fun _ _ => rfl)

theorem callT_of {numbers' : Tensor ℕ} {positions' charge' : Tensor ℝ} {o' : DftOpts} {n' : ℕ} {B' : Shape}
    (hargs : ValidArgs T numbers' positions' charge' o'.opts n' B') (hm : o'.model = .key "d4")
    (hc : o'.cnFunction = none) (hd : o'.damping = .rational) (h3 : o'.opts.cutoff = none) :
    Call env T extT numbers' positions' charge' param o' n' B' .d4 (Spec.cnErf cnPar 25)
      (Spec.eeqCharges eeqPar) par where
  keys := keys
  args := hargs
  model := Or.inl ⟨"d4", hm, keys "d4" (by simp), rfl⟩
  cn := by rw [hc]; exact CNFunc.ofSpec_perSystem _ _ _
  eeq := eeqOfSpec_perSystem _ rfl _
  damping := hd
  par := reads
  cut3 := by rw [h3]; norm_num [Defaults.disp3Cutoff]

/-- Fluorine first or hydrogen first; a mirror image; hydrogen fluoride alone and padded. -/
example := C69_relabelling callT (callT_of callSwap.args rfl rfl rfl rfl) rfl

example : ∃ e e', dftd4 env T extT numbers positions charge param = .ok e ∧
    dftd4 env T extT numbers positionsM charge param = .ok e' ∧ e'.get [1, 0] = e.get [1, 0] := by
  obtain ⟨e, e', h1, h2, h3⟩ := C69_rigid_motion (positions' := positionsM) callT ⟨rfl, rfl⟩
    (O := Matrix.diagonal fun k => if k = 0 then -1 else 1) (by
      rw [Matrix.mem_orthogonalGroup_iff]
      rw [Matrix.diagonal_transpose, Matrix.diagonal_mul_diagonal,
        ← Matrix.diagonal_one]
      congr 1
      funext k
      by_cases hk : k = 0 <;> simp [hk])
    (fun k => if k = 2 then 7 else 0) (by
      intro b _ i k
      fin_cases k <;> simp [positionsM, Matrix.diagonal])
  exact ⟨e, e', h1, h2, h3 [0] (by simp [InB]) 1⟩

example : ∃ e e', dftd4 env T extT numbers positions charge param = .ok e ∧
    dftd4 env T extT numbersHF positionsHF chargeHF param = .ok e' ∧
    e.get [0, 1] = e'.get [0] ∧ e.get [2, 1] = 0 := by
  obtain ⟨e, e', h1, h2, h3⟩ := C69_padding (m := 2) (k := 1) callT (callT_of callHF.args rfl rfl rfl rfl)
  have := h3 [1] [] (by simp [InB]) trivial padded
  exact ⟨e, e', h1, h2, this.1 0 (by norm_num), this.2 2 le_rfl (by norm_num)⟩

noncomputable def oFar : DftOpts := { opts := { q := some (full [4] 0.1) } }
noncomputable def oOne : DftOpts := { opts := { q := some (full [2] 0.1) } }

/-- Hydrogen with charges 0.1, beyond the cutoffs from another atom. -/
example := C69_fragment (o := oFar) (o' := oOne) (charge := neutral) (charge' := neutral) (F := Fin.natAdd 2)
  (callT_of (numbers' := pairNum) (positions' := pairPos)
    { num := ⟨rfl, rfl⟩
      pos := ⟨rfl, rfl⟩
      lt := fun i _ => lt_of_le_of_lt (pairNum_le i) (by show 1 < 104; norm_num)
      fits := fits
      charge := ⟨rfl, rfl⟩
      q := fun _ h => by cases h; exact ⟨rfl, rfl⟩
      rcov := fun _ h => by simp [oFar] at h
      r4r2 := fun _ h => by simp [oFar] at h
      rvdw := fun _ h => by simp [oFar] at h } rfl rfl rfl rfl)
  (callT_of (numbers' := dimer) (positions' := onePos)
    { num := ⟨rfl, rfl⟩
      pos := ⟨rfl, rfl⟩
      lt := fun i _ => by show 1 < 104; norm_num
      fits := fits
      charge := ⟨rfl, rfl⟩
      q := fun _ h => by cases h; exact ⟨rfl, rfl⟩
      rcov := fun _ h => by simp [oOne] at h
      r4r2 := fun _ h => by simp [oOne] at h
      rvdw := fun _ h => by simp [oOne] at h } rfl rfl rfl rfl)
  rfl InB_nil InB_nil (hF := fun _ _ h => Fin.natAdd_inj _ |>.1 h)
  (hnum := fun i => by fin_cases i <;> rfl) (hpos := fun i l => by fin_cases i <;> fin_cases l <;> rfl)
  (hq := rfl) (hq' := rfl) (hqq := fun _ => rfl) (hr := rfl) (hr' := rfl) (hv := rfl) (hv' := rfl)
  (hfar := fun i k hk _ h0 => by
    have hk : k.1 < 2 := by
      by_contra h
      exact hk ⟨⟨k.1 - 2, by omega⟩, by ext; simp; omega⟩
    have := pair_dist (i := Fin.natAdd 2 i) (by simp) hk h0
    refine ⟨?_, ?_, ?_⟩
    · show (60 : ℝ) < _
      exact this
    · show (40 : ℝ) < _
      linarith
    · linarith)

end Demo

end TadDftd4
