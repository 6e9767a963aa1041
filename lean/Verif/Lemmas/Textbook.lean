import Verif.Spec.Textbook
import Mathlib.Analysis.SpecialFunctions.Gaussian.GaussianIntegral
import Mathlib.Analysis.SpecialFunctions.Integrals.Basic
import Mathlib.MeasureTheory.Integral.IntervalIntegral.FundThmCalculus
import Mathlib.Analysis.Calculus.ContDiff.Basic
import Mathlib.Analysis.InnerProductSpace.Calculus
import Mathlib.LinearAlgebra.Matrix.NonsingularInverse
import Mathlib.LinearAlgebra.Matrix.ToLinearEquiv

/-!
# Coordination numbers and charges of D4: lemmas
-/

open scoped Classical

namespace TadDftd4.Spec

/-! ## The error function -/

theorem erf_hasDerivAt (x : ℝ) : HasDerivAt erf (2 / √Real.pi * Real.exp (-x ^ 2)) x := by
  have hc : Continuous fun t : ℝ => Real.exp (-t ^ 2) := by fun_prop
  exact (intervalIntegral.integral_hasDerivAt_right (hc.intervalIntegrable _ _)
    (hc.stronglyMeasurableAtFilter _ _) hc.continuousAt).const_mul _

theorem erf_contDiff {m : WithTop ℕ∞} (hm : m ≤ ((⊤ : ℕ∞) : WithTop ℕ∞)) : ContDiff ℝ m erf := by
  refine ContDiff.of_le ?_ hm
  rw [contDiff_infty_iff_deriv]
  refine ⟨fun x => (erf_hasDerivAt x).differentiableAt, ?_⟩
  rw [show deriv erf = fun x => 2 / √Real.pi * Real.exp (-x ^ 2) from
    funext fun x => (erf_hasDerivAt x).deriv]
  fun_prop

theorem erf_neg (x : ℝ) : erf (-x) = -erf x := by
  unfold erf
  have := intervalIntegral.integral_comp_neg (a := 0) (b := x) fun t : ℝ => Real.exp (-t ^ 2)
  simp only [neg_sq, neg_zero] at this
  rw [this, intervalIntegral.integral_symm (-x) 0]
  ring

theorem erf_strictMono : StrictMono erf :=
  strictMono_of_deriv_pos fun x => by
    rw [(erf_hasDerivAt x).deriv]; positivity

theorem erf_le_one {x : ℝ} (hx : 0 ≤ x) : erf x ≤ 1 := by
  have hint : MeasureTheory.IntegrableOn (fun t : ℝ => Real.exp (-t ^ 2)) (Set.Ioi 0) := by
    have := (integrable_exp_neg_mul_sq (b := 1) one_pos).integrableOn (s := Set.Ioi 0)
    simpa using this
  have h1 : ∫ t in (0 : ℝ)..x, Real.exp (-t ^ 2) ≤ √Real.pi / 2 := by
    rw [intervalIntegral.integral_of_le hx]
    have h2 := integral_gaussian_Ioi 1
    simp only [neg_mul, one_mul, div_one] at h2
    rw [← h2]
    exact MeasureTheory.setIntegral_mono_set hint (Filter.Eventually.of_forall fun t => (Real.exp_pos _).le)
      (Set.Ioc_subset_Ioi_self.eventuallyLE)
  have hp : 0 < √Real.pi := Real.sqrt_pos.2 Real.pi_pos
  unfold erf
  calc 2 / √Real.pi * ∫ t in (0 : ℝ)..x, Real.exp (-t ^ 2) ≤ 2 / √Real.pi * (√Real.pi / 2) :=
        mul_le_mul_of_nonneg_left h1 (by positivity)
    _ = 1 := by field_simp

theorem erf_lt_one (x : ℝ) : erf x < 1 :=
  lt_of_lt_of_le (erf_strictMono (show x < max x 0 + 1 by have := le_max_left x 0; linarith))
    (erf_le_one (by have := le_max_right x 0; linarith))

theorem neg_one_lt_erf (x : ℝ) : -1 < erf x := by
  have := erf_lt_one (-x)
  rw [erf_neg] at this
  linarith

theorem erf_zero : erf 0 = 0 := by simp [erf]

theorem erf_pos {x : ℝ} (hx : 0 < x) : 0 < erf x := by
  rw [← erf_zero]; exact erf_strictMono hx

/-! ## Coordination numbers -/

section
variable {C : CNPar} {cutoff : ℝ} {n : ℕ} {Z : Fin n → ℕ} {x : Fin n → E3} {i : Fin n} {m : WithTop ℕ∞}

theorem CNPar.count_pos {z z' : ℕ} {r : ℝ} (h : 0 < C.factor z z') : 0 < C.count z z' r := by
  unfold count
  have := neg_one_lt_erf (-C.steep * (r / (C.rcov z + C.rcov z') - 1))
  exact mul_pos h (by linarith)

theorem cnErf_nonneg (h : ∀ z z', 0 < C.factor z z') : 0 ≤ cnErf C cutoff n Z x i :=
  Finset.sum_nonneg fun j _ => by
    split_ifs
    · exact (CNPar.count_pos (h _ _)).le
    · exact le_rfl

theorem cnErf_pos (h : ∀ z z', 0 < C.factor z z') {j : Fin n} (hi : Z i ≠ 0) (hj : Z j ≠ 0) (hij : i ≠ j)
    (hd : dist (x i) (x j) ≤ cutoff) : 0 < cnErf C cutoff n Z x i := by
  refine Finset.sum_pos' (fun j _ => ?_) ⟨j, Finset.mem_univ _, ?_⟩
  · split_ifs
    · exact (CNPar.count_pos (h _ _)).le
    · exact le_rfl
  · rw [if_pos ⟨hi, hj, hij, hd⟩]
    exact CNPar.count_pos (h _ _)

theorem cnErf_equivariant : (cnErf C cutoff).Equivariant := by
  intro n π Z pos i
  unfold cnErf
  refine Eq.trans ?_ (Equiv.sum_comp π _)
  simp only [Function.comp, ne_eq, π.injective.eq_iff]

theorem cnErf_invariant : (cnErf C cutoff).Invariant := by
  intro n g Z pos i
  simp only [cnErf, g.dist_eq]

theorem cnErf_ignoresPadding : (cnErf C cutoff).IgnoresPadding := by
  intro n k Z pos hpad i
  unfold cnErf
  rw [Fin.sum_univ_add]
  simp [hpad]

theorem cnErf_ignoresPaddingPositions : (cnErf C cutoff).IgnoresPaddingPositions := by
  intro n Z pos pos' h i hi
  refine Finset.sum_congr rfl fun j _ => ?_
  by_cases hj : Z j ≠ 0
  · rw [h i hi, h j hj]
  · rw [if_neg (fun hc => hj hc.2.1), if_neg (fun hc => hj hc.2.1)]

theorem dist_contDiffAt {i j : Fin n} (h : x i ≠ x j) :
    ContDiffAt ℝ m (fun y : Fin n → E3 => dist (y i) (y j)) x :=
  (contDiff_apply ℝ E3 i).contDiffAt.dist ℝ (contDiff_apply ℝ E3 j).contDiffAt h

/-- Smooth, unless two atoms coincide or a distance equals the cutoff. -/
theorem cnErf_smooth (hm : m ≤ ((⊤ : ℕ∞) : WithTop ℕ∞))
    (h : ∀ j, Z j ≠ 0 → i ≠ j → x i ≠ x j ∧ dist (x i) (x j) ≠ cutoff) :
    ContDiffAt ℝ m (fun y => cnErf C cutoff n Z y i) x := by
  unfold cnErf
  refine ContDiffAt.sum fun j _ => ?_
  by_cases hc : Z i ≠ 0 ∧ Z j ≠ 0 ∧ i ≠ j
  · obtain ⟨h1, h2⟩ := h j hc.2.1 hc.2.2
    have hd := dist_contDiffAt (m := m) h1
    have hcont : Filter.Tendsto (fun y : Fin n → E3 => dist (y i) (y j)) (nhds x) (nhds (dist (x i) (x j))) :=
      (Continuous.dist (continuous_apply i) (continuous_apply j)).continuousAt
    rcases lt_or_gt_of_ne h2 with hlt | hgt
    · have hs : ContDiffAt ℝ m (fun y : Fin n → E3 => C.count (Z i) (Z j) (dist (y i) (y j))) x := by
        unfold CNPar.count
        refine contDiffAt_const.mul (ContDiffAt.div_const (contDiffAt_const.add ?_) 2)
        exact (erf_contDiff hm).contDiffAt.comp x
          (contDiffAt_const.mul ((hd.div_const _).sub contDiffAt_const))
      refine hs.congr_of_eventuallyEq ?_
      filter_upwards [hcont.eventually (gt_mem_nhds hlt)] with y hy
      exact if_pos ⟨hc.1, hc.2.1, hc.2.2, le_of_lt hy⟩
    · refine (contDiffAt_const (c := (0 : ℝ))).congr_of_eventuallyEq ?_
      filter_upwards [hcont.eventually (lt_mem_nhds hgt)] with y hy
      exact if_neg fun hh => absurd hh.2.2.2 (not_le.2 hy)
  · refine (contDiffAt_const (c := (0 : ℝ))).congr_of_eventuallyEq (Filter.Eventually.of_forall fun y => ?_)
    exact if_neg fun hh => hc ⟨hh.1, hh.2.1, hh.2.2.1⟩

end

theorem cap_pos {m x : ℝ} (hx : 0 < x) : 0 < cap m x := by
  unfold cap
  have : Real.exp (m - x) < Real.exp m := Real.exp_lt_exp.2 (by linarith)
  have h1 := Real.exp_pos (m - x)
  exact sub_pos.2 (Real.log_lt_log (by linarith) (by linarith))

theorem cap_contDiff {m : ℝ} {k : WithTop ℕ∞} : ContDiff ℝ k (cap m) := by
  unfold cap
  refine contDiff_const.sub (ContDiff.log (by fun_prop) fun x => ?_)
  have := Real.exp_pos (m - x)
  linarith

/-! ## Charges -/

section
variable {E : EEQPar} {c Q : ℝ} {n : ℕ} {Z : Fin n → ℕ} {x : Fin n → E3}

/-- Where the equations determine the charges, `eeqCharges` solves them. -/
theorem eeqCharges_spec (h : E.Solvable c Z x Q) : E.IsCharges c Z x Q (eeqCharges E n c Z x Q) := by
  rw [eeqCharges, dif_pos h]
  exact h.choose_spec.1

/-- If the solutions of two systems of equations correspond to each other, so do the charges. -/
theorem eeqCharges_transport {n' : ℕ} {Z' : Fin n' → ℕ} {x' : Fin n' → E3}
    (f : (Fin n → ℝ) → Fin n' → ℝ) (g : (Fin n' → ℝ) → Fin n → ℝ) (h0 : f 0 = 0)
    (hf : ∀ q, E.IsCharges c Z x Q q → E.IsCharges c Z' x' Q (f q))
    (hg : ∀ q, E.IsCharges c Z' x' Q q → E.IsCharges c Z x Q (g q))
    (hgf : ∀ q, E.IsCharges c Z x Q q → g (f q) = q)
    (hfg : ∀ q, E.IsCharges c Z' x' Q q → f (g q) = q) :
    eeqCharges E n' c Z' x' Q = f (eeqCharges E n c Z x Q) := by
  by_cases h : E.Solvable c Z x Q
  · have h' : E.Solvable c Z' x' Q := by
      obtain ⟨q, hq, hu⟩ := h
      refine ⟨f q, hf q hq, fun q' hq' => ?_⟩
      rw [← hfg q' hq', hu _ (hg q' hq')]
    exact h'.unique (eeqCharges_spec h') (hf _ (eeqCharges_spec h))
  · have h' : ¬ E.Solvable c Z' x' Q := by
      rintro ⟨q, hq, hu⟩
      refine h ⟨g q, hg q hq, fun q' hq' => ?_⟩
      rw [← hgf q' hq', hu _ (hf q' hq')]
    rw [eeqCharges, eeqCharges, dif_neg h, dif_neg h', h0]

theorem EEQPar.coulomb_comp {n' : ℕ} {f : Fin n' → Fin n} (hf : Function.Injective f) (i j : Fin n') :
    E.coulomb (Z ∘ f) (x ∘ f) i j = E.coulomb Z x (f i) (f j) := by
  simp only [coulomb, Function.comp, hf.eq_iff]

theorem EEQPar.isCharges_perm (π : Equiv.Perm (Fin n)) (q : Fin n → ℝ) :
    E.IsCharges c (Z ∘ π) (x ∘ π) Q (q ∘ π) ↔ E.IsCharges c Z x Q q := by
  unfold IsCharges
  refine and_congr (exists_congr fun μ => ?_) (and_congr ?_ ?_)
  · rw [← π.forall_congr_right (q := fun i => Z i ≠ 0 →
      (∑ j, if Z j ≠ 0 then E.coulomb Z x i j * q j else 0) + μ = E.drive c Z x i)]
    refine forall_congr' fun i => ?_
    have h1 : (∑ j, if (Z ∘ π) j ≠ 0 then E.coulomb (Z ∘ π) (x ∘ π) i j * (q ∘ π) j else 0) =
        ∑ j, if Z j ≠ 0 then E.coulomb Z x (π i) j * q j else 0 := by
      refine Eq.trans ?_ (Equiv.sum_comp π _)
      refine Finset.sum_congr rfl fun j _ => ?_
      rw [coulomb_comp π.injective]
      rfl
    have h2 : E.drive c (Z ∘ π) (x ∘ π) i = E.drive c Z x (π i) := by
      unfold drive
      rw [cnErf_equivariant]
      rfl
    rw [h1, h2]
    rfl
  · have : (∑ j, if (Z ∘ π) j ≠ 0 then (q ∘ π) j else 0) = ∑ j, if Z j ≠ 0 then q j else 0 :=
      Equiv.sum_comp π fun j => if Z j ≠ 0 then q j else 0
    rw [this]
  · rw [← π.forall_congr_right (q := fun i => Z i = 0 → q i = 0)]
    rfl

theorem eeqCharges_equivariant : (eeqCharges E).Equivariant := by
  intro n π c Z pos Q i
  have := eeqCharges_transport (E := E) (c := c) (Q := Q) (Z := Z) (x := pos) (Z' := Z ∘ π)
    (x' := pos ∘ π) (fun q => q ∘ π) (fun q => q ∘ π.symm) rfl
    (fun q hq => (EEQPar.isCharges_perm π q).2 hq)
    (fun q hq => (EEQPar.isCharges_perm π _).1 (by
      rwa [show (q ∘ π.symm) ∘ π = q from funext fun i => by simp]))
    (fun q _ => funext fun i => by simp) (fun q _ => funext fun i => by simp)
  exact congrFun this i

theorem eeqCharges_invariant : (eeqCharges E).Invariant := by
  intro n g c Z pos Q i
  have h1 : ∀ q, E.IsCharges c Z (fun k => g (pos k)) Q q ↔ E.IsCharges c Z pos Q q := by
    intro q
    simp only [EEQPar.IsCharges, EEQPar.coulomb, EEQPar.drive, g.dist_eq, cnErf_invariant n g]
  have := eeqCharges_transport (E := E) (c := c) (Q := Q) (Z := Z) (x := pos) (Z' := Z)
    (x' := fun k => g (pos k)) id id rfl (fun q hq => (h1 q).2 hq) (fun q hq => (h1 q).1 hq)
    (fun _ _ => rfl) (fun _ _ => rfl)
  exact congrFun this i

theorem eeqCharges_ignoresPaddingPositions : (eeqCharges E).IgnoresPaddingPositions := by
  intro n c Z pos pos' Q h i hi
  have h1 : ∀ q, E.IsCharges c Z pos Q q ↔ E.IsCharges c Z pos' Q q := by
    intro q
    unfold EEQPar.IsCharges
    refine and_congr (exists_congr fun μ => forall₂_congr fun i hi => ?_) Iff.rfl
    have e1 : (∑ j, if Z j ≠ 0 then E.coulomb Z pos i j * q j else 0) =
        ∑ j, if Z j ≠ 0 then E.coulomb Z pos' i j * q j else 0 := by
      refine Finset.sum_congr rfl fun j _ => ?_
      by_cases hj : Z j ≠ 0
      · simp only [if_pos hj, EEQPar.coulomb, h i hi, h j hj]
      · rw [if_neg hj, if_neg hj]
    have e2 : E.drive c Z pos i = E.drive c Z pos' i := by
      unfold EEQPar.drive
      rw [cnErf_ignoresPaddingPositions n Z pos pos' h i hi]
    rw [e1, e2]
  have := eeqCharges_transport (E := E) (c := c) (Q := Q) (Z := Z) (x := pos') (Z' := Z)
    (x' := pos) id id rfl (fun q hq => (h1 q).2 hq) (fun q hq => (h1 q).1 hq)
    (fun _ _ => rfl) (fun _ _ => rfl)
  exact congrFun this i

theorem eeqCharges_ignoresPadding : (eeqCharges E).IgnoresPadding := by
  intro n k c Z pos Q hpad i
  have hl : ∀ q : Fin (n + k) → ℝ, E.IsCharges c Z pos Q q ↔
      E.IsCharges c (Z ∘ Fin.castAdd k) (pos ∘ Fin.castAdd k) Q (q ∘ Fin.castAdd k) ∧
        ∀ j, q (Fin.natAdd n j) = 0 := by
    intro q
    have e1 : ∀ i : Fin n, (∑ j, if Z j ≠ 0 then E.coulomb Z pos (Fin.castAdd k i) j * q j else 0) =
        ∑ j, if (Z ∘ Fin.castAdd k) j ≠ 0 then
          E.coulomb (Z ∘ Fin.castAdd k) (pos ∘ Fin.castAdd k) i j * (q ∘ Fin.castAdd k) j else 0 := by
      intro i
      rw [Fin.sum_univ_add]
      simp only [EEQPar.coulomb_comp (Fin.castAdd_injective n k)]
      simp [hpad]
    have e2 : ∀ i : Fin n, E.drive c Z pos (Fin.castAdd k i) =
        E.drive c (Z ∘ Fin.castAdd k) (pos ∘ Fin.castAdd k) i := by
      intro i
      unfold EEQPar.drive
      rw [cnErf_ignoresPadding n k Z pos hpad i]
      rfl
    have e3 : (∑ j, if Z j ≠ 0 then q j else 0) =
        ∑ j, if (Z ∘ Fin.castAdd k) j ≠ 0 then (q ∘ Fin.castAdd k) j else 0 := by
      rw [Fin.sum_univ_add]
      simp [hpad]
    unfold EEQPar.IsCharges
    rw [e3, and_assoc, and_assoc]
    refine and_congr (exists_congr fun μ => ?_) (and_congr Iff.rfl ?_)
    · constructor
      · intro h i hi
        rw [← e1, ← e2]
        exact h _ hi
      · intro h j
        refine Fin.addCases (fun i hi => ?_) (fun l hl => absurd (hpad l) hl) j
        rw [e1, e2]
        exact h i hi
    · constructor
      · exact fun h => ⟨fun i hi => h _ hi, fun j => h _ (hpad j)⟩
      · rintro ⟨h1, h2⟩ j
        refine Fin.addCases (fun i hi => h1 i hi) (fun l _ => h2 l) j
  have := eeqCharges_transport (E := E) (c := c) (Q := Q) (Z := Z) (x := pos)
    (Z' := Z ∘ Fin.castAdd k) (x' := pos ∘ Fin.castAdd k) (fun q => q ∘ Fin.castAdd k)
    (fun q => Fin.append q 0) rfl
    (fun q hq => ((hl q).1 hq).1)
    (fun q hq => (hl _).2 ⟨by
      rwa [show (Fin.append q (0 : Fin k → ℝ)) ∘ Fin.castAdd k = q from funext fun i => by simp],
      fun j => by simp⟩)
    (fun q hq => by
      funext j
      refine Fin.addCases (fun i => by simp) (fun l => ?_) j
      simp [((hl q).1 hq).2 l])
    (fun q _ => funext fun i => by simp)
  exact (congrFun this i).symm

/-! ### Solvability -/

/-- The interaction of charges is positive definite on the real atoms. -/
def EEQPar.Stable (E : EEQPar) (Z : Fin n → ℕ) (x : Fin n → E3) : Prop :=
  ∀ q : Fin n → ℝ, (∀ i, Z i = 0 → q i = 0) → q ≠ 0 → 0 < ∑ i, ∑ j, q i * E.coulomb Z x i j * q j

/-- Matrix of the charge equations: one row per atom and one for the total charge. -/
noncomputable def EEQPar.matrix (E : EEQPar) (Z : Fin n → ℕ) (x : Fin n → E3) :
    Matrix (Option (Fin n)) (Option (Fin n)) ℝ := fun a b =>
  match a, b with
  | some i, some j => if Z i ≠ 0 then (if Z j ≠ 0 then E.coulomb Z x i j else 0) else if i = j then 1 else 0
  | some i, none => if Z i ≠ 0 then 1 else 0
  | none, some j => if Z j ≠ 0 then 1 else 0
  | none, none => 0

/-- Right-hand sides. -/
noncomputable def EEQPar.rhs (E : EEQPar) (c : ℝ) (Z : Fin n → ℕ) (x : Fin n → E3) (Q : ℝ) :
    Option (Fin n) → ℝ
  | some i => if Z i ≠ 0 then E.drive c Z x i else 0
  | none => Q

/-- Charges and `μ` as one vector. -/
def joinVec (q : Fin n → ℝ) (μ : ℝ) : Option (Fin n) → ℝ
  | some i => q i
  | none => μ

theorem EEQPar.mulVec_some (q : Fin n → ℝ) (μ : ℝ) (i : Fin n) :
    (E.matrix Z x).mulVec (joinVec q μ) (some i) = if Z i ≠ 0 then
      (∑ j, if Z j ≠ 0 then E.coulomb Z x i j * q j else 0) + μ else q i := by
  rw [Matrix.mulVec, dotProduct, Fintype.sum_option]
  by_cases hi : Z i ≠ 0
  · simp only [matrix, joinVec, if_pos hi, one_mul, ite_mul, zero_mul]
    ring
  · simp only [matrix, joinVec, if_neg hi, zero_mul, ite_mul, one_mul, zero_add, Finset.sum_ite_eq,
      Finset.mem_univ, if_true]

theorem EEQPar.mulVec_none (q : Fin n → ℝ) (μ : ℝ) :
    (E.matrix Z x).mulVec (joinVec q μ) none = ∑ j, if Z j ≠ 0 then q j else 0 := by
  rw [Matrix.mulVec, dotProduct, Fintype.sum_option]
  simp [matrix, joinVec]

theorem EEQPar.isCharges_iff (q : Fin n → ℝ) :
    E.IsCharges c Z x Q q ↔ ∃ μ, (E.matrix Z x).mulVec (joinVec q μ) = E.rhs c Z x Q := by
  unfold IsCharges
  constructor
  · rintro ⟨⟨μ, h1⟩, h2, h3⟩
    refine ⟨μ, funext fun a => ?_⟩
    cases a with
    | none => rw [mulVec_none]; exact h2
    | some i =>
      rw [mulVec_some]
      by_cases hi : Z i ≠ 0
      · simp only [rhs, if_pos hi]; exact h1 i hi
      · simp only [rhs, if_neg hi]; exact h3 i (not_not.1 hi)
  · rintro ⟨μ, h⟩
    refine ⟨⟨μ, fun i hi => ?_⟩, ?_, fun i hi => ?_⟩
    · have := congrFun h (some i)
      rw [mulVec_some] at this
      simpa only [rhs, if_pos hi] using this
    · have := congrFun h none
      rwa [mulVec_none] at this
    · have := congrFun h (some i)
      rw [mulVec_some] at this
      simpa only [rhs, if_neg (not_not.2 hi)] using this

theorem joinVec_surj (v : Option (Fin n) → ℝ) : v = joinVec (fun i => v (some i)) (v none) := by
  funext a; cases a <;> rfl

/-- An invertible matrix determines the charges. -/
theorem EEQPar.solvable_of_det (h : (E.matrix Z x).det ≠ 0) : E.Solvable c Z x Q := by
  have hu : IsUnit (E.matrix Z x).det := isUnit_iff_ne_zero.2 h
  set v := (E.matrix Z x)⁻¹.mulVec (E.rhs c Z x Q) with hv
  refine ⟨fun i => v (some i), (isCharges_iff _).2 ⟨v none, ?_⟩, fun q hq => ?_⟩
  · rw [← joinVec_surj v, hv, Matrix.mulVec_mulVec, Matrix.mul_nonsing_inv _ hu, Matrix.one_mulVec]
  · obtain ⟨μ, hμ⟩ := (isCharges_iff _).1 hq
    have : joinVec q μ = v := by
      rw [hv, ← hμ, Matrix.mulVec_mulVec, Matrix.nonsing_inv_mul _ hu, Matrix.one_mulVec]
    funext i
    rw [← this]
    rfl

/-- With a real atom, the charges are determined only if the matrix is invertible. -/
theorem EEQPar.det_of_solvable {i : Fin n} (hi : Z i ≠ 0) (h : E.Solvable c Z x Q) :
    (E.matrix Z x).det ≠ 0 := by
  intro h0
  obtain ⟨v, hv, hmv⟩ := Matrix.exists_mulVec_eq_zero_iff.2 h0
  obtain ⟨q, hq, hu⟩ := h
  obtain ⟨μ, hμ⟩ := (isCharges_iff _).1 hq
  have h1 : E.IsCharges c Z x Q (fun j => q j + v (some j)) := by
    refine (isCharges_iff _).2 ⟨μ + v none, ?_⟩
    have : joinVec (fun j => q j + v (some j)) (μ + v none) = joinVec q μ + v := by
      funext a; cases a <;> rfl
    rw [this, Matrix.mulVec_add, hmv, add_zero, hμ]
  have h2 : ∀ j, v (some j) = 0 := fun j => by
    have := congrFun (hu _ h1) j
    simpa using this
  have h3 : v none = 0 := by
    have := congrFun hmv (some i)
    rw [joinVec_surj v, mulVec_some, if_pos hi] at this
    simpa [h2] using this
  exact hv (funext fun a => by cases a <;> [exact h3; exact h2 _])

/-- A positive definite interaction determines the charges of every system. -/
theorem EEQPar.Stable.solvable (h : E.Stable Z x) {i : Fin n} (hi : Z i ≠ 0) : E.Solvable c Z x Q := by
  refine solvable_of_det fun h0 => ?_
  obtain ⟨v, hv, hmv⟩ := Matrix.exists_mulVec_eq_zero_iff.2 h0
  rw [joinVec_surj v] at hmv
  set q : Fin n → ℝ := fun i => v (some i) with hq
  have h1 : ∀ i, Z i = 0 → q i = 0 := fun i hi => by
    have := congrFun hmv (some i)
    rwa [mulVec_some, if_neg (not_not.2 hi)] at this
  have h2 : ∀ i, Z i ≠ 0 → (∑ j, if Z j ≠ 0 then E.coulomb Z x i j * q j else 0) + v none = 0 :=
    fun i hi => by
      have := congrFun hmv (some i)
      rwa [mulVec_some, if_pos hi] at this
  have h3 : ∑ j, q j = 0 := by
    have := congrFun hmv none
    rw [mulVec_none] at this
    rw [Pi.zero_apply] at this
    rw [← this]
    refine Finset.sum_congr rfl fun j _ => ?_
    by_cases hj : Z j ≠ 0
    · rw [if_pos hj]
    · rw [if_neg hj, h1 j (not_not.1 hj)]
  have h4 : ∑ i, ∑ j, q i * E.coulomb Z x i j * q j = 0 := by
    have e : ∀ i, ∑ j, q i * E.coulomb Z x i j * q j = -(v none) * q i := by
      intro i
      by_cases hi : Z i ≠ 0
      · have : (∑ j, if Z j ≠ 0 then E.coulomb Z x i j * q j else 0) = -(v none) := by
          linarith [h2 i hi]
        rw [← this, Finset.sum_mul]
        refine Finset.sum_congr rfl fun j _ => ?_
        by_cases hj : Z j ≠ 0
        · rw [if_pos hj]; ring
        · rw [if_neg hj, h1 j (not_not.1 hj)]; ring
      · rw [h1 i (not_not.1 hi)]; simp
    rw [Finset.sum_congr rfl fun i _ => e i, ← Finset.mul_sum, h3, mul_zero]
  have h5 : q = 0 := by
    by_contra hne
    exact absurd h4 (h q h1 hne).ne'
  have h6 : v none = 0 := by
    have := h2 i hi
    simpa [h5] using this
  exact hv (funext fun a => by cases a <;> [exact h6; exact congrFun h5 _])

/-! ### Smoothness -/

variable {m : WithTop ℕ∞}

theorem contDiffAt_det {ι : Type*} [Fintype ι] [DecidableEq ι] {M : (Fin n → E3) → Matrix ι ι ℝ}
    (h : ∀ a b, ContDiffAt ℝ m (fun y => M y a b) x) : ContDiffAt ℝ m (fun y => (M y).det) x := by
  simp only [Matrix.det_apply]
  exact ContDiffAt.sum fun σ _ => (contDiffAt_prod fun i _ => h _ _).const_smul _

/-- No two real atoms coincide, no distance equals the cutoff, and every real atom has a neighbour (or its
electronegativity does not depend on neighbours). -/
structure EEQPar.Regular (E : EEQPar) (c : ℝ) (Z : Fin n → ℕ) (x : Fin n → E3) : Prop where
  apart : ∀ i j, Z i ≠ 0 → Z j ≠ 0 → i ≠ j → x i ≠ x j
  cutoff : ∀ i j, Z i ≠ 0 → Z j ≠ 0 → i ≠ j → dist (x i) (x j) ≠ c
  neighbour : ∀ i, Z i ≠ 0 → E.kappa (Z i) = 0 ∨ ∃ j, Z j ≠ 0 ∧ i ≠ j ∧ dist (x i) (x j) ≤ c

theorem EEQPar.coulomb_smooth (hm : m ≤ ((⊤ : ℕ∞) : WithTop ℕ∞)) {i j : Fin n}
    (h : i ≠ j → x i ≠ x j) : ContDiffAt ℝ m (fun y => E.coulomb Z y i j) x := by
  unfold coulomb
  by_cases hij : i = j
  · simp only [if_pos hij]; exact contDiffAt_const
  · simp only [if_neg hij]
    have hd := dist_contDiffAt (m := m) (h hij)
    exact ((erf_contDiff hm).contDiffAt.comp x (hd.div_const _)).div hd
      (dist_pos.2 (h hij)).ne'

theorem EEQPar.drive_smooth (hm : m ≤ ((⊤ : ℕ∞) : WithTop ℕ∞)) (hf : ∀ z z', 0 < E.cn.factor z z')
    (h : E.Regular c Z x) {i : Fin n} (hi : Z i ≠ 0) : ContDiffAt ℝ m (fun y => E.drive c Z y i) x := by
  unfold drive
  refine contDiffAt_const.add ?_
  rcases h.neighbour i hi with h0 | ⟨j, hj, hij, hd⟩
  · simp only [h0, zero_mul]; exact contDiffAt_const
  · refine contDiffAt_const.mul (ContDiffAt.sqrt ?_ (cap_pos (cnErf_pos hf hi hj hij hd)).ne')
    exact cap_contDiff.contDiffAt.comp x
      (cnErf_smooth hm fun j hj hij => ⟨h.apart i j hi hj hij, h.cutoff i j hi hj hij⟩)

/-- Charges depend smoothly on the positions. -/
theorem eeqCharges_smooth (hm : m ≤ ((⊤ : ℕ∞) : WithTop ℕ∞)) (hf : ∀ z z', 0 < E.cn.factor z z')
    (h : E.Regular c Z x) (hs : E.Solvable c Z x Q) {i : Fin n} (hi : Z i ≠ 0) :
    ContDiffAt ℝ m (fun y => eeqCharges E n c Z y Q i) x := by
  have hM : ∀ a b, ContDiffAt ℝ m (fun y => E.matrix Z y a b) x := by
    intro a b
    rcases a with _ | i <;> rcases b with _ | j <;> simp only [EEQPar.matrix]
    · exact contDiffAt_const
    · exact contDiffAt_const
    · exact contDiffAt_const
    · by_cases hi : Z i ≠ 0
      · by_cases hj : Z j ≠ 0
        · simp only [if_pos hi, if_pos hj]
          exact EEQPar.coulomb_smooth hm fun hij => h.apart i j hi hj hij
        · simp only [if_pos hi, if_neg hj]; exact contDiffAt_const
      · simp only [if_neg hi]; exact contDiffAt_const
  have hr : ∀ a, ContDiffAt ℝ m (fun y => E.rhs c Z y Q a) x := by
    intro a
    rcases a with _ | i <;> simp only [EEQPar.rhs]
    · exact contDiffAt_const
    · by_cases hi : Z i ≠ 0
      · simp only [if_pos hi]; exact EEQPar.drive_smooth hm hf h hi
      · simp only [if_neg hi]; exact contDiffAt_const
  have hdet := contDiffAt_det hM
  have h0 := EEQPar.det_of_solvable hi hs
  -- Cramer's rule
  have hc : ContDiffAt ℝ m (fun y => ((E.matrix Z y).updateCol (some i) (E.rhs c Z y Q)).det /
      (E.matrix Z y).det) x := by
    refine (contDiffAt_det fun a b => ?_).div hdet h0
    by_cases hb : b = some i
    · subst hb
      simpa only [Matrix.updateCol_self] using hr a
    · simpa only [Matrix.updateCol_ne hb] using hM a b
  refine hc.congr_of_eventuallyEq ?_
  filter_upwards [hdet.continuousAt.eventually_ne h0] with y hy
  have hsy := EEQPar.solvable_of_det (c := c) (Q := Q) hy
  obtain ⟨μ, hμ⟩ := (EEQPar.isCharges_iff _).1 (eeqCharges_spec hsy)
  have e := Matrix.cramer_apply (E.matrix Z y) (E.rhs c Z y Q) (some i)
  rw [← e, ← hμ]
  have e2 : (E.matrix Z y).cramer ((E.matrix Z y).mulVec (joinVec (eeqCharges E n c Z y Q) μ)) =
      (E.matrix Z y).det • joinVec (eeqCharges E n c Z y Q) μ := by
    rw [Matrix.cramer_eq_adjugate_mulVec, Matrix.mulVec_mulVec, Matrix.adjugate_mul, Matrix.smul_mulVec,
      Matrix.one_mulVec]
  rw [e2]
  simp only [Pi.smul_apply, smul_eq_mul, joinVec]
  field_simp

end

end TadDftd4.Spec
