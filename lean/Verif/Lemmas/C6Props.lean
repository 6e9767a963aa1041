import Verif.Lemmas.C6Spec

/-!
# Structure of the C6 coefficients: symmetry, sign, Casimir-Polder form
-/

set_option linter.unusedSimpArgs false

open scoped Classical

namespace TadDftd4

open Tensor

theorem trapzWeights_pos {w : ℕ} (hw : w < nfreq) : 0 < trapzWeights.getD w 0 := by
  unfold trapzWeights
  have hw : w < 23 := hw
  interval_cases w <;> norm_num

theorem trapzWeights_nonneg (w : ℕ) : 0 ≤ trapzWeights.getD w 0 := by
  rcases Nat.lt_or_ge w nfreq with h | h
  · exact (trapzWeights_pos h).le
  · have : trapzWeights[w]? = none := List.getElem?_eq_none (by simpa [trapzWeights] using h)
    simp [List.getD, this]

theorem thopi_pos : 0 < thopi := div_pos (by norm_num) Real.pi_pos

section
variable {env : Env} {T : Tables} {R : RefCfg}

theorem FP.exp_toReal_nonneg (x : FP) : 0 ≤ (FP.exp x).toReal := by
  cases x <;> simp [FP.exp, FP.toReal, (Real.exp_pos _).le]

theorem zetaF_toReal_nonneg (eps ga gam qref qmod : ℝ) :
    0 ≤ (zetaF eps ga gam qref qmod).toReal := by
  unfold zetaF
  split_ifs
  · exact FP.exp_toReal_nonneg _
  · exact (Real.exp_pos _).le

theorem zetaAt_nonneg (ga gc : ℝ) (rq : String) (Z : ℕ) (q : ℝ) (r : ℕ) :
    0 ≤ zetaAt env T ga gc rq Z q r := by
  unfold zetaAt
  split_ifs
  · exact zetaF_toReal_nonneg _ _ _ _ _
  · exact le_rfl

theorem expwD4_nonneg (w : ℝ) (Z : ℕ) (cn : ℝ) (r : ℕ) : 0 ≤ expwD4 env T w Z cn r := by
  have h1 : ∀ x, 0 ≤ tmpD4 env cn x := fun x => env.fl_nonneg _ (Real.exp_pos _).le
  have h2 : ∀ x i, 0 ≤ powD4 env w cn x i := fun x i =>
    env.fl_nonneg _ (Real.rpow_nonneg (h1 x) _)
  unfold expwD4
  split_ifs <;> first | exact le_rfl | exact h1 _ | exact h2 _ _ |
    exact add_nonneg (add_nonneg (h2 _ _) (h2 _ _)) (h2 _ _)

theorem expwD4S_nonneg (w : ℝ) (Z : ℕ) (cn : ℝ) (r : ℕ) : 0 ≤ expwD4S env T w Z cn r := by
  have h1 : ∀ x, 0 ≤ tmpD4S env w cn x := fun x => env.fl_nonneg _ (Real.exp_pos _).le
  have h2 : ∀ x i, 0 ≤ powD4S env w cn x i := fun x i =>
    env.fl_nonneg _ (pow_nonneg (h1 x) _)
  unfold expwD4S
  split_ifs <;> first | exact le_rfl | exact h1 _ | exact h2 _ _ |
    exact add_nonneg (add_nonneg (h2 _ _) (h2 _ _)) (h2 _ _)

theorem expwSel_nonneg (k : ModelKind) (w : ℝ) (Z : ℕ) (cn : ℝ) (r : ℕ) :
    0 ≤ expwSel env T k w Z cn r := by
  unfold expwSel
  split
  · exact expwD4_nonneg _ _ _ _
  · exact expwD4S_nonneg _ _ _ _

theorem expwD4_missing {w : ℝ} {Z : ℕ} {cn : ℝ} {r : ℕ} (h : T.refc Z r = 0) :
    expwD4 env T w Z cn r = 0 := by rw [expwD4, if_neg (by omega)]
theorem expwD4S_missing {w : ℝ} {Z : ℕ} {cn : ℝ} {r : ℕ} (h : T.refc Z r = 0) :
    expwD4S env T w Z cn r = 0 := by rw [expwD4S, if_neg (by omega)]
theorem expwSel_missing {k : ModelKind} {w : ℝ} {Z : ℕ} {cn : ℝ} {r : ℕ} (h : T.refc Z r = 0) :
    expwSel env T k w Z cn r = 0 := by
  unfold expwSel
  split
  · exact expwD4_missing h
  · exact expwD4S_missing h

/-- Normalised weights are not negative. -/
theorem gwOf_nonneg {Z : ℕ} {E : ℕ → ℝ} (hE : ∀ r, 0 ≤ E r) (r : ℕ) :
    0 ≤ (gwOf env T Z E r).toReal := by
  have hS : 0 ≤ ∑ s ∈ Finset.range nref, E s := Finset.sum_nonneg fun s _ => hE s
  unfold gwOf
  split_ifs
  · norm_num [FP.toReal]
  · norm_num [FP.toReal]
  · unfold gwTempOf FP.div
    have : 0 ≤ tiny := by unfold tiny; positivity
    simp only []
    split_ifs <;> simp only [FP.toReal, le_refl] <;> exact div_nonneg (hE r) (by assumption)

theorem wtAt_nonneg (A : Spec.AtomData) (Zp r : ℕ) : 0 ≤ wtAt env T R A Zp r :=
  mul_nonneg (zetaAt_nonneg _ _ _ _ _ _) (gwOf_nonneg (expwSel_nonneg _ _ _ _) r)

theorem alphaAt_nonneg (ga gc : ℝ) (rq : String) (Z r w : ℕ) :
    0 ≤ alphaAt env T ga gc rq Z r w := le_max_left _ _

theorem polOf_nonneg {ga gc : ℝ} {rq : String} {Z : ℕ} {W : ℕ → ℝ} (h : ∀ r, 0 ≤ W r) (w : ℕ) :
    0 ≤ polOf env T ga gc rq Z W w :=
  Finset.sum_nonneg fun _ _ => mul_nonneg (h _) (alphaAt_nonneg _ _ _ _ _ _)

/-- C6 as integral over weighted polarizabilities, atom by atom. -/
theorem c6At_integral (A A' : Spec.AtomData) : c6At env T R A A' =
    thopi * ∑ w ∈ Finset.range nfreq, trapzWeights.getD w 0 *
      (polOf env T R.ga R.gc R.rq A.Z (wtAt env T R A A'.Z) w *
        polOf env T R.ga R.gc R.rq A'.Z (wtAt env T R A' A.Z) w) := by
  unfold c6At rc6At
  rw [c6Of_integral]
  rfl

theorem c6At_symm (A A' : Spec.AtomData) : c6At env T R A A' = c6At env T R A' A := by
  rw [c6At_integral, c6At_integral]
  refine congrArg _ (Finset.sum_congr rfl fun w _ => ?_)
  ring

theorem c6At_nonneg (A A' : Spec.AtomData) : 0 ≤ c6At env T R A A' := by
  rw [c6At_integral]
  refine mul_nonneg thopi_pos.le (Finset.sum_nonneg fun w _ => ?_)
  exact mul_nonneg (trapzWeights_nonneg w) (mul_nonneg (polOf_nonneg (wtAt_nonneg _ _) _)
    (polOf_nonneg (wtAt_nonneg _ _) _))

/-- D4 (weighting factor independent of the partner): one polarizability per atom. -/
theorem c6At_pol (hw : ∃ w, ∀ Z Z', R.wf Z Z' = w) (A A' : Spec.AtomData) : c6At env T R A A' =
    thopi * ∑ w ∈ Finset.range nfreq, trapzWeights.getD w 0 *
      (polAt env T R A w * polAt env T R A' w) := by
  obtain ⟨w, hw⟩ := hw
  rw [c6At_integral]
  unfold polAt
  have : ∀ (A : Spec.AtomData) Z, wtAt env T R A Z = wtAt env T R A 0 := by
    intro A Z; funext r; unfold wtAt; rw [hw, hw]
  rw [this A, this A']

end
end TadDftd4
