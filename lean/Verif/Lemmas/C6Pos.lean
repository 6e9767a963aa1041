import Verif.Lemmas.C6Props
import Verif.Lemmas.Setup

/-!
# Strict positivity of C6 coefficients
-/

set_option linter.unusedSimpArgs false

open scoped Classical

namespace TadDftd4

open Tensor

/-- Element `Z` has a reference (with Gaussians) with positive static polarizability. -/
def Tables.Polarizable (T : Tables) (env : Env) (R : RefCfg) (Z : ℕ) : Prop :=
  ∃ r < nref, 0 < T.refc Z r ∧ 0 < alphaAt env T R.ga R.gc R.rq Z r 0

section
variable {env : Env} {T : Tables} {R : RefCfg}

theorem spec_zeta_pos (ε ga η zref z : ℝ) : 0 < Spec.zeta ε ga η zref z := by
  unfold Spec.zeta; split_ifs <;> exact Real.exp_pos _

theorem spec_weight_pos {C : Spec.C6Settings} {Z r : ℕ} (hr : r < nref) (hc : 0 < C.T.refc Z r)
    (w cn : ℝ) : 0 < Spec.weight C w Z cn r := by
  have h1 : 0 < Spec.gaussRef C w Z cn r := gaussians_pos hc _ _
  exact div_pos h1 (lt_of_lt_of_le h1
    (Finset.single_le_sum (fun s _ => gaussRef_nonneg _ w Z cn s) (Finset.mem_range.2 hr)))

/-- Without underflow the static polarizability of an atom is positive. -/
theorem polOf_pos (hfl : env.fl = id) (hT : T.Physical R.rq) (hgc : 0 < R.gc)
    {A : Spec.AtomData} (hZ : A.Z < T.nZ) (hA : T.Polarizable env R A.Z) (Zp : ℕ) :
    0 < polOf env T R.ga R.gc R.rq A.Z (wtAt env T R A Zp) 0 := by
  obtain ⟨r, hr, hc, ha⟩ := hA
  have hw : 0 < wtAt env T R A Zp r := by
    rw [wtAt_spec hfl hT hgc hZ Zp hr]
    exact mul_pos (spec_zeta_pos _ _ _ _ _) (spec_weight_pos hr hc _ _)
  refine lt_of_lt_of_le (mul_pos hw ha) ?_
  exact Finset.single_le_sum (f := fun s => wtAt env T R A Zp s * alphaAt env T R.ga R.gc R.rq A.Z s 0)
    (fun s _ => mul_nonneg (wtAt_nonneg _ _ _) (alphaAt_nonneg _ _ _ _ _ _)) (Finset.mem_range.2 hr)

theorem c6At_pos (hfl : env.fl = id) (hT : T.Physical R.rq) (hgc : 0 < R.gc)
    {A A' : Spec.AtomData} (hZ : A.Z < T.nZ) (hZ' : A'.Z < T.nZ) (hA : T.Polarizable env R A.Z)
    (hA' : T.Polarizable env R A'.Z) : 0 < c6At env T R A A' := by
  rw [c6At_integral]
  refine mul_pos thopi_pos (lt_of_lt_of_le (mul_pos (trapzWeights_pos (w := 0) (by norm_num))
    (mul_pos (polOf_pos hfl hT hgc hZ hA A'.Z) (polOf_pos hfl hT hgc hZ' hA' A.Z))) ?_)
  exact Finset.single_le_sum (f := fun w => trapzWeights.getD w 0 *
    (polOf env T R.ga R.gc R.rq A.Z (wtAt env T R A A'.Z) w *
      polOf env T R.ga R.gc R.rq A'.Z (wtAt env T R A' A.Z) w))
    (fun w _ => mul_nonneg (trapzWeights_nonneg w) (mul_nonneg (polOf_nonneg (wtAt_nonneg _ _) _)
      (polOf_nonneg (wtAt_nonneg _ _) _))) (Finset.mem_range.2 (by norm_num))

end

/-- The first reference of every element is a free atom (nothing subtracted) with positive
polarizability, except for cerium (`Z = 58`), whose only reference is a trihydride. -/
theorem Data.check_free : (List.range 103).all (fun Z => Z == 57 ||
    (decide (0 < at2 refc (Z + 1) 0) && at2 refscount (Z + 1) 0 == 0 &&
      decide (0 < at2 refascale (Z + 1) 0) && decide (0 < at3 refalpha (Z + 1) 0 0))) = true := by
  decide +kernel

theorem shipped_polarizable {nExt : ℕ} {gam zeff : ℕ → ℝ} {vdw : ℕ → ℕ → ℝ} {env : Env} {R : RefCfg}
    {Z : ℕ} (h1 : 1 ≤ Z) (h2 : Z ≤ 103) (h3 : Z ≠ 58) :
    (shipped nExt gam zeff vdw).Polarizable env R Z := by
  have := forall_of_all1 Data.check_free (Z - 1) (by omega)
  have e : Z - 1 + 1 = Z := by omega
  simp only [e, Bool.or_eq_true, Bool.and_eq_true, beq_iff_eq, decide_eq_true_eq] at this
  rcases this with h | ⟨⟨⟨ha, hb⟩, hc⟩, hd⟩
  · omega
  · refine ⟨0, by norm_num, ha, ?_⟩
    unfold alphaAt
    refine lt_max_of_lt_right ?_
    have e1 : (shipped nExt gam zeff vdw).refscount Z 0 = 0 := by
      show ((at2 Data.refscount Z 0 : ℕ) : ℝ) / 10 = 0
      rw [hb]; simp
    have e2 : 0 < (shipped nExt gam zeff vdw).refascale Z 0 := by
      show 0 < ((at2 Data.refascale Z 0 : ℕ) : ℝ) / 10 ^ 14
      have : (0 : ℝ) < (at2 Data.refascale Z 0 : ℕ) := by exact_mod_cast hc
      positivity
    have e3 : 0 < (shipped nExt gam zeff vdw).refalpha Z 0 0 := by
      show 0 < ((at3 Data.refalpha Z 0 0 : ℕ) : ℝ) / 10 ^ 7
      have : (0 : ℝ) < (at3 Data.refalpha Z 0 0 : ℕ) := by exact_mod_cast hd
      positivity
    rw [e1, zero_mul, sub_zero]
    exact mul_pos e2 e3

/-- All expectation values are positive. -/
theorem shipped_r4r2_pos {nExt : ℕ} {gam zeff : ℕ → ℝ} {vdw : ℕ → ℕ → ℝ} {Z : ℕ} (h1 : 0 < Z)
    (h2 : Z < 119) : 0 < (shipped nExt gam zeff vdw).r4r2 Z := by
  have := forall_of_all1 Data.check_r4 (Z - 1) (by omega)
  have e : Z - 1 + 1 = Z := by omega
  simp only [e, Nat.ble_eq] at this
  have h3 : (0 : ℝ) < (Data.r4OverR2.getD Z 0 : ℕ) := by exact_mod_cast this
  have h4 : (0 : ℝ) < Z := by exact_mod_cast h1
  show 0 < √(0.5 * ((Data.r4OverR2.getD Z 0 : ℕ) / 10 ^ 4 * √Z))
  positivity

end TadDftd4
