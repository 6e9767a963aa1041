import Verif.Lemmas.Pols
import Verif.Spec.C6

/-!
# The C6 coefficients of the model are the published ones
-/

set_option linter.unusedSimpArgs false

open scoped Classical

namespace TadDftd4

open Tensor

/-- Sign conditions on the tables (proved for the shipped tables in `Data`, up to the external tables
`gam` and `zeff`). -/
structure Tables.Physical (T : Tables) (rq : String) : Prop where
  refc : ∀ Z < T.nZ, ∀ r < nref, T.refc Z r = 0 ∨ T.refc Z r = 1 ∨ T.refc Z r = 3
  gam : ∀ Z < T.nZ, ∀ r < nref, 0 < T.refc Z r → 0 < T.gam Z
  qref : ∀ Z < T.nZ, ∀ r < nref, 0 < T.refc Z r → 0 < refqAt T rq Z r + T.zeff Z
  gamSec : ∀ Z < T.nZ, ∀ r < nref, 0 < T.refsys Z r → 0 < T.gam (T.refsys Z r)
  zeffSec : ∀ Z < T.nZ, ∀ r < nref, 0 < T.refsys Z r → 0 < T.zeff (T.refsys Z r)

/-- Specification of the C6 coefficients for the settings of a model. -/
noncomputable def RefCfg.spec (R : RefCfg) (T : Tables) (ε : ℝ) : Spec.C6Settings where
  T := T
  qref := refqAt T R.rq
  qsec := refsqAt T R.rq
  ga := R.ga
  gc := R.gc
  wf := R.wf
  quad w := trapzWeights.getD w 0
  ε := ε

/-- `_zeta` is finite and equals the specification. -/
theorem zetaF_spec {eps ga η zref z : ℝ} (hη : 0 < η) (hr : 0 < zref) :
    zetaF eps ga η zref z = .fin (Spec.zeta eps ga η zref z) := by
  unfold zetaF Spec.zeta
  by_cases hz : 0 < z
  · by_cases he : z = eps
    · subst he
      simp only [hz, if_true, or_true, scaleF, sub_self, FP.div, ne_eq, not_true_eq_false, if_false,
        hr, FP.sub, FP.neg, FP.add, FP.mul, hη, FP.exp]
      simp
    · have h2 : z - eps ≠ 0 := sub_ne_zero.2 he
      simp only [hz, if_true, not_le.2 hz, he, or_self, if_false, scaleF, FP.div, ne_eq, h2,
        not_false_eq_true, FP.sub, FP.neg, FP.add, FP.mul, FP.exp]
      simp [sub_eq_add_neg]
  · simp [hz, not_lt.1 hz]

section
variable {env : Env} {T : Tables} {R : RefCfg}

theorem powD4_id (hfl : env.fl = id) (w cn rcn : ℝ) (k : ℕ) :
    powD4 env w cn rcn k = Real.exp (-(k * w * (cn - rcn) ^ 2)) := by
  unfold powD4 tmpD4
  rw [hfl, id, id, ← Real.exp_mul]
  congr 1; ring

theorem powD4S_id (hfl : env.fl = id) (w cn rcn : ℝ) (k : ℕ) :
    powD4S env w cn rcn k = Real.exp (-(k * w * (cn - rcn) ^ 2)) := by
  unfold powD4S tmpD4S
  rw [hfl, id, id, ← Real.exp_nat_mul]
  congr 1; ring

theorem expwSel_spec (hfl : env.fl = id) {Z r : ℕ} (h : T.refc Z r = 0 ∨ T.refc Z r = 1 ∨
    T.refc Z r = 3) (w cn ε : ℝ) :
    expwSel env T R.kind w Z cn r = Spec.gaussRef (R.spec T ε) w Z cn r := by
  have h1 : expwSel env T R.kind w Z cn r = if 0 < T.refc Z r then
      if T.refc Z r = 3 then Real.exp (-((1 : ℕ) * w * (cn - T.refcn Z r) ^ 2)) +
        Real.exp (-((2 : ℕ) * w * (cn - T.refcn Z r) ^ 2)) +
        Real.exp (-((3 : ℕ) * w * (cn - T.refcn Z r) ^ 2))
      else if T.refc Z r = 1 then Real.exp (-((1 : ℕ) * w * (cn - T.refcn Z r) ^ 2))
      else expwSel env T R.kind w Z cn r
      else 0 := by
    unfold expwSel
    rcases h with h | h | h <;> cases R.kind <;>
      simp [expwD4, expwD4S, h, powD4_id hfl, powD4S_id hfl]
  rw [h1]
  unfold Spec.gaussRef Spec.gaussians RefCfg.spec
  rcases h with h | h | h <;> simp [h, Finset.sum_range_succ] <;> norm_num

theorem gaussians_nonneg (w : ℝ) (N : ℕ) (x : ℝ) : 0 ≤ Spec.gaussians w N x :=
  Finset.sum_nonneg fun _ _ => (Real.exp_pos _).le

theorem gaussians_pos {N : ℕ} (hN : 0 < N) (w x : ℝ) : 0 < Spec.gaussians w N x :=
  Finset.sum_pos (fun _ _ => Real.exp_pos _) ⟨0, by simpa using hN⟩

theorem gaussRef_nonneg (C : Spec.C6Settings) (w : ℝ) (Z : ℕ) (cn : ℝ) (r : ℕ) :
    0 ≤ Spec.gaussRef C w Z cn r := gaussians_nonneg _ _ _

/-- Without underflow the normalised weights are the specified ones. -/
theorem gwOf_spec (hfl : env.fl = id) {Z : ℕ}
    (h : ∀ r < nref, T.refc Z r = 0 ∨ T.refc Z r = 1 ∨ T.refc Z r = 3) (w cn ε : ℝ) {r : ℕ}
    (hr : r < nref) :
    gwOf env T Z (expwSel env T R.kind w Z cn) r = .fin (Spec.weight (R.spec T ε) w Z cn r) := by
  have hE : ∀ s < nref, expwSel env T R.kind w Z cn s = Spec.gaussRef (R.spec T ε) w Z cn s :=
    fun s hs => expwSel_spec hfl (h s hs) w cn ε
  have hsum : ∑ s ∈ Finset.range nref, expwSel env T R.kind w Z cn s =
      ∑ s ∈ Finset.range nref, Spec.gaussRef (R.spec T ε) w Z cn s :=
    Finset.sum_congr rfl fun s hs => hE s (Finset.mem_range.1 hs)
  have htemp : gwTempOf T Z (expwSel env T R.kind w Z cn) r =
      .fin (Spec.weight (R.spec T ε) w Z cn r) := by
    unfold gwTempOf
    rw [hsum, hE r hr]
    by_cases hc : 0 < T.refc Z r
    · have hpos : 0 < ∑ s ∈ Finset.range nref, Spec.gaussRef (R.spec T ε) w Z cn s :=
        lt_of_lt_of_le (show 0 < Spec.gaussRef (R.spec T ε) w Z cn r from gaussians_pos hc _ _)
          (Finset.single_le_sum (fun s _ => gaussRef_nonneg _ w Z cn s) (Finset.mem_range.2 hr))
      rw [if_pos hc]
      simp only [FP.div, ne_eq, hpos.ne', not_false_eq_true, if_true]
      rfl
    · have h0 : Spec.gaussRef (R.spec T ε) w Z cn r = 0 := by
        have : T.refc Z r = 0 := by omega
        simp [Spec.gaussRef, RefCfg.spec, this, Spec.gaussians]
      rw [if_neg hc, h0]
      have ht : tiny ≠ 0 := by unfold tiny; positivity
      simp only [FP.div, ne_eq, ht, not_false_eq_true, if_true, zero_div, Spec.weight, h0]
  have hle : Spec.weight (R.spec T ε) w Z cn r ≤ 1 := by
    unfold Spec.weight
    exact div_le_one_of_le₀
      (Finset.single_le_sum (fun s _ => gaussRef_nonneg _ w Z cn s) (Finset.mem_range.2 hr))
      (Finset.sum_nonneg fun s _ => gaussRef_nonneg _ w Z cn s)
  unfold gwOf
  rw [htemp, if_neg]
  simp only [FP.isExceptional, not_lt]
  exact hle.trans env.one_le_fmax

theorem alphaAt_spec (hT : T.Physical R.rq) (hgc : 0 < R.gc) {Z r : ℕ} (hZ : Z < T.nZ)
    (hr : r < nref) (w : ℕ) :
    alphaAt env T R.ga R.gc R.rq Z r w = Spec.alphaRef (R.spec T env.eps) Z r w := by
  unfold alphaAt Spec.alphaRef RefCfg.spec
  simp only []
  congr 3
  by_cases hs : 0 < T.refsys Z r
  · rw [if_pos hs, if_pos hs, zetaF_spec (mul_pos (hT.gamSec Z hZ r hr hs) hgc)
      (hT.zeffSec Z hZ r hr hs)]
    rfl
  · rw [if_neg hs, if_neg hs, mul_zero]

theorem wtAt_spec (hfl : env.fl = id) (hT : T.Physical R.rq) (hgc : 0 < R.gc)
    {A : Spec.AtomData} (hZ : A.Z < T.nZ) (Zp : ℕ) {r : ℕ} (hr : r < nref) :
    wtAt env T R A Zp r = Spec.zetaRef (R.spec T env.eps) A r *
      Spec.weight (R.spec T env.eps) (R.wf A.Z Zp) A.Z A.cn r := by
  unfold wtAt wtOf
  rw [gwOf_spec hfl (hT.refc _ hZ) _ _ env.eps hr]
  by_cases hc : 0 < T.refc A.Z r
  · rw [zetaAt, if_pos hc, zetaF_spec (mul_pos (hT.gam _ hZ r hr hc) hgc) (hT.qref _ hZ r hr hc)]
    rfl
  · have : T.refc A.Z r = 0 := by omega
    have h0 : Spec.weight (R.spec T env.eps) (R.wf A.Z Zp) A.Z A.cn r = 0 := by
      simp [Spec.weight, Spec.gaussRef, RefCfg.spec, this, Spec.gaussians]
    simp [zetaAt, hc, h0]

/-- Exchange of the sums: C6 from reference C6 is the integral of the weighted polarizabilities. -/
theorem c6Of_integral (q : ℕ → ℝ) (α β : ℕ → ℕ → ℝ) (W V : ℕ → ℝ) :
    c6Of (fun a b => thopi * ∑ w ∈ Finset.range nfreq, q w * (α a w * β b w)) W V =
      thopi * ∑ w ∈ Finset.range nfreq, q w * ((∑ a ∈ Finset.range nref, W a * α a w) *
        ∑ b ∈ Finset.range nref, V b * β b w) := by
  unfold c6Of
  simp only [Finset.sum_mul_sum, Finset.mul_sum, Finset.sum_mul]
  rw [Finset.sum_comm]
  simp_rw [Finset.sum_comm (s := Finset.range nref) (t := Finset.range nfreq)]
  refine Finset.sum_congr rfl fun w _ => Finset.sum_congr rfl fun a _ =>
    Finset.sum_congr rfl fun b _ => ?_
  ring

/-- The C6 coefficients of the model are the specified ones. -/
theorem c6At_spec (hfl : env.fl = id) (hT : T.Physical R.rq) (hgc : 0 < R.gc)
    {A A' : Spec.AtomData} (hA : A.Z < T.nZ) (hA' : A'.Z < T.nZ) :
    c6At env T R A A' = Spec.c6 (R.spec T env.eps) A A' := by
  unfold c6At rc6At
  rw [c6Of_integral]
  unfold Spec.c6
  refine congrArg₂ (· * ·) rfl (Finset.sum_congr rfl fun w _ => congrArg₂ (· * ·) rfl
    (congrArg₂ (· * ·) ?_ ?_))
  · refine Finset.sum_congr rfl fun r hr => ?_
    have hr := Finset.mem_range.1 hr
    rw [wtAt_spec hfl hT hgc hA _ hr, alphaAt_spec hT hgc hA hr]; rfl
  · refine Finset.sum_congr rfl fun r hr => ?_
    have hr := Finset.mem_range.1 hr
    rw [wtAt_spec hfl hT hgc hA' _ hr, alphaAt_spec hT hgc hA' hr]; rfl

end
end TadDftd4
