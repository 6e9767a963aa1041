import Verif.Lemmas.C6Range

/-!
# An upper bound of the C6 coefficients

Weights of references sum to at most one, also where all Gaussians vanish: only one reference has the
largest coordination number. So a polarizability is at most `exp(ga)` times the largest one of a reference.
-/

open scoped Classical

namespace TadDftd4

open Tensor

section
variable {env : Env} {T : Tables} {R : RefCfg}

/-- Normalised weights sum to at most one. -/
theorem gwOf_sum_le_one {Z : ℕ} {E : ℕ → ℝ} (hE : ∀ r, 0 ≤ E r) (hm : ∀ r, T.refc Z r = 0 → E r = 0)
    (hu : ∀ r < nref, ∀ s < nref, 0 < T.refc Z r → 0 < T.refc Z s →
      T.refcn Z r = maxN (T.refcn Z) (nref - 1) → T.refcn Z s = maxN (T.refcn Z) (nref - 1) → r = s) :
    ∑ r ∈ Finset.range nref, (gwOf env T Z E r).toReal ≤ 1 := by
  have miss : ∀ r, ¬ 0 < T.refc Z r → (gwOf env T Z E r).toReal = 0 := by
    intro r hc
    have ht : (tiny : ℝ) ≠ 0 := by norm_num [tiny]
    have e : gwTempOf T Z E r = .fin 0 := by
      unfold gwTempOf
      rw [if_neg hc, hm r (by omega)]
      simp [FP.div, ht]
    unfold gwOf
    rw [e, if_neg]
    · rfl
    · simp only [FP.isExceptional, not_lt]
      exact zero_le_one.trans env.one_le_fmax
  rcases (Finset.sum_nonneg fun s (_ : s ∈ Finset.range nref) => hE s).eq_or_lt with h0 | hS
  · have hz : ∀ r ∈ Finset.range nref, E r = 0 :=
      (Finset.sum_eq_zero_iff_of_nonneg fun s _ => hE s).1 h0.symm
    have key : ∀ r ∈ Finset.range nref, (gwOf env T Z E r).toReal =
        if 0 < T.refc Z r ∧ T.refcn Z r = maxN (T.refcn Z) (nref - 1) then 1 else 0 := by
      intro r hr
      by_cases hc : 0 < T.refc Z r
      · have e : gwTempOf T Z E r = .nan := by
          unfold gwTempOf
          rw [if_pos hc, hz r hr, ← h0]
          simp [FP.div]
        unfold gwOf
        rw [e, if_pos (by simp [FP.isExceptional])]
        simp only [hc, true_and]
        split_ifs <;> rfl
      · rw [miss r hc, if_neg (fun h => hc h.1)]
    rw [Finset.sum_congr rfl key, ← Finset.sum_filter, Finset.sum_const, nsmul_eq_mul, mul_one]
    have : (Finset.filter (fun r => 0 < T.refc Z r ∧ T.refcn Z r = maxN (T.refcn Z) (nref - 1))
        (Finset.range nref)).card ≤ 1 := by
      refine Finset.card_le_one.2 fun a ha b hb => ?_
      simp only [Finset.mem_filter, Finset.mem_range] at ha hb
      exact hu a ha.1 b hb.1 ha.2.1 hb.2.1 ha.2.2 hb.2.2
    exact_mod_cast this
  · have key : ∀ r ∈ Finset.range nref, (gwOf env T Z E r).toReal ≤ E r / ∑ s ∈ Finset.range nref, E s := by
      intro r hr
      have hle : E r / ∑ s ∈ Finset.range nref, E s ≤ 1 :=
        div_le_one_of_le₀ (Finset.single_le_sum (f := E) (fun s _ => hE s) hr) hS.le
      by_cases hc : 0 < T.refc Z r
      · have e : gwTempOf T Z E r = .fin (E r / ∑ s ∈ Finset.range nref, E s) := by
          unfold gwTempOf
          rw [if_pos hc]
          simp [FP.div, hS.ne']
        unfold gwOf
        rw [e, if_neg]
        · exact le_rfl
        · simp only [FP.isExceptional, not_lt]
          exact hle.trans env.one_le_fmax
      · rw [miss r hc]
        exact div_nonneg (hE r) hS.le
    refine (Finset.sum_le_sum key).trans ?_
    rw [← Finset.sum_div, div_self hS.ne']

theorem polOf_le_mul (hT : T.Physical R.rq) (hga : 0 ≤ R.ga) (hgc : 0 < R.gc) {A : Spec.AtomData}
    (hZ : A.Z < T.nZ) (Zp : ℕ) {w : ℕ} {a : ℝ}
    (hu : ∀ r < nref, ∀ s < nref, 0 < T.refc A.Z r → 0 < T.refc A.Z s →
      T.refcn A.Z r = maxN (T.refcn A.Z) (nref - 1) → T.refcn A.Z s = maxN (T.refcn A.Z) (nref - 1) → r = s)
    (ha : ∀ r < nref, alphaAt env T R.ga R.gc R.rq A.Z r w ≤ a) :
    polOf env T R.ga R.gc R.rq A.Z (wtAt env T R A Zp) w ≤ Real.exp R.ga * a := by
  have a0 : 0 ≤ a := (alphaAt_nonneg _ _ _ _ _ _).trans (ha 0 (by norm_num))
  have gw0 := gwOf_nonneg (env := env) (T := T) (Z := A.Z)
    (expwSel_nonneg (env := env) (T := T) R.kind (R.wf A.Z Zp) A.Z A.cn)
  have gs := gwOf_sum_le_one (env := env) (T := T) (Z := A.Z)
    (E := expwSel env T R.kind (R.wf A.Z Zp) A.Z A.cn) (expwSel_nonneg _ _ _ _)
    (fun r h => expwSel_missing h) hu
  unfold polOf
  calc _ ≤ ∑ r ∈ Finset.range nref,
        (gwOf env T A.Z (expwSel env T R.kind (R.wf A.Z Zp) A.Z A.cn) r).toReal * (Real.exp R.ga * a) := by
        refine Finset.sum_le_sum fun r hr => ?_
        have hr := Finset.mem_range.1 hr
        have h1 : wtAt env T R A Zp r ≤ Real.exp R.ga *
            (gwOf env T A.Z (expwSel env T R.kind (R.wf A.Z Zp) A.Z A.cn) r).toReal :=
          mul_le_mul_of_nonneg_right (zetaAt_le hT hga hgc hZ hr A.q) (gw0 r)
        refine (mul_le_mul h1 (ha r hr) (alphaAt_nonneg _ _ _ _ _ _)
          (mul_nonneg (Real.exp_pos _).le (gw0 r))).trans (le_of_eq (by ring))
    _ = (∑ r ∈ Finset.range nref, (gwOf env T A.Z (expwSel env T R.kind (R.wf A.Z Zp) A.Z A.cn) r).toReal) *
        (Real.exp R.ga * a) := by rw [Finset.sum_mul]
    _ ≤ 1 * (Real.exp R.ga * a) := mul_le_mul_of_nonneg_right gs (mul_nonneg (Real.exp_pos _).le a0)
    _ = _ := one_mul _

end

/-- Largest polarizabilities of references, in tenths. -/
def Data.alphaCap : List ℕ := [5371, 2513, 1315, 953, 798, 670, 568, 485, 419, 365, 321, 284, 228, 186, 155,
  131, 113, 80, 60, 38, 26, 13, 8]

theorem Data.check_alphaCap : (List.range 104).all (fun Z => (List.range 7).all fun r =>
    (List.range 23).all fun w => Nat.ble (at2 refascale Z r * at3 refalpha Z r w)
      (alphaCap.getD w 0 * 10 ^ 20)) = true := by
  decide +kernel

theorem Data.check_maxcn : (List.range 104).all (fun Z => (List.range 7).all fun r => (List.range 7).all fun s =>
    r == s || !(decide (0 < at2 refc Z r)) || !(decide (0 < at2 refc Z s)) ||
      at2 refcn Z r != at2 refcn Z s || (List.range 7).any fun t => Nat.blt (at2 refcn Z r) (at2 refcn Z t)) = true := by
  decide +kernel

section
variable {nExt : ℕ} {gam zeff : ℕ → ℝ} {vdw : ℕ → ℕ → ℝ} {env : Env} {R : RefCfg}

theorem shipped_alpha_cap {Z r w : ℕ} (hZ : Z < 104) (hr : r < nref) (hw : w < nfreq) :
    alphaAt env (shipped nExt gam zeff vdw) R.ga R.gc R.rq Z r w ≤ (Data.alphaCap.getD w 0 : ℕ) / 10 := by
  have := forall_of_all1 Data.check_alphaCap Z hZ
  have := forall_of_all1 this r hr
  have := forall_of_all1 this w hw
  rw [Nat.ble_eq] at this
  have h : ((at2 Data.refascale Z r : ℕ) : ℝ) * (at3 Data.refalpha Z r w : ℕ) ≤
      (Data.alphaCap.getD w 0 : ℕ) * 10 ^ 20 := by exact_mod_cast this
  unfold alphaAt
  refine max_le (by positivity) ?_
  show ((at2 Data.refascale Z r : ℕ) : ℝ) / 10 ^ 14 * ((at3 Data.refalpha Z r w : ℕ) / 10 ^ 7 -
    (at2 Data.refscount Z r : ℕ) / 10 * ((at2 Data.secscale (at2 Data.refsys Z r) 0 : ℕ) / 10 ^ 7 *
      ((at2 Data.secalpha (at2 Data.refsys Z r) w : ℕ) / 10 ^ 7) * _)) ≤ _
  generalize hX : (if 0 < (shipped nExt gam zeff vdw).refsys Z r then _ else (0 : ℝ)) = X
  have hX0 : 0 ≤ X := by
    rw [← hX]
    split_ifs
    · exact zetaF_toReal_nonneg _ _ _ _ _
    · exact le_rfl
  have e : (0 : ℝ) ≤ (at2 Data.refscount Z r : ℕ) / 10 * ((at2 Data.secscale (at2 Data.refsys Z r) 0 : ℕ) / 10 ^ 7 *
      ((at2 Data.secalpha (at2 Data.refsys Z r) w : ℕ) / 10 ^ 7) * X) := by positivity
  refine (mul_le_mul_of_nonneg_left (sub_le_self _ e) (by positivity)).trans ?_
  rw [div_mul_div_comm, div_le_div_iff₀ (by positivity) (by norm_num)]
  linarith

theorem le_maxN (f : ℕ → ℝ) : ∀ (k t : ℕ), t ≤ k → f t ≤ maxN f k := by
  intro k
  induction k with
  | zero => intro t ht; obtain rfl : t = 0 := by omega
            exact le_rfl
  | succ k ih =>
    intro t ht
    rcases ht.lt_or_eq with h | rfl
    · exact (ih t (by omega)).trans (le_max_left _ _)
    · exact le_max_right _ _

theorem shipped_maxcn {Z : ℕ} (hZ : Z < 104) : ∀ r < nref, ∀ s < nref,
    0 < (shipped nExt gam zeff vdw).refc Z r → 0 < (shipped nExt gam zeff vdw).refc Z s →
      (shipped nExt gam zeff vdw).refcn Z r = maxN ((shipped nExt gam zeff vdw).refcn Z) (nref - 1) →
      (shipped nExt gam zeff vdw).refcn Z s = maxN ((shipped nExt gam zeff vdw).refcn Z) (nref - 1) → r = s := by
  intro r hr s hs cr cs mr ms
  have := forall_of_all1 Data.check_maxcn Z hZ
  have := forall_of_all1 this r hr
  have := forall_of_all1 this s hs
  have cast : ∀ a b, (shipped nExt gam zeff vdw).refcn Z a = (shipped nExt gam zeff vdw).refcn Z b →
      at2 Data.refcn Z a = at2 Data.refcn Z b := by
    intro a b h
    have h : ((at2 Data.refcn Z a : ℕ) : ℝ) / 10 ^ 14 = ((at2 Data.refcn Z b : ℕ) : ℝ) / 10 ^ 14 := h
    rw [div_left_inj' (by positivity)] at h
    exact_mod_cast h
  have cr : 0 < at2 Data.refc Z r := cr
  have cs : 0 < at2 Data.refc Z s := cs
  have e := cast r s (mr.trans ms.symm)
  simp only [Bool.or_eq_true, beq_iff_eq, Bool.not_eq_true', decide_eq_false_iff_not, bne_iff_ne, cr, cs, e,
    not_true, or_false, ne_eq, List.any_eq_true, List.mem_range, Nat.blt_eq] at this
  rcases this with h | ⟨t, ht, hlt⟩
  · exact h
  · exfalso
    have le := (le_maxN ((shipped nExt gam zeff vdw).refcn Z) (nref - 1) t (by norm_num at *; omega)).trans_eq ms.symm
    have le : ((at2 Data.refcn Z t : ℕ) : ℝ) / 10 ^ 14 ≤ ((at2 Data.refcn Z s : ℕ) : ℝ) / 10 ^ 14 := le
    rw [div_le_div_iff_of_pos_right (by positivity)] at le
    have le : at2 Data.refcn Z t ≤ at2 Data.refcn Z s := by exact_mod_cast le
    omega

/-- C6 coefficients with the shipped tables are below `2^23`, for all coordination numbers and charges. -/
theorem shipped_c6_le (hT : (shipped nExt gam zeff vdw).Physical R.rq) (hga : R.ga = 3) (hgc : R.gc = 2)
    {A A' : Spec.AtomData} (hA : A.Z ≤ 103) (hA' : A'.Z ≤ 103) :
    c6At env (shipped nExt gam zeff vdw) R A A' ≤ 2 ^ 23 := by
  have hth : thopi ≤ 1 := by
    unfold thopi
    rw [div_le_one Real.pi_pos]; exact le_of_lt Real.pi_gt_three
  have e3 : Real.exp R.ga ≤ 20.1 := by
    have h1 := Real.exp_one_lt_d9
    have h2 : Real.exp 2 ≤ 7.3891 := by
      rw [show (2 : ℝ) = 1 + 1 by norm_num, Real.exp_add]
      nlinarith [Real.exp_pos 1]
    rw [hga, show (3 : ℝ) = 2 + 1 by norm_num, Real.exp_add]
    nlinarith [Real.exp_pos 1, Real.exp_pos 2]
  have pol : ∀ {A : Spec.AtomData} (_ : A.Z ≤ 103) (Zp w : ℕ) (_ : w < nfreq),
      polOf env (shipped nExt gam zeff vdw) R.ga R.gc R.rq A.Z (wtAt env (shipped nExt gam zeff vdw) R A Zp) w ≤
        20.1 * ((Data.alphaCap.getD w 0 : ℕ) / 10) := by
    intro A hZ Zp w hw
    have hZ' : A.Z < 104 := by omega
    exact (polOf_le_mul hT (by rw [hga]; norm_num) (by rw [hgc]; norm_num) hZ' Zp (shipped_maxcn hZ')
      fun r hr => shipped_alpha_cap hZ' hr hw).trans (mul_le_mul_of_nonneg_right e3 (by positivity))
  rw [c6At_integral]
  have h1 : ∑ w ∈ Finset.range nfreq, trapzWeights.getD w 0 *
      (polOf env (shipped nExt gam zeff vdw) R.ga R.gc R.rq A.Z (wtAt env (shipped nExt gam zeff vdw) R A A'.Z) w *
      polOf env (shipped nExt gam zeff vdw) R.ga R.gc R.rq A'.Z (wtAt env (shipped nExt gam zeff vdw) R A' A.Z) w) ≤
      ∑ w ∈ Finset.range nfreq, trapzWeights.getD w 0 * ((20.1 * ((Data.alphaCap.getD w 0 : ℕ) / 10)) *
        (20.1 * ((Data.alphaCap.getD w 0 : ℕ) / 10))) := by
    refine Finset.sum_le_sum fun w hw => ?_
    have hw := Finset.mem_range.1 hw
    exact mul_le_mul_of_nonneg_left (mul_le_mul (pol hA _ _ hw) (pol hA' _ _ hw)
      (polOf_nonneg (wtAt_nonneg _ _) _) (by positivity)) (trapzWeights_nonneg w)
  have h2 : ∑ w ∈ Finset.range nfreq, trapzWeights.getD w 0 * ((20.1 * (((Data.alphaCap.getD w 0 : ℕ) : ℝ) / 10)) *
        (20.1 * ((Data.alphaCap.getD w 0 : ℕ) / 10))) ≤ 2 ^ 23 := by
    norm_num [nfreq, Finset.sum_range_succ, trapzWeights, Data.alphaCap]
  have h0 : 0 ≤ ∑ w ∈ Finset.range nfreq, trapzWeights.getD w 0 *
      (polOf env (shipped nExt gam zeff vdw) R.ga R.gc R.rq A.Z (wtAt env (shipped nExt gam zeff vdw) R A A'.Z) w *
      polOf env (shipped nExt gam zeff vdw) R.ga R.gc R.rq A'.Z (wtAt env (shipped nExt gam zeff vdw) R A' A.Z) w) :=
    Finset.sum_nonneg fun w _ => mul_nonneg (trapzWeights_nonneg w) (mul_nonneg (polOf_nonneg (wtAt_nonneg _ _) _)
      (polOf_nonneg (wtAt_nonneg _ _) _))
  calc _ ≤ 1 * (2 ^ 23 : ℝ) := mul_le_mul hth (h1.trans h2) h0 (by norm_num)
    _ = _ := one_mul _

end
end TadDftd4
