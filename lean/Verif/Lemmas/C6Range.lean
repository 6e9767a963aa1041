import Verif.Lemmas.Bounds
import Verif.Lemmas.C6Charge
import Verif.Lemmas.C6Pos
import Mathlib.Analysis.Complex.ExponentialBounds
import Mathlib.Analysis.Real.Pi.Bounds

/-!
# Range of the C6 coefficients
-/

open scoped Classical

namespace TadDftd4

/-- The coordination number of the atom is close to that of a reference with polarizability. -/
def Tables.Covers (T : Tables) (env : Env) (R : RefCfg) (A : Spec.AtomData) (k : ℕ) : Prop :=
  ∃ r < nref, 0 < T.refc A.Z r ∧ 6 * (A.cn - T.refcn A.Z r) ^ 2 ≤ k * 0.693147 ∧
    1 / 2 ^ 10 ≤ alphaAt env T R.ga R.gc R.rq A.Z r 0

/-- What the range needs besides: default `ga` and `gc`, exponents up to 6, hardness up to 1, and a charge
that `_zeta` can handle. -/
structure RefCfg.Usual (env : Env) (T : Tables) (R : RefCfg) (A : Spec.AtomData) (Zp : ℕ) : Prop where
  ga : R.ga = 3
  gc : R.gc = 2
  w0 : 0 ≤ R.wf A.Z Zp
  w6 : R.wf A.Z Zp ≤ 6
  Z : A.Z < T.nZ
  gam : T.gam A.Z ≤ 1
  gap : OffGap env (A.q + T.zeff A.Z)

theorem exp_le_eight : Real.exp 2 ≤ 7.4 := by
  have h := Real.exp_one_lt_d9
  rw [show (2 : ℝ) = 1 + 1 by norm_num, Real.exp_add]
  nlinarith [Real.exp_pos 1]

theorem two_pow_le_exp {x : ℝ} {k : ℕ} (h : -x ≤ k * 0.693147) : 1 / 2 ^ k ≤ Real.exp x := by
  have h2 := Real.log_two_gt_d9
  rw [show (1 / 2 ^ k : ℝ) = Real.exp (-(k * Real.log 2)) by
    rw [Real.exp_neg, ← Real.log_pow, Real.exp_log (by positivity), one_div]]
  refine Real.exp_le_exp.2 ?_
  have : (k : ℝ) * 0.693147 ≤ k * Real.log 2 := mul_le_mul_of_nonneg_left (by linarith) (Nat.cast_nonneg _)
  linarith

section
variable {env : Env} {T : Tables} {R : RefCfg}

theorem zetaRef_ge (hT : T.Physical R.rq) {A : Spec.AtomData} {Zp : ℕ} (h : R.Usual env T A Zp) {r : ℕ}
    (hr : r < nref) (hc : 0 < T.refc A.Z r) : 1 / 2 ^ 28 ≤ Spec.zetaRef (R.spec T env.eps) A r := by
  have hq := hT.qref A.Z h.Z r hr hc
  have hg := hT.gam A.Z h.Z r hr hc
  unfold Spec.zetaRef Spec.zeta
  show 1 / 2 ^ 28 ≤ if A.q + T.zeff A.Z ≤ 0 ∨ A.q + T.zeff A.Z = env.eps then Real.exp R.ga else
    Real.exp (R.ga * (1 - Real.exp (T.gam A.Z * R.gc * (1 - (refqAt T R.rq A.Z r + T.zeff A.Z) /
      (A.q + T.zeff A.Z - env.eps)))))
  rw [h.ga, h.gc]
  split_ifs with hz
  · exact two_pow_le_exp (by norm_num)
  · push Not at hz
    have hz' : env.eps < A.q + T.zeff A.Z := by
      rcases h.gap with h1 | h1
      · exact absurd h1 (not_le.2 hz.1)
      · exact lt_of_le_of_ne h1 hz.2.symm
    have hd : 0 ≤ (refqAt T R.rq A.Z r + T.zeff A.Z) / (A.q + T.zeff A.Z - env.eps) :=
      div_nonneg hq.le (by linarith)
    have he : Real.exp (T.gam A.Z * 2 * (1 - (refqAt T R.rq A.Z r + T.zeff A.Z) /
        (A.q + T.zeff A.Z - env.eps))) ≤ 7.4 := by
      refine le_trans (Real.exp_le_exp.2 ?_) exp_le_eight
      have hgam := h.gam
      nlinarith
    exact two_pow_le_exp (by norm_num at he ⊢; linarith)

theorem weight_ge {C : Spec.C6Settings} {w : ℝ} (hw0 : 0 ≤ w) (hw : w ≤ 6) {Z : ℕ}
    (hT : ∀ r < nref, C.T.refc Z r ≤ 3) {cn : ℝ} {r : ℕ} (hr : r < nref) (hc : 0 < C.T.refc Z r)
    {k : ℕ} (hn : 6 * (cn - C.T.refcn Z r) ^ 2 ≤ k * 0.693147) : 1 / 2 ^ (k + 5) ≤ Spec.weight C w Z cn r := by
  have up : ∀ s < nref, Spec.gaussRef C w Z cn s ≤ 3 := by
    intro s hs
    unfold Spec.gaussRef Spec.gaussians
    refine (Finset.sum_le_card_nsmul _ _ 1 fun k _ => ?_).trans ?_
    · refine Real.exp_le_one_iff.2 ?_
      have : 0 ≤ ((k + 1 : ℕ) : ℝ) * w * (cn - C.T.refcn Z s) ^ 2 := by positivity
      linarith
    · rw [Finset.card_range, nsmul_eq_mul, mul_one]; exact_mod_cast hT s hs
  have hs : ∑ s ∈ Finset.range nref, Spec.gaussRef C w Z cn s ≤ 32 := by
    refine (Finset.sum_le_card_nsmul _ _ 3 fun s hs => up s (Finset.mem_range.1 hs)).trans ?_
    rw [Finset.card_range, nsmul_eq_mul]; norm_num [nref]
  have lo : 1 / 2 ^ k ≤ Spec.gaussRef C w Z cn r := by
    unfold Spec.gaussRef Spec.gaussians
    refine le_trans ?_ (Finset.single_le_sum (fun k _ => (Real.exp_pos _).le) (Finset.mem_range.2 hc))
    refine two_pow_le_exp ?_
    have := mul_le_mul_of_nonneg_right hw (sq_nonneg (cn - C.T.refcn Z r))
    push_cast
    norm_num at hn ⊢
    linarith
  have hp : 0 < ∑ s ∈ Finset.range nref, Spec.gaussRef C w Z cn s :=
    lt_of_lt_of_le (lt_of_lt_of_le (by positivity) lo) (Finset.single_le_sum
      (fun s _ => gaussRef_nonneg _ w Z cn s) (Finset.mem_range.2 hr))
  unfold Spec.weight
  rw [le_div_iff₀ hp]
  refine le_trans ?_ lo
  calc (1 / 2 ^ (k + 5) : ℝ) * _ ≤ 1 / 2 ^ (k + 5) * 32 := mul_le_mul_of_nonneg_left hs (by positivity)
    _ = 1 / 2 ^ k := by rw [pow_add]; field_simp; norm_num

theorem polOf_ge (hfl : env.fl = id) (hT : T.Physical R.rq) {A : Spec.AtomData} {Zp : ℕ}
    (h : R.Usual env T A Zp) {k : ℕ} (hA : T.Covers env R A k) :
    1 / 2 ^ (k + 43) ≤ polOf env T R.ga R.gc R.rq A.Z (wtAt env T R A Zp) 0 := by
  obtain ⟨r, hr, hc, hn, ha⟩ := hA
  have hgc : 0 < R.gc := by rw [h.gc]; norm_num
  have h3 : ∀ r < nref, T.refc A.Z r ≤ 3 := fun r hr => by
    rcases hT.refc A.Z h.Z r hr with e | e | e <;> omega
  have hw : 1 / 2 ^ 28 * (1 / 2 ^ (k + 5)) ≤ wtAt env T R A Zp r := by
    rw [wtAt_spec hfl hT hgc h.Z Zp hr]
    exact mul_le_mul (zetaRef_ge hT h hr hc) (weight_ge (C := R.spec T env.eps) h.w0 h.w6 h3 hr hc hn)
      (by positivity) (spec_zeta_pos _ _ _ _ _).le
  refine le_trans ?_ (Finset.single_le_sum (f := fun r => wtAt env T R A Zp r *
    alphaAt env T R.ga R.gc R.rq A.Z r 0) (fun r _ => mul_nonneg (wtAt_nonneg _ _ _) (alphaAt_nonneg _ _ _ _ _ _))
    (Finset.mem_range.2 hr))
  refine le_trans (le_of_eq ?_) (mul_le_mul hw ha (by positivity) (wtAt_nonneg _ _ _))
  rw [pow_add, pow_add]; field_simp

/-- Not too small. -/
theorem c6At_ge (hfl : env.fl = id) (hT : T.Physical R.rq) {A A' : Spec.AtomData}
    (h : R.Usual env T A A'.Z) (h' : R.Usual env T A' A.Z) {k k' : ℕ} (hA : T.Covers env R A k)
    (hA' : T.Covers env R A' k') : 1 / 2 ^ (k + k' + 94) ≤ c6At env T R A A' := by
  rw [c6At_integral]
  have hth : 3 / 4 ≤ thopi := by
    unfold thopi
    exact div_le_div_of_nonneg_left (by norm_num) Real.pi_pos Real.pi_le_four
  have hw0 : (1 / 64 : ℝ) ≤ trapzWeights.getD 0 0 := by norm_num [trapzWeights]
  have hp := mul_le_mul (polOf_ge hfl hT h hA) (polOf_ge hfl hT h' hA') (by positivity)
    (polOf_nonneg (wtAt_nonneg _ _) _)
  have hs := Finset.single_le_sum (f := fun w => trapzWeights.getD w 0 *
      (polOf env T R.ga R.gc R.rq A.Z (wtAt env T R A A'.Z) w *
      polOf env T R.ga R.gc R.rq A'.Z (wtAt env T R A' A.Z) w))
    (fun w _ => mul_nonneg (trapzWeights_nonneg w) (mul_nonneg (polOf_nonneg (wtAt_nonneg _ _) _)
      (polOf_nonneg (wtAt_nonneg _ _) _))) (Finset.mem_range.2 (show 0 < nfreq by norm_num))
  have h1 := mul_le_mul hw0 hp (by positivity) (trapzWeights_nonneg 0)
  have h2 := mul_le_mul hth (h1.trans hs) (by positivity) thopi_pos.le
  refine le_trans ?_ h2
  rw [pow_add, pow_add, pow_add, pow_add]
  have e : (1 / (2 ^ k * 2 ^ k' * 2 ^ 94) : ℝ) = 1 / (2 ^ k * 2 ^ k') * (1 / 2 ^ 94) := by ring
  have e' : (3 / 4 * (1 / 64 * (1 / (2 ^ k * 2 ^ 43) * (1 / (2 ^ k' * 2 ^ 43)))) : ℝ) =
    1 / (2 ^ k * 2 ^ k') * (3 / 4 * (1 / 64 * (1 / 2 ^ 86))) := by ring
  rw [e, e']
  exact mul_le_mul_of_nonneg_left (by norm_num) (by positivity)

/-- Not too large. -/
theorem c6At_le_of_alpha (hT : T.Physical R.rq) {A A' : Spec.AtomData}
    (h : R.Usual env T A A'.Z) (h' : R.Usual env T A' A.Z)
    (ha : ∀ Z < T.nZ, ∀ r < nref, ∀ w < nfreq, alphaAt env T R.ga R.gc R.rq Z r w ≤ 2 ^ 10) :
    c6At env T R A A' ≤ 2 ^ 60 := by
  have hth : thopi ≤ 1 := by
    unfold thopi
    rw [div_le_one Real.pi_pos]; exact le_of_lt Real.pi_gt_three
  have hga : 0 ≤ R.ga := by rw [h.ga]; norm_num
  have hgc : 0 < R.gc := by rw [h.gc]; norm_num
  have e3 : Real.exp R.ga ≤ 32 := by
    rw [h.ga, show (3 : ℝ) = 2 + 1 by norm_num, Real.exp_add]
    have := exp_le_eight
    have := Real.exp_one_lt_d9
    nlinarith [Real.exp_pos 1, Real.exp_pos 2]
  have pol : ∀ {A : Spec.AtomData} (_ : A.Z < T.nZ) (Zp w : ℕ) (_ : w < nfreq),
      polOf env T R.ga R.gc R.rq A.Z (wtAt env T R A Zp) w ≤ 2 ^ 18 := by
    intro A hZ Zp w hw
    unfold polOf
    refine (Finset.sum_le_card_nsmul _ _ (32 * 2 ^ 10) fun r hr => ?_).trans ?_
    · exact mul_le_mul ((wtAt_le hT hga hgc A hZ Zp (Finset.mem_range.1 hr)).trans e3)
        (ha _ hZ _ (Finset.mem_range.1 hr) _ hw)
        (alphaAt_nonneg _ _ _ _ _ _) (by norm_num)
    · rw [Finset.card_range, nsmul_eq_mul]; norm_num [nref]
  rw [c6At_integral]
  have h1 : ∑ w ∈ Finset.range nfreq, trapzWeights.getD w 0 *
      (polOf env T R.ga R.gc R.rq A.Z (wtAt env T R A A'.Z) w *
      polOf env T R.ga R.gc R.rq A'.Z (wtAt env T R A' A.Z) w) ≤ 23 * (3 * (2 ^ 18 * 2 ^ 18)) := by
    refine (Finset.sum_le_card_nsmul _ _ (3 * (2 ^ 18 * 2 ^ 18)) fun w hw => ?_).trans ?_
    · refine mul_le_mul ?_ (mul_le_mul (pol h.Z _ _ (Finset.mem_range.1 hw))
        (pol h'.Z _ _ (Finset.mem_range.1 hw)) (polOf_nonneg (wtAt_nonneg _ _) _)
        (by norm_num)) (mul_nonneg (polOf_nonneg (wtAt_nonneg _ _) _) (polOf_nonneg (wtAt_nonneg _ _) _))
        (by norm_num)
      have hw : w < 23 := Finset.mem_range.1 hw
      unfold trapzWeights
      interval_cases w <;> norm_num
    · rw [Finset.card_range, nsmul_eq_mul]; norm_num [nfreq]
  calc _ ≤ 1 * (23 * (3 * (2 ^ 18 * 2 ^ 18)) : ℝ) := mul_le_mul hth h1 (Finset.sum_nonneg fun w _ =>
        mul_nonneg (trapzWeights_nonneg w) (mul_nonneg (polOf_nonneg (wtAt_nonneg _ _) _)
          (polOf_nonneg (wtAt_nonneg _ _) _))) (by norm_num)
    _ ≤ _ := by norm_num

end

theorem Data.check_alphaMax : (List.range 104).all (fun Z => (List.range 7).all fun r =>
    (List.range 23).all fun w => decide (at2 refascale Z r * at3 refalpha Z r w ≤ 1000 * 10 ^ 21)) = true := by
  decide +kernel

theorem Data.check_r4Max : (List.range 119).all (fun Z => Nat.ble (r4OverR2.getD Z 0) (10 ^ 6)) = true := by
  decide +kernel

theorem Data.check_wfMax : (List.range 104).all (fun Z => (List.range 104).all fun Z' =>
    Nat.ble (at2 wfpair Z Z') (6 * 10 ^ 9)) = true := by
  decide +kernel

theorem Data.check_free' : (List.range 103).all (fun Z => Z == 57 ||
    (decide (0 < at2 refc (Z + 1) 0) && at2 refcn (Z + 1) 0 == 0 && at2 refscount (Z + 1) 0 == 0 &&
      decide (10 ^ 21 ≤ at2 refascale (Z + 1) 0 * at3 refalpha (Z + 1) 0 0))) = true := by
  decide +kernel

section
variable {nExt : ℕ} {gam zeff : ℕ → ℝ} {vdw : ℕ → ℕ → ℝ} {env : Env} {R : RefCfg}

theorem shipped_wf_le {Z Z' : ℕ} (hZ : Z < 104) (hZ' : Z' < 104) :
    0 ≤ (shipped nExt gam zeff vdw).wfpair Z Z' ∧ (shipped nExt gam zeff vdw).wfpair Z Z' ≤ 6 := by
  have := forall_of_all1 Data.check_wfMax Z hZ
  have := forall_of_all1 this Z' hZ'
  rw [Nat.ble_eq] at this
  have h : ((at2 Data.wfpair Z Z' : ℕ) : ℝ) ≤ 6 * 10 ^ 9 := by exact_mod_cast this
  show 0 ≤ ((at2 Data.wfpair Z Z' : ℕ) : ℝ) / 10 ^ 9 ∧ ((at2 Data.wfpair Z Z' : ℕ) : ℝ) / 10 ^ 9 ≤ 6
  exact ⟨by positivity, by rw [div_le_iff₀ (by positivity)]; exact h⟩

theorem shipped_alpha_le {Z r w : ℕ} (hZ : Z < 104) (hr : r < nref) (hw : w < nfreq) :
    alphaAt env (shipped nExt gam zeff vdw) R.ga R.gc R.rq Z r w ≤ 2 ^ 10 := by
  have := forall_of_all1 Data.check_alphaMax Z hZ
  have := forall_of_all1 this r hr
  have := forall_of_all1 this w hw
  rw [decide_eq_true_eq] at this
  have h : ((at2 Data.refascale Z r : ℕ) : ℝ) * (at3 Data.refalpha Z r w : ℕ) ≤ 1000 * 10 ^ 21 := by
    exact_mod_cast this
  unfold alphaAt
  refine max_le (by positivity) ?_
  show ((at2 Data.refascale Z r : ℕ) : ℝ) / 10 ^ 14 * ((at3 Data.refalpha Z r w : ℕ) / 10 ^ 7 -
    (at2 Data.refscount Z r : ℕ) / 10 * ((at2 Data.secscale (at2 Data.refsys Z r) 0 : ℕ) / 10 ^ 7 *
      ((at2 Data.secalpha (at2 Data.refsys Z r) w : ℕ) / 10 ^ 7) * _)) ≤ _
  generalize hX : (if 0 < (shipped nExt gam zeff vdw).refsys Z r then _ else (0 : ℝ)) = X
  have hX0 : 0 ≤ X := by
    rw [← hX]
    split_ifs
    · exact zetaF_toReal_nonneg _ _ _ _ _
    · exact le_rfl
  have e : (0 : ℝ) ≤ (at2 Data.refscount Z r : ℕ) / 10 * ((at2 Data.secscale (at2 Data.refsys Z r) 0 : ℕ) / 10 ^ 7 *
      ((at2 Data.secalpha (at2 Data.refsys Z r) w : ℕ) / 10 ^ 7) * X) := by positivity
  refine (mul_le_mul_of_nonneg_left (sub_le_self _ e) (by positivity)).trans ?_
  rw [div_mul_div_comm, div_le_iff₀ (by positivity)]
  refine h.trans (by norm_num)

theorem shipped_covers {A : Spec.AtomData} (h1 : 1 ≤ A.Z) (h2 : A.Z ≤ 103) (h3 : A.Z ≠ 58)
    {k : ℕ} (hn : 6 * A.cn ^ 2 ≤ k * 0.693147) : (shipped nExt gam zeff vdw).Covers env R A k := by
  have := forall_of_all1 Data.check_free' (A.Z - 1) (by omega)
  have e : A.Z - 1 + 1 = A.Z := by omega
  simp only [e, Bool.or_eq_true, Bool.and_eq_true, beq_iff_eq, decide_eq_true_eq] at this
  rcases this with h | ⟨⟨⟨ha, hb⟩, hc⟩, hd⟩
  · omega
  · refine ⟨0, by norm_num, ha, ?_, ?_⟩
    · show 6 * (A.cn - ((at2 Data.refcn A.Z 0 : ℕ) : ℝ) / 10 ^ 14) ^ 2 ≤ _
      rw [hb, Nat.cast_zero, zero_div, sub_zero]; exact hn
    · unfold alphaAt
      refine le_max_of_le_right ?_
      have e1 : (shipped nExt gam zeff vdw).refscount A.Z 0 = 0 := by
        show ((at2 Data.refscount A.Z 0 : ℕ) : ℝ) / 10 = 0
        rw [hc]; simp
      rw [e1, zero_mul, sub_zero]
      show _ ≤ ((at2 Data.refascale A.Z 0 : ℕ) : ℝ) / 10 ^ 14 * ((at3 Data.refalpha A.Z 0 0 : ℕ) / 10 ^ 7)
      have : (10 : ℝ) ^ 21 ≤ (at2 Data.refascale A.Z 0 : ℕ) * (at3 Data.refalpha A.Z 0 0 : ℕ) := by
        exact_mod_cast hd
      rw [div_mul_div_comm, le_div_iff₀ (by positivity)]
      refine le_trans ?_ this
      norm_num

end

/-- Range of `r4r2`. -/
theorem shipped_r4r2_range {nExt : ℕ} {gam zeff : ℕ → ℝ} {vdw : ℕ → ℕ → ℝ} {Z : ℕ} (h1 : 0 < Z)
    (h2 : Z < 119) : 1 / 2 ^ 20 ≤ (shipped nExt gam zeff vdw).r4r2 Z ∧
      (shipped nExt gam zeff vdw).r4r2 Z ≤ 2 ^ 5 := by
  have := forall_of_all1 Data.check_r4 (Z - 1) (by omega)
  have m := forall_of_all1 Data.check_r4Max Z h2
  have e : Z - 1 + 1 = Z := by omega
  simp only [e, Nat.ble_eq] at this m
  have h3 : (1 : ℝ) ≤ (Data.r4OverR2.getD Z 0 : ℕ) := by exact_mod_cast this
  have h3' : (Data.r4OverR2.getD Z 0 : ℕ) ≤ (10 ^ 6 : ℝ) := by exact_mod_cast m
  have h4 : (1 : ℝ) ≤ √Z := by rw [Real.one_le_sqrt]; exact_mod_cast h1
  have h5 : √(Z : ℝ) ≤ 11 := by
    refine (Real.sqrt_le_left (by norm_num)).2 ?_
    have : (Z : ℝ) < 119 := by exact_mod_cast h2
    linarith
  show 1 / 2 ^ 20 ≤ √(0.5 * ((Data.r4OverR2.getD Z 0 : ℕ) / 10 ^ 4 * √Z)) ∧
    √(0.5 * ((Data.r4OverR2.getD Z 0 : ℕ) / 10 ^ 4 * √Z)) ≤ 2 ^ 5
  generalize ((Data.r4OverR2.getD Z 0 : ℕ) : ℝ) = x at *
  generalize √(Z : ℝ) = y at *
  constructor
  · refine Real.le_sqrt_of_sq_le ?_
    have : 1 * 1 ≤ x * y := mul_le_mul h3 h4 (by norm_num) (by linarith)
    norm_num
    linarith
  · refine (Real.sqrt_le_left (by norm_num)).2 ?_
    have : x * y ≤ 10 ^ 6 * 11 := mul_le_mul h3' h5 (by linarith) (by norm_num)
    norm_num
    linarith

end TadDftd4
