import Verif.Lemmas.Underflow
import Verif.Props.C14
import Verif.Props.C38
import Verif.Lemmas.Bounds
import Verif.Lemmas.Api

/-!
# C56: rounding and underflow of the Gaussian weights

`weight_references` calculates its Gaussians in double precision, where they underflow for
coordination numbers far from those of the references, and then gives the whole weight to the
reference with the largest coordination number. For the shipped tables the weights are nevertheless
accurate for every coordination number that is not negative. With the exponent range of single
precision they would not be.
-/

set_option linter.unusedSimpArgs false

open scoped Classical

namespace TadDftd4

open Tensor

namespace Data

/-- Largest reference coordination number 16; the first reference below 3. -/
theorem check_range : (List.range 104).all (fun Z => (List.range 7).all fun r =>
    Nat.ble (at2 refcn Z r) (16 * 10 ^ 14) && Nat.ble (at2 refcn Z 0) (3 * 10 ^ 14)) = true := by
  decide +kernel

/-- The two largest coordination numbers of the references of an element differ by 0.2297. -/
theorem check_gap : (List.range 104).all (fun Z => (List.range 7).all fun t =>
    (List.range 7).all fun s => at2 refc Z t == 0 || at2 refc Z s == 0 || s == t || !(isTop Z t) ||
      Nat.ble (at2 refcn Z s + 22970000000000) (at2 refcn Z t)) = true := by
  decide +kernel

/-- Weighting factors of D4S are positive and at most 6. -/
theorem check_wf_range : wfpair.tail.all (fun r => r.tail.all fun v =>
    Nat.ble 1 v && Nat.ble v (6 * 10 ^ 9)) = true := by decide +kernel

end Data

/-- Reference coordination numbers of element `Z`: between 0 and 16, one of them at most 3, the largest
one (reference `t`) at least `g` above the others. -/
structure Spec.Separated (T : Tables) (Z t : ℕ) (g : ℝ) : Prop where
  top : T.IsTop Z t
  gaussians : ∀ r < nref, T.refc Z r = 0 ∨ T.refc Z r = 1 ∨ T.refc Z r = 3
  low : ∃ r < nref, 0 < T.refc Z r ∧ T.refcn Z r ≤ 3
  nonneg : ∀ r < nref, 0 ≤ T.refcn Z r
  high : ∀ r < nref, T.refcn Z r ≤ 16
  gap : ∀ s < nref, 0 < T.refc Z s → s ≠ t → T.refcn Z s + g ≤ T.refcn Z t

theorem shipped_separated {nExt : ℕ} {gam zeff : ℕ → ℝ} {vdw : ℕ → ℕ → ℝ} {Z t : ℕ} (h1 : 1 ≤ Z)
    (h2 : Z < 104) (ht : (shipped nExt gam zeff vdw).IsTop Z t) :
    Spec.Separated (shipped nExt gam zeff vdw) Z t 0.2297 where
  top := ht
  gaussians r hr := by
    have := forall_of_all2 Data.check_refs Z h2 r hr
    simp only [Bool.and_eq_true, Bool.or_eq_true, beq_iff_eq] at this
    show at2 Data.refc Z r = 0 ∨ at2 Data.refc Z r = 1 ∨ at2 Data.refc Z r = 3
    tauto
  low := by
    have h := forall_of_all1 Data.check_first (Z - 1) (by omega)
    have e : Z - 1 + 1 = Z := by omega
    simp only [e, decide_eq_true_eq] at h
    refine ⟨0, by norm_num [nref], h, ?_⟩
    have := forall_of_all2 Data.check_range Z h2 0 (by norm_num)
    simp only [Bool.and_eq_true, Nat.ble_eq] at this
    have : ((at2 Data.refcn Z 0 : ℕ) : ℝ) ≤ 3 * 10 ^ 14 := by exact_mod_cast this.2
    show ((at2 Data.refcn Z 0 : ℕ) : ℝ) / 10 ^ 14 ≤ 3
    rw [div_le_iff₀ (by positivity)]
    exact this
  nonneg r hr := by
    show 0 ≤ ((at2 Data.refcn Z r : ℕ) : ℝ) / 10 ^ 14
    positivity
  high r hr := by
    have := forall_of_all2 Data.check_range Z h2 r hr
    simp only [Bool.and_eq_true, Nat.ble_eq] at this
    have : ((at2 Data.refcn Z r : ℕ) : ℝ) ≤ 16 * 10 ^ 14 := by exact_mod_cast this.1
    show ((at2 Data.refcn Z r : ℕ) : ℝ) / 10 ^ 14 ≤ 16
    rw [div_le_iff₀ (by positivity)]
    exact this
  gap s hs h0 hne := by
    have := forall_of_all3 Data.check_gap Z h2 t ht.1 s hs
    have ht1 : ¬at2 Data.refc Z t = 0 := by have : 0 < at2 Data.refc Z t := ht.2.1; omega
    have hs1 : ¬at2 Data.refc Z s = 0 := by have : 0 < at2 Data.refc Z s := h0; omega
    have hT : Data.isTop Z t = true := by
      unfold Data.isTop
      rw [List.all_eq_true]
      intro r hr
      have h3 : ((at2 Data.refcn Z r : ℕ) : ℝ) / 10 ^ 14 ≤ ((at2 Data.refcn Z t : ℕ) : ℝ) / 10 ^ 14 :=
        ht.2.2.1 r (List.mem_range.1 hr)
      rw [div_le_div_iff_of_pos_right (by positivity)] at h3
      exact Nat.ble_eq_true_of_le (by exact_mod_cast h3)
    simp only [Bool.or_eq_true, beq_iff_eq, ht1, hs1, hne, hT, Bool.not_true, Bool.false_eq_true,
      false_or, Nat.ble_eq] at this
    have h4 : ((at2 Data.refcn Z s : ℕ) : ℝ) + 22970000000000 ≤ ((at2 Data.refcn Z t : ℕ) : ℝ) := by
      exact_mod_cast this
    show ((at2 Data.refcn Z s : ℕ) : ℝ) / 10 ^ 14 + 0.2297 ≤ ((at2 Data.refcn Z t : ℕ) : ℝ) / 10 ^ 14
    rw [le_div_iff₀ (by positivity), add_mul, div_mul_cancel₀ _ (by positivity)]
    refine le_trans (le_of_eq ?_) h4
    norm_num

section
variable {env : Env} {T : Tables}
open Underflow

/-- Normalised Gaussians, if they do not all underflow. -/
theorem gwOf_pos {Z : ℕ} {E : ℕ → ℝ} (hE : ∀ r, 0 ≤ E r) (h0 : ∀ r, T.refc Z r = 0 → E r = 0)
    (hS : 0 < ∑ s ∈ Finset.range nref, E s) {r : ℕ} (hr : r < nref) :
    gwOf env T Z E r = .fin (E r / ∑ s ∈ Finset.range nref, E s) := by
  rcases Nat.eq_zero_or_pos (T.refc Z r) with hc | hc
  · rw [gwOf_pad hc (h0 r hc), h0 r hc, zero_div]
  · have : gwTempOf T Z E r = .fin (E r / ∑ s ∈ Finset.range nref, E s) := by
      unfold gwTempOf
      rw [if_pos hc]
      simp [FP.div, hS.ne']
    unfold gwOf
    rw [this, if_neg]
    simp only [FP.isExceptional, not_lt]
    exact ((div_le_one hS).2 (Finset.single_le_sum (fun s _ => hE s) (Finset.mem_range.2 hr))).trans
      env.one_le_fmax

/-- The Gaussian whose powers are calculated, and the first exponent. -/
noncomputable def baseG (kind : ModelKind) (w c v : ℝ) : ℝ :=
  match kind with
  | .d4 => Real.exp (-(c - v) * (c - v))
  | _ => Real.exp (-(c - v) * ((c - v) * w))
def baseK (kind : ModelKind) : ℕ :=
  match kind with
  | .d4 => 6
  | _ => 1

theorem baseG_pow (kind : ModelKind) {w : ℝ} (hw : kind = .d4 → w = 6) (c v : ℝ) :
    baseG kind w c v ^ baseK kind = Real.exp (-(w * (c - v) ^ 2)) := by
  unfold baseG baseK
  cases kind
  case d4 => rw [← Real.exp_nat_mul, hw rfl]; congr 1; push_cast; ring
  all_goals simp only [pow_one]; congr 1; ring

theorem expwSel_gsum (kind : ModelKind) {w : ℝ} (hw : kind = .d4 → w = 6) {Z r : ℕ}
    (h : T.refc Z r = 0 ∨ T.refc Z r = 1 ∨ T.refc Z r = 3) (c : ℝ) :
    expwSel env T kind w Z c r =
      gsum env.fl (baseK kind) (T.refc Z r) (baseG kind w c (T.refcn Z r)) := by
  have hp : ∀ (x : ℝ) (i : ℕ), 0 ≤ x → x ^ ((i : ℝ) * 6) = x ^ (6 * i) := by
    intro x i _
    rw [show (i : ℝ) * 6 = ((6 * i : ℕ) : ℝ) by push_cast; ring, Real.rpow_natCast]
  have ht : 0 ≤ env.fl (Real.exp (-(c - T.refcn Z r) * (c - T.refcn Z r))) :=
    env.fl_nonneg _ (Real.exp_pos _).le
  unfold expwSel gsum baseG baseK
  cases kind
  case d4 =>
    have := hw rfl
    subst this
    rcases h with h | h | h <;>
      simp [expwD4, h, powD4, tmpD4, Finset.sum_range_succ]
    have h2 := hp _ 2 ht
    have h3 := hp _ 3 ht
    simp only [neg_sub, Nat.cast_ofNat] at h2 h3
    rw [h2, h3]
  all_goals
    rcases h with h | h | h <;>
      simp [expwD4S, h, powD4S, tmpD4S, Finset.sum_range_succ]

/-- Error of the weights of one atom, with a weighting factor between 0 and 6 (6 for D4). -/
theorem weight_error (hf : Spec.DoubleRounding env.fl) (R : RefCfg) {w : ℝ} (hw0 : 0 < w)
    (hw6 : w ≤ 6) (hw : R.kind = .d4 → w = 6) {Z t : ℕ} {g : ℝ} (hg : 0 < g)
    (hT : Spec.Separated T Z t g) {c : ℝ} (hc : 0 ≤ c) {r : ℕ} (hr : r < nref) :
    (gwOf env T Z (expwSel env T R.kind w Z c) r).IsFin ∧
    ((∃ s < nref, 0 < T.refc Z s ∧ w * (c - T.refcn Z s) ^ 2 ≤ 660) →
      |(gwOf env T Z (expwSel env T R.kind w Z c) r).toReal -
        Spec.weight (R.spec T env.eps) w Z c r| ≤ 50 * Spec.unitDouble) ∧
    |(gwOf env T Z (expwSel env T R.kind w Z c) r).toReal - Spec.weight (R.spec T env.eps) w Z c r| ≤
      50 * Spec.unitDouble + 306 * Real.exp (-(2 * g * √(660 * w))) := by
  obtain ⟨k, hk⟩ : ∃ k, k = baseK R.kind := ⟨_, rfl⟩
  obtain ⟨a, ha⟩ : ∃ a : ℕ → ℝ, a = fun s => baseG R.kind w c (T.refcn Z s) := ⟨_, rfl⟩
  have hk16 : k = 1 ∨ k = 6 := by rw [hk]; unfold baseK; cases R.kind <;> simp
  have hak : ∀ s, a s ^ k = Real.exp (-(w * (c - T.refcn Z s) ^ 2)) := fun s => by
    rw [ha, hk]; exact baseG_pow _ hw _ _
  have hapos : ∀ s, 0 < a s := fun s => by
    rw [ha]; simp only [baseG]; cases R.kind <;> exact Real.exp_pos _
  have hF : ∀ s < nref, expwSel env T R.kind w Z c s = gsum env.fl k (T.refc Z s) (a s) :=
    fun s hs => by rw [ha, hk]; exact expwSel_gsum _ hw (hT.gaussians s hs) c
  have hE : ∀ s, Spec.gaussRef (R.spec T env.eps) w Z c s = gsum id k (T.refc Z s) (a s) := by
    intro s
    rw [gsum_id]
    simp only [Spec.gaussRef, Spec.gaussians, RefCfg.spec]
    refine Finset.sum_congr rfl fun i _ => ?_
    rw [pow_mul, hak, ← Real.exp_nat_mul]
    congr 1
    push_cast
    ring
  have hFn : ∀ s, 0 ≤ expwSel env T R.kind w Z c s := by
    intro s
    unfold expwSel
    cases R.kind <;> first | exact expwD4_nonneg _ _ _ _ | exact expwD4S_nonneg _ _ _ _
  have hF0 : ∀ s, T.refc Z s = 0 → expwSel env T R.kind w Z c s = 0 := by
    intro s h
    unfold expwSel
    cases R.kind <;> first | exact expwD4_missing h | exact expwD4S_missing h
  have hN : ∀ s < 7, T.refc Z s ≤ 3 := fun s hs => by
    rcases hT.gaussians s hs with h | h | h <;> omega
  have hsumF : ∑ s ∈ Finset.range nref, expwSel env T R.kind w Z c s =
      ∑ s ∈ Finset.range 7, gsum env.fl k (T.refc Z s) (a s) :=
    Finset.sum_congr rfl fun s hs => hF s (Finset.mem_range.1 hs)
  have hweight : Spec.weight (R.spec T env.eps) w Z c r = gsum id k (T.refc Z r) (a r) /
      ∑ s ∈ Finset.range 7, gsum id k (T.refc Z s) (a s) := by
    unfold Spec.weight
    rw [hE, Finset.sum_congr rfl fun s _ => hE s]
  have hfin : (gwOf env T Z (expwSel env T R.kind w Z c) r).IsFin :=
    (gwOf_partition (env := env) hT.top hFn hF0).1.fin r hr
  refine ⟨hfin, ?_⟩
  have hA : (∃ s < nref, 0 < T.refc Z s ∧ w * (c - T.refcn Z s) ^ 2 ≤ 660) →
      |(gwOf env T Z (expwSel env T R.kind w Z c) r).toReal -
        Spec.weight (R.spec T env.eps) w Z c r| ≤ 50 * Spec.unitDouble := by
    rintro ⟨s, hs, hs0, hsw⟩
    have ha1 : ∀ s, a s ≤ 1 := by
      intro s
      by_contra hlt
      have h1 : 1 < a s ^ k := one_lt_pow₀ (not_le.1 hlt) (by omega)
      rw [hak] at h1
      have h2 : Real.exp (-(w * (c - T.refcn Z s) ^ 2)) ≤ 1 := Real.exp_le_one_iff.2 (by
        have : 0 ≤ w * (c - T.refcn Z s) ^ 2 := by positivity
        linarith)
      linarith
    obtain ⟨h1, h2⟩ := weight_close hf env.fl_nonneg (k := k) (N := T.refc Z) (a := a) hk16 hN
      (fun s _ => hapos s) (fun s _ => ha1 s)
      ⟨s, hs, hs0.ne', by rw [hak]; exact Real.exp_le_exp.2 (by linarith)⟩
    rw [gwOf_pos hFn hF0 (by rw [hsumF]; exact h1) hr, hsumF, hF r hr, hweight]
    exact h2 r hr
  refine ⟨hA, ?_⟩
  have hδ := δ_pos
  have hexp := Real.exp_pos (-(2 * g * √(660 * w)))
  by_cases hex : ∃ s < nref, 0 < T.refc Z s ∧ w * (c - T.refcn Z s) ^ 2 ≤ 660
  · linarith [hA hex]
  · push Not at hex
    -- the coordination number is above those of all references
    have hfar : ∀ s < nref, 0 < T.refc Z s → 10 < |c - T.refcn Z s| := by
      intro s hs h0
      have h1 := hex s hs h0
      by_contra hle
      have h2 : (c - T.refcn Z s) ^ 2 ≤ 100 := by
        rw [← sq_abs]
        nlinarith [abs_nonneg (c - T.refcn Z s), not_lt.1 hle]
      nlinarith
    have habove : ∀ s < nref, 0 < T.refc Z s → T.refcn Z s + 10 < c := by
      obtain ⟨l, hl, hl0, hl3⟩ := hT.low
      have h1 : T.refcn Z l + 10 < c := by
        rcases lt_abs.1 (hfar l hl hl0) with h | h <;> linarith [hT.nonneg l hl]
      intro s hs h0
      rcases lt_abs.1 (hfar s hs h0) with h | h
      · linarith
      · linarith [hT.high s hs, hT.nonneg l hl]
    have ht7 : t < 7 := hT.top.1
    have hdt : 10 < c - T.refcn Z t := by linarith [habove t ht7 hT.top.2.1]
    have hρ : ∀ s < 7, T.refc Z s ≠ 0 → s ≠ t → a s ≤ a t ∧
        (a s / a t) ^ k ≤ Real.exp (-(2 * g * √(660 * w))) := by
      intro s hs h0 hst
      have hgap := hT.gap s hs (Nat.pos_of_ne_zero h0) hst
      have hratio : (a s / a t) ^ k ≤ Real.exp (-(2 * g * √(660 * w))) := by
        rw [div_pow, hak, hak, ← Real.exp_sub]
        refine Real.exp_le_exp.2 ?_
        obtain ⟨d, hd⟩ : ∃ d, d = c - T.refcn Z t := ⟨_, rfl⟩
        have h1 : d + g ≤ c - T.refcn Z s := by linarith
        have h2 : √(660 * w) ≤ w * d := by
          refine Real.sqrt_le_iff.2 ⟨by nlinarith, ?_⟩
          have := hex t ht7 hT.top.2.1
          rw [← hd] at this
          nlinarith
        have h3 : (d + g) ^ 2 ≤ (c - T.refcn Z s) ^ 2 := by
          refine pow_le_pow_left₀ (by linarith) h1 2
        have h4 : w * (d + g) ^ 2 ≤ w * (c - T.refcn Z s) ^ 2 := by gcongr
        have h5 : g * √(660 * w) ≤ g * (w * d) := by gcongr
        have h6 : 0 ≤ w * g ^ 2 := by positivity
        rw [← hd]
        nlinarith
      refine ⟨?_, hratio⟩
      have h1 : (a s / a t) ^ k ≤ 1 := hratio.trans (Real.exp_le_one_iff.2 (by
        have : 0 ≤ 2 * g * √(660 * w) := by positivity
        linarith))
      have h2 : a s / a t ≤ 1 := by
        by_contra hlt
        have := one_lt_pow₀ (not_le.1 hlt) (n := k) (by omega)
        linarith
      exact (div_le_one (hapos t)).1 h2
    have hat : a t ≤ 1 / 2 := by
      have h1 : a t ^ k ≤ (1 / 2) ^ 6 := by
        rw [hak]
        have h2 := hex t ht7 hT.top.2.1
        calc Real.exp (-(w * (c - T.refcn Z t) ^ 2)) ≤ Real.exp (-660) :=
              Real.exp_le_exp.2 (by linarith)
          _ ≤ (1 / 2) ^ 6 := by
            rw [Real.exp_neg, inv_le_comm₀ (Real.exp_pos _) (by norm_num)]
            have := Real.add_one_le_exp (660 : ℝ)
            norm_num at this ⊢
            linarith
      by_contra hlt
      have hlt := not_le.1 hlt
      have h2 : (1 / 2 : ℝ) ^ 6 < a t ^ k := by
        calc (1 / 2 : ℝ) ^ 6 ≤ (1 / 2) ^ k := pow_le_pow_of_le_one (by norm_num) (by norm_num)
              (by rcases hk16 with h | h <;> omega)
          _ < a t ^ k := pow_lt_pow_left₀ hlt (by norm_num) (by omega)
      linarith
    obtain ⟨h1, h2⟩ := weight_top hf env.fl_nonneg (k := k) (N := T.refc Z) (a := a) hk16 hN ht7
      hT.top.2.1.ne' (fun s _ => hapos s) hat hρ hexp.le
    have hcomp : |(gwOf env T Z (expwSel env T R.kind w Z c) r).toReal - if r = t then 1 else 0| ≤
        288 * Real.exp (-(2 * g * √(660 * w))) := by
      rcases h1 with h1 | ⟨h1, h3⟩
      · have hz : ∀ s < nref, expwSel env T R.kind w Z c s = 0 := fun s hs => by
          rw [hF s hs, h1 s hs]
        obtain ⟨h4, h5⟩ := (gwOf_partition (env := env) hT.top hFn hF0).2 hz
        have : (gwOf env T Z (expwSel env T R.kind w Z c) r).toReal = if r = t then 1 else 0 := by
          split_ifs with h
          · rw [h, h4]; rfl
          · rw [h5 r hr h]; rfl
        rw [this, sub_self, abs_zero]
        positivity
      · rw [gwOf_pos hFn hF0 (by rw [hsumF]; exact h1) hr, hsumF, hF r hr]
        exact h3 r hr
    have hexact := h2 r hr
    rw [← hweight] at hexact
    rw [abs_sub_comm] at hexact
    have := abs_sub_le (gwOf env T Z (expwSel env T R.kind w Z c) r).toReal
      (if r = t then 1 else 0) (Spec.weight (R.spec T env.eps) w Z c r)
    linarith

/-- Coordination numbers up to 10 are close enough to some reference. -/
theorem near_ref {Z t : ℕ} {g w c : ℝ} (hT : Spec.Separated T Z t g) (hw0 : 0 < w) (hw6 : w ≤ 6)
    (hc : 0 ≤ c) (hc10 : c ≤ 10) :
    ∃ s < nref, 0 < T.refc Z s ∧ w * (c - T.refcn Z s) ^ 2 ≤ 660 := by
  obtain ⟨l, hl, h0, h3⟩ := hT.low
  have h1 := hT.nonneg l hl
  refine ⟨l, hl, h0, ?_⟩
  have h2 : (c - T.refcn Z l) ^ 2 ≤ 100 := by nlinarith
  nlinarith [sq_nonneg (c - T.refcn Z l)]

/-- The error for large coordination numbers with the weighting factor of D4. -/
theorem exp_top_le : 306 * Real.exp (-(2 * 0.2297 * √(660 * 6))) ≤ 25 / 10 ^ 11 := by
  have h1 : (62.9 : ℝ) ≤ √(660 * 6) := Real.le_sqrt_of_sq_le (by norm_num)
  have h2 : Real.exp (-(2 * 0.2297 * √(660 * 6))) ≤ Real.exp (-28) :=
    Real.exp_le_exp.2 (by nlinarith)
  have h3 : (2.7182818283 : ℝ) ^ 28 ≤ Real.exp 28 := by
    have := Real.exp_one_gt_d9
    rw [show (28 : ℝ) = ((28 : ℕ) : ℝ) * 1 by norm_num, Real.exp_nat_mul]
    exact pow_le_pow_left₀ (by norm_num) this.le 28
  have h4 : Real.exp (-28) ≤ 1 / (306 * 4 * 10 ^ 9) := by
    rw [Real.exp_neg, ← one_div]
    refine one_div_le_one_div_of_le (by norm_num) (le_trans ?_ h3)
    norm_num
  calc 306 * Real.exp (-(2 * 0.2297 * √(660 * 6))) ≤ 306 * (1 / (306 * 4 * 10 ^ 9)) := by
        linarith
    _ = 25 / 10 ^ 11 := by norm_num

end

section
variable {env : Env} {nExt : ℕ} {gam zeff : ℕ → ℝ} {vdw : ℕ → ℕ → ℝ} {m : RefModel} {n : ℕ}
  {B : Shape} {cn q : Tensor ℝ} {b : Idx} {i k r : ℕ}

/-- Error allowed for the D4 weights. -/
noncomputable def Spec.weightTol (c : ℝ) : ℝ :=
  if c ≤ 10 then 50 * Spec.unitDouble else 3 / 10 ^ 10

theorem weightTol_nonneg (c : ℝ) : 0 ≤ Spec.weightTol c := by
  have := Underflow.δ_pos
  unfold Spec.weightTol
  split_ifs <;> positivity

theorem weight_error_d4 (hf : Spec.DoubleRounding env.fl) (R : RefCfg) (hk : R.kind = .d4) {Z : ℕ}
    (h1 : 1 ≤ Z) (h2 : Z < 104) {c : ℝ} (hc : 0 ≤ c) (hr : r < nref) :
    (gwOf env (shipped nExt gam zeff vdw) Z
      (expwD4 env (shipped nExt gam zeff vdw) 6 Z c) r).IsFin ∧
    |(gwOf env (shipped nExt gam zeff vdw) Z
        (expwD4 env (shipped nExt gam zeff vdw) 6 Z c) r).toReal -
      Spec.weight (R.spec (shipped nExt gam zeff vdw) env.eps) 6 Z c r| ≤ Spec.weightTol c := by
  obtain ⟨t, ht⟩ := (shipped_hasTop (nExt := nExt) (gam := gam) (zeff := zeff) (vdw := vdw)).top Z h1 h2
  have hT := shipped_separated h1 h2 ht
  obtain ⟨e1, e2, e3⟩ := weight_error hf R (w := 6) (by norm_num) le_rfl (fun _ => rfl)
    (by norm_num) hT hc hr
  have e : expwSel env (shipped nExt gam zeff vdw) R.kind 6 Z c =
      expwD4 env (shipped nExt gam zeff vdw) 6 Z c := by rw [hk]; rfl
  rw [e] at e1 e2 e3
  refine ⟨e1, ?_⟩
  unfold Spec.weightTol
  split_ifs with h
  · exact e2 (near_ref hT (by norm_num) le_rfl hc h)
  · refine e3.trans ?_
    have h5 := exp_top_le
    have h6 : 50 * Spec.unitDouble ≤ 1 / 10 ^ 11 := by unfold Spec.unitDouble; norm_num
    calc _ ≤ 1 / 10 ^ 11 + 25 / (10 : ℝ) ^ 11 := add_le_add h6 h5
      _ ≤ 3 / 10 ^ 10 := by norm_num

/-- **C56**: `D4Model.weight_references` calculates its Gaussians in double precision. For every
coordination number that is not negative the normalised weights are finite and differ from the exact
ones by at most `50 · 2^-53` (coordination number up to 10) or `3 · 10^-10` (any), although all
Gaussians underflow for large coordination numbers. -/
theorem C56_d4 (hf : Spec.DoubleRounding env.fl) (h : m.Good (shipped nExt gam zeff vdw) n B)
    (hw : m.wf = scalar 6) (hc : cn.Ok (n :: B)) (hb : InB B b) (hi : i < n)
    (hZ : m.numbers.get (i :: b) ≠ 0) (hcn : 0 ≤ cn.get (i :: b)) (hr : r < nref) :
    ((D4.gw env (shipped nExt gam zeff vdw) m cn).get (r :: i :: b)).IsFin ∧
    |((D4.gw env (shipped nExt gam zeff vdw) m cn).get (r :: i :: b)).toReal -
      Spec.weight (RefCfg.d4.spec (shipped nExt gam zeff vdw) env.eps) 6 (m.numbers.get (i :: b))
        (cn.get (i :: b)) r| ≤
      if cn.get (i :: b) ≤ 10 then 50 * Spec.unitDouble else 3 / 10 ^ 10 := by
  rw [D4.gw_get h hw hc hb hi hr]
  exact weight_error_d4 hf .d4 rfl (Nat.one_le_iff_ne_zero.2 hZ)
    (h.lt _ (by rw [h.shape]; exact ⟨hi, hb⟩)) hcn hr

/-- Weighting factors of D4S: between 0 and 6. -/
theorem wfpair_range {Z Z' : ℕ} (h1 : 1 ≤ Z) (h2 : Z < 104) (h1' : 1 ≤ Z') (h2' : Z' < 104) :
    0 < (shipped nExt gam zeff vdw).wfpair Z Z' ∧ (shipped nExt gam zeff vdw).wfpair Z Z' ≤ 6 := by
  have hZ1 : Z < 119 := by omega
  have hZ2 : Z' < 119 := by omega
  have hl : Data.wfpair.length = 119 := by decide +kernel
  have hl2 : (Data.wfpair.all (·.length == 119)) = true := by decide +kernel
  have hp := Data.check_wf_range
  rw [List.all_eq_true] at hp hl2
  have hrow := getD_mem_tail (l := Data.wfpair) [] h1 (by omega)
  have hrl : (Data.wfpair.getD Z []).length = 119 := by
    simpa using hl2 _ (List.mem_of_mem_tail hrow)
  have hp := hp _ hrow
  rw [List.all_eq_true] at hp
  have hp := hp _ (getD_mem_tail (l := Data.wfpair.getD Z []) 0 h1' (by omega))
  rw [Bool.and_eq_true, Nat.ble_eq, Nat.ble_eq] at hp
  have a1 : (0 : ℝ) < (at2 Data.wfpair Z Z' : ℕ) := by exact_mod_cast hp.1
  have a2 : ((at2 Data.wfpair Z Z' : ℕ) : ℝ) ≤ 6 * 10 ^ 9 := by exact_mod_cast hp.2
  simp only [shipped]
  refine ⟨by positivity, ?_⟩
  rw [div_le_iff₀ (by positivity)]
  exact a2

/-- **C56**, `D4SModel.weight_references`: the same up to coordination number 10; beyond, the error is
bounded by a number that depends on the weighting factor `w` of the pair of elements. -/
theorem C56_d4s (hf : Spec.DoubleRounding env.fl) {numbers : Tensor ℕ}
    (hn : numbers.Ok (n :: B)) (hlt : numbers.AllLt 104) (hT : (shipped nExt gam zeff vdw).Fits)
    (hc : cn.Ok (n :: B)) (hb : InB B b) (hi : i < n) (hk : k < n)
    (hZ : numbers.get (i :: b) ≠ 0) (hZk : numbers.get (k :: b) ≠ 0) (hcn : 0 ≤ cn.get (i :: b))
    (hr : r < nref) {w : ℝ}
    (hw : w = (shipped nExt gam zeff vdw).wfpair (numbers.get (i :: b)) (numbers.get (k :: b)))
    {g : FP} (hg : g = (D4S.gw env (shipped nExt gam zeff vdw)
      (mkModel env (shipped nExt gam zeff vdw) .d4s numbers) cn).get (r :: i :: k :: b)) :
    g.IsFin ∧
    |g.toReal - Spec.weight ((RefCfg.d4s (shipped nExt gam zeff vdw)).spec
        (shipped nExt gam zeff vdw) env.eps) w (numbers.get (i :: b)) (cn.get (i :: b)) r| ≤
      if cn.get (i :: b) ≤ 10 then 50 * Spec.unitDouble
      else 50 * Spec.unitDouble + 306 * Real.exp (-(2 * 0.2297 * √(660 * w))) := by
  have hF := mkModel_isFor_d4s (env := env) hn hlt hT
  have hl : ∀ j, j < n → numbers.get (j :: b) < 104 := fun j hj =>
    hlt _ (by rw [hn.shape]; exact ⟨hj, hb⟩)
  have h1 := Nat.one_le_iff_ne_zero.2 hZ
  obtain ⟨w1, w2⟩ := wfpair_range (nExt := nExt) (gam := gam) (zeff := zeff) (vdw := vdw) h1 (hl i hi)
    (Nat.one_le_iff_ne_zero.2 hZk) (hl k hk)
  rw [← hw] at w1 w2
  obtain ⟨hwo, hwg⟩ := (hF.wf.resolve_left fun hh => by simp [mkModel] at hh).2
  rw [D4S.gw_get hF.good hwo hc hb hi hk hr, hwg b i k hb hi hk] at hg
  change g = gwOf env (shipped nExt gam zeff vdw) (numbers.get (i :: b))
    (expwD4S env (shipped nExt gam zeff vdw) ((shipped nExt gam zeff vdw).wfpair _ _) _ _) r at hg
  rw [← hw] at hg
  obtain ⟨t, ht⟩ := (shipped_hasTop (nExt := nExt) (gam := gam) (zeff := zeff) (vdw := vdw)).top _ h1
    (hl i hi)
  have hS := shipped_separated h1 (hl i hi) ht
  obtain ⟨e1, e2, e3⟩ := weight_error hf (.d4s (shipped nExt gam zeff vdw)) w1 w2
    (fun h => by simp [RefCfg.d4s] at h) (by norm_num) hS hcn hr
  change (gwOf env _ _ (expwD4S env _ w _ _) r).IsFin at e1
  rw [hg]
  refine ⟨e1, ?_⟩
  split_ifs with h10
  · exact e2 (near_ref hS w1 w2 hcn h10)
  · exact e3

/-- Error of the charge-scaled weights of an atom. -/
theorem wtAt_error (hf : Spec.DoubleRounding env.fl) {T : Tables} (hS : T = shipped nExt gam zeff vdw)
    (hP : T.Physical "eeq") {A : Spec.AtomData} (hA0 : A.Z ≠ 0) (hA : A.Z < 104) (hcn : 0 ≤ A.cn)
    (Zp : ℕ) (hr : r < nref) :
    |wtAt env T .d4 A Zp r - Spec.zetaRef (RefCfg.d4.spec T env.eps) A r *
      Spec.weight (RefCfg.d4.spec T env.eps) 6 A.Z A.cn r| ≤ Real.exp 3 * Spec.weightTol A.cn := by
  have hlt : A.Z < T.nZ := by rw [hS]; exact hA
  have hw := (weight_error_d4 (nExt := nExt) (gam := gam) (zeff := zeff) (vdw := vdw) hf .d4 rfl
    (Nat.one_le_iff_ne_zero.2 hA0) hA hcn hr).2
  rw [← hS] at hw
  have hz := zetaAt_le (env := env) (ga := 3) (gc := 2) hP (by norm_num) (by norm_num) hlt hr A.q
  have hz0 := zetaAt_nonneg (env := env) (T := T) 3 2 "eeq" A.Z A.q r
  have hwt : wtAt env T .d4 A Zp r = zetaAt env T 3 2 "eeq" A.Z A.q r *
      (gwOf env T A.Z (expwD4 env T 6 A.Z A.cn) r).toReal := rfl
  have hspec : Spec.zetaRef (RefCfg.d4.spec T env.eps) A r *
      Spec.weight (RefCfg.d4.spec T env.eps) 6 A.Z A.cn r = zetaAt env T 3 2 "eeq" A.Z A.q r *
        Spec.weight (RefCfg.d4.spec T env.eps) 6 A.Z A.cn r := by
    by_cases hc : 0 < T.refc A.Z r
    · rw [zetaAt, if_pos hc, zetaF_spec (mul_pos (hP.gam _ hlt r hr hc) (by norm_num))
        (hP.qref _ hlt r hr hc)]
      rfl
    · have h0 : T.refc A.Z r = 0 := by omega
      have : Spec.weight (RefCfg.d4.spec T env.eps) 6 A.Z A.cn r = 0 := by
        simp [Spec.weight, Spec.gaussRef, RefCfg.spec, h0, Spec.gaussians]
      rw [this, mul_zero, mul_zero]
  rw [hwt, hspec, ← mul_sub, abs_mul, abs_of_nonneg hz0]
  exact mul_le_mul hz hw (abs_nonneg _) (Real.exp_pos _).le

/-- **C56**: the result of `D4Model.weight_references`, weights times charge scaling. -/
theorem C56_weights (hf : Spec.DoubleRounding env.fl) {T : Tables} (hS : T = shipped nExt gam zeff vdw)
    (hE : ExtTables nExt gam zeff) {numbers : Tensor ℕ} (hn : numbers.Ok (n :: B))
    (hlt : numbers.AllLt 104) (hc : cn.Ok (n :: B)) (hq : q.Ok (n :: B)) (hb : InB B b) (hi : i < n)
    (hZ : numbers.get (i :: b) ≠ 0) (hcn : 0 ≤ cn.get (i :: b)) (hr : r < nref)
    {A : Spec.AtomData} (hA : A = ⟨numbers.get (i :: b), cn.get (i :: b), q.get (i :: b)⟩) :
    |(D4.weights env T (mkModel env T .d4 numbers) (some cn) (some q)).get (r :: i :: b) -
      Spec.zetaRef (RefCfg.d4.spec T env.eps) A r *
        Spec.weight (RefCfg.d4.spec T env.eps) 6 A.Z A.cn r| ≤
      Real.exp 3 * if A.cn ≤ 10 then 50 * Spec.unitDouble else 3 / 10 ^ 10 := by
  have hF := mkModel_isFor_d4 (env := env) (T := T) hn (by rw [hS]; exact hlt)
    (by rw [hS]; exact shipped_fits hE)
  have h1 := wtAt_error (env := env) (A := A) (r := r) hf hS (by rw [hS]; exact shipped_physical hE (Or.inl rfl))
    (by rw [hA]; exact hZ) (by rw [hA]; exact hlt _ (by rw [hn.shape]; exact ⟨hi, hb⟩))
    (by rw [hA]; exact hcn) 0 hr
  rw [D4.weights_get hF.good (w := 6) rfl (Or.inr ⟨cn, rfl, hc, rfl⟩) (Or.inr ⟨q, rfl, hq, rfl⟩) hb hi hr]
  subst hA
  exact h1

/-- Sum of the polarizabilities of the references of an element. -/
noncomputable def Spec.alphaSum (C : Spec.C6Settings) (Z ω : ℕ) : ℝ :=
  ∑ r ∈ Finset.range nref, Spec.alphaRef C Z r ω

/-- Sum of the C6 coefficients of all pairs of references of two elements. -/
noncomputable def Spec.c6Sum (C : Spec.C6Settings) (Z Z' : ℕ) : ℝ :=
  3 / Real.pi * ∑ ω ∈ Finset.range nfreq, C.quad ω * (Spec.alphaSum C Z ω * Spec.alphaSum C Z' ω)

theorem c6At_error (hf : Spec.DoubleRounding env.fl) {T : Tables} (hS : T = shipped nExt gam zeff vdw)
    (hP : T.Physical "eeq") {A A' : Spec.AtomData} (hA0 : A.Z ≠ 0) (hA : A.Z < 104) (hcn : 0 ≤ A.cn)
    (hA0' : A'.Z ≠ 0) (hA' : A'.Z < 104) (hcn' : 0 ≤ A'.cn) :
    |c6At env T .d4 A A' - Spec.c6 (RefCfg.d4.spec T env.eps) A A'| ≤
      Real.exp 6 * (Spec.weightTol A.cn + Spec.weightTol A'.cn) *
        Spec.c6Sum (RefCfg.d4.spec T env.eps) A.Z A'.Z := by
  obtain ⟨C, hC⟩ : ∃ C, C = RefCfg.d4.spec T env.eps := ⟨_, rfl⟩
  have hl : ∀ {Z : ℕ}, Z < 104 → Z < T.nZ := fun h => by rw [hS]; exact h
  have hα : ∀ {Z : ℕ}, Z < 104 → ∀ r < nref, ∀ w, alphaAt env T 3 2 "eeq" Z r w = Spec.alphaRef C Z r w :=
    fun h r hr w => by
      rw [hC]; exact alphaAt_spec (R := .d4) hP (by norm_num [RefCfg.d4]) (hl h) hr w
  have hα0 : ∀ Z r w, 0 ≤ Spec.alphaRef C Z r w := fun Z r w => le_max_left _ _
  have hS0 : ∀ Z w, 0 ≤ Spec.alphaSum C Z w := fun Z w => Finset.sum_nonneg fun r _ => hα0 Z r w
  -- polarizabilities of one atom
  have hpol : ∀ (X : Spec.AtomData) (Zp : ℕ), X.Z ≠ 0 → X.Z < 104 → 0 ≤ X.cn → ∀ w,
      |polOf env T 3 2 "eeq" X.Z (wtAt env T .d4 X Zp) w - Spec.alpha C X Zp w| ≤
        Real.exp 3 * Spec.weightTol X.cn * Spec.alphaSum C X.Z w ∧
      |polOf env T 3 2 "eeq" X.Z (wtAt env T .d4 X Zp) w| ≤ Real.exp 3 * Spec.alphaSum C X.Z w ∧
      |Spec.alpha C X Zp w| ≤ Real.exp 3 * Spec.alphaSum C X.Z w := by
    intro X Zp h0 h1 h2 w
    have hW : ∀ r < nref, |wtAt env T .d4 X Zp r| ≤ Real.exp 3 := fun r hr => by
      rw [abs_of_nonneg (wtAt_nonneg _ _ _)]
      exact wtAt_le (R := .d4) hP (by norm_num [RefCfg.d4]) (by norm_num [RefCfg.d4]) X (hl h1) Zp hr
    have hV : ∀ r < nref, |Spec.zetaRef C X r * Spec.weight C 6 X.Z X.cn r| ≤ Real.exp 3 := by
      intro r hr
      have hid := wtAt_spec (env := { env with fl := id, fl_nonneg := fun _ h => h }) (R := .d4)
        rfl hP (by norm_num [RefCfg.d4]) (A := X) (hl h1) Zp hr
      have h3 := wtAt_le (env := { env with fl := id, fl_nonneg := fun _ h => h }) (R := .d4) hP
        (by norm_num [RefCfg.d4]) (by norm_num [RefCfg.d4]) X (hl h1) Zp hr
      have h4 := wtAt_nonneg (env := { env with fl := id, fl_nonneg := fun _ h => h }) (T := T)
        (R := .d4) X Zp r
      rw [hid] at h3 h4
      rw [hC]
      have h4 : 0 ≤ Spec.zetaRef (RefCfg.d4.spec T env.eps) X r *
        Spec.weight (RefCfg.d4.spec T env.eps) 6 X.Z X.cn r := h4
      rw [abs_of_nonneg h4]
      exact h3
    have e1 : polOf env T 3 2 "eeq" X.Z (wtAt env T .d4 X Zp) w =
        ∑ r ∈ Finset.range nref, wtAt env T .d4 X Zp r * Spec.alphaRef C X.Z r w := by
      unfold polOf
      exact Finset.sum_congr rfl fun r hr => by rw [hα h1 r (Finset.mem_range.1 hr)]
    have e2 : Spec.alpha C X Zp w = ∑ r ∈ Finset.range nref,
        Spec.zetaRef C X r * Spec.weight C 6 X.Z X.cn r * Spec.alphaRef C X.Z r w := by
      rw [hC]; rfl
    have hsum : ∀ (f : ℕ → ℝ) (K : ℝ), (∀ r < nref, |f r| ≤ K) →
        |∑ r ∈ Finset.range nref, f r * Spec.alphaRef C X.Z r w| ≤ K * Spec.alphaSum C X.Z w := by
      intro f K hf
      refine (Finset.abs_sum_le_sum_abs _ _).trans ?_
      unfold Spec.alphaSum
      rw [Finset.mul_sum]
      refine Finset.sum_le_sum fun r hr => ?_
      rw [abs_mul, abs_of_nonneg (hα0 X.Z r w)]
      exact mul_le_mul_of_nonneg_right (hf r (Finset.mem_range.1 hr)) (hα0 _ _ _)
    refine ⟨?_, by rw [e1]; exact hsum _ _ hW, by rw [e2]; exact hsum _ _ hV⟩
    rw [e1, e2, ← Finset.sum_sub_distrib]
    simp only [← sub_mul]
    exact hsum _ _ fun r hr => by rw [hC]; exact wtAt_error hf hS hP h0 h1 h2 Zp hr
  have hq : ∀ w, 0 ≤ C.quad w := fun w => by rw [hC]; exact trapzWeights_nonneg w
  rw [← hC, c6At_integral]
  change |thopi * ∑ w ∈ Finset.range nfreq, trapzWeights.getD w 0 * _ - _| ≤ _
  have hq' : ∀ w, trapzWeights.getD w 0 = C.quad w := fun w => by rw [hC]; rfl
  simp only [hq']
  unfold Spec.c6 Spec.c6Sum
  have h3p : (0 : ℝ) ≤ 3 / Real.pi := thopi_pos.le
  change |3 / Real.pi * _ - _| ≤ _
  rw [← mul_sub, ← Finset.sum_sub_distrib, abs_mul, abs_of_nonneg h3p, mul_left_comm]
  refine mul_le_mul_of_nonneg_left ((Finset.abs_sum_le_sum_abs _ _).trans ?_) h3p
  rw [Finset.mul_sum]
  refine Finset.sum_le_sum fun w _ => ?_
  rw [← mul_sub, abs_mul, abs_of_nonneg (hq w), mul_left_comm]
  refine mul_le_mul_of_nonneg_left ?_ (hq w)
  obtain ⟨a1, a2, a3⟩ := hpol A A'.Z hA0 hA hcn w
  obtain ⟨b1, b2, b3⟩ := hpol A' A.Z hA0' hA' hcn' w
  change |polOf env T 3 2 "eeq" A.Z (wtAt env T .d4 A A'.Z) w *
    polOf env T 3 2 "eeq" A'.Z (wtAt env T .d4 A' A.Z) w - _| ≤ _
  obtain ⟨x, hx⟩ : ∃ x, x = polOf env T 3 2 "eeq" A.Z (wtAt env T .d4 A A'.Z) w := ⟨_, rfl⟩
  obtain ⟨y, hy⟩ : ∃ y, y = polOf env T 3 2 "eeq" A'.Z (wtAt env T .d4 A' A.Z) w := ⟨_, rfl⟩
  obtain ⟨u, hu⟩ : ∃ u, u = Spec.alpha C A A'.Z w := ⟨_, rfl⟩
  obtain ⟨v, hv⟩ : ∃ v, v = Spec.alpha C A' A.Z w := ⟨_, rfl⟩
  rw [← hx, ← hu] at a1
  rw [← hy, ← hv] at b1
  rw [← hx, ← hy, ← hu, ← hv]
  rw [← hu] at a3
  rw [← hy] at b2
  have e6 : Real.exp 6 = Real.exp 3 * Real.exp 3 := by rw [← Real.exp_add]; norm_num
  have t1 := weightTol_nonneg A.cn
  have t2 := weightTol_nonneg A'.cn
  have hE := (Real.exp_pos 3).le
  calc |x * y - u * v| = |(x - u) * y + u * (y - v)| := by congr 1; ring
    _ ≤ |x - u| * |y| + |u| * |y - v| := by
      rw [← abs_mul, ← abs_mul]; exact abs_add_le _ _
    _ ≤ (Real.exp 3 * Spec.weightTol A.cn * Spec.alphaSum C A.Z w) *
          (Real.exp 3 * Spec.alphaSum C A'.Z w) + (Real.exp 3 * Spec.alphaSum C A.Z w) *
          (Real.exp 3 * Spec.weightTol A'.cn * Spec.alphaSum C A'.Z w) :=
      add_le_add
        (mul_le_mul a1 b2 (abs_nonneg _) (mul_nonneg (mul_nonneg hE t1) (hS0 _ _)))
        (mul_le_mul a3 b1 (abs_nonneg _) (mul_nonneg hE (hS0 _ _)))
    _ = _ := by rw [e6]; ring

/-- **C56**: effect on the C6 coefficients. The error is at most
`e⁶ · (tolerance of the weights of both atoms) · (sum of all reference C6 of the two elements)`. -/
theorem C56_c6 (hf : Spec.DoubleRounding env.fl) {T : Tables} (hS : T = shipped nExt gam zeff vdw)
    (hE : ExtTables nExt gam zeff) {numbers : Tensor ℕ} (hn : numbers.Ok (n :: B))
    (hlt : numbers.AllLt 104) (hc : cn.Ok (n :: B)) (hq : q.Ok (n :: B)) :
    ∃ c6, c6 = (mkModel env T .d4 numbers).atomicC6
        ((mkModel env T .d4 numbers).weights env T (some cn) (some q)) ∧ c6.Ok (n :: n :: B) ∧
      ∀ b i j, InB B b → i < n → j < n → numbers.get (i :: b) ≠ 0 → numbers.get (j :: b) ≠ 0 →
        0 ≤ cn.get (i :: b) → 0 ≤ cn.get (j :: b) →
        |c6.get (j :: i :: b) - Spec.c6 (RefCfg.d4.spec T env.eps)
            ⟨numbers.get (i :: b), cn.get (i :: b), q.get (i :: b)⟩
            ⟨numbers.get (j :: b), cn.get (j :: b), q.get (j :: b)⟩| ≤
          Real.exp 6 * (Spec.weightTol (cn.get (i :: b)) + Spec.weightTol (cn.get (j :: b))) *
            Spec.c6Sum (RefCfg.d4.spec T env.eps) (numbers.get (i :: b)) (numbers.get (j :: b)) := by
  have hF := mkModel_isFor_d4 (env := env) (T := T) hn (by rw [hS]; exact hlt)
    (by rw [hS]; exact shipped_fits hE)
  obtain ⟨h1, h2⟩ := model_c6_eval hF (Or.inr ⟨cn, rfl, hc, rfl⟩ : D4.OptIs (some cn) n B cn.get)
    (Or.inr ⟨q, rfl, hq, rfl⟩ : D4.OptIs (some q) n B q.get)
  refine ⟨_, rfl, h1, fun b i j hb hi hj hZ hZ' hci hcj => ?_⟩
  rw [h2 b i j hb hi hj]
  exact c6At_error hf hS (by rw [hS]; exact shipped_physical hE (Or.inl rfl)) hZ
    (hlt _ (by rw [hn.shape]; exact ⟨hi, hb⟩)) hci hZ' (hlt _ (by rw [hn.shape]; exact ⟨hj, hb⟩)) hcj

end

/-! ## The exponent range of single precision is not sufficient -/

/-- Flush numbers below `2^-149`, the smallest subnormal number of single precision, to zero. -/
noncomputable def Spec.flushSingle (x : ℝ) : ℝ := if x < 1 / 2 ^ 149 then 0 else x

/-- **C56**: if the Gaussians had the exponent range of single precision, the weights of magnesium at
coordination number 7 would be wrong: the fallback would give the whole weight to the reference with
coordination number 13.956, although the exact weight is that of the reference with 1.67. -/
theorem C56_single_range {env : Env} (hf : env.fl = Spec.flushSingle) {nExt : ℕ} {gam zeff : ℕ → ℝ}
    {vdw : ℕ → ℕ → ℝ} {m : RefModel} {n : ℕ} {B : Shape} {cn : Tensor ℝ} {b : Idx} {i : ℕ}
    (h : m.Good (shipped nExt gam zeff vdw) n B) (hw : m.wf = scalar 6) (hc : cn.Ok (n :: B))
    (hb : InB B b) (hi : i < n) (hZ : m.numbers.get (i :: b) = 12) (hcn : cn.get (i :: b) = 7) :
    (D4.gw env (shipped nExt gam zeff vdw) m cn).get (3 :: i :: b) = .fin 1 ∧
    Spec.weight (RefCfg.d4.spec (shipped nExt gam zeff vdw) env.eps) 6 12 7 3 ≤ 1 / 100 := by
  have v : ∀ r, (shipped nExt gam zeff vdw).refcn 12 r = ((at2 Data.refcn 12 r : ℕ) : ℝ) / 10 ^ 14 :=
    fun _ => rfl
  have c : ∀ r, (shipped nExt gam zeff vdw).refc 12 r = at2 Data.refc 12 r := fun _ => rfl
  have v0 : (shipped nExt gam zeff vdw).refcn 12 0 = 0 := by
    rw [v, show at2 Data.refcn 12 0 = 0 by decide +kernel]; norm_num
  have v1 : (shipped nExt gam zeff vdw).refcn 12 1 = 0.82437946770105 := by
    rw [v, show at2 Data.refcn 12 1 = 82437946770105 by decide +kernel]; norm_num
  have v2 : (shipped nExt gam zeff vdw).refcn 12 2 = 1.66972660811953 := by
    rw [v, show at2 Data.refcn 12 2 = 166972660811953 by decide +kernel]; norm_num
  have v3 : (shipped nExt gam zeff vdw).refcn 12 3 = 13.956 := by
    rw [v, show at2 Data.refcn 12 3 = 1395600000000000 by decide +kernel]; norm_num
  have c3 : (shipped nExt gam zeff vdw).refc 12 3 = 1 := by
    rw [c]; decide +kernel
  have c2 : (shipped nExt gam zeff vdw).refc 12 2 = 1 := by
    rw [c]; decide +kernel
  have cpad : ∀ r < nref, 4 ≤ r → (shipped nExt gam zeff vdw).refc 12 r = 0 := by
    have : (List.range 7).all (fun r => r < 4 || at2 Data.refc 12 r == 0) = true := by decide +kernel
    intro r hr h4
    have := forall_of_all1 this r hr
    simp only [Bool.or_eq_true, decide_eq_true_eq, beq_iff_eq] at this
    rw [c]
    omega
  -- all Gaussians vanish
  have hE : ∀ d : ℝ, 28 ≤ d → Real.exp (-d) ^ 6 < 1 / 2 ^ 149 := by
    intro d hd
    rw [← Real.exp_nat_mul]
    have h2 := Real.log_two_lt_d9
    calc Real.exp (((6 : ℕ) : ℝ) * -d) ≤ Real.exp (-168) := Real.exp_le_exp.2 (by push_cast; linarith)
      _ < Real.exp (-(149 * Real.log 2)) := Real.exp_lt_exp.2 (by linarith)
      _ = 1 / 2 ^ 149 := by
        rw [Real.exp_neg, show (149 : ℝ) = ((149 : ℕ) : ℝ) by norm_num, Real.exp_nat_mul,
          Real.exp_log (by norm_num), one_div]
  have htop : (shipped nExt gam zeff vdw).IsTop 12 3 := by
    refine ⟨by norm_num [nref], by rw [c3]; norm_num, ?_, ?_⟩
    · have : (List.range 7).all (fun r => Nat.ble (at2 Data.refcn 12 r) (at2 Data.refcn 12 3)) = true := by
        decide +kernel
      intro s hs
      have := Nat.le_of_ble_eq_true (forall_of_all1 this s hs)
      rw [v, v]
      gcongr
    · intro s hs h0 hne
      have : s < 4 := by
        by_contra hlt
        rw [cpad s hs (by omega)] at h0
        omega
      interval_cases s
      · rw [v0, v3]; norm_num
      · rw [v1, v3]; norm_num
      · rw [v2, v3]; norm_num
      · exact absurd rfl hne
  have hpow : ∀ r < 4, ∀ j : ℕ, 1 ≤ j →
      powD4 env 6 7 ((shipped nExt gam zeff vdw).refcn 12 r) j = 0 := by
    intro r hr j hj
    have hd : 28 ≤ (7 - (shipped nExt gam zeff vdw).refcn 12 r) ^ 2 := by
      interval_cases r
      · rw [v0]; norm_num
      · rw [v1]; norm_num
      · rw [v2]; norm_num
      · rw [v3]; norm_num
    obtain ⟨y, hy⟩ : ∃ y, y = 7 - (shipped nExt gam zeff vdw).refcn 12 r := ⟨_, rfl⟩
    have e : tmpD4 env 7 ((shipped nExt gam zeff vdw).refcn 12 r) =
        env.fl (Real.exp (-(y ^ 2))) := by
      unfold tmpD4; rw [← hy]; congr 2; ring
    rw [← hy] at hd
    have h0 := (Real.exp_pos (-(y ^ 2))).le
    have ht0 : 0 ≤ env.fl (Real.exp (-(y ^ 2))) := env.fl_nonneg _ h0
    have ht1 : env.fl (Real.exp (-(y ^ 2))) ≤ Real.exp (-(y ^ 2)) := by
      rw [hf]; unfold Spec.flushSingle; split_ifs <;> linarith
    have hle1 : Real.exp (-(y ^ 2)) ≤ 1 := Real.exp_le_one_iff.2 (by linarith)
    unfold powD4
    rw [e]
    have hlt : env.fl (Real.exp (-(y ^ 2))) ^ ((j : ℝ) * 6) < 1 / 2 ^ 149 := by
      rw [show (j : ℝ) * 6 = ((6 * j : ℕ) : ℝ) by push_cast; ring, Real.rpow_natCast]
      calc env.fl (Real.exp (-(y ^ 2))) ^ (6 * j) ≤ Real.exp (-(y ^ 2)) ^ (6 * j) :=
            pow_le_pow_left₀ ht0 ht1 _
        _ ≤ Real.exp (-(y ^ 2)) ^ 6 := pow_le_pow_of_le_one h0 hle1 (by omega)
        _ < _ := hE _ hd
    obtain ⟨u, hu⟩ : ∃ u, u = env.fl (Real.exp (-(y ^ 2))) ^ ((j : ℝ) * 6) := ⟨_, rfl⟩
    rw [← hu] at hlt ⊢
    rw [hf]
    unfold Spec.flushSingle
    rw [if_pos hlt]
  have hz : ∀ r < nref, expwD4 env (shipped nExt gam zeff vdw) 6 12 7 r = 0 := by
    intro r hr
    by_cases h4 : r < 4
    · have h13 := (shipped_separated (by norm_num) (by norm_num) htop).gaussians r hr
      unfold expwD4
      rw [hpow r h4 1 le_rfl, hpow r h4 2 (by norm_num), hpow r h4 3 (by norm_num)]
      split_ifs <;> first | omega | norm_num
    · exact expwD4_missing (cpad r hr (by omega))
  constructor
  · rw [D4.gw_get h hw hc hb hi (by norm_num [nref]), hZ, hcn]
    exact ((gwOf_partition (env := env) htop (fun r => expwD4_nonneg 6 _ _ _) fun r =>
      expwD4_missing).2 hz).1
  · have e3 : Spec.gaussRef (RefCfg.d4.spec (shipped nExt gam zeff vdw) env.eps) 6 12 7 3 =
        Real.exp (-(6 * (7 - 13.956) ^ 2)) := by
      simp [Spec.gaussRef, RefCfg.spec, Spec.gaussians, c3, v3]
    have e2 : Spec.gaussRef (RefCfg.d4.spec (shipped nExt gam zeff vdw) env.eps) 6 12 7 2 =
        Real.exp (-(6 * (7 - 1.66972660811953) ^ 2)) := by
      simp [Spec.gaussRef, RefCfg.spec, Spec.gaussians, c2, v2]
    unfold Spec.weight
    have hsum := Finset.single_le_sum
      (f := Spec.gaussRef (RefCfg.d4.spec (shipped nExt gam zeff vdw) env.eps) 6 12 7)
      (fun s _ => gaussRef_nonneg _ 6 12 7 s) (Finset.mem_range.2 (show 2 < nref by norm_num [nref]))
    rw [e2] at hsum
    have hp := Real.exp_pos (-(6 * (7 - 1.66972660811953) ^ 2))
    rw [div_le_iff₀ (lt_of_lt_of_le hp hsum), e3]
    refine le_trans ?_ (mul_le_mul_of_nonneg_left hsum (by norm_num))
    have : Real.exp (-(6 * (7 - 13.956) ^ 2)) ≤
        Real.exp (-100) * Real.exp (-(6 * (7 - 1.66972660811953) ^ 2)) := by
      rw [← Real.exp_add]
      exact Real.exp_le_exp.2 (by norm_num)
    refine this.trans (mul_le_mul_of_nonneg_right ?_ hp.le)
    rw [Real.exp_neg, ← one_div]
    exact one_div_le_one_div_of_le (by norm_num) (by linarith [Real.add_one_le_exp (100 : ℝ)])

/-! ## Concrete cases -/

namespace Demo

/-- Subnormal numbers are flushed to zero, otherwise exact. -/
noncomputable def envD : Env :=
  { env with
    fl := fun x => if x < Spec.minDouble then 0 else x
    fl_nonneg := fun x h => by split_ifs; exacts [le_rfl, h] }

theorem envD_double : Spec.DoubleRounding envD.fl where
  mono x y h0 h := by
    show (if x < Spec.minDouble then 0 else x) ≤ (if y < Spec.minDouble then 0 else y)
    split_ifs <;> linarith
  rel x h _ := by
    show |(if x < Spec.minDouble then 0 else x) - x| ≤ _
    rw [if_neg (not_lt.2 h), sub_self, abs_zero]
    exact mul_nonneg Underflow.δ_pos.le (Underflow.μ_pos.le.trans h)
  le_two x h := by
    show (if x < Spec.minDouble then 0 else x) ≤ 2 * x
    split_ifs <;> linarith
  half_le x h := by
    show (if x < Spec.minDouble then 0 else x) = 0 ∨ x / 2 ≤ (if x < Spec.minDouble then 0 else x)
    split_ifs
    · exact Or.inl rfl
    · exact Or.inr (by linarith)
  flush x _ h := by
    show (if x < Spec.minDouble then 0 else x) = 0
    refine if_pos (lt_of_le_of_lt h ?_)
    unfold Spec.minDouble
    exact one_div_lt_one_div_of_lt (by positivity) (pow_lt_pow_right₀ (by norm_num) (by norm_num))

/-- The exponent range of single precision. -/
noncomputable def envS : Env :=
  { env with
    fl := Spec.flushSingle
    fl_nonneg := fun x h => by unfold Spec.flushSingle; split_ifs; exacts [le_rfl, h] }

/-- A magnesium atom. -/
def numbersMg : Tensor ℕ := full [1] 12

end Demo

/-- Oxygen of water with coordination number 50, where all Gaussians underflow. -/
example : |((D4.gw Demo.envD Demo.T Demo.model (full [3, 2] 50)).get [0, 0, 0]).toReal -
    Spec.weight (RefCfg.d4.spec Demo.T Demo.envD.eps) 6 8 50 0| ≤ 3 / 10 ^ 10 := by
  have h := (C56_d4 (m := Demo.model) (cn := full [3, 2] 50) (b := [0]) (i := 0) (r := 0)
    Demo.envD_double Demo.model_good rfl ⟨rfl, rfl⟩ (by simp [InB]) (by norm_num)
    (show (8 : ℕ) ≠ 0 by norm_num) (show (0 : ℝ) ≤ 50 by norm_num) (by norm_num [nref])).2
  rw [if_neg (show ¬ ((full [3, 2] (50 : ℝ)).get [0, 0] ≤ 10) by
    show ¬ ((50 : ℝ) ≤ 10); norm_num)] at h
  exact h

example : (D4.gw Demo.envS Demo.T (mkModel Demo.envS Demo.T .d4 Demo.numbersMg)
    (full [1] 7)).get [3, 0] = .fin 1 :=
  (C56_single_range (b := []) (i := 0) rfl
    (mkModel_isFor_d4 (T := Demo.T) (n := 1) (B := []) (numbers := Demo.numbersMg) ⟨rfl, rfl⟩
      (fun _ _ => show 12 < 104 by norm_num) Demo.fits).good
    rfl ⟨rfl, rfl⟩ (by simp [InB]) (by norm_num) rfl rfl).1

/-- Water: C6 of oxygen and hydrogen. -/
example : ∃ c6, c6 = (mkModel Demo.envD Demo.T .d4 Demo.numbers).atomicC6
      ((mkModel Demo.envD Demo.T .d4 Demo.numbers).weights Demo.envD Demo.T (some (full [3, 2] 1))
        (some (full [3, 2] 0))) ∧ c6.Ok [3, 3, 2] ∧
    |c6.get [1, 0, 0] - Spec.c6 (RefCfg.d4.spec Demo.T Demo.envD.eps) ⟨8, 1, 0⟩ ⟨1, 1, 0⟩| ≤
      Real.exp 6 * (Spec.weightTol 1 + Spec.weightTol 1) *
        Spec.c6Sum (RefCfg.d4.spec Demo.T Demo.envD.eps) 8 1 := by
  obtain ⟨c6, h1, h2, h3⟩ := C56_c6 (n := 3) (B := [2]) (cn := full [3, 2] 1) (q := full [3, 2] 0)
    Demo.envD_double (T := Demo.T) rfl Demo.extTables (numbers := Demo.numbers) ⟨rfl, rfl⟩
    (fun i _ => Demo.numbers_lt i) ⟨rfl, rfl⟩ ⟨rfl, rfl⟩
  exact ⟨c6, h1, h2, h3 [0] 0 1 (by simp [InB]) (by norm_num) (by norm_num)
    (show (8 : ℕ) ≠ 0 by norm_num) (show (1 : ℕ) ≠ 0 by norm_num) (show (0 : ℝ) ≤ 1 by norm_num)
    (show (0 : ℝ) ≤ 1 by norm_num)⟩

example := C56_d4s (n := 3) (B := [2]) (cn := full [3, 2] 50) (b := [0]) (i := 0) (k := 1) (r := 2)
  Demo.envD_double (numbers := Demo.numbers) ⟨rfl, rfl⟩ (fun i _ => Demo.numbers_lt i) Demo.fits
  ⟨rfl, rfl⟩ (by simp [InB]) (by norm_num) (by norm_num) (show (8 : ℕ) ≠ 0 by norm_num)
  (show (1 : ℕ) ≠ 0 by norm_num) (show (0 : ℝ) ≤ 50 by norm_num) (by norm_num [nref]) rfl rfl

example := C56_weights (n := 3) (B := [2]) (cn := full [3, 2] 50) (q := full [3, 2] 0) (b := [0])
  (i := 0) (r := 2) Demo.envD_double (T := Demo.T) rfl Demo.extTables (numbers := Demo.numbers) ⟨rfl, rfl⟩
  (fun i _ => Demo.numbers_lt i) ⟨rfl, rfl⟩ ⟨rfl, rfl⟩ (by simp [InB]) (by norm_num)
  (show (8 : ℕ) ≠ 0 by norm_num) (show (0 : ℝ) ≤ 50 by norm_num) (by norm_num [nref]) rfl

end TadDftd4
