import Verif.Lemmas.Setup
import Verif.Lemmas.C6Props
import Mathlib.Analysis.SpecialFunctions.Log.Deriv
import Mathlib.Analysis.Complex.ExponentialBounds

/-!
# Rounding and underflow of the Gaussians of `weight_references`
-/

set_option linter.unusedSimpArgs false

open scoped Classical

namespace TadDftd4

open Tensor

/-- Unit roundoff and smallest normal number of double precision. -/
noncomputable def Spec.unitDouble : ℝ := 1 / 2 ^ 53
noncomputable def Spec.minDouble : ℝ := 1 / 2 ^ 1022

/-- Correct rounding to double precision as far as it matters here: monotone, relative error at most
`2^-53` for normal numbers, at most a factor of two for subnormal numbers, zero below half the smallest
subnormal number. -/
structure Spec.DoubleRounding (fl : ℝ → ℝ) : Prop where
  mono : ∀ x y, 0 ≤ x → x ≤ y → fl x ≤ fl y
  rel : ∀ x, Spec.minDouble ≤ x → x ≤ 2 → |fl x - x| ≤ Spec.unitDouble * x
  le_two : ∀ x, 0 ≤ x → fl x ≤ 2 * x
  half_le : ∀ x, 0 ≤ x → fl x = 0 ∨ x / 2 ≤ fl x
  flush : ∀ x, 0 ≤ x → x ≤ 1 / 2 ^ 1075 → fl x = 0

namespace Underflow
open Spec

local notation "δ" => Spec.unitDouble
local notation "μ" => Spec.minDouble

theorem μ_pos : 0 < μ := by unfold minDouble; positivity
theorem δ_pos : 0 < δ := by unfold unitDouble; positivity

theorem μ_le : μ ≤ Real.exp (-708) := by
  rw [minDouble, one_div, inv_le_comm₀ (by positivity) (Real.exp_pos _), ← Real.exp_neg, neg_neg]
  have h := Real.log_two_gt_d9
  calc Real.exp 708 ≤ Real.exp (1022 * Real.log 2) := Real.exp_le_exp.2 (by linarith)
    _ = 2 ^ 1022 := by
      rw [show (1022 : ℝ) = ((1022 : ℕ) : ℝ) by norm_num, Real.exp_nat_mul, Real.exp_log (by norm_num)]

theorem μ_le_quarter : μ ≤ 1 / 4 := by
  refine μ_le.trans ?_
  rw [Real.exp_neg, inv_le_comm₀ (Real.exp_pos _) (by norm_num)]
  have := Real.add_one_le_exp (708 : ℝ)
  norm_num at this ⊢
  linarith

theorem two_μ_pow : (2 * μ) ^ 6 ≤ 1 / 2 ^ 1075 := by
  have e : 2 * μ = 1 / 2 ^ 1021 := by
    unfold minDouble
    rw [show (2 : ℝ) ^ 1022 = 2 * 2 ^ 1021 by rw [← pow_succ']]
    rw [mul_one_div, div_mul_eq_div_div, div_self two_ne_zero]
  rw [e, div_pow, one_pow, ← pow_mul]
  refine one_div_le_one_div_of_le (by positivity) ?_
  exact pow_le_pow_right₀ (by norm_num) (by norm_num)

attribute [local irreducible] Spec.minDouble

theorem pow_one_add_sub {η d : ℝ} (h : |η| ≤ d) (k : ℕ) : |(1 + η) ^ k - 1| ≤ (1 + d) ^ k - 1 := by
  have hd : 0 ≤ d := (abs_nonneg _).trans h
  induction k with
  | zero => simp
  | succ k ih =>
    have e : (1 + η) ^ (k + 1) - 1 = ((1 + η) ^ k - 1) * (1 + η) + η := by ring
    have h1 : |1 + η| ≤ 1 + d := (abs_add_le _ _).trans (by rw [abs_one]; linarith)
    calc |(1 + η) ^ (k + 1) - 1| = |((1 + η) ^ k - 1) * (1 + η) + η| := by rw [e]
      _ ≤ |(1 + η) ^ k - 1| * |1 + η| + |η| := by rw [← abs_mul]; exact abs_add_le _ _
      _ ≤ ((1 + d) ^ k - 1) * (1 + d) + d := by
        refine add_le_add (mul_le_mul ih h1 (abs_nonneg _) ?_) h
        linarith [one_le_pow₀ (n := k) (show 1 ≤ 1 + d by linarith)]
      _ = (1 + d) ^ (k + 1) - 1 := by ring

theorem pow_δ {k : ℕ} (hk : k ≤ 18) : (1 + δ) ^ k ≤ 1 + 19 * δ := by
  refine (pow_le_pow_right₀ (by linarith [δ_pos]) hk).trans ?_
  unfold unitDouble
  norm_num

variable {fl : ℝ → ℝ} (hf : DoubleRounding fl) (hn : ∀ x, 0 ≤ x → 0 ≤ fl x)
include hf hn

/-- A rounded power of a rounded number. -/
theorem power_error {a : ℝ} (ha : 0 < a) (ha1 : a ≤ 1) {k : ℕ} (hk1 : 1 ≤ k) (hk : k ≤ 18) :
    |fl (fl a ^ k) - a ^ k| ≤ 21 * δ * a ^ k + 4 * μ := by
  have hμ := μ_pos
  have hδ := δ_pos
  have hμ1 := μ_le_quarter
  have ht0 : 0 ≤ fl a := hn a ha.le
  have hy0 : 0 ≤ fl a ^ k := pow_nonneg ht0 k
  have hp0 : 0 ≤ fl (fl a ^ k) := hn _ hy0
  have hak : 0 ≤ a ^ k := (pow_pos ha k).le
  by_cases hm : μ ≤ a
  · obtain ⟨η, hη⟩ : ∃ η, fl a = a * (1 + η) := ⟨fl a / a - 1, by field_simp; ring⟩
    have hη' : |η| ≤ δ := by
      have := hf.rel a hm (by linarith)
      rw [hη, show a * (1 + η) - a = a * η by ring, abs_mul, abs_of_pos ha, mul_comm δ a] at this
      exact le_of_mul_le_mul_left this ha
    have e1 : fl a ^ k = a ^ k * (1 + η) ^ k := by rw [hη, mul_pow]
    have h1 : |fl a ^ k - a ^ k| ≤ 19 * δ * a ^ k := by
      rw [e1, show a ^ k * (1 + η) ^ k - a ^ k = a ^ k * ((1 + η) ^ k - 1) by ring, abs_mul,
        abs_of_nonneg hak, mul_comm (19 * δ)]
      exact mul_le_mul_of_nonneg_left ((pow_one_add_sub hη' k).trans (by linarith [pow_δ hk])) hak
    have hak1 : a ^ k ≤ 1 := pow_le_one₀ ha.le ha1
    have h19 : 19 * δ ≤ 1 := by unfold unitDouble; norm_num
    have hy2 : fl a ^ k ≤ (1 + 19 * δ) * a ^ k := by
      have := (abs_le.1 h1).2; linarith
    have hy3 : fl a ^ k ≤ 2 := by nlinarith
    have h2 : |fl (fl a ^ k) - fl a ^ k| ≤ δ * fl a ^ k + μ := by
      by_cases hy : μ ≤ fl a ^ k
      · linarith [hf.rel _ hy hy3]
      · have := hf.le_two _ hy0
        rw [abs_le]
        constructor <;> nlinarith
    have h3 : δ * fl a ^ k ≤ 2 * δ * a ^ k := by
      have : fl a ^ k ≤ 2 * a ^ k := hy2.trans (by nlinarith)
      nlinarith
    calc |fl (fl a ^ k) - a ^ k| ≤ |fl (fl a ^ k) - fl a ^ k| + |fl a ^ k - a ^ k| := by
          have := abs_add_le (fl (fl a ^ k) - fl a ^ k) (fl a ^ k - a ^ k)
          rwa [sub_add_sub_cancel] at this
      _ ≤ 21 * δ * a ^ k + 4 * μ := by linarith
  · have hm := not_le.1 hm
    have ht : fl a ≤ 2 * μ := (hf.le_two a ha.le).trans (by linarith)
    have hy : fl a ^ k ≤ 2 * μ := by
      calc fl a ^ k ≤ fl a ^ 1 := pow_le_pow_of_le_one ht0 (by linarith) hk1
        _ ≤ 2 * μ := by rwa [pow_one]
    have hp : fl (fl a ^ k) ≤ 4 * μ := (hf.le_two _ hy0).trans (by linarith)
    have hak' : a ^ k ≤ μ := by
      calc a ^ k ≤ a ^ 1 := pow_le_pow_of_le_one ha.le ha1 hk1
        _ ≤ μ := by rw [pow_one]; exact hm.le
    have : 0 ≤ 21 * δ * a ^ k := by positivity
    rw [abs_le]
    constructor <;> linarith

/-- Rounded powers are monotone. -/
theorem power_mono {a b : ℝ} (ha : 0 ≤ a) (hab : a ≤ b) (hb : b ≤ 1 / 2) {k l : ℕ} (hkl : k ≤ l) :
    fl (fl a ^ l) ≤ fl (fl b ^ k) := by
  have h0 := hn a ha
  have h1 := hf.mono a b ha hab
  have h2 : fl b ≤ 1 := (hf.le_two b (ha.trans hab)).trans (by linarith)
  refine hf.mono _ _ (pow_nonneg h0 _) ?_
  calc fl a ^ l ≤ fl b ^ l := pow_le_pow_left₀ h0 h1 l
    _ ≤ fl b ^ k := pow_le_pow_of_le_one (h0.trans h1) h2 hkl

/-- Ratio of rounded powers; the rounded numbers of the sixth power may be subnormal. -/
theorem power_ratio {a b : ℝ} (ha : 0 < a) (hab : a ≤ b) (hb : b ≤ 1 / 2) {k : ℕ}
    (hk : k = 1 ∨ k = 6) (hne : fl (fl b ^ k) ≠ 0) :
    fl (fl a ^ k) ≤ 16 * (a / b) ^ k * fl (fl b ^ k) := by
  have hμ := μ_pos
  have hb0 : 0 < b := ha.trans_le hab
  have ha0 := hn a ha.le
  have hfb0 := hn b hb0.le
  have hpb : fl b ^ k / 2 ≤ fl (fl b ^ k) :=
    (hf.half_le _ (pow_nonneg hfb0 k)).resolve_left hne
  have hpa : fl (fl a ^ k) ≤ 2 * fl a ^ k := hf.le_two _ (pow_nonneg ha0 k)
  have hfb : fl b ≠ 0 := by
    intro h
    have hk0 : k ≠ 0 := by omega
    rw [h, zero_pow hk0] at hne
    exact hne (hf.flush 0 le_rfl (by positivity))
  have hfb' : b / 2 ≤ fl b := (hf.half_le b hb0.le).resolve_left hfb
  have hpos : 0 ≤ (a / b) ^ k := pow_nonneg (div_nonneg ha.le hb0.le) k
  rcases hk with rfl | rfl
  · have h1 : fl a ≤ 2 * a := hf.le_two a ha.le
    simp only [pow_one] at *
    have h2 : a = a / b * b := by field_simp
    have h3 : fl (fl a) ≤ 4 * (a / b * b) := by rw [← h2]; linarith
    have h4 : b ≤ 4 * fl (fl b) := by linarith
    calc fl (fl a) ≤ 4 * (a / b * b) := h3
      _ ≤ 4 * (a / b * (4 * fl (fl b))) := by gcongr
      _ = 16 * (a / b) * fl (fl b) := by ring
  · by_cases hm : μ ≤ a
    · have hδ1 : δ ≤ 1 / 100 := by unfold unitDouble; norm_num
      have h1 : fl a ≤ (1 + δ) * a := by
        have := (abs_le.1 (hf.rel a hm (by linarith))).2; linarith
      have h2 : (1 - δ) * b ≤ fl b := by
        have := (abs_le.1 (hf.rel b (hm.trans hab) (by linarith))).1; linarith
      have h1' : fl a ≤ 101 / 100 * a := h1.trans (by nlinarith)
      have h2' : 99 / 100 * b ≤ fl b := le_trans (by nlinarith) h2
      have h3 : fl a ^ 6 ≤ (101 / 100 * a) ^ 6 := pow_le_pow_left₀ ha0 h1' 6
      have h4 : (99 / 100 * b) ^ 6 ≤ fl b ^ 6 := pow_le_pow_left₀ (by positivity) h2' 6
      have h5 : (101 / 100 * a) ^ 6 ≤ 2 * ((a / b) ^ 6 * (99 / 100 * b) ^ 6) := by
        have e : (a / b) ^ 6 * (99 / 100 * b) ^ 6 = (99 / 100 : ℝ) ^ 6 * a ^ 6 := by
          rw [div_pow, mul_pow]; field_simp
        rw [e, mul_pow]
        have : 0 ≤ a ^ 6 := by positivity
        nlinarith [show (101 / 100 : ℝ) ^ 6 ≤ 2 * (99 / 100) ^ 6 by norm_num]
      calc fl (fl a ^ 6) ≤ 2 * fl a ^ 6 := hpa
        _ ≤ 2 * (2 * ((a / b) ^ 6 * (99 / 100 * b) ^ 6)) := by linarith
        _ ≤ 2 * (2 * ((a / b) ^ 6 * (2 * fl (fl b ^ 6)))) := by
          have : (99 / 100 * b) ^ 6 ≤ 2 * fl (fl b ^ 6) := by linarith
          gcongr
        _ ≤ 16 * (a / b) ^ 6 * fl (fl b ^ 6) := by
          have : 0 ≤ (a / b) ^ 6 * fl (fl b ^ 6) :=
            mul_nonneg hpos (hn _ (pow_nonneg hfb0 6))
          nlinarith
    · have hm := (not_le.1 hm).le
      have h1 : fl a ≤ 2 * μ := (hf.le_two a ha.le).trans (by linarith)
      have h2 : fl a ^ 6 ≤ 1 / 2 ^ 1075 := by
        exact (pow_le_pow_left₀ ha0 h1 6).trans two_μ_pow
      rw [hf.flush _ (pow_nonneg ha0 6) h2]
      exact mul_nonneg (mul_nonneg (by norm_num) hpos) (hn _ (pow_nonneg hfb0 6))

omit hf hn in
/-- Normalised numbers change little if the numbers change little. -/
theorem ratio_close {E F : ℕ → ℝ} {M : ℕ} {α β γ : ℝ} (hE : ∀ s < M, 0 ≤ E s)
    (hα : 0 ≤ α) (hγ : 0 ≤ γ) (hβ : 0 ≤ β) (hη : α + γ ≤ 1 / 100)
    (hS : 0 < ∑ s ∈ Finset.range M, E s)
    (hc : ∀ s < M, |F s - E s| ≤ α * E s + β) (hb : M * β ≤ γ * ∑ s ∈ Finset.range M, E s)
    (hF : ∀ s < M, 0 ≤ F s) :
    0 < ∑ s ∈ Finset.range M, F s ∧ ∀ r < M,
      |F r / ∑ s ∈ Finset.range M, F s - E r / ∑ s ∈ Finset.range M, E s| ≤ 21 / 10 * (α + γ) := by
  obtain ⟨S, hSe⟩ : ∃ S, S = ∑ s ∈ Finset.range M, E s := ⟨_, rfl⟩
  obtain ⟨R, hRe⟩ : ∃ R, R = ∑ s ∈ Finset.range M, F s := ⟨_, rfl⟩
  rw [← hSe] at hS hb ⊢
  rw [← hRe]
  have h1 : |R - S| ≤ (α + γ) * S := by
    rw [hRe, hSe, ← Finset.sum_sub_distrib]
    calc |∑ s ∈ Finset.range M, (F s - E s)| ≤ ∑ s ∈ Finset.range M, |F s - E s| :=
          Finset.abs_sum_le_sum_abs _ _
      _ ≤ ∑ s ∈ Finset.range M, (α * E s + β) :=
        Finset.sum_le_sum fun s hs => hc s (Finset.mem_range.1 hs)
      _ = α * S + M * β := by
        rw [Finset.sum_add_distrib, ← Finset.mul_sum, hSe]; simp
      _ ≤ (α + γ) * ∑ s ∈ Finset.range M, E s := by rw [← hSe]; linarith
  have h2 : 99 / 100 * S ≤ R := by
    have := (abs_le.1 h1).1
    nlinarith
  have hR : 0 < R := by linarith
  refine ⟨hR, fun r hr => ?_⟩
  have hEr : E r ≤ S := by
    rw [hSe]
    exact Finset.single_le_sum (fun s hs => hE s (Finset.mem_range.1 hs)) (Finset.mem_range.2 hr)
  have h3 : |F r - E r| ≤ (α + γ) * S := by
    refine (hc r hr).trans ?_
    have hM : (1 : ℝ) ≤ M := by exact_mod_cast (show 1 ≤ M by omega)
    have : β ≤ M * β := by nlinarith
    have : α * E r ≤ α * S := by gcongr
    linarith
  have e : F r / R - E r / S = ((F r - E r) * S - E r * (R - S)) / (R * S) := by
    field_simp; ring
  rw [e, abs_div, abs_of_pos (mul_pos hR hS), div_le_iff₀ (mul_pos hR hS)]
  have h4 : |(F r - E r) * S - E r * (R - S)| ≤ 2 * ((α + γ) * S * S) := by
    refine (abs_sub _ _).trans ?_
    rw [abs_mul, abs_mul, abs_of_pos hS, abs_of_nonneg (hE r hr)]
    have a1 : |F r - E r| * S ≤ (α + γ) * S * S := by gcongr
    have a2 : E r * |R - S| ≤ S * ((α + γ) * S) :=
      mul_le_mul hEr h1 (abs_nonneg _) hS.le
    linarith
  refine h4.trans ?_
  have : 0 ≤ (α + γ) * S := by positivity
  nlinarith

omit hf hn in
/-- Normalised numbers one of which dominates. -/
theorem ratio_top {X : ℕ → ℝ} {t : ℕ} {ρ : ℝ} (ht : t < 7) (hX : ∀ s < 7, 0 ≤ X s)
    (hp : 0 < X t) (hρ : 0 ≤ ρ) (h : ∀ s < 7, s ≠ t → X s ≤ ρ * X t) :
    0 < ∑ s ∈ Finset.range 7, X s ∧ ∀ r < 7,
      |X r / ∑ s ∈ Finset.range 7, X s - if r = t then 1 else 0| ≤ 6 * ρ := by
  obtain ⟨S, hSe⟩ : ∃ S, S = ∑ s ∈ Finset.range 7, X s := ⟨_, rfl⟩
  have htS : X t ≤ S := by
    rw [hSe]
    exact Finset.single_le_sum (fun s hs => hX s (Finset.mem_range.1 hs)) (Finset.mem_range.2 ht)
  have hS : 0 < S := hp.trans_le htS
  rw [← hSe]
  refine ⟨hS, fun r hr => ?_⟩
  split_ifs with hrt
  · subst hrt
    have h1 : S - X r ≤ 6 * ρ * X r := by
      rw [hSe, ← Finset.sum_erase_add _ _ (Finset.mem_range.2 hr), add_sub_cancel_right]
      calc ∑ s ∈ (Finset.range 7).erase r, X s ≤ ∑ s ∈ (Finset.range 7).erase r, ρ * X r :=
            Finset.sum_le_sum fun s hs => h s (Finset.mem_range.1 (Finset.mem_of_mem_erase hs))
              (Finset.ne_of_mem_erase hs)
        _ = 6 * ρ * X r := by
          rw [Finset.sum_const, Finset.card_erase_of_mem (Finset.mem_range.2 hr)]; simp; ring
    rw [show X r / S - 1 = -((S - X r) / S) by field_simp; ring, abs_neg,
      abs_of_nonneg (div_nonneg (by linarith) hS.le), div_le_iff₀ hS]
    have : 6 * ρ * X r ≤ 6 * ρ * S := by gcongr
    linarith
  · rw [sub_zero, abs_of_nonneg (div_nonneg (hX r hr) hS.le), div_le_iff₀ hS]
    have h1 := h r hr hrt
    have : ρ * X t ≤ ρ * S := by gcongr
    have : 0 ≤ ρ * S := by positivity
    linarith

/-- Rounded Gaussian sum: `N` (1 or 3) powers of `a` with exponents `k`, `2 k`, `3 k`. -/
noncomputable def gsum (fl : ℝ → ℝ) (k N : ℕ) (a : ℝ) : ℝ :=
  ∑ i ∈ Finset.range N, fl (fl a ^ (k * (i + 1)))

omit hf hn in
/-- Exact Gaussian sum. -/
theorem gsum_id (k N : ℕ) (a : ℝ) : gsum id k N a = ∑ i ∈ Finset.range N, a ^ (k * (i + 1)) := rfl

omit hf in
theorem gsum_nonneg {k N : ℕ} {a : ℝ} (ha : 0 ≤ a) : 0 ≤ gsum fl k N a :=
  Finset.sum_nonneg fun _ _ => hn _ (pow_nonneg (hn a ha) _)

theorem gsum_close {k N : ℕ} {a : ℝ} (hk : k = 1 ∨ k = 6) (hN : N ≤ 3) (ha : 0 < a) (ha1 : a ≤ 1) :
    |gsum fl k N a - gsum id k N a| ≤ 21 * δ * gsum id k N a + 12 * μ := by
  rw [gsum_id]
  unfold gsum
  rw [← Finset.sum_sub_distrib]
  calc |∑ i ∈ Finset.range N, (fl (fl a ^ (k * (i + 1))) - a ^ (k * (i + 1)))|
      ≤ ∑ i ∈ Finset.range N, |fl (fl a ^ (k * (i + 1))) - a ^ (k * (i + 1))| :=
        Finset.abs_sum_le_sum_abs _ _
    _ ≤ ∑ i ∈ Finset.range N, (21 * δ * a ^ (k * (i + 1)) + 4 * μ) := by
        refine Finset.sum_le_sum fun i hi => ?_
        have hi := Finset.mem_range.1 hi
        refine power_error hf hn ha ha1 ?_ ?_
        · rcases hk with rfl | rfl <;> omega
        · rcases hk with rfl | rfl <;> omega
    _ = 21 * δ * ∑ i ∈ Finset.range N, a ^ (k * (i + 1)) + N * (4 * μ) := by
        rw [Finset.sum_add_distrib, Finset.mul_sum]; simp
    _ ≤ 21 * δ * ∑ i ∈ Finset.range N, a ^ (k * (i + 1)) + 12 * μ := by
        have : (N : ℝ) ≤ 3 := by exact_mod_cast hN
        have := μ_pos
        nlinarith

/-- Some Gaussian does not underflow. -/
theorem weight_close {k : ℕ} {N : ℕ → ℕ} {a : ℕ → ℝ} (hk : k = 1 ∨ k = 6) (hN : ∀ s < 7, N s ≤ 3)
    (ha : ∀ s < 7, 0 < a s) (ha1 : ∀ s < 7, a s ≤ 1)
    (hbig : ∃ s < 7, N s ≠ 0 ∧ Real.exp (-660) ≤ a s ^ k) :
    0 < ∑ s ∈ Finset.range 7, gsum fl k (N s) (a s) ∧ ∀ r < 7,
      |gsum fl k (N r) (a r) / ∑ s ∈ Finset.range 7, gsum fl k (N s) (a s) -
        gsum id k (N r) (a r) / ∑ s ∈ Finset.range 7, gsum id k (N s) (a s)| ≤ 50 * δ := by
  have hE : ∀ s < 7, 0 ≤ gsum id k (N s) (a s) := fun s hs =>
    gsum_nonneg (fun x hx => hx) (ha s hs).le
  obtain ⟨s0, hs0, hN0, hb0⟩ := hbig
  have hS : Real.exp (-660) ≤ ∑ s ∈ Finset.range 7, gsum id k (N s) (a s) := by
    calc Real.exp (-660) ≤ a s0 ^ k := hb0
      _ ≤ gsum id k (N s0) (a s0) := by
        rw [gsum_id]
        have := Finset.single_le_sum (f := fun i => a s0 ^ (k * (i + 1)))
          (fun i _ => (pow_pos (ha s0 hs0) _).le)
          (Finset.mem_range.2 (Nat.pos_of_ne_zero hN0))
        simpa using this
      _ ≤ _ := Finset.single_le_sum (f := fun s => gsum id k (N s) (a s))
          (fun s hs => hE s (Finset.mem_range.1 hs)) (Finset.mem_range.2 hs0)
  have hμS : 84 * μ ≤ δ * ∑ s ∈ Finset.range 7, gsum id k (N s) (a s) := by
    have h1 : μ ≤ Real.exp (-48) * Real.exp (-660) := by
      rw [← Real.exp_add]; norm_num; exact μ_le
    have h2 : 84 * Real.exp (-48) ≤ δ := by
      have h3 : (2 : ℝ) ^ 60 ≤ Real.exp 48 := by
        have := Real.log_two_lt_d9
        calc (2 : ℝ) ^ 60 = Real.exp (60 * Real.log 2) := by
              rw [show (60 : ℝ) = ((60 : ℕ) : ℝ) by norm_num, Real.exp_nat_mul,
                Real.exp_log (by norm_num)]
          _ ≤ Real.exp 48 := Real.exp_le_exp.2 (by linarith)
      rw [Real.exp_neg, ← div_eq_mul_inv, div_le_iff₀ (Real.exp_pos _)]
      unfold unitDouble
      have : 1 / 2 ^ 53 * (2 : ℝ) ^ 60 ≤ 1 / 2 ^ 53 * Real.exp 48 := by gcongr
      refine le_trans ?_ this
      norm_num
    calc 84 * μ ≤ 84 * (Real.exp (-48) * Real.exp (-660)) := by gcongr
      _ = 84 * Real.exp (-48) * Real.exp (-660) := by ring
      _ ≤ δ * ∑ s ∈ Finset.range 7, gsum id k (N s) (a s) :=
        mul_le_mul h2 hS (Real.exp_pos _).le δ_pos.le
  have hδ := δ_pos
  have hμ := μ_pos
  obtain ⟨h1, h2⟩ := ratio_close (M := 7) (α := 21 * δ) (β := 12 * μ) (γ := δ)
    (F := fun s => gsum fl k (N s) (a s)) hE (by positivity) hδ.le (by positivity)
    (by unfold unitDouble; norm_num) ((Real.exp_pos _).trans_le hS)
    (fun s hs => gsum_close hf hn hk (hN s hs) (ha s hs) (ha1 s hs))
    (by push_cast; linarith) (fun s hs => gsum_nonneg hn (ha s hs).le)
  exact ⟨h1, fun r hr => (h2 r hr).trans (by linarith)⟩

/-- One Gaussian dominates and all may underflow. -/
theorem weight_top {k : ℕ} {N : ℕ → ℕ} {a : ℕ → ℝ} {t : ℕ} {ρ : ℝ} (hk : k = 1 ∨ k = 6)
    (hN : ∀ s < 7, N s ≤ 3) (ht : t < 7) (hNt : N t ≠ 0) (ha : ∀ s < 7, 0 < a s)
    (ha1 : a t ≤ 1 / 2)
    (hle : ∀ s < 7, N s ≠ 0 → s ≠ t → a s ≤ a t ∧ (a s / a t) ^ k ≤ ρ) (hρ : 0 ≤ ρ) :
    ((∀ s < 7, gsum fl k (N s) (a s) = 0) ∨
      0 < ∑ s ∈ Finset.range 7, gsum fl k (N s) (a s) ∧ ∀ r < 7,
        |gsum fl k (N r) (a r) / ∑ s ∈ Finset.range 7, gsum fl k (N s) (a s) -
          if r = t then 1 else 0| ≤ 288 * ρ) ∧
    ∀ r < 7, |gsum id k (N r) (a r) / ∑ s ∈ Finset.range 7, gsum id k (N s) (a s) -
      if r = t then 1 else 0| ≤ 18 * ρ := by
  have hk0 : 1 ≤ k := by rcases hk with rfl | rfl <;> norm_num
  have hpt : ∀ l : ℕ, 0 ≤ fl (fl (a t) ^ l) := fun l => hn _ (pow_nonneg (hn _ (ha t ht).le) _)
  have hbound : ∀ s < 7, a s ≤ a t → gsum fl k (N s) (a s) ≤ 3 * fl (fl (a s) ^ k) := by
    intro s hs hst
    unfold gsum
    calc ∑ i ∈ Finset.range (N s), fl (fl (a s) ^ (k * (i + 1)))
        ≤ ∑ i ∈ Finset.range (N s), fl (fl (a s) ^ k) := by
          refine Finset.sum_le_sum fun i _ => power_mono hf hn (ha s hs).le le_rfl (by linarith) ?_
          nlinarith
      _ = N s * fl (fl (a s) ^ k) := by simp
      _ ≤ 3 * fl (fl (a s) ^ k) := by
        have : (N s : ℝ) ≤ 3 := by exact_mod_cast hN s hs
        have := hn _ (pow_nonneg (hn _ (ha s hs).le) k)
        gcongr
  have hzeroN : ∀ (g : ℝ → ℝ) s, N s = 0 → gsum g k (N s) (a s) = 0 := by
    intro g s h; rw [h]; simp [gsum]
  constructor
  · by_cases h0 : fl (fl (a t) ^ k) = 0
    · refine Or.inl fun s hs => ?_
      have key : a s ≤ a t → gsum fl k (N s) (a s) = 0 := by
        intro hst
        have h1 := hbound s hs hst
        have h2 : fl (fl (a s) ^ k) ≤ fl (fl (a t) ^ k) :=
          power_mono hf hn (ha s hs).le hst ha1 le_rfl
        exact le_antisymm (by linarith) (gsum_nonneg hn (ha s hs).le)
      by_cases hs0 : N s = 0
      · exact hzeroN _ _ hs0
      · by_cases hst : s = t
        · exact key (by rw [hst])
        · exact key (hle s hs hs0 hst).1
    · right
      have htop : fl (fl (a t) ^ k) ≤ gsum fl k (N t) (a t) := by
        have := Finset.single_le_sum (f := fun i => fl (fl (a t) ^ (k * (i + 1))))
          (fun i _ => hpt _) (Finset.mem_range.2 (Nat.pos_of_ne_zero hNt))
        simpa [gsum] using this
      have hpos : 0 < fl (fl (a t) ^ k) := lt_of_le_of_ne (hpt k) (Ne.symm h0)
      obtain ⟨h1, h2⟩ := ratio_top (X := fun s => gsum fl k (N s) (a s)) (ρ := 48 * ρ) ht
        (fun s hs => gsum_nonneg hn (ha s hs).le) (hpos.trans_le htop) (by positivity)
        (fun s hs hst => by
          by_cases hs0 : N s = 0
          · simp only [hzeroN _ _ hs0]
            have := hpos.le.trans htop
            positivity
          · obtain ⟨h3, h4⟩ := hle s hs hs0 hst
            calc gsum fl k (N s) (a s) ≤ 3 * fl (fl (a s) ^ k) := hbound s hs h3
              _ ≤ 3 * (16 * (a s / a t) ^ k * fl (fl (a t) ^ k)) := by
                have := power_ratio hf hn (ha s hs) h3 ha1 hk h0
                linarith
              _ ≤ 3 * (16 * ρ * fl (fl (a t) ^ k)) := by gcongr
              _ ≤ 48 * ρ * gsum fl k (N t) (a t) := by
                have : ρ * fl (fl (a t) ^ k) ≤ ρ * gsum fl k (N t) (a t) := by gcongr
                linarith)
      exact ⟨h1, fun r hr => (h2 r hr).trans (by linarith)⟩
  · have hidb : ∀ s < 7, a s ≤ 1 → gsum id k (N s) (a s) ≤ 3 * a s ^ k := by
      intro s hs hs1
      rw [gsum_id]
      calc ∑ i ∈ Finset.range (N s), a s ^ (k * (i + 1)) ≤ ∑ i ∈ Finset.range (N s), a s ^ k := by
            refine Finset.sum_le_sum fun i _ => pow_le_pow_of_le_one (ha s hs).le hs1 ?_
            nlinarith
        _ = N s * a s ^ k := by simp
        _ ≤ 3 * a s ^ k := by
          have : (N s : ℝ) ≤ 3 := by exact_mod_cast hN s hs
          have := pow_pos (ha s hs) k
          gcongr
    have htop : a t ^ k ≤ gsum id k (N t) (a t) := by
      rw [gsum_id]
      have := Finset.single_le_sum (f := fun i => a t ^ (k * (i + 1)))
        (fun i _ => (pow_pos (ha t ht) _).le) (Finset.mem_range.2 (Nat.pos_of_ne_zero hNt))
      simpa using this
    have hpos := pow_pos (ha t ht) k
    obtain ⟨_, h2⟩ := ratio_top (X := fun s => gsum id k (N s) (a s)) (ρ := 3 * ρ) ht
      (fun s hs => gsum_nonneg (fun x hx => hx) (ha s hs).le) (hpos.trans_le htop) (by positivity)
      (fun s hs hst => by
        by_cases hs0 : N s = 0
        · simp only [hzeroN _ _ hs0]
          have := hpos.le.trans htop
          positivity
        · obtain ⟨h3, h4⟩ := hle s hs hs0 hst
          calc gsum id k (N s) (a s) ≤ 3 * a s ^ k := hidb s hs (by linarith)
            _ = 3 * ((a s / a t) ^ k * a t ^ k) := by
              rw [div_pow, div_mul_cancel₀ _ hpos.ne']
            _ ≤ 3 * (ρ * gsum id k (N t) (a t)) := by gcongr
            _ = 3 * ρ * gsum id k (N t) (a t) := by ring)
    exact fun r hr => (h2 r hr).trans (by linarith)

end Underflow

end TadDftd4
