import Verif.Props.C13
import Verif.Props.C52

/-!
# C59: damping acts at short range only

If all distances are at least `L` times the critical radii `R0 = a1 √(3 Q_i Q_j) + a2`, the two-body energy
is the undamped London energy up to a relative error `L⁻⁶`, and the three-body energy is the undamped
Axilrod-Teller-Muto energy up to `6 L^(-alp)` times the sum of the absolute values of its terms. For two
atoms the energy approaches `-s6 C6 / R⁶` (`C59_dimer`).
-/

set_option linter.unusedSimpArgs false

open scoped Classical

namespace TadDftd4

open Tensor

namespace Spec
variable {n : ℕ} (S : Settings) (P : D4Par) (M : Mol n)

/-- Undamped two-body energy of an atom within the cutoff. -/
noncomputable def london (i : Fin n) : ℝ :=
  -(1 / 2) * ∑ j, if M.Z i ≠ 0 ∧ M.Z j ≠ 0 ∧ i ≠ j ∧ M.r S.ε i j ≤ S.cut2 then
    let C6 := S.c6 (M.atom i) (M.atom j)
    let q := 3 * M.Q i * M.Q j
    let r := M.r S.ε i j
    S.s6 * C6 / r ^ 6 + S.s8 * (q * C6) / r ^ 8 + S.s10 * (49 / 40 * q ^ 2 * C6) / r ^ 10
  else 0

/-- Undamped Axilrod-Teller-Muto term. -/
noncomputable def axilrod (i j k : Fin n) : ℝ :=
  let x := M.r S.ε i j
  let y := M.r S.ε i k
  let z := M.r S.ε j k
  S.s9 * c9 S M.neutral i j k * (3 * cosSides x y z * cosSides x z y * cosSides y z x + 1) / (x * y * z) ^ 3

/-- Undamped three-body energy of an atom within the cutoff. -/
noncomputable def undamped3 (i : Fin n) : ℝ :=
  (1 / 6) * ∑ j, ∑ k, if M.Z i ≠ 0 ∧ M.Z j ≠ 0 ∧ M.Z k ≠ 0 ∧ i ≠ j ∧ i ≠ k ∧ j ≠ k ∧
    withinCut3 S M i j k then axilrod S M i j k else 0

/-- The same with the absolute values of the terms. -/
noncomputable def undampedAbs3 (i : Fin n) : ℝ :=
  (1 / 6) * ∑ j, ∑ k, if M.Z i ≠ 0 ∧ M.Z j ≠ 0 ∧ M.Z k ≠ 0 ∧ i ≠ j ∧ i ≠ k ∧ j ≠ k ∧
    withinCut3 S M i j k then |axilrod S M i j k| else 0

/-- Parameters that are not negative. -/
structure D4Par.Nonneg : Prop where
  s6 : 0 ≤ P.s6
  s8 : 0 ≤ P.s8
  s10 : 0 ≤ P.s10
  s9 : 0 ≤ P.s9
  a1 : 0 ≤ P.a1
  a2 : 0 ≤ P.a2
  alp : 0 ≤ P.alp

/-- All distances are at least `L` times the critical radius of the pair. -/
def Beyond (ε L : ℝ) : Prop :=
  ∀ i j, M.Z i ≠ 0 → M.Z j ≠ 0 → i ≠ j → L * (P.a1 * rsqrt ε (3 * M.Q i * M.Q j) + P.a2) ≤ M.r ε i j

end Spec

/-! ## Damping functions -/

theorem bj_nonneg {r R : ℝ} {m : ℕ} (hr : 0 < r) (hR : 0 ≤ R) :
    0 ≤ 1 / r ^ m - 1 / (r ^ m + R ^ m) := by
  have hrm : 0 < r ^ m := by positivity
  have hRm : 0 ≤ R ^ m := by positivity
  rw [sub_nonneg]
  exact one_div_le_one_div_of_le hrm (by linarith)

/-- `|1/(r^m + R^m) - 1/r^m| ≤ L⁻ᵏ / r^m` -/
theorem bj_error {r R L : ℝ} {k m : ℕ} (hr : 0 < r) (hR : 0 ≤ R) (hL : 1 ≤ L) (h : L * R ≤ r) (hk : k ≤ m) :
    1 / r ^ m - 1 / (r ^ m + R ^ m) ≤ 1 / L ^ k * (1 / r ^ m) := by
  have hrm : 0 < r ^ m := by positivity
  have hRm : 0 ≤ R ^ m := by positivity
  have hL0 : 0 < L := by linarith
  · have h1 : L ^ k * R ^ m ≤ r ^ m := by
      calc L ^ k * R ^ m ≤ L ^ m * R ^ m := by gcongr
        _ = (L * R) ^ m := (mul_pow _ _ _).symm
        _ ≤ r ^ m := pow_le_pow_left₀ (by positivity) h m
    have e : 1 / r ^ m - 1 / (r ^ m + R ^ m) = R ^ m / (r ^ m + R ^ m) * (1 / r ^ m) := by
      field_simp; ring
    rw [e]
    refine mul_le_mul_of_nonneg_right ?_ (by positivity)
    rw [div_le_div_iff₀ (by positivity) (by positivity)]
    nlinarith [pow_pos hL0 k]

/-- `0 ≤ 1 - 1/(1 + 6 (R/r)^(a/3)) ≤ 6 L^(-a)` -/
theorem zero_error {r R L a : ℝ} (hr : 0 < r) (hR : 0 ≤ R) (hL : 0 < L) (ha : 0 ≤ a)
    (h : L ^ 3 * R ≤ r) :
    0 ≤ 1 - 1 / (1 + 6 * (R / r) ^ (a / 3)) ∧ 1 - 1 / (1 + 6 * (R / r) ^ (a / 3)) ≤ 6 * L ^ (-a) := by
  have hx : 0 ≤ (R / r) ^ (a / 3) := Real.rpow_nonneg (by positivity) _
  have h1 : R / r ≤ L ^ (-3 : ℝ) := by
    rw [Real.rpow_neg hL.le, show (3 : ℝ) = ((3 : ℕ) : ℝ) by norm_num, Real.rpow_natCast,
      div_le_iff₀ hr, inv_mul_eq_div, le_div_iff₀ (by positivity)]
    linarith
  have h2 : (R / r) ^ (a / 3) ≤ L ^ (-a) := by
    calc (R / r) ^ (a / 3) ≤ (L ^ (-3 : ℝ)) ^ (a / 3) :=
          Real.rpow_le_rpow (by positivity) h1 (by positivity)
      _ = L ^ (-a) := by rw [← Real.rpow_mul hL.le]; congr 1; ring
  have e : 1 - 1 / (1 + 6 * (R / r) ^ (a / 3)) =
      6 * (R / r) ^ (a / 3) / (1 + 6 * (R / r) ^ (a / 3)) := by
    field_simp; ring
  rw [e]
  refine ⟨by positivity, ?_⟩
  rw [div_le_iff₀ (by positivity)]
  have : 0 ≤ 6 * L ^ (-a) * (6 * (R / r) ^ (a / 3)) := by
    have := Real.rpow_nonneg hL.le (-a)
    positivity
  nlinarith

theorem dimer_bound {r ρ C6 q s6 s8 s10 : ℝ} (hr0 : 0 < r) (hR : 0 ≤ ρ) (hC : 0 ≤ C6) (hq : 0 ≤ q)
    (h6 : 0 ≤ s6) (h8 : 0 ≤ s8) (h10 : 0 ≤ s10) :
    |-(s6 * (C6 * (1 / (r ^ 6 + ρ ^ 6))) + s8 * (C6 * q * (1 / (r ^ 8 + ρ ^ 8))) +
      s10 * (C6 * q ^ 2 * 49 / 40 * (1 / (r ^ 10 + ρ ^ 10)))) * r ^ 6 + s6 * C6| ≤
      C6 * (s6 * ρ ^ 6 / r ^ 6 + s8 * q / r ^ 2 + s10 * (49 / 40 * q ^ 2) / r ^ 4) := by
  have f6 : 0 ≤ 1 - r ^ 6 * (1 / (r ^ 6 + ρ ^ 6)) ∧ 1 - r ^ 6 * (1 / (r ^ 6 + ρ ^ 6)) ≤ ρ ^ 6 / r ^ 6 := by
    have e : 1 - r ^ 6 * (1 / (r ^ 6 + ρ ^ 6)) = ρ ^ 6 / (r ^ 6 + ρ ^ 6) := by field_simp; ring
    rw [e]
    refine ⟨by positivity, ?_⟩
    exact div_le_div_of_nonneg_left (by positivity) (by positivity) (by linarith [pow_nonneg hR 6])
  have f8 : 0 ≤ r ^ 6 * (1 / (r ^ 8 + ρ ^ 8)) ∧ r ^ 6 * (1 / (r ^ 8 + ρ ^ 8)) ≤ 1 / r ^ 2 := by
    refine ⟨by positivity, ?_⟩
    rw [mul_one_div, div_le_div_iff₀ (by positivity) (by positivity)]
    nlinarith [pow_nonneg hR 8]
  have f10 : 0 ≤ r ^ 6 * (1 / (r ^ 10 + ρ ^ 10)) ∧ r ^ 6 * (1 / (r ^ 10 + ρ ^ 10)) ≤ 1 / r ^ 4 := by
    refine ⟨by positivity, ?_⟩
    rw [mul_one_div, div_le_div_iff₀ (by positivity) (by positivity)]
    nlinarith [pow_nonneg hR 10]
  have k6 := mul_nonneg h6 hC
  have k8 := mul_nonneg h8 (mul_nonneg hC hq)
  have k10 := mul_nonneg h10 (mul_nonneg hC (by positivity : (0 : ℝ) ≤ 49 / 40 * q ^ 2))
  have u6 := mul_le_mul_of_nonneg_left f6.2 k6
  have u8 := mul_le_mul_of_nonneg_left f8.2 k8
  have u10 := mul_le_mul_of_nonneg_left f10.2 k10
  have v6 := mul_nonneg k6 f6.1
  have v8 := mul_nonneg k8 f8.1
  have v10 := mul_nonneg k10 f10.1
  have w6 := mul_nonneg k6 (by positivity : 0 ≤ ρ ^ 6 / r ^ 6)
  have w8 := mul_nonneg k8 (by positivity : 0 ≤ 1 / r ^ 2)
  have w10 := mul_nonneg k10 (by positivity : 0 ≤ 1 / r ^ 4)
  have er : C6 * (s6 * ρ ^ 6 / r ^ 6 + s8 * q / r ^ 2 + s10 * (49 / 40 * q ^ 2) / r ^ 4) =
      s6 * C6 * (ρ ^ 6 / r ^ 6) + s8 * (C6 * q) * (1 / r ^ 2) +
        s10 * (C6 * (49 / 40 * q ^ 2)) * (1 / r ^ 4) := by ring
  have el : -(s6 * (C6 * (1 / (r ^ 6 + ρ ^ 6))) + s8 * (C6 * q * (1 / (r ^ 8 + ρ ^ 8))) +
      s10 * (C6 * q ^ 2 * 49 / 40 * (1 / (r ^ 10 + ρ ^ 10)))) * r ^ 6 + s6 * C6 =
      s6 * C6 * (1 - r ^ 6 * (1 / (r ^ 6 + ρ ^ 6))) - s8 * (C6 * q) * (r ^ 6 * (1 / (r ^ 8 + ρ ^ 8))) -
        s10 * (C6 * (49 / 40 * q ^ 2)) * (r ^ 6 * (1 / (r ^ 10 + ρ ^ 10))) := by ring
  rw [er, el, abs_le]
  constructor <;> linarith

section
variable {env : Env} {T : Tables} {R : RefCfg} {P : Spec.D4Par} {c : Cutoff} {n : ℕ} {M : Spec.Mol n} {L : ℝ}

theorem c9_nonneg' {S : Spec.Settings} (A : Fin n → Spec.AtomData) (i j k : Fin n) : 0 ≤ Spec.c9 S A i j k :=
  Real.sqrt_nonneg _

/-- Two-body energies beyond the range of damping. -/
theorem e2_undamped (hP : P.Nonneg) (hQ : ∀ i, 0 ≤ M.Q i) (i : Fin n) :
    0 ≤ Spec.e2 (d4Computed env T R P c) M M.atom i - Spec.london (d4Computed env T R P c) M i ∧
    (1 ≤ L → Spec.Beyond P M env.eps L →
    Spec.e2 (d4Computed env T R P c) M M.atom i - Spec.london (d4Computed env T R P c) M i ≤
      1 / L ^ 6 * -Spec.london (d4Computed env T R P c) M i) := by
  have key : ∀ j : Fin n, M.Z i ≠ 0 → M.Z j ≠ 0 → i ≠ j →
      0 ≤ (P.s6 * c6At env T R (M.atom i) (M.atom j) / M.r env.eps i j ^ 6 +
        P.s8 * (3 * M.Q i * M.Q j * c6At env T R (M.atom i) (M.atom j)) / M.r env.eps i j ^ 8 +
        P.s10 * (49 / 40 * (3 * M.Q i * M.Q j) ^ 2 * c6At env T R (M.atom i) (M.atom j)) /
          M.r env.eps i j ^ 10) -
        Spec.pairTerm (d4Computed env T R P c) M M.atom i j ∧ (1 ≤ L → Spec.Beyond P M env.eps L →
      (P.s6 * c6At env T R (M.atom i) (M.atom j) / M.r env.eps i j ^ 6 +
        P.s8 * (3 * M.Q i * M.Q j * c6At env T R (M.atom i) (M.atom j)) / M.r env.eps i j ^ 8 +
        P.s10 * (49 / 40 * (3 * M.Q i * M.Q j) ^ 2 * c6At env T R (M.atom i) (M.atom j)) /
          M.r env.eps i j ^ 10) -
        Spec.pairTerm (d4Computed env T R P c) M M.atom i j ≤
      1 / L ^ 6 * (P.s6 * c6At env T R (M.atom i) (M.atom j) / M.r env.eps i j ^ 6 +
        P.s8 * (3 * M.Q i * M.Q j * c6At env T R (M.atom i) (M.atom j)) / M.r env.eps i j ^ 8 +
        P.s10 * (49 / 40 * (3 * M.Q i * M.Q j) ^ 2 * c6At env T R (M.atom i) (M.atom j)) /
          M.r env.eps i j ^ 10)) := by
    intro j hi hj hij
    have hC := c6At_nonneg (env := env) (T := T) (R := R) (M.atom i) (M.atom j)
    have hr := Spec.Mol.r_pos env.eps_pos M i j
    have hQi := hQ i
    have hQj := hQ j
    have hR : 0 ≤ P.a1 * √(3 * M.Q i * M.Q j) + P.a2 :=
      add_nonneg (mul_nonneg hP.a1 (Real.sqrt_nonneg _)) hP.a2
    have hb : 1 ≤ L → Spec.Beyond P M env.eps L →
        L * (P.a1 * √(3 * M.Q i * M.Q j) + P.a2) ≤ M.r env.eps i j := by
      intro hL hB
      refine le_trans ?_ (hB i j hi hj hij)
      refine mul_le_mul_of_nonneg_left ?_ (by linarith)
      refine add_le_add_left (mul_le_mul_of_nonneg_left ?_ hP.a1) _
      exact Real.sqrt_le_sqrt (le_max_left _ _)
    have e : Spec.pairTerm (d4Computed env T R P c) M M.atom i j =
        P.s6 * (c6At env T R (M.atom i) (M.atom j) * (1 / (M.r env.eps i j ^ 6 +
          (P.a1 * √(3 * M.Q i * M.Q j) + P.a2) ^ 6))) +
        P.s8 * (c6At env T R (M.atom i) (M.atom j) * (3 * M.Q i * M.Q j) * (1 / (M.r env.eps i j ^ 8 +
          (P.a1 * √(3 * M.Q i * M.Q j) + P.a2) ^ 8))) +
        P.s10 * (c6At env T R (M.atom i) (M.atom j) * (3 * M.Q i * M.Q j) ^ 2 * 49 / 40 *
          (1 / (M.r env.eps i j ^ 10 + (P.a1 * √(3 * M.Q i * M.Q j) + P.a2) ^ 10))) := rfl
    rw [e]
    have l6 := bj_nonneg (m := 6) hr hR
    have u6 := fun hL hB => bj_error (k := 6) (m := 6) hr hR hL (hb hL hB) (by norm_num)
    have l8 := bj_nonneg (m := 8) hr hR
    have u8 := fun hL hB => bj_error (k := 6) (m := 8) hr hR hL (hb hL hB) (by norm_num)
    have l10 := bj_nonneg (m := 10) hr hR
    have u10 := fun hL hB => bj_error (k := 6) (m := 10) hr hR hL (hb hL hB) (by norm_num)
    generalize 1 / (M.r env.eps i j ^ 6 + (P.a1 * √(3 * M.Q i * M.Q j) + P.a2) ^ 6) = f6 at *
    generalize 1 / (M.r env.eps i j ^ 8 + (P.a1 * √(3 * M.Q i * M.Q j) + P.a2) ^ 8) = f8 at *
    generalize 1 / (M.r env.eps i j ^ 10 + (P.a1 * √(3 * M.Q i * M.Q j) + P.a2) ^ 10) = f10 at *
    have k6 : 0 ≤ P.s6 * c6At env T R (M.atom i) (M.atom j) := mul_nonneg hP.s6 hC
    have k8 : 0 ≤ P.s8 * (3 * M.Q i * M.Q j * c6At env T R (M.atom i) (M.atom j)) :=
      mul_nonneg hP.s8 (by positivity)
    have k10 : 0 ≤ P.s10 * (49 / 40 * (3 * M.Q i * M.Q j) ^ 2 * c6At env T R (M.atom i) (M.atom j)) :=
      mul_nonneg hP.s10 (by positivity)
    have a6 := mul_nonneg k6 l6
    have a8 := mul_nonneg k8 l8
    have a10 := mul_nonneg k10 l10
    have b6 := fun hL hB => mul_le_mul_of_nonneg_left (u6 hL hB) k6
    have b8 := fun hL hB => mul_le_mul_of_nonneg_left (u8 hL hB) k8
    have b10 := fun hL hB => mul_le_mul_of_nonneg_left (u10 hL hB) k10
    simp only [div_eq_mul_one_div (P.s6 * c6At env T R (M.atom i) (M.atom j)),
      div_eq_mul_one_div (P.s8 * (3 * M.Q i * M.Q j * c6At env T R (M.atom i) (M.atom j))),
      div_eq_mul_one_div
        (P.s10 * (49 / 40 * (3 * M.Q i * M.Q j) ^ 2 * c6At env T R (M.atom i) (M.atom j)))]
    constructor
    · linarith
    · intro hL hB
      linarith [b6 hL hB, b8 hL hB, b10 hL hB]
  have hdiff : Spec.e2 (d4Computed env T R P c) M M.atom i - Spec.london (d4Computed env T R P c) M i =
      1 / 2 * ∑ j, if M.Z i ≠ 0 ∧ M.Z j ≠ 0 ∧ i ≠ j ∧ M.r env.eps i j ≤ c.disp2 then
        (P.s6 * c6At env T R (M.atom i) (M.atom j) / M.r env.eps i j ^ 6 +
        P.s8 * (3 * M.Q i * M.Q j * c6At env T R (M.atom i) (M.atom j)) / M.r env.eps i j ^ 8 +
        P.s10 * (49 / 40 * (3 * M.Q i * M.Q j) ^ 2 * c6At env T R (M.atom i) (M.atom j)) /
          M.r env.eps i j ^ 10) -
        Spec.pairTerm (d4Computed env T R P c) M M.atom i j else 0 := by
    unfold Spec.e2 Spec.london
    rw [show ∀ a b : ℝ, -(1 / 2) * a - -(1 / 2) * b = 1 / 2 * (b - a) by intros; ring,
      ← Finset.sum_sub_distrib]
    congr 1
    refine Finset.sum_congr rfl fun j _ => ?_
    show (if M.Z i ≠ 0 ∧ M.Z j ≠ 0 ∧ i ≠ j ∧ M.r env.eps i j ≤ c.disp2 then _ else _) -
      (if M.Z i ≠ 0 ∧ M.Z j ≠ 0 ∧ i ≠ j ∧ M.r env.eps i j ≤ c.disp2 then _ else _) = _
    split_ifs
    · rfl
    · ring
  have hlon : -Spec.london (d4Computed env T R P c) M i =
      1 / 2 * ∑ j, if M.Z i ≠ 0 ∧ M.Z j ≠ 0 ∧ i ≠ j ∧ M.r env.eps i j ≤ c.disp2 then
        (P.s6 * c6At env T R (M.atom i) (M.atom j) / M.r env.eps i j ^ 6 +
        P.s8 * (3 * M.Q i * M.Q j * c6At env T R (M.atom i) (M.atom j)) / M.r env.eps i j ^ 8 +
        P.s10 * (49 / 40 * (3 * M.Q i * M.Q j) ^ 2 * c6At env T R (M.atom i) (M.atom j)) /
          M.r env.eps i j ^ 10) else 0 := by
    unfold Spec.london
    rw [neg_mul, neg_neg]
    rfl
  rw [hlon, hdiff]
  constructor
  · refine mul_nonneg (by norm_num) (Finset.sum_nonneg fun j _ => ?_)
    split_ifs with h
    · exact (key j h.1 h.2.1 h.2.2.1).1
    · exact le_rfl
  · intro hL hB
    rw [mul_left_comm]
    refine mul_le_mul_of_nonneg_left ?_ (by norm_num)
    rw [Finset.mul_sum]
    refine Finset.sum_le_sum fun j _ => ?_
    split_ifs with h
    · exact (key j h.1 h.2.1 h.2.2.1).2 hL hB
    · simp

/-- Three-body energies beyond the range of damping. -/
theorem e3_undamped (hP : P.Nonneg) (hL : 0 < L) (hB : Spec.Beyond P M env.eps L) (i : Fin n) :
    |Spec.e3 (d4Computed env T R P c) M (Spec.c9 (d4Computed env T R P c) M.neutral)
        (Spec.R0 (d4Computed env T R P c) M) i - Spec.undamped3 (d4Computed env T R P c) M i| ≤
      6 * L ^ (-P.alp) * Spec.undampedAbs3 (d4Computed env T R P c) M i := by
  set S := d4Computed env T R P c with hS
  have key : ∀ j k : Fin n, M.Z i ≠ 0 → M.Z j ≠ 0 → M.Z k ≠ 0 → i ≠ j → i ≠ k → j ≠ k →
      |Spec.tripleTerm S M (Spec.c9 S M.neutral) (Spec.R0 S M) i j k - Spec.axilrod S M i j k| ≤
        6 * L ^ (-P.alp) * |Spec.axilrod S M i j k| := by
    intro j k hi hj hk hij hik hjk
    have hR : ∀ i j, 0 ≤ Spec.R0 S M i j := fun i j =>
      add_nonneg (mul_nonneg hP.a1 (Real.sqrt_nonneg _)) hP.a2
    have hr : ∀ i j, 0 < M.r env.eps i j := fun i j => Spec.Mol.r_pos env.eps_pos M i j
    have b1 : L * Spec.R0 S M i j ≤ M.r env.eps i j := hB i j hi hj hij
    have b2 : L * Spec.R0 S M i k ≤ M.r env.eps i k := hB i k hi hk hik
    have b3 : L * Spec.R0 S M j k ≤ M.r env.eps j k := hB j k hj hk hjk
    have hb : L ^ 3 * (Spec.R0 S M i j * Spec.R0 S M i k * Spec.R0 S M j k) ≤
        M.r env.eps i j * M.r env.eps i k * M.r env.eps j k := by
      calc L ^ 3 * (Spec.R0 S M i j * Spec.R0 S M i k * Spec.R0 S M j k) =
          (L * Spec.R0 S M i j) * (L * Spec.R0 S M i k) * (L * Spec.R0 S M j k) := by ring
        _ ≤ _ := by
          have p1 := mul_nonneg hL.le (hR i j)
          have p2 := mul_nonneg hL.le (hR i k)
          have p3 := mul_nonneg hL.le (hR j k)
          gcongr
          · exact mul_nonneg (hr i j).le (hr i k).le
          · exact (hr i j).le
    obtain ⟨h0, h1⟩ := zero_error (a := P.alp)
      (mul_pos (mul_pos (hr i j) (hr i k)) (hr j k))
      (mul_nonneg (mul_nonneg (hR i j) (hR i k)) (hR j k)) hL hP.alp hb
    have e : Spec.tripleTerm S M (Spec.c9 S M.neutral) (Spec.R0 S M) i j k =
        Spec.axilrod S M i j k * (1 / (1 + 6 * (Spec.R0 S M i j * Spec.R0 S M i k * Spec.R0 S M j k /
          (M.r env.eps i j * M.r env.eps i k * M.r env.eps j k)) ^ (P.alp / 3))) := by
      unfold Spec.tripleTerm Spec.axilrod
      show _ * (1 / (1 + 6 * (Spec.R0 S M i j * Spec.R0 S M i k * Spec.R0 S M j k /
          (M.r env.eps i j * M.r env.eps i k * M.r env.eps j k)) ^ (P.alp / 3))) * _ = _
      dsimp only
      rw [show S.ε = env.eps from rfl]
      ring
    rw [e]
    generalize Spec.axilrod S M i j k = A at *
    rw [show ∀ A f : ℝ, A * f - A = -(A * (1 - f)) by intros; ring, abs_neg, abs_mul, abs_of_nonneg h0,
      mul_comm]
    exact mul_le_mul_of_nonneg_right h1 (abs_nonneg _)
  unfold Spec.e3 Spec.undamped3 Spec.undampedAbs3
  rw [← mul_sub, abs_mul, abs_of_pos (by norm_num : (0 : ℝ) < 1 / 6), mul_left_comm,
    ← Finset.sum_sub_distrib, Finset.mul_sum]
  refine mul_le_mul_of_nonneg_left ?_ (by norm_num)
  refine (Finset.abs_sum_le_sum_abs _ _).trans (Finset.sum_le_sum fun j _ => ?_)
  rw [← Finset.sum_sub_distrib, Finset.mul_sum]
  refine (Finset.abs_sum_le_sum_abs _ _).trans (Finset.sum_le_sum fun k _ => ?_)
  split_ifs with h
  · exact key j k h.1 h.2.1 h.2.2.1 h.2.2.2.1 h.2.2.2.2.1 h.2.2.2.2.2.1
  · simp

end

section
variable {env : Env} {T : Tables} {ext : Ext} {numbers : Tensor ℕ} {positions charge : Tensor ℝ}
  {p : Param} {o : DftOpts} {n : ℕ} {B : Shape} {R : RefCfg} {cn : Spec.CN} {eeq : Spec.EEQ}
  {P : Spec.D4Par}

/-- **C59**: beyond `L` critical radii the energy is the undamped one, up to errors of relative size
`L⁻⁶` (two-body) and `6 L^(-alp)` (three-body). -/
theorem C59_energy (h : Call env T ext numbers positions charge p o n B R cn eeq P) (hP : P.Nonneg) :
    ∃ e, dftd4 env T ext numbers positions charge p o = .ok e ∧ ∀ b, InB B b →
      let S := d4Computed env T R P (o.opts.cutoff.getD {})
      let M := system T cn eeq numbers positions charge o.opts n b
      (∀ i, 0 ≤ M.Q i) → ∀ L, 1 ≤ L → Spec.Beyond P M env.eps L → ∀ i : Fin n,
        |e.get (i.1 :: b) - (Spec.london S M i + Spec.undamped3 S M i)| ≤
          1 / L ^ 6 * |Spec.london S M i| + 6 * L ^ (-P.alp) * Spec.undampedAbs3 S M i := by
  obtain ⟨e, h1, -, h3⟩ := h.eval
  refine ⟨e, h1, ?_⟩
  intro b hb S M hQ L hL hB i
  rw [h3 b hb i]
  obtain ⟨l2, u2⟩ := e2_undamped (env := env) (T := T) (R := R) (c := o.opts.cutoff.getD {}) (L := L) hP hQ i
  have u2 := u2 hL hB
  have u3 := e3_undamped (env := env) (T := T) (R := R) (c := o.opts.cutoff.getD {}) hP (by linarith) hB i
  have hlon : 0 ≤ -Spec.london S M i := by
    have : 0 ≤ 1 / L ^ 6 * -Spec.london S M i := le_trans l2 u2
    exact nonneg_of_mul_nonneg_right this (by positivity)
  rw [← abs_neg (Spec.london S M i), abs_of_nonneg hlon]
  unfold Spec.energy
  rw [add_sub_add_comm]
  refine (abs_add_le _ _).trans (add_le_add ?_ u3)
  exact (abs_of_nonneg l2).le.trans u2

/-- Damping never makes the two-body energy more attractive than the undamped one. -/
theorem C59_weaker (h : Call env T ext numbers positions charge p o n B R cn eeq P) (hP : P.Nonneg)
    (h9 : P.s9 = 0) :
    ∃ e, dftd4 env T ext numbers positions charge p o = .ok e ∧ ∀ b, InB B b →
      let S := d4Computed env T R P (o.opts.cutoff.getD {})
      let M := system T cn eeq numbers positions charge o.opts n b
      (∀ i, 0 ≤ M.Q i) → ∀ i : Fin n, Spec.london S M i ≤ e.get (i.1 :: b) := by
  obtain ⟨e, h1, -, h3⟩ := h.eval
  refine ⟨e, h1, ?_⟩
  intro b hb S M hQ i
  rw [h3 b hb i]
  obtain ⟨l2, -⟩ := e2_undamped (env := env) (T := T) (R := R) (c := o.opts.cutoff.getD {}) (L := 1) hP hQ i
  have h0 : Spec.e3 S M (Spec.c9 S M.neutral) (Spec.R0 S M) i = 0 := by
    unfold Spec.e3
    simp only [Spec.tripleTerm, show S.s9 = 0 from h9, zero_mul, ite_self, Finset.sum_const_zero, mul_zero]
  unfold Spec.energy
  show _ ≤ Spec.e2 S M M.atom i + Spec.e3 S M (Spec.c9 S M.neutral) (Spec.R0 S M) i
  rw [h0]
  linarith

/-- **C59**: two atoms at a distance `r` within the cutoff: `E r⁶` differs from `-s6 C6` by terms of order
`r⁻²`. -/
theorem C59_dimer (h : Call env T ext numbers positions charge p o 2 B R cn eeq P) (hP : P.Nonneg) :
    ∃ e, dftd4 env T ext numbers positions charge p o = .ok e ∧ ∀ b, InB B b →
      let M := system T cn eeq numbers positions charge o.opts 2 b
      let r := dist (M.pos 0) (M.pos 1)
      let C6 := c6At env T R (M.atom 0) (M.atom 1)
      let q := 3 * M.Q 0 * M.Q 1
      M.Z 0 ≠ 0 → M.Z 1 ≠ 0 → (∀ i, 0 ≤ M.Q i) → √env.eps ≤ r → r ≤ (o.opts.cutoff.getD {}).disp2 →
        |(e.get (0 :: b) + e.get (1 :: b)) * r ^ 6 + P.s6 * C6| ≤
          C6 * (P.s6 * (P.a1 * √q + P.a2) ^ 6 / r ^ 6 + P.s8 * q / r ^ 2 +
            P.s10 * (49 / 40 * q ^ 2) / r ^ 4) := by
  obtain ⟨e, h1, -, h3⟩ := h.eval
  refine ⟨e, h1, ?_⟩
  intro b hb M r C6 q hZ0 hZ1 hQ hr hcut
  have e0 := h3 b hb 0
  have e1 := h3 b hb 1
  set S := d4Computed env T R P (o.opts.cutoff.getD {}) with hS
  have hrr : M.r env.eps 0 1 = r := by
    rw [Spec.r_eq_max env.eps_pos]
    exact max_eq_left hr
  have hrr' : M.r env.eps 1 0 = r := by
    rw [Spec.r_eq_max env.eps_pos, dist_comm]
    exact max_eq_left hr
  have hr0 : 0 < r := (Real.sqrt_pos.2 env.eps_pos).trans_le hr
  have hC : 0 ≤ C6 := c6At_nonneg _ _
  have hq : 0 ≤ q := mul_nonneg (mul_nonneg (by norm_num) (hQ 0)) (hQ 1)
  have hR : 0 ≤ P.a1 * √q + P.a2 := add_nonneg (mul_nonneg hP.a1 (Real.sqrt_nonneg _)) hP.a2
  have h30 : ∀ i : Fin 2, Spec.e3 S M (Spec.c9 S M.neutral) (Spec.R0 S M) i = 0 := by
    intro i
    unfold Spec.e3
    refine mul_eq_zero_of_right _ (Finset.sum_eq_zero fun j _ => Finset.sum_eq_zero fun k _ => if_neg ?_)
    rintro ⟨-, -, -, a1, a2, a3, -⟩
    omega
  have hpair : Spec.pairTerm S M M.atom 0 1 = P.s6 * (C6 * (1 / (r ^ 6 + (P.a1 * √q + P.a2) ^ 6))) +
      P.s8 * (C6 * q * (1 / (r ^ 8 + (P.a1 * √q + P.a2) ^ 8))) +
      P.s10 * (C6 * q ^ 2 * 49 / 40 * (1 / (r ^ 10 + (P.a1 * √q + P.a2) ^ 10))) := by
    rw [← hrr]; rfl
  have hpair' : Spec.pairTerm S M M.atom 1 0 = Spec.pairTerm S M M.atom 0 1 := by
    rw [hpair]
    have : Spec.pairTerm S M M.atom 1 0 = P.s6 * (c6At env T R (M.atom 1) (M.atom 0) *
          (1 / (M.r env.eps 1 0 ^ 6 + (P.a1 * √(3 * M.Q 1 * M.Q 0) + P.a2) ^ 6))) +
        P.s8 * (c6At env T R (M.atom 1) (M.atom 0) * (3 * M.Q 1 * M.Q 0) *
          (1 / (M.r env.eps 1 0 ^ 8 + (P.a1 * √(3 * M.Q 1 * M.Q 0) + P.a2) ^ 8))) +
        P.s10 * (c6At env T R (M.atom 1) (M.atom 0) * (3 * M.Q 1 * M.Q 0) ^ 2 * 49 / 40 *
          (1 / (M.r env.eps 1 0 ^ 10 + (P.a1 * √(3 * M.Q 1 * M.Q 0) + P.a2) ^ 10))) := rfl
    rw [this, hrr', c6At_symm, show 3 * M.Q 1 * M.Q 0 = q by ring]
  have hE : e.get (0 :: b) + e.get (1 :: b) = -Spec.pairTerm S M M.atom 0 1 := by
    have g0 : e.get (0 :: b) = -(1 / 2) * Spec.pairTerm S M M.atom 0 1 := by
      refine e0.trans ?_
      show Spec.e2 S M M.atom 0 + Spec.e3 S M (Spec.c9 S M.neutral) (Spec.R0 S M) 0 = _
      rw [h30, add_zero]
      unfold Spec.e2
      congr 1
      rw [Fin.sum_univ_two, if_neg (by simp), if_pos ⟨hZ0, hZ1, by decide, by
        show M.r env.eps 0 1 ≤ _; rw [hrr]; exact hcut⟩, zero_add]
    have g1 : e.get (1 :: b) = -(1 / 2) * Spec.pairTerm S M M.atom 0 1 := by
      refine e1.trans ?_
      show Spec.e2 S M M.atom 1 + Spec.e3 S M (Spec.c9 S M.neutral) (Spec.R0 S M) 1 = _
      rw [h30, add_zero]
      unfold Spec.e2
      congr 1
      rw [Fin.sum_univ_two, if_pos ⟨hZ1, hZ0, by decide, by
        show M.r env.eps 1 0 ≤ _; rw [hrr']; exact hcut⟩, if_neg (by simp), add_zero, hpair']
    rw [g0, g1]; ring
  rw [hE, hpair]
  exact dimer_bound hr0 hR hC hq hP.s6 hP.s8 hP.s10

end

namespace Demo

/-- Three hydrogen atoms at distances of 20 and more. -/
noncomputable def farPos : Tensor ℝ where
  err := none
  shape := [3, 3]
  get
    | [0, 1] => 20
    | [1, 2] => 20
    | _ => 0

noncomputable def farPair : Tensor ℝ := ⟨none, [3, 2], farPos.get⟩

theorem par_nonneg : par.Nonneg := by
  constructor <;> norm_num [par]

theorem farCall : Call env T extCut (full [3] 1) farPos neutral param {} 3 [] .d4 cnCut eeq par :=
  callCut _ _ ⟨rfl, rfl⟩ ⟨rfl, rfl⟩ fun _ => le_rfl

theorem farCall2 : Call env T extCut (full [2] 1) farPair neutral param {} 2 [] .d4 cnCut eeq par :=
  callCut _ _ ⟨rfl, rfl⟩ ⟨rfl, rfl⟩ fun _ => le_rfl

theorem farBeyond : Spec.Beyond par (system T cnCut eeq (full [3] 1) farPos neutral {} 3 []) env.eps 3 := by
  intro i j _ _ hij
  have hQ : ∀ i, (system T cnCut eeq (full [3] 1) farPos neutral {} 3 []).Q i =
    √(0.5 * ((Data.r4OverR2.getD 1 0 : ℕ) / 10 ^ 4 * √((1 : ℕ) : ℝ))) := fun i => rfl
  have hd : (20 : ℝ) ≤ dist (coords farPos 3 [] i) (coords farPos 3 [] j) := by
    rw [EuclideanSpace.dist_eq]
    refine Real.le_sqrt_of_sq_le ?_
    fin_cases i <;> fin_cases j <;>
      first
      | exact absurd rfl hij
      | norm_num [Fin.sum_univ_three, coords, farPos, Real.dist_eq]
  have hr : (20 : ℝ) ≤ (system T cnCut eeq (full [3] 1) farPos neutral {} 3 []).r env.eps i j := by
    rw [Spec.r_eq_max env.eps_pos]
    exact le_max_of_le_left hd
  refine le_trans ?_ hr
  have h4 : Spec.rsqrt env.eps (3 * (system T cnCut eeq (full [3] 1) farPos neutral {} 3 []).Q i *
      (system T cnCut eeq (full [3] 1) farPos neutral {} 3 []).Q j) ≤ 4 := by
    rw [hQ, hQ, mul_assoc, Real.mul_self_sqrt (by positivity)]
    unfold Spec.rsqrt
    rw [show (4 : ℝ) = √(4 ^ 2) by rw [Real.sqrt_sq]; norm_num]
    refine Real.sqrt_le_sqrt (max_le ?_ ?_)
    · have : (Data.r4OverR2.getD 1 0 : ℕ) = 80589 := by decide +kernel
      rw [this]
      norm_num
    · show (1 / 2 ^ 52 : ℝ) ≤ _
      norm_num
  have e1 : par.a1 = 0.4 := rfl
  have e2 : par.a2 = 5 := rfl
  rw [e1, e2]
  linarith

end Demo

/-- Three hydrogen atoms beyond three critical radii: damping changes the two-body energy by less than
0.14 percent, the three-body energy by less than 10⁻⁶. -/
example : ∃ e, dftd4 Demo.env Demo.T Demo.extCut (full [3] 1) Demo.farPos Demo.neutral Demo.param {} = .ok e ∧
    let S := d4Computed Demo.env Demo.T .d4 Demo.par {}
    let M := system Demo.T Demo.cnCut Demo.eeq (full [3] 1) Demo.farPos Demo.neutral {} 3 []
    |e.get [0] - (Spec.london S M 0 + Spec.undamped3 S M 0)| ≤
      1 / 3 ^ 6 * |Spec.london S M 0| + 6 * 3 ^ (-16 : ℝ) * Spec.undampedAbs3 S M 0 := by
  obtain ⟨e, he, h⟩ := C59_energy Demo.farCall Demo.par_nonneg
  exact ⟨e, he, h [] InB_nil (fun i => Real.sqrt_nonneg _) 3 (by norm_num) Demo.farBeyond 0⟩

/-- Two hydrogen atoms at a distance of 20. -/
example : ∃ e, dftd4 Demo.env Demo.T Demo.extCut (full [2] 1) Demo.farPair Demo.neutral Demo.param {} = .ok e ∧
    let M := system Demo.T Demo.cnCut Demo.eeq (full [2] 1) Demo.farPair Demo.neutral {} 2 []
    let C6 := c6At Demo.env Demo.T .d4 (M.atom 0) (M.atom 1)
    let q := 3 * M.Q 0 * M.Q 1
    |(e.get [0] + e.get [1]) * 20 ^ 6 + 1 * C6| ≤
      C6 * (1 * (0.4 * √q + 5) ^ 6 / 20 ^ 6 + 1.2 * q / 20 ^ 2 + 0 * (49 / 40 * q ^ 2) / 20 ^ 4) := by
  obtain ⟨e, he, h⟩ := C59_dimer Demo.farCall2 Demo.par_nonneg
  refine ⟨e, he, ?_⟩
  have h := h [] InB_nil
  have hd : dist ((system Demo.T Demo.cnCut Demo.eeq (full [2] 1) Demo.farPair Demo.neutral {} 2 []).pos 0)
      ((system Demo.T Demo.cnCut Demo.eeq (full [2] 1) Demo.farPair Demo.neutral {} 2 []).pos 1) = 20 := by
    show dist (coords Demo.farPair 2 [] 0) (coords Demo.farPair 2 [] 1) = 20
    rw [EuclideanSpace.dist_eq, show (20 : ℝ) = √(20 ^ 2) by rw [Real.sqrt_sq]; norm_num]
    congr 1
    norm_num [Fin.sum_univ_three, coords, Demo.farPair, Demo.farPos, Real.dist_eq]
  dsimp only at h
  rw [hd] at h
  refine h (by show 1 ≠ 0; decide) (by show 1 ≠ 0; decide) (fun i => Real.sqrt_nonneg _) ?_ ?_
  · show √(1 / 2 ^ 52 : ℝ) ≤ 20
    rw [Real.sqrt_le_left (by norm_num)]
    norm_num
  · norm_num [Defaults.disp2Cutoff]

/-- Two hydrogen atoms with `s9 = 0`. -/
example (i : Fin 2) : ∃ e, dftd4 Demo.env Demo.T Demo.extCut (full [2] 1) Demo.farPair Demo.neutral
      { Demo.param with s9 := .val 0 } {} = .ok e ∧
    Spec.london (d4Computed Demo.env Demo.T .d4 { Demo.par with s9 := 0 } {})
      (system Demo.T Demo.cnCut Demo.eeq (full [2] 1) Demo.farPair Demo.neutral {} 2 []) i ≤ e.get [i.1] := by
  have hc : Call Demo.env Demo.T Demo.extCut (full [2] 1) Demo.farPair Demo.neutral
      { Demo.param with s9 := .val 0 } {} 2 [] .d4 Demo.cnCut Demo.eeq { Demo.par with s9 := 0 } :=
    { Demo.farCall2 with par := { Demo.reads with s9 := Or.inl rfl } }
  obtain ⟨e, he, h⟩ := C59_weaker hc { Demo.par_nonneg with s9 := le_refl 0 } rfl
  exact ⟨e, he, h [] InB_nil (fun i => Real.sqrt_nonneg _) i⟩

end TadDftd4
