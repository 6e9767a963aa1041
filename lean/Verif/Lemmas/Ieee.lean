import Verif.Model.Ieee
import Mathlib.Algebra.Order.Archimedean.Basic
import Mathlib.Tactic.Linarith
import Mathlib.Tactic.Positivity
import Mathlib.Tactic.NormNum

/-!
# Rounding to the numbers of a binary format

Lemmas about `Model/Ieee.lean`: a nearest number has a small relative error unless the exact result is
below the normal numbers, rounding is monotone, and it does not leave a grid.
-/

open scoped Classical

namespace TadDftd4.Rounded

namespace Fmt
variable {F : Fmt}

/-- Formats with at least two digits and a reasonable range of exponents. -/
structure Ok (F : Fmt) : Prop where
  p : 2 ≤ F.p
  e : F.emin + F.p ≤ F.emax

theorem two_zpow_pos (e : ℤ) : (0 : ℝ) < (2 : ℝ) ^ e := zpow_pos two_pos e

theorem two_zpow_le {a b : ℤ} (h : a ≤ b) : (2 : ℝ) ^ a ≤ (2 : ℝ) ^ b := zpow_le_zpow_right₀ one_le_two h

theorem two_zpow_lt {a b : ℤ} (h : (2 : ℝ) ^ a < (2 : ℝ) ^ b) : a < b :=
  (zpow_lt_zpow_iff_right₀ one_lt_two).1 h

theorem Num.neg {x : ℝ} (h : F.Num x) : F.Num (-x) := by
  obtain ⟨m, e, h1, h2, h3, rfl⟩ := h
  exact ⟨-m, e, by rwa [abs_neg], h2, h3, by push_cast; ring⟩

theorem num_int {m e : ℤ} (h1 : |m| < 2 ^ F.p) (h2 : F.emin ≤ e) (h3 : e ≤ F.emax) :
    F.Num (m * (2 : ℝ) ^ e) := ⟨m, e, h1, h2, h3, rfl⟩

theorem Ok.num_zero (hF : F.Ok) : F.Num 0 :=
  ⟨0, F.emin, by simp, le_rfl, by have := hF.e; omega, by simp⟩

theorem Ok.num_zpow (hF : F.Ok) {M : ℤ} (h1 : F.emin ≤ M) (h2 : M ≤ F.emax + F.p - 1) :
    F.Num ((2 : ℝ) ^ M) := by
  have hp := hF.p
  rcases le_or_gt M F.emax with h | h
  · refine ⟨1, M, ?_, h1, h, by simp⟩
    rw [abs_one]; exact one_lt_pow₀ (by norm_num) (by omega)
  · obtain ⟨k, hk⟩ : ∃ k : ℕ, (k : ℤ) = M - F.emax := ⟨(M - F.emax).toNat, by omega⟩
    refine ⟨2 ^ k, F.emax, ?_, by have := hF.e; omega, le_rfl, ?_⟩
    · rw [abs_of_nonneg (by positivity)]
      exact pow_lt_pow_right₀ (by norm_num) (by omega)
    · push_cast
      rw [← zpow_natCast, ← zpow_add₀ two_ne_zero]; congr 1; omega

theorem Ok.big_pos (hF : F.Ok) : 0 < F.big := by
  have : (1 : ℝ) < 2 ^ F.p := one_lt_pow₀ (by norm_num) (by have := hF.p; omega)
  exact mul_pos (by linarith) (two_zpow_pos _)

theorem Ok.num_big (hF : F.Ok) : F.Num F.big := by
  refine ⟨2 ^ F.p - 1, F.emax, ?_, by have := hF.e; omega, le_rfl, by push_cast; rfl⟩
  have : (1 : ℤ) < 2 ^ F.p := one_lt_pow₀ (by norm_num) (by have := hF.p; omega)
  rw [abs_of_nonneg (by linarith)]; linarith

theorem Num.le_big {x : ℝ} (h : F.Num x) : |x| ≤ F.big := by
  obtain ⟨m, e, h1, h2, h3, rfl⟩ := h
  rw [abs_mul, abs_of_pos (two_zpow_pos e)]
  refine mul_le_mul ?_ (two_zpow_le h3) (two_zpow_pos e).le ?_
  · have : |m| ≤ 2 ^ F.p - 1 := by linarith
    calc |(m : ℝ)| = ((|m| : ℤ) : ℝ) := by push_cast; rfl
      _ ≤ ((2 ^ F.p - 1 : ℤ) : ℝ) := by exact_mod_cast this
      _ = _ := by push_cast; rfl
  · have : (1 : ℝ) ≤ 2 ^ F.p := one_le_pow₀ (by norm_num)
    linarith

theorem Ok.zpow_le_big (hF : F.Ok) {M : ℤ} (h2 : M ≤ F.emax + F.p - 1) : (2 : ℝ) ^ M ≤ F.big := by
  refine (two_zpow_le h2).trans ?_
  have h := (hF.num_zpow (M := F.emax + F.p - 1) (by have := hF.e; have := hF.p; omega) le_rfl).le_big
  rwa [abs_of_pos (two_zpow_pos _)] at h

/-! ## Nearest numbers -/

theorem Nearest.le {x y z : ℝ} (h : F.Nearest x z) (hy : F.Num y) (hxy : x ≤ y) : z ≤ y := by
  have := h.2 y hy
  rw [abs_of_nonneg (sub_nonneg.2 hxy)] at this
  linarith [le_abs_self (z - x)]

theorem Nearest.ge {x y z : ℝ} (h : F.Nearest x z) (hy : F.Num y) (hxy : y ≤ x) : y ≤ z := by
  have := h.2 y hy
  rw [abs_sub_comm y x, abs_of_nonneg (sub_nonneg.2 hxy)] at this
  linarith [neg_abs_le (z - x)]

theorem Nearest.abs_le {x y z : ℝ} (h : F.Nearest x z) (hy : F.Num y) (hxy : |x| ≤ y) : |z| ≤ y :=
  _root_.abs_le.2 ⟨h.ge hy.neg (_root_.abs_le.1 hxy).1, h.le hy (_root_.abs_le.1 hxy).2⟩

theorem Nearest.le_abs {x y z : ℝ} (h : F.Nearest x z) (hy : F.Num y) (hxy : y ≤ |x|) : y ≤ |z| := by
  rcases _root_.le_abs.1 hxy with h1 | h1
  · exact (h.ge hy h1).trans (le_abs_self z)
  · have := h.le hy.neg (by linarith)
    exact (by linarith : y ≤ -z).trans (neg_le_abs z)

theorem Nearest.eq {x z : ℝ} (h : F.Nearest x z) (hx : F.Num x) : z = x := by
  have := h.2 x hx
  rw [sub_self, abs_zero] at this
  exact sub_eq_zero.1 (abs_eq_zero.1 (le_antisymm this (abs_nonneg _)))

theorem Ok.exists_nearest (hF : F.Ok) (x : ℝ) : ∃ z, F.Nearest x z := by
  have hfin : {z | F.Num z}.Finite := by
    refine (((Set.finite_Icc (-(2 ^ F.p) : ℤ) (2 ^ F.p)).prod (Set.finite_Icc F.emin F.emax)).image
      fun q : ℤ × ℤ => (q.1 : ℝ) * (2 : ℝ) ^ q.2).subset ?_
    rintro z ⟨m, e, h1, h2, h3, rfl⟩
    exact ⟨(m, e), ⟨⟨(abs_lt.1 h1).1.le, (abs_lt.1 h1).2.le⟩, h2, h3⟩, rfl⟩
  obtain ⟨z, hz, hm⟩ := hfin.exists_minimalFor (fun z => |z - x|) _ ⟨0, hF.num_zero⟩
  refine ⟨z, hz, fun y hy => ?_⟩
  rcases le_total (|z - x|) (|y - x|) with h | h
  · exact h
  · exact hm hy h

/-- Unit roundoff. -/
noncomputable def unit (F : Fmt) : ℝ := (2 : ℝ) ^ (-(F.p : ℤ))

theorem Nearest.fl (hF : F.Ok) {x z : ℝ} (h : F.Nearest x z) (h1 : F.small ≤ |x|) (h2 : |x| ≤ F.big) :
    Fl F.unit x z := by
  have hx : 0 < |x| := lt_of_lt_of_le (two_zpow_pos _) h1
  obtain ⟨k, hk1, hk2⟩ := exists_mem_Ico_zpow (x := |x|) (y := (2 : ℝ)) hx one_lt_two
  obtain ⟨e, rfl⟩ : ∃ e : ℤ, k = e + F.p - 1 := ⟨k - F.p + 1, by ring⟩
  have he1 : F.emin ≤ e := by
    have := two_zpow_lt (lt_of_le_of_lt h1 hk2)
    omega
  have he2 : e ≤ F.emax := by
    have hb : F.big < (2 : ℝ) ^ (F.emax + F.p) := by
      unfold big
      rw [zpow_add₀ two_ne_zero, zpow_natCast, mul_comm]
      exact mul_lt_mul_of_pos_left (by linarith) (two_zpow_pos _)
    have := two_zpow_lt (lt_of_le_of_lt (hk1.trans h2) hb)
    omega
  have hE := two_zpow_pos e
  -- nearest integer
  obtain ⟨m, hm⟩ : ∃ m : ℤ, |x / (2 : ℝ) ^ e - m| ≤ 1 / 2 := ⟨round _, abs_sub_round _⟩
  have hm' : |(m : ℝ) * (2 : ℝ) ^ e - x| ≤ (2 : ℝ) ^ e / 2 := by
    have : (m : ℝ) * (2 : ℝ) ^ e - x = -((x / (2 : ℝ) ^ e - m) * (2 : ℝ) ^ e) := by
      field_simp; ring
    rw [this, abs_neg, abs_mul, abs_of_pos hE]
    nlinarith
  have hpe : (2 : ℝ) ^ (e + F.p - 1 + 1) = (2 ^ F.p : ℝ) * (2 : ℝ) ^ e := by
    rw [sub_add_cancel, add_comm, zpow_add₀ two_ne_zero, zpow_natCast]
  have hle : |m| ≤ 2 ^ F.p := by
    by_contra hc
    have hc' : (2 ^ F.p : ℤ) + 1 ≤ |m| := by omega
    have hc'' : (2 ^ F.p : ℝ) + 1 ≤ |(m : ℝ)| := by exact_mod_cast hc'
    have a : |(m : ℝ)| * (2 : ℝ) ^ e ≤ |x| + (2 : ℝ) ^ e / 2 := by
      rw [← abs_of_pos hE, ← abs_mul, abs_of_pos hE]
      have := abs_sub_abs_le_abs_sub ((m : ℝ) * (2 : ℝ) ^ e) x
      linarith
    rw [hpe] at hk2
    nlinarith
  have hnum : F.Num ((m : ℝ) * (2 : ℝ) ^ e) := by
    rcases lt_or_eq_of_le hle with hlt | heq
    · exact num_int hlt he1 he2
    · rcases lt_or_eq_of_le he2 with he3 | he3
      · have hp := hF.p
        have hz := hF.num_zpow (M := e + F.p) (by omega) (by omega)
        have e1 : (2 : ℝ) ^ (e + F.p) = (2 ^ F.p : ℝ) * (2 : ℝ) ^ e := by
          rw [add_comm, zpow_add₀ two_ne_zero, zpow_natCast]
        rw [e1] at hz
        rcases abs_eq (by positivity) |>.1 heq with h3 | h3
        · rw [h3]; push_cast; exact hz
        · rw [h3]; push_cast; rw [neg_mul]; exact hz.neg
      · exfalso
        have a : |(m : ℝ)| * (2 : ℝ) ^ e ≤ |x| + (2 : ℝ) ^ e / 2 := by
          rw [← abs_of_pos hE, ← abs_mul, abs_of_pos hE]
          have := abs_sub_abs_le_abs_sub ((m : ℝ) * (2 : ℝ) ^ e) x
          linarith
        have b : |(m : ℝ)| = 2 ^ F.p := by exact_mod_cast heq
        rw [b] at a
        unfold big at h2
        rw [← he3] at h2
        nlinarith
  unfold Fl
  refine (h.2 _ hnum).trans (hm'.trans ?_)
  unfold unit
  have : (2 : ℝ) ^ e / 2 = (2 : ℝ) ^ (-(F.p : ℤ)) * (2 : ℝ) ^ (e + F.p - 1) := by
    rw [← zpow_add₀ two_ne_zero, show -(F.p : ℤ) + (e + F.p - 1) = e - 1 by ring,
      zpow_sub_one₀ two_ne_zero]; rfl
  rw [this]
  exact mul_le_mul_of_nonneg_left hk1 (two_zpow_pos _).le

/-! ## Grids -/

/-- Multiples of `2^g`. -/
def OnGrid (g : ℤ) (x : ℝ) : Prop := ∃ k : ℤ, x = k * (2 : ℝ) ^ g

theorem OnGrid.mono {g g' : ℤ} {x : ℝ} (h : OnGrid g x) (hg : g' ≤ g) : OnGrid g' x := by
  obtain ⟨k, rfl⟩ := h
  obtain ⟨l, hl⟩ : ∃ l : ℕ, g = l + g' := ⟨(g - g').toNat, by omega⟩
  refine ⟨k * 2 ^ l, ?_⟩
  rw [hl, zpow_add₀ two_ne_zero, zpow_natCast]; push_cast; ring

theorem OnGrid.zero (g : ℤ) : OnGrid g 0 := ⟨0, by simp⟩

theorem OnGrid.add {g : ℤ} {x y : ℝ} (h : OnGrid g x) (h' : OnGrid g y) : OnGrid g (x + y) := by
  obtain ⟨k, rfl⟩ := h
  obtain ⟨l, rfl⟩ := h'
  exact ⟨k + l, by push_cast; ring⟩

theorem OnGrid.neg {g : ℤ} {x : ℝ} (h : OnGrid g x) : OnGrid g (-x) := by
  obtain ⟨k, rfl⟩ := h
  exact ⟨-k, by push_cast; ring⟩

theorem OnGrid.abs_ge {g : ℤ} {x : ℝ} (h : OnGrid g x) : x = 0 ∨ (2 : ℝ) ^ g ≤ |x| := by
  obtain ⟨k, rfl⟩ := h
  rcases eq_or_ne k 0 with h0 | h0
  · left; simp [h0]
  · right
    rw [abs_mul, abs_of_pos (two_zpow_pos g)]
    have : (1 : ℝ) ≤ |(k : ℝ)| := by exact_mod_cast Int.one_le_abs h0
    nlinarith [two_zpow_pos g]

theorem Num.onGrid_min {x : ℝ} (h : F.Num x) : OnGrid F.emin x := by
  obtain ⟨m, e, h1, h2, h3, rfl⟩ := h
  exact OnGrid.mono ⟨m, rfl⟩ h2

/-- Large numbers have few digits after the point. -/
theorem Num.onGrid {x : ℝ} (h : F.Num x) {m : ℤ} (hm : x = 0 ∨ (2 : ℝ) ^ m ≤ |x|) :
    OnGrid (m - F.p + 1) x := by
  rcases hm with rfl | hm
  · exact OnGrid.zero _
  · obtain ⟨k, e, h1, h2, h3, rfl⟩ := h
    refine OnGrid.mono ⟨k, rfl⟩ ?_
    rw [abs_mul, abs_of_pos (two_zpow_pos e)] at hm
    have a : |(k : ℝ)| < (2 : ℝ) ^ (F.p : ℤ) := by rw [zpow_natCast]; exact_mod_cast h1
    have a' : |(k : ℝ)| * (2 : ℝ) ^ e < (2 : ℝ) ^ ((F.p : ℤ) + e) := by
      rw [zpow_add₀ two_ne_zero]
      exact mul_lt_mul_of_pos_right a (two_zpow_pos e)
    have := two_zpow_lt (lt_of_le_of_lt hm a')
    omega

theorem OnGrid.num {g : ℤ} {x : ℝ} (h : OnGrid g x) (h1 : F.emin ≤ g) (h2 : g ≤ F.emax)
    (h3 : |x| < (2 : ℝ) ^ (F.p + g)) : F.Num x := by
  obtain ⟨k, rfl⟩ := h
  refine num_int ?_ h1 h2
  rw [abs_mul, abs_of_pos (two_zpow_pos g), zpow_add₀ two_ne_zero] at h3
  have := lt_of_mul_lt_mul_right h3 (two_zpow_pos g).le
  rw [zpow_natCast] at this
  exact_mod_cast this

/-- Rounding does not leave a grid, and is exact or has a small relative error. -/
theorem Nearest.grid (hF : F.Ok) {g : ℤ} {x z : ℝ} (h : F.Nearest x z) (hg : OnGrid g x)
    (h1 : F.emin ≤ g) (h2 : g ≤ F.emax) (h3 : |x| ≤ F.big) : OnGrid g z ∧ Fl F.unit x z := by
  rcases lt_or_ge (|x|) ((2 : ℝ) ^ (F.p + g)) with hlt | hge
  · have := h.eq (hg.num h1 h2 hlt)
    subst this
    refine ⟨hg, ?_⟩
    unfold Fl
    rw [sub_self, abs_zero]
    exact mul_nonneg (two_zpow_pos _).le (abs_nonneg _)
  · have hp := hF.p
    refine ⟨?_, h.fl hF ?_ h3⟩
    · have hz : (2 : ℝ) ^ (F.p + g - 1) ≤ |z| := by
        refine h.le_abs (hF.num_zpow (by omega) (by omega)) ((two_zpow_le ?_).trans hge)
        omega
      have := h.1.onGrid (Or.inr hz)
      exact this.mono (by omega)
    · exact (two_zpow_le (by omega)).trans hge

end Fmt

end TadDftd4.Rounded
