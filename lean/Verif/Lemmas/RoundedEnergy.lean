import Verif.Lemmas.Rounded
import Verif.Lemmas.Energy
import Verif.Spec.D4

/-!
# Rounding errors of the energy of an atom
-/

open scoped Classical

namespace TadDftd4.Rounded.Input

open Ex

variable {n : ℕ} {u : ℝ} {X : Input n}

/-- Assumptions on the input: positive distances, coefficients that are not negative, and no distance
so close to a cutoff that rounding decides about it. -/
structure Good (u : ℝ) (X : Input n) : Prop where
  d : ∀ i j, 0 < X.d i j
  c6 : ∀ i j, 0 ≤ X.c6 i j
  c6n : ∀ i j, 0 ≤ X.c6n i j
  Q : ∀ i, 0 ≤ X.Q i
  ε : 0 ≤ X.ε
  s6 : 0 ≤ X.s6
  s8 : 0 ≤ X.s8
  s10 : ∀ s, X.s10 = some s → 0 ≤ s
  a1 : 0 ≤ X.a1
  a2 : 0 < X.a2
  cut2 : 0 ≤ X.cut2
  cut3 : 0 ≤ X.cut3
  tie2 : ∀ i j, X.Pair i j → X.d i j ≤ (1 - u) ^ X.kd * X.cut2 ∨ X.cut2 < (1 - u) ^ X.kd * X.d i j
  tie3 : ∀ i j, X.Pair i j → X.d i j ^ 2 ≤ (1 - u) ^ (2 * X.kd + 2) * X.cut3 ^ 2 ∨
    X.cut3 ^ 2 < (1 - u) ^ (2 * X.kd + 2) * X.d i j ^ 2

/-- Roundings of the base of the powers in rational damping. -/
def m (X : Input n) : ℕ := max X.kd (X.kQ + 4)

/-- Number of roundings of the two-body energy of an atom. -/
def K2 (X : Input n) : ℕ := X.kc + 4 * X.kQ + 10 * X.m + 14 + n

section
variable (hu : 0 ≤ u) (hu1 : u < 1) (h : Good u X)
include hu hu1 h

theorem rel_qq (i j : Fin n) : Rel u (X.qq i j) (2 * (X.kQ + 1)) :=
  rel_mul hu hu1 (rel_mul hu hu1 (rel_const hu hu1 (by norm_num)) (rel_inp (h.Q i)) (m := X.kQ + 1)
    (by omega)) (rel_inp (h.Q j)) (by omega)

theorem rel_rational (k : ℕ) (i j : Fin n) : Rel u (X.rational k i j) (k * X.m + 3) := by
  have h1 : Rel u (add (mul (const X.a1) (sqrt (X.qq i j))) (const X.a2)) (X.kQ + 4) :=
    rel_add hu hu1 (rel_mul hu hu1 (rel_const hu hu1 h.a1)
      (rel_sqrt hu hu1 (rel_qq hu hu1 h i j) (m := X.kQ + 2) (by omega)) (m := X.kQ + 3) (by omega))
      (rel_const hu hu1 h.a2.le) (by omega) (by omega)
  have k1 : k * X.kd ≤ k * X.m := Nat.mul_le_mul_left _ (le_max_left _ _)
  have k2 : k * (X.kQ + 4) ≤ k * X.m := Nat.mul_le_mul_left _ (le_max_right _ _)
  have h2 : Rel u (add (npow (X.dist i j) k)
      (npow (add (mul (const X.a1) (sqrt (X.qq i j))) (const X.a2)) k)) (k * X.m + 2) :=
    rel_add hu hu1 (rel_npow hu hu1 (rel_inp (h.d i j).le) (m := k * X.m + 1) (by omega))
      (rel_npow hu hu1 h1 (m := k * X.m + 1) (by omega)) (by omega) (by omega)
  refine rel_div hu hu1 (rel_const hu hu1 zero_le_one) h2 ?_ (by omega)
  have p1 : 0 < X.d i j ^ k := pow_pos (h.d i j) k
  have p2 : 0 ≤ (X.a1 * √(X.qq i j).val + X.a2) ^ k :=
    pow_nonneg (add_nonneg (mul_nonneg h.a1 (Real.sqrt_nonneg _)) h.a2.le) k
  exact add_pos_of_pos_of_nonneg p1 p2

theorem rel_damped (k : ℕ) (i j : Fin n) : Rel u (X.damped k i j) (k * X.m + 3) := by
  unfold damped
  split_ifs with hp
  · refine rel_sel hu hu1 (rel_inp (h.d i j).le) (rel_const hu hu1 h.cut2) ?_
      (rel_rational hu hu1 h k i j) (rel_mono hu hu1 (rel_const hu hu1 le_rfl) (by omega))
    rw [Nat.add_zero]
    exact h.tie2 i j hp
  · exact rel_mono hu hu1 (rel_const hu hu1 le_rfl) (by omega)

omit hu hu1 in
theorem rel_coeff6 (i j : Fin n) : Rel u (X.coeff6 i j) X.kc := rel_inp (h.c6 i j)

theorem rel_coeff8 (i j : Fin n) : Rel u (X.coeff8 i j) (X.kc + 2 * X.kQ + 3) :=
  rel_mul hu hu1 (rel_coeff6 h i j) (rel_qq hu hu1 h i j) (by omega)

theorem rel_coeff10 (i j : Fin n) : Rel u (X.coeff10 i j) (X.kc + 4 * X.kQ + 8) := by
  refine rel_div hu hu1 (k := X.kc + 4 * X.kQ + 7) (rel_mul hu hu1 (k := X.kc + 4 * X.kQ + 6)
    (rel_mul hu hu1 (rel_coeff6 h i j)
      (rel_npow hu hu1 (rel_qq hu hu1 h i j) (m := 4 * X.kQ + 5) (by omega)) (by omega))
    (rel_const hu hu1 (by norm_num)) (by omega)) (rel_const hu hu1 (by norm_num)) ?_ (by omega)
  norm_num [val]

/-- The two-body energy of an atom has a small relative error. -/
theorem near_two (i : Fin n) : 0 ≤ -(X.two i).val ∧
    ∀ z, (X.two i).Rounds u z → Near u X.K2 (-(X.two i).val) (-z) := by
  have hn : 1 ≤ n := Nat.one_le_of_lt i.2
  have hm : 4 ≤ X.m := le_trans (by omega) (le_max_right _ _)
  have e6 := rel_sum hu hu1 (m := X.kc + 6 * X.m + 3 + n) (fun j => rel_mul hu hu1
    (rel_coeff6 h i j) (rel_damped hu hu1 h 6 i j) (m := X.kc + 6 * X.m + 4) (by omega))
    (by omega)
  have e8 := rel_sum hu hu1 (m := X.kc + 2 * X.kQ + 8 * X.m + 6 + n) (fun j => rel_mul hu hu1
    (rel_coeff8 hu hu1 h i j) (rel_damped hu hu1 h 8 i j) (m := X.kc + 2 * X.kQ + 8 * X.m + 7)
    (by omega)) (by omega)
  have e := rel_add hu hu1 (m := X.kc + 2 * X.kQ + 8 * X.m + 8 + n)
    (rel_mul hu hu1 (rel_const hu hu1 h.s6) e6 (m := X.kc + 6 * X.m + 4 + n) (by omega))
    (rel_mul hu hu1 (rel_const hu hu1 h.s8) e8 (m := X.kc + 2 * X.kQ + 8 * X.m + 7 + n) (by omega))
    (by omega) (by omega)
  have key : ∀ {f : Ex}, Rel u f (X.K2 - 1) → 0 ≤ -(mul (const (-0.5)) f).val ∧
      ∀ z, (mul (const (-0.5)) f).Rounds u z →
        Near u X.K2 (-(mul (const (-0.5)) f).val) (-z) := by
    intro f hf
    have h0 : (0 : ℝ) ≤ 0.5 * f.val := mul_nonneg (by norm_num) hf.1
    have e3 : -(mul (const (-0.5)) f).val = 0.5 * f.val := by simp only [val]; ring
    rw [e3]
    refine ⟨h0, fun z hz => ?_⟩
    cases hz with
    | @mul _ _ x y _ hx hy hz =>
      cases hx
      have n1 := (near_refl hu hu1 (x := 0.5) (by norm_num) 0).mul hu1 (hf.2 y hy) (by norm_num) hf.1
      have hz' : Fl u (0.5 * y) (-z) := by
        unfold Fl at hz ⊢
        have e1 : -z - 0.5 * y = -(z - -0.5 * y) := by ring
        have e2 : -0.5 * y = -(0.5 * y) := by ring
        rw [e1, abs_neg]
        rw [e2, abs_neg] at hz
        rw [e2]; exact hz
      have n2 := n1.trans hu1 (hz'.near hu hu1 (n1.nonneg hu1 h0))
      refine n2.mono hu hu1 h0 ?_
      have : 1 ≤ X.K2 := by unfold K2; omega
      omega
  unfold two
  dsimp only
  cases h10 : X.s10 with
  | none =>
    simp only
    exact key (rel_mono hu hu1 e (by unfold K2; omega))
  | some s10 =>
    simp only
    have e10 := rel_sum hu hu1 (m := X.kc + 4 * X.kQ + 10 * X.m + 11 + n) (fun j => rel_mul hu hu1
      (rel_coeff10 hu hu1 h i j) (rel_damped hu hu1 h 10 i j) (m := X.kc + 4 * X.kQ + 10 * X.m + 12)
      (by omega)) (by omega)
    refine key ?_
    exact rel_add hu hu1 e (rel_mul hu hu1 (rel_const hu hu1 (h.s10 _ h10)) e10
      (m := X.kc + 4 * X.kQ + 10 * X.m + 12 + n) (by omega)) (by unfold K2; omega) (by unfold K2; omega)

end

/-! ## Three-body energy -/

/-- Product of the distances of a triple, and of its critical radii. -/
noncomputable def prod (X : Input n) (i j k : Fin n) : ℝ := X.d i j * X.d i k * X.d j k
noncomputable def rad0 (X : Input n) (i j k : Fin n) : ℝ :=
  (X.radius i j).val * (X.radius i k).val * (X.radius j k).val

/-- The term of a triple with all terms of the angular factor positive. -/
noncomputable def maj (X : Input n) (i j k : Fin n) : ℝ :=
  if X.Triple i j k ∧ X.d i j ≤ X.cut3 ∧ X.d j k ≤ X.cut3 then
    (0.375 * (X.d i j ^ 2 + X.d i k ^ 2 + X.d j k ^ 2) ^ 3 / X.prod i j k ^ 5 + 1 / X.prod i j k ^ 3) *
      (X.fdamp i j k).val * |X.s9| * (X.c9 i j k).val
  else 0

/-- Roundings of the damping factor, if the exponent `alp / 3` is at most `q (1 - u)` and changes the
base by at most `exp L`. -/
def KF (X : Input n) (q L : ℕ) : ℕ := q * (3 * X.kQ + 3 * X.kd + 20) + L + 4

/-- Number of roundings of the three-body energy of an atom. -/
def K3 (X : Input n) (q L : ℕ) : ℕ := 21 * X.kd + 2 * X.kc + X.KF q L + n * n + 35

section
variable (hu : 0 ≤ u) (hu1 : u < 1) (h : Good u X)

include h in
theorem d2_val (i j : Fin n) : (X.d2 i j).val = X.d i j ^ 2 ∧ 0 < (X.d2 i j).val :=
  ⟨rfl, pow_pos (h.d i j) 2⟩

include h in
theorem prod_pos (i j k : Fin n) : 0 < X.prod i j k :=
  mul_pos (mul_pos (h.d i j) (h.d i k)) (h.d j k)

theorem r2_val (i j k : Fin n) : (X.r2 i j k).val = X.prod i j k ^ 2 := by
  simp only [r2, d2, dist, val, prod]; ring

include h in
theorem r1_val (i j k : Fin n) : (X.r1 i j k).val = X.prod i j k := by
  have e : (X.r1 i j k).val = √(X.r2 i j k).val := rfl
  rw [e, r2_val, Real.sqrt_sq (prod_pos h i j k).le]

include h in
theorem r3_val (i j k : Fin n) : (X.r3 i j k).val = X.prod i j k ^ 3 := by
  have e : (X.r3 i j k).val = (X.r1 i j k).val * (X.r2 i j k).val := rfl
  rw [e, r2_val, r1_val h]; ring

include h in
theorem r5_val (i j k : Fin n) : (X.r5 i j k).val = X.prod i j k ^ 5 := by
  have e : (X.r5 i j k).val = (X.r2 i j k).val * (X.r3 i j k).val := rfl
  rw [e, r2_val, r3_val h]; ring

include h in
theorem radius_pos (i j : Fin n) : 0 < (X.radius i j).val :=
  add_pos_of_nonneg_of_pos (mul_nonneg h.a1 (Real.sqrt_nonneg _)) h.a2

include hu hu1 h

theorem rel_d2 (i j : Fin n) : Rel u (X.d2 i j) (2 * X.kd + 1) :=
  rel_npow hu hu1 (rel_inp (h.d i j).le) (by omega)

theorem rel_r2 (i j k : Fin n) : Rel u (X.r2 i j k) (6 * X.kd + 5) :=
  rel_mul hu hu1 (rel_mul hu hu1 (rel_d2 hu hu1 h i j) (rel_d2 hu hu1 h i k) (m := 4 * X.kd + 3)
    (by omega)) (rel_d2 hu hu1 h j k) (by omega)

theorem rel_r1 (i j k : Fin n) : Rel u (X.r1 i j k) (3 * X.kd + 4) :=
  rel_sqrt hu hu1 (k := 3 * X.kd + 3) (rel_mono hu hu1 (rel_r2 hu hu1 h i j k) (by omega)) (by omega)

theorem rel_r3 (i j k : Fin n) : Rel u (X.r3 i j k) (9 * X.kd + 10) :=
  rel_mul hu hu1 (rel_r1 hu hu1 h i j k) (rel_r2 hu hu1 h i j k) (by omega)

theorem rel_r5 (i j k : Fin n) : Rel u (X.r5 i j k) (15 * X.kd + 16) :=
  rel_mul hu hu1 (rel_r2 hu hu1 h i j k) (rel_r3 hu hu1 h i j k) (by omega)

theorem rel_c9 (i j k : Fin n) : Rel u (X.c9 i j k) (2 * X.kc + 2) := by
  refine rel_sqrt hu hu1 (k := 2 * X.kc + 1) (rel_clamp hu hu1 (rel_abs hu1 ?_) h.ε) (by omega)
  exact rel_mono hu hu1 (rel_mul hu hu1 (rel_mul hu hu1 (rel_inp (h.c6n i j)) (rel_inp (h.c6n i k))
    (m := 2 * X.kc + 1) (by omega)) (rel_inp (h.c6n j k)) (m := 3 * X.kc + 2) (by omega)) (by omega)

theorem rel_radius (i j : Fin n) : Rel u (X.radius i j) (X.kQ + 4) :=
  rel_add hu hu1 (rel_mul hu hu1 (rel_const hu hu1 h.a1)
    (rel_sqrt hu hu1 (rel_clamp hu hu1 (rel_qq hu hu1 h i j) h.ε) (m := X.kQ + 2) (by omega))
    (m := X.kQ + 3) (by omega)) (rel_const hu hu1 h.a2.le) (by omega) (by omega)

theorem rel_fdamp {q L : ℕ} (ha : 0 ≤ X.alp) (hq : X.alp / 3 ≤ q * (1 - u)) (i j k : Fin n)
    (hL : X.alp / 3 * |Real.log (X.rad0 i j k / X.prod i j k)| ≤ L) :
    Rel u (X.fdamp i j k) (X.KF q L) := by
  have h0 : Rel u (mul (mul (X.radius i j) (X.radius i k)) (X.radius j k)) (3 * X.kQ + 14) :=
    rel_mul hu hu1 (rel_mul hu hu1 (rel_radius hu hu1 h i j) (rel_radius hu hu1 h i k)
      (m := 2 * X.kQ + 9) (by omega)) (rel_radius hu hu1 h j k) (by omega)
  have pr := prod_pos h i j k
  have h1 : Rel u (mul (const 1) (div (mul (mul (X.radius i j) (X.radius i k)) (X.radius j k))
      (X.r1 i j k))) (3 * X.kQ + 3 * X.kd + 20) :=
    rel_mul hu hu1 (rel_const hu hu1 zero_le_one) (rel_div hu hu1 h0 (rel_r1 hu hu1 h i j k)
      (by rw [r1_val h]; exact pr) (m := 3 * X.kQ + 3 * X.kd + 19) (by omega)) (by omega)
  have hv : (mul (const 1) (div (mul (mul (X.radius i j) (X.radius i k)) (X.radius j k))
      (X.r1 i j k))).val = X.rad0 i j k / X.prod i j k := by
    have e : (mul (const 1) (div (mul (mul (X.radius i j) (X.radius i k)) (X.radius j k))
      (X.r1 i j k))).val = 1 * ((X.radius i j).val * (X.radius i k).val * (X.radius j k).val /
        (X.r1 i j k).val) := rfl
    rw [e, r1_val h, one_mul]; rfl
  have p0 : 0 < X.rad0 i j k := mul_pos (mul_pos (radius_pos h i j) (radius_pos h i k))
    (radius_pos h j k)
  have h2 := rel_rpow hu hu1 h1 (by rw [hv]; exact div_pos p0 pr) (p := X.alp) (s := 3)
    (l := 1) (q := q) (m := q * (3 * X.kQ + 3 * X.kd + 20) + L + 1) (div_nonneg ha (by norm_num))
    (by rw [Nat.cast_one]; linarith) (by rw [Nat.cast_one, one_mul]; exact hq)
    (by rw [hv]; exact hL) (by omega)
  have h3 := rel_add hu hu1 (rel_const hu hu1 zero_le_one) (rel_mul hu hu1 (rel_const hu hu1
    (c := 6) (by norm_num)) h2 (m := q * (3 * X.kQ + 3 * X.kd + 20) + L + 2) (by omega))
    (m := q * (3 * X.kQ + 3 * X.kd + 20) + L + 3) (by omega) (by omega)
  refine rel_div hu hu1 (rel_const hu hu1 zero_le_one) h3 ?_ (by unfold KF; omega)
  simp only [val]
  have : 0 ≤ (6 : ℝ) * (1 * ((X.radius i j).val * (X.radius i k).val * (X.radius j k).val /
      (X.r1 i j k).val)) ^ (X.alp / 3) := by
    refine mul_nonneg (by norm_num) (Real.rpow_nonneg ?_ _)
    rw [r1_val h, one_mul]
    exact (div_pos p0 pr).le
  linarith

theorem err_angle (i j k : Fin n) :
    Err u (X.angle i j k) (6 * X.kd + 11) ((X.d i j ^ 2 + X.d i k ^ 2 + X.d j k ^ 2) ^ 3) := by
  have x := err_of_rel hu hu1 (rel_d2 hu hu1 h i j)
  have y := err_of_rel hu hu1 (rel_d2 hu hu1 h i k)
  have z := err_of_rel hu hu1 (rel_d2 hu hu1 h j k)
  rw [(d2_val h _ _).1] at x y z
  have f1 := err_sub hu hu1 (err_add hu hu1 x z (m := 2 * X.kd + 2) (by omega) (by omega)) y
    (m := 2 * X.kd + 3) (by omega) (by omega)
  have f2 := err_add hu hu1 (err_sub hu hu1 x z (m := 2 * X.kd + 2) (by omega) (by omega)) y
    (m := 2 * X.kd + 3) (by omega) (by omega)
  have f3 := err_add hu hu1 (err_add hu hu1 (err_neg x) z (m := 2 * X.kd + 2) (by omega) (by omega)) y
    (m := 2 * X.kd + 3) (by omega) (by omega)
  have g := err_mul hu hu1 (err_mul hu hu1 f1 f2 (m := 4 * X.kd + 7) (by omega)) f3
    (m := 6 * X.kd + 11) (by omega)
  exact err_mono hu hu1 g le_rfl (le_of_eq (by ring))

theorem err_ang {i j k : Fin n} (ht : X.Triple i j k) :
    Err u (X.ang i j k) (21 * X.kd + 30) (if X.d i j ≤ X.cut3 ∧ X.d j k ≤ X.cut3 then
      0.375 * (X.d i j ^ 2 + X.d i k ^ 2 + X.d j k ^ 2) ^ 3 / X.prod i j k ^ 5 + 1 / X.prod i j k ^ 3
      else 0) := by
  have pr := prod_pos h i j k
  have p375 : Rel u (const 0.375) 0 := rel_const hu hu1 (by norm_num)
  have a := err_add hu hu1 (m := 21 * X.kd + 30)
    (err_div hu hu1 (err_mul hu hu1 (err_of_rel hu hu1 p375) (err_angle hu hu1 h i j k)
      (m := 6 * X.kd + 12) (by omega)) (rel_r5 hu hu1 h i j k) (by rw [r5_val h]; positivity)
      (m := 21 * X.kd + 29) (by omega))
    (err_div hu hu1 (err_of_rel hu hu1 (rel_const hu hu1 (c := 1) zero_le_one))
      (rel_r3 hu hu1 h i j k) (by rw [r3_val h]; positivity) (m := 9 * X.kd + 11) (by omega))
    (by omega) (by omega)
  rw [r5_val h, r3_val h] at a
  have c2 : Rel u (mul (const X.cut3) (const X.cut3)) 1 :=
    rel_mul hu hu1 (rel_const hu hu1 h.cut3) (rel_const hu hu1 h.cut3) (by omega)
  have cv : (mul (const X.cut3) (const X.cut3)).val = X.cut3 ^ 2 := by simp only [val]; ring
  have tie : ∀ i j, X.Pair i j → (X.d2 i j).val ≤ (1 - u) ^ (2 * X.kd + 1 + 1) *
      (mul (const X.cut3) (const X.cut3)).val ∨
      (mul (const X.cut3) (const X.cut3)).val < (1 - u) ^ (2 * X.kd + 1 + 1) * (X.d2 i j).val := by
    intro i j hp
    rw [cv, (d2_val h i j).1]
    exact h.tie3 i j hp
  obtain ⟨t1, t2, t3, t4, t5, t6⟩ := ht
  have b := err_sel hu hu1 (rel_d2 hu hu1 h i j) c2 (tie i j ⟨t1, t2, t4⟩)
    (err_sel hu hu1 (rel_d2 hu hu1 h j k) c2 (tie j k ⟨t2, t3, t6⟩)
      (err_sel hu hu1 (rel_d2 hu hu1 h j k) c2 (tie j k ⟨t2, t3, t6⟩) a))
  have hsq : ∀ i j, (X.d2 i j).val ≤ (mul (const X.cut3) (const X.cut3)).val ↔ X.d i j ≤ X.cut3 := by
    intro i j
    rw [cv, (d2_val h i j).1]
    exact pow_le_pow_iff_left₀ (h.d i j).le h.cut3 two_ne_zero
  refine err_mono hu hu1 b le_rfl (le_of_eq ?_)
  rw [if_congr (hsq i j) rfl rfl, if_congr (hsq j k) rfl rfl, if_congr (hsq j k) rfl rfl]
  by_cases h1 : X.d i j ≤ X.cut3 <;> by_cases h2 : X.d j k ≤ X.cut3 <;> simp [h1, h2, val]

theorem err_triple {q L : ℕ} (ha : 0 ≤ X.alp) (hq : X.alp / 3 ≤ q * (1 - u))
    (hL : ∀ i j k, X.Triple i j k →
      X.alp / 3 * |Real.log (X.rad0 i j k / X.prod i j k)| ≤ L) (i j k : Fin n) :
    Err u (X.triple i j k) (21 * X.kd + 2 * X.kc + X.KF q L + 35) (X.maj i j k) := by
  unfold triple maj
  by_cases ht : X.Triple i j k
  · rw [if_pos ht]
    have f := rel_fdamp hu hu1 h ha hq i j k (hL i j k ht)
    have s : Err u (const X.s9) 0 |X.s9| :=
      ⟨le_rfl, fun z hz => by cases hz; exact ⟨le_rfl, by simp [val]⟩⟩
    have a := err_mul hu hu1 (err_mul hu hu1 (err_mul hu hu1 (err_ang hu hu1 h ht)
      (err_of_rel hu hu1 f) (m := 21 * X.kd + X.KF q L + 31) (by omega)) s
      (m := 21 * X.kd + X.KF q L + 32) (by omega)) (err_of_rel hu hu1 (rel_c9 hu hu1 h i j k))
      (m := 21 * X.kd + 2 * X.kc + X.KF q L + 35) (by omega)
    refine err_mono hu hu1 a le_rfl (le_of_eq ?_)
    by_cases hc : X.d i j ≤ X.cut3 ∧ X.d j k ≤ X.cut3
    · rw [if_pos hc, if_pos ⟨ht, hc⟩]
    · rw [if_neg hc, if_neg fun hh => hc hh.2]; ring
  · rw [if_neg ht, if_neg fun hh => ht hh.1]
    exact err_zero

/-- The three-body energy of an atom. -/
theorem err_three {q L : ℕ} (ha : 0 ≤ X.alp) (hq : X.alp / 3 ≤ q * (1 - u))
    (hL : ∀ i j k, X.Triple i j k →
      X.alp / 3 * |Real.log (X.rad0 i j k / X.prod i j k)| ≤ L) (i : Fin n) :
    Err u (X.three i) (X.K3 q L) ((∑ j, ∑ k, X.maj i j k) / 6) := by
  have hn : 1 ≤ n * n := Nat.one_le_iff_ne_zero.2 (Nat.mul_ne_zero (Nat.ne_of_gt (Nat.one_le_of_lt i.2))
    (Nat.ne_of_gt (Nat.one_le_of_lt i.2)))
  have s := err_sum hu hu1 (n := n * n) (fun m => err_triple hu hu1 h ha hq hL i
    (finProdFinEquiv.symm m).1 (finProdFinEquiv.symm m).2) le_rfl
  have d := err_div hu hu1 s (rel_const hu hu1 (c := 6) (by norm_num)) (by norm_num [val])
    (m := X.K3 q L) (by unfold K3; omega)
  refine err_mono hu hu1 d le_rfl (le_of_eq ?_)
  have e : ∑ m : Fin (n * n), X.maj i (finProdFinEquiv.symm m).1 (finProdFinEquiv.symm m).2 =
      ∑ p : Fin n × Fin n, X.maj i p.1 p.2 :=
    Fintype.sum_equiv finProdFinEquiv.symm _ _ fun _ => rfl
  rw [e, Fintype.sum_prod_type]
  rfl

/-- The energy of an atom. -/
theorem err_energy {q L : ℕ} (ha : 0 ≤ X.alp) (hq : X.alp / 3 ≤ q * (1 - u))
    (hL : ∀ i j k, X.Triple i j k →
      X.alp / 3 * |Real.log (X.rad0 i j k / X.prod i j k)| ≤ L) (i : Fin n) :
    Err u (X.energy i) (max (X.K2 + 1) (X.K3 q L) + 1)
      (-(X.two i).val + (∑ j, ∑ k, X.maj i j k) / 6) := by
  have hp := (near_two hu hu1 h i).1
  have t : Err u (X.two i) X.K2 (-(X.two i).val) := by
    refine ⟨by rw [abs_of_nonpos (by linarith)], fun z hz => ?_⟩
    have := ((near_two hu hu1 h i).2 z hz |>.dev hu hu1 hp).neg
    rwa [neg_neg, neg_neg] at this
  have a := err_add hu hu1 (err_zero (u := u) (k := 0)) t (m := X.K2 + 1) (by omega) (by omega)
  have b := err_add hu hu1 a (err_three hu hu1 h ha hq hL i)
    (m := max (X.K2 + 1) (X.K3 q L) + 1) (by omega) (by omega)
  rw [zero_add] at b
  exact b

end

end TadDftd4.Rounded.Input

namespace TadDftd4.Rounded

open Ex

/-! ## Machines -/

/-- Sum of numbers, rounded after each addition. -/
noncomputable def flSum (fl : ℝ → ℝ) : List ℝ → ℝ
  | [] => 0
  | [x] => x
  | x :: y :: l => fl (x + flSum fl (y :: l))

/-- Evaluation by a machine that rounds the result of every operation by `fl`, and the input once. -/
noncomputable def Ex.run (fl : ℝ → ℝ) : Ex → ℝ
  | inp x k => if k = 0 then x else fl x
  | const c => c
  | neg a => -a.run fl
  | add a b => fl (a.run fl + b.run fl)
  | sub a b => fl (a.run fl - b.run fl)
  | mul a b => fl (a.run fl * b.run fl)
  | div a b => fl (a.run fl / b.run fl)
  | sqrt a => fl √(a.run fl)
  | abs a => |a.run fl|
  | clampMin a c => max (a.run fl) c
  | npow a k => fl (a.run fl ^ k)
  | rpow a p q k => fl (a.run fl ^ (if k = 0 then p / q else fl (p / q)))
  | exp a => fl (Real.exp (a.run fl))
  | sum n f => flSum fl ((List.finRange n).map fun i => (f i).run fl)
  | sel a b x y => if a.run fl ≤ b.run fl then x.run fl else y.run fl

theorem sumOf_fl {u : ℝ} {n : ℕ} {fl : ℝ → ℝ} (hfl : ∀ x, Fl u x (fl x)) (v : Fin n → ℝ) :
    ∀ l : List (Fin n), l ≠ [] → SumOf u v (l : Multiset (Fin n)) (flSum fl (l.map v))
  | [], h => (h rfl).elim
  | [i], _ => .one i
  | i :: j :: l, _ => by
    have h := sumOf_fl hfl v (j :: l) (by simp)
    exact SumOf.add (a := {i}) (.one i) h (hfl _)

theorem Ex.Proper.run {u : ℝ} (hu : 0 ≤ u) (hu1 : u < 1) {fl : ℝ → ℝ} (hfl : ∀ x, Fl u x (fl x))
    {e : Ex} (h : e.Proper) : e.Rounds u (e.run fl) := by
  induction e with
  | inp x k =>
    refine .inp ?_
    by_cases hk : k = 0
    · rw [Ex.run, if_pos hk]; exact near_refl hu hu1 h k
    · rw [Ex.run, if_neg hk]
      exact ((hfl x).near hu hu1 h).mono hu hu1 h (Nat.one_le_iff_ne_zero.2 hk)
  | const c => exact .const c
  | neg a ha => exact .neg (ha h)
  | add a b ha hb => exact .add (ha h.1) (hb h.2) (hfl _)
  | sub a b ha hb => exact .sub (ha h.1) (hb h.2) (hfl _)
  | mul a b ha hb => exact .mul (ha h.1) (hb h.2) (hfl _)
  | div a b ha hb => exact .div (ha h.1) (hb h.2) (hfl _)
  | sqrt a ha => exact .sqrt (ha h) (hfl _)
  | abs a ha => exact .abs (ha h)
  | clampMin a c ha => exact .clampMin (ha h)
  | npow a k ha => exact .npow (ha h) (hfl _)
  | rpow a p q k ha =>
    refine .rpow (ha h) ?_ (hfl _)
    by_cases hk : k = 0
    · rw [if_pos hk]; unfold Fl; rw [sub_self, abs_zero]; positivity
    · rw [if_neg hk]
      refine (hfl (p / q)).trans (mul_le_mul_of_nonneg_right ?_ (abs_nonneg _))
      exact le_mul_of_one_le_left hu (by exact_mod_cast Nat.one_le_iff_ne_zero.2 hk)
  | exp a ha => exact .exp (ha h) (hfl _)
  | sum n f hf =>
    refine .sum (fun i => hf i (h.2 i)) ?_
    refine sumOf_fl hfl (fun i => (f i).run fl) (List.finRange n) ?_
    intro h0
    have := congrArg List.length h0
    simp at this
    exact h.1.ne' this
  | sel a b x y ha hb hx hy =>
    simp only [Ex.run]
    split_ifs with hc
    · exact .sel_le (ha h.1) (hb h.2.1) hc (hx h.2.2.1)
    · exact .sel_gt (ha h.1) (hb h.2.1) (not_le.1 hc) (hy h.2.2.2)

theorem Input.proper {n : ℕ} {u : ℝ} {X : Input n} (h : Input.Good u X) (i : Fin n) :
    (X.energy i).Proper := by
  have hn : 0 < n := lt_of_le_of_lt (Nat.zero_le _) i.2
  have dist : ∀ i j, (X.dist i j).Proper := fun i j => (h.d i j).le
  have qq : ∀ i j, (X.qq i j).Proper := fun i j => ⟨⟨trivial, h.Q i⟩, h.Q j⟩
  have rat : ∀ k i j, (X.rational k i j).Proper := fun k i j =>
    ⟨trivial, dist i j, ⟨trivial, qq i j⟩, trivial⟩
  have damped : ∀ k i j, (X.damped k i j).Proper := by
    intro k i j
    unfold Input.damped
    split_ifs
    · exact ⟨dist i j, trivial, rat k i j, trivial⟩
    · trivial
  have two : (X.two i).Proper := by
    unfold Input.two
    have e6 : (sum n fun j => mul (X.coeff6 i j) (X.damped 6 i j)).Proper :=
      ⟨hn, fun j => ⟨h.c6 i j, damped 6 i j⟩⟩
    have e8 : (sum n fun j => mul (X.coeff8 i j) (X.damped 8 i j)).Proper :=
      ⟨hn, fun j => ⟨⟨h.c6 i j, qq i j⟩, damped 8 i j⟩⟩
    have e10 : (sum n fun j => mul (X.coeff10 i j) (X.damped 10 i j)).Proper :=
      ⟨hn, fun j => ⟨⟨⟨⟨h.c6 i j, qq i j⟩, trivial⟩, trivial⟩, damped 10 i j⟩⟩
    cases X.s10
    · exact ⟨trivial, ⟨trivial, e6⟩, trivial, e8⟩
    · exact ⟨trivial, ⟨⟨trivial, e6⟩, trivial, e8⟩, trivial, e10⟩
  have d2 : ∀ i j, (X.d2 i j).Proper := dist
  have r2 : ∀ i j k, (X.r2 i j k).Proper := fun i j k => ⟨⟨d2 i j, d2 i k⟩, d2 j k⟩
  have r3 : ∀ i j k, (X.r3 i j k).Proper := fun i j k => ⟨r2 i j k, r2 i j k⟩
  have rad : ∀ i j, (X.radius i j).Proper := fun i j => ⟨⟨trivial, qq i j⟩, trivial⟩
  have fdamp : ∀ i j k, (X.fdamp i j k).Proper := fun i j k =>
    ⟨trivial, trivial, trivial, trivial, ⟨⟨rad i j, rad i k⟩, rad j k⟩, r2 i j k⟩
  have angle : ∀ i j k, (X.angle i j k).Proper := fun i j k =>
    ⟨⟨⟨⟨d2 i j, d2 j k⟩, d2 i k⟩, ⟨d2 i j, d2 j k⟩, d2 i k⟩, ⟨d2 i j, d2 j k⟩, d2 i k⟩
  have ang : ∀ i j k, (X.ang i j k).Proper := fun i j k =>
    have c : (mul (const X.cut3) (const X.cut3)).Proper := ⟨trivial, trivial⟩
    ⟨d2 i j, c, ⟨d2 j k, c, ⟨d2 j k, c, ⟨⟨⟨trivial, angle i j k⟩, r2 i j k, r3 i j k⟩, trivial,
      r3 i j k⟩, trivial⟩, trivial⟩, trivial⟩
  have triple : ∀ i j k, (X.triple i j k).Proper := by
    intro i j k
    unfold Input.triple
    split_ifs
    · exact ⟨⟨⟨ang i j k, fdamp i j k⟩, trivial⟩, ⟨h.c6n i j, h.c6n i k⟩, h.c6n j k⟩
    · trivial
  exact ⟨⟨trivial, two⟩, ⟨Nat.mul_pos hn hn, fun m => triple _ _ _⟩, trivial⟩

/-! ## Exact values -/

/-- The input for a molecule. -/
noncomputable def Input.of {n : ℕ} (S : Spec.Settings) (P : Spec.D4Par) (M : Spec.Mol n)
    (s10 : Option ℝ) (kd kc kQ : ℕ) : Input n where
  Z := M.Z
  d := M.r S.ε
  c6 i j := S.c6 (M.atom i) (M.atom j)
  c6n i j := S.c6 (M.neutral i) (M.neutral j)
  Q := M.Q
  kd := kd
  kc := kc
  kQ := kQ
  ε := S.ε
  s6 := P.s6
  s8 := P.s8
  s10 := s10
  s9 := P.s9
  a1 := P.a1
  a2 := P.a2
  alp := P.alp
  cut2 := S.cut2
  cut3 := S.cut3

/-- Settings of DFT-D4 with other C6 coefficients. -/
noncomputable abbrev withC6 (C : Spec.C6Settings) (ε : ℝ) (P : Spec.D4Par) (cut2 cut3 : ℝ)
    (c : Spec.AtomData → Spec.AtomData → ℝ) : Spec.Settings :=
  { Spec.d4Settings C ε P cut2 cut3 with c6 := c }

section
variable {n : ℕ} {C : Spec.C6Settings} {ε cut2 cut3 : ℝ} {P : Spec.D4Par}
  {c : Spec.AtomData → Spec.AtomData → ℝ} {M : Spec.Mol n} {s10 : Option ℝ} {kd kc kQ : ℕ}

local notation "S" => withC6 C ε P cut2 cut3 c
local notation "X" => Input.of (withC6 C ε P cut2 cut3 c) P M s10 kd kc kQ

theorem Input.damped_val (k : ℕ) (i j : Fin n) : ((X).damped k i j).val =
    if (M.Z i ≠ 0 ∧ M.Z j ≠ 0 ∧ i ≠ j ∧ M.r ε i j ≤ cut2) then
      1 / (M.r ε i j ^ k + (P.a1 * √(3 * M.Q i * M.Q j) + P.a2) ^ k) else 0 := by
  unfold Input.damped
  by_cases hp : (X).Pair i j
  · rw [if_pos hp]
    have e : (sel ((X).dist i j) (const (X).cut2) ((X).rational k i j) (const 0)).val =
      if M.r ε i j ≤ cut2 then 1 / (M.r ε i j ^ k + (P.a1 * √(3 * M.Q i * M.Q j) + P.a2) ^ k) else 0 :=
      rfl
    rw [e]
    refine if_congr ?_ rfl rfl
    obtain ⟨h1, h2, h3⟩ := hp
    exact ⟨fun h => ⟨h1, h2, h3, h⟩, fun h => h.2.2.2⟩
  · rw [if_neg hp, if_neg fun h => hp ⟨h.1, h.2.1, h.2.2.1⟩]
    rfl

theorem Input.two_val (h10 : s10 = some P.s10 ∨ s10 = none ∧ P.s10 = 0) (i : Fin n) :
    ((X).two i).val = Spec.e2 S M M.atom i := by
  have key : ((X).two i).val = -0.5 * (P.s6 * ∑ j, c (M.atom i) (M.atom j) * ((X).damped 6 i j).val +
      P.s8 * ∑ j, c (M.atom i) (M.atom j) * (3 * M.Q i * M.Q j) * ((X).damped 8 i j).val +
      P.s10 * ∑ j, c (M.atom i) (M.atom j) * (3 * M.Q i * M.Q j) ^ 2 * 49 / 40 *
        ((X).damped 10 i j).val) := by
    rcases h10 with rfl | ⟨rfl, h0⟩
    · rfl
    · rw [h0, zero_mul, add_zero]
      rfl
  rw [key, Finset.mul_sum, Finset.mul_sum, Finset.mul_sum, ← Finset.sum_add_distrib,
    ← Finset.sum_add_distrib]
  unfold Spec.e2
  congr 1
  · norm_num
  · refine Finset.sum_congr rfl fun j _ => ?_
    rw [Input.damped_val, Input.damped_val, Input.damped_val]
    by_cases hp : M.Z i ≠ 0 ∧ M.Z j ≠ 0 ∧ i ≠ j ∧ M.r ε i j ≤ cut2
    · rw [if_pos hp, if_pos hp, if_pos hp]
      refine Eq.trans ?_ (if_pos hp).symm
      rfl
    · rw [if_neg hp, if_neg hp, if_neg hp]
      refine Eq.trans ?_ (if_neg hp).symm
      ring

/-- The angular factor with all terms positive. -/
theorem Input.triple_val (hε : 0 < ε) (hc : 0 ≤ cut3) (i j k : Fin n) :
    ((X).triple i j k).val =
    if M.Z i ≠ 0 ∧ M.Z j ≠ 0 ∧ M.Z k ≠ 0 ∧ i ≠ j ∧ i ≠ k ∧ j ≠ k ∧ Spec.withinCut3 S M i j k then
      Spec.tripleTerm S M (Spec.c9 S M.neutral) (Spec.R0 S M) i j k else 0 := by
  unfold Input.triple
  by_cases ht : (X).Triple i j k
  · rw [if_pos ht]
    obtain ⟨h1, h2, h3, h4, h5, h6⟩ := ht
    have p1 : 0 < M.r ε i j := M.r_pos hε i j
    have p2 : 0 < M.r ε i k := M.r_pos hε i k
    have p3 : 0 < M.r ε j k := M.r_pos hε j k
    have hsq : ∀ d : ℝ, 0 < d → (d ^ 2 ≤ cut3 * cut3 ↔ d ≤ cut3) := by
      intro d hd
      rw [← sq]
      exact pow_le_pow_iff_left₀ hd.le hc two_ne_zero
    obtain ⟨x, hx⟩ : ∃ x, x = M.r ε i j := ⟨_, rfl⟩
    obtain ⟨y, hy⟩ : ∃ y, y = M.r ε i k := ⟨_, rfl⟩
    obtain ⟨z, hz⟩ : ∃ z, z = M.r ε j k := ⟨_, rfl⟩
    rw [← hx] at p1
    rw [← hy] at p2
    rw [← hz] at p3
    have hsqrt : √(x ^ 2 * y ^ 2 * z ^ 2) = x * y * z := by
      rw [← mul_pow, ← mul_pow, Real.sqrt_sq (by positivity)]
    have e0 : (mul (mul (mul ((X).ang i j k) ((X).fdamp i j k)) (const (X).s9)) ((X).c9 i j k)).val =
        ((X).ang i j k).val * ((X).fdamp i j k).val * P.s9 * Spec.c9 S M.neutral i j k := rfl
    have e1 : ((X).ang i j k).val = if x ≤ cut3 ∧ z ≤ cut3 then
        0.375 * ((x ^ 2 + z ^ 2 - y ^ 2) * (x ^ 2 - z ^ 2 + y ^ 2) * (-x ^ 2 + z ^ 2 + y ^ 2)) /
          (x ^ 2 * y ^ 2 * z ^ 2 * (x * y * z * (x ^ 2 * y ^ 2 * z ^ 2))) +
        1 / (x * y * z * (x ^ 2 * y ^ 2 * z ^ 2)) else 0 := by
      have e : ((X).ang i j k).val = if x ^ 2 ≤ cut3 * cut3 then if z ^ 2 ≤ cut3 * cut3 then
          if z ^ 2 ≤ cut3 * cut3 then
          0.375 * ((x ^ 2 + z ^ 2 - y ^ 2) * (x ^ 2 - z ^ 2 + y ^ 2) * (-x ^ 2 + z ^ 2 + y ^ 2)) /
            (x ^ 2 * y ^ 2 * z ^ 2 * (√(x ^ 2 * y ^ 2 * z ^ 2) * (x ^ 2 * y ^ 2 * z ^ 2))) +
          1 / (√(x ^ 2 * y ^ 2 * z ^ 2) * (x ^ 2 * y ^ 2 * z ^ 2)) else 0 else 0 else 0 := by
        rw [hx, hy, hz]
        rfl
      rw [e, hsqrt, if_congr (hsq x p1) rfl rfl, if_congr (hsq z p3) rfl rfl,
        if_congr (hsq z p3) rfl rfl]
      by_cases h1 : x ≤ cut3 <;> by_cases h2 : z ≤ cut3 <;> simp [h1, h2]
    have e2 : ((X).fdamp i j k).val = (S).f9 (Spec.R0 S M i j * Spec.R0 S M i k * Spec.R0 S M j k)
        (x * y * z) := by
      have e : ((X).fdamp i j k).val = 1 / (1 + 6 * (1 * (Spec.R0 S M i j * Spec.R0 S M i k *
          Spec.R0 S M j k / √(x ^ 2 * y ^ 2 * z ^ 2))) ^ (P.alp / 3)) := by
        rw [hx, hy, hz]
        rfl
      rw [e, hsqrt, one_mul]
      rfl
    rw [e0, e1, e2]
    by_cases hw : x ≤ cut3 ∧ z ≤ cut3
    · have hw' : Spec.withinCut3 S M i j k := by rw [hx, hz] at hw; exact hw
      rw [if_pos hw]
      refine Eq.trans ?_ (if_pos ⟨h1, h2, h3, h4, h5, h6, hw'⟩).symm
      unfold Spec.tripleTerm
      dsimp only
      have q1 : M.r (S).ε i j = x := hx.symm
      have q2 : M.r (S).ε i k = y := hy.symm
      have q3 : M.r (S).ε j k = z := hz.symm
      rw [q1, q2, q3]
      generalize (S).f9 (Spec.R0 S M i j * Spec.R0 S M i k * Spec.R0 S M j k) (x * y * z) = f
      generalize Spec.c9 S M.neutral i j k = c9
      have q4 : (S).s9 = P.s9 := rfl
      rw [q4]
      unfold Spec.cosSides
      field_simp
      ring
    · rw [if_neg hw]
      refine Eq.trans ?_ (if_neg fun h => hw ?_).symm
      · ring
      · have := h.2.2.2.2.2.2
        rw [hx, hz]; exact this
  · rw [if_neg ht, if_neg fun h => ht ⟨h.1, h.2.1, h.2.2.1, h.2.2.2.1, h.2.2.2.2.1, h.2.2.2.2.2.1⟩]
    rfl

theorem Input.fdamp_val (hε : 0 < ε) (i j k : Fin n) : ((X).fdamp i j k).val =
    (S).f9 (Spec.R0 S M i j * Spec.R0 S M i k * Spec.R0 S M j k) (M.r ε i j * M.r ε i k * M.r ε j k) := by
  have p1 : 0 < M.r ε i j := M.r_pos hε i j
  have p2 : 0 < M.r ε i k := M.r_pos hε i k
  have p3 : 0 < M.r ε j k := M.r_pos hε j k
  have hsqrt : √(M.r ε i j ^ 2 * M.r ε i k ^ 2 * M.r ε j k ^ 2) = M.r ε i j * M.r ε i k * M.r ε j k := by
    rw [← mul_pow, ← mul_pow, Real.sqrt_sq (by positivity)]
  have e : ((X).fdamp i j k).val = 1 / (1 + 6 * (1 * (Spec.R0 S M i j * Spec.R0 S M i k *
      Spec.R0 S M j k / √(M.r ε i j ^ 2 * M.r ε i k ^ 2 * M.r ε j k ^ 2))) ^ (P.alp / 3)) := rfl
  rw [e, hsqrt, one_mul]
  rfl

theorem Input.three_val (hε : 0 < ε) (hc : 0 ≤ cut3) (i : Fin n) :
    ((X).three i).val = Spec.e3 S M (Spec.c9 S M.neutral) (Spec.R0 S M) i := by
  have e : ((X).three i).val = (∑ m : Fin (n * n), ((X).triple i (finProdFinEquiv.symm m).1
      (finProdFinEquiv.symm m).2).val) / 6 := rfl
  have e' : ∑ m : Fin (n * n), ((X).triple i (finProdFinEquiv.symm m).1
      (finProdFinEquiv.symm m).2).val = ∑ p : Fin n × Fin n, ((X).triple i p.1 p.2).val :=
    Fintype.sum_equiv finProdFinEquiv.symm _ _ fun _ => rfl
  rw [e, e', Fintype.sum_prod_type]
  unfold Spec.e3
  rw [div_eq_inv_mul, show (6 : ℝ)⁻¹ = 1 / 6 by norm_num]
  congr 1
  refine Finset.sum_congr rfl fun j _ => Finset.sum_congr rfl fun k _ => ?_
  exact Input.triple_val hε hc i j k

/-- The exact value is the energy. -/
theorem Input.energy_val (h10 : s10 = some P.s10 ∨ s10 = none ∧ P.s10 = 0) (hε : 0 < ε)
    (hc : 0 ≤ cut3) (i : Fin n) : ((X).energy i).val = Spec.energy S M i := by
  have e : ((X).energy i).val = 0 + ((X).two i).val + ((X).three i).val := rfl
  rw [e, zero_add, Input.two_val h10, Input.three_val hε hc]
  rfl

end

end TadDftd4.Rounded
