import Verif.Props.C04
import Verif.Props.C11
import Verif.Props.C47
import Mathlib.Analysis.Convex.Between
import Mathlib.Geometry.Euclidean.Angle.Unoriented.Affine

/-!
# C67: sign and size of the three-body energy

Repulsive for triangles without obtuse angle, attractive for atoms on a line, and at most 11/8 (at the
equilateral triangle) and at least -2 (on a line) times `s9 C9 / (r_ab r_bc r_ca)³`.
-/

open scoped Classical EuclideanGeometry

namespace TadDftd4

open Tensor

namespace Spec

/-- Angular factor of the triangle of three points. -/
noncomputable def angular (a b c : E3) : ℝ :=
  3 * Real.cos (∠ b a c) * Real.cos (∠ a b c) * Real.cos (∠ a c b) + 1

/-- No interior angle of the triangle is larger than 90°. -/
def NonObtuse (a b c : E3) : Prop := ∠ b a c ≤ Real.pi / 2 ∧ ∠ a b c ≤ Real.pi / 2 ∧ ∠ a c b ≤ Real.pi / 2

theorem angles_sum {a b c : E3} (h : b ≠ a) : ∠ b a c + ∠ a b c + ∠ a c b = Real.pi := by
  have := EuclideanGeometry.angle_add_angle_add_angle_eq_pi c h
  rw [EuclideanGeometry.angle_comm b c a, EuclideanGeometry.angle_comm c a b] at this
  linarith

theorem angular_le {a b c : E3} (h : b ≠ a) : angular a b c ≤ 11 / 8 := by
  have hs := angles_sum (c := c) h
  unfold angular
  generalize ∠ b a c = A at *
  generalize ∠ a b c = B at *
  rw [show ∠ a c b = Real.pi - (A + B) by linarith, Real.cos_pi_sub]
  have h1 := Real.cos_add A B
  have h2 := Real.cos_sub A B
  have h3 := Real.cos_sq_le_one (A - B)
  have h4 : Real.cos A * Real.cos B = (Real.cos (A + B) + Real.cos (A - B)) / 2 := by linarith
  rw [mul_assoc 3, h4]
  nlinarith [sq_nonneg (2 * Real.cos (A + B) + Real.cos (A - B))]

theorem le_angular (a b c : E3) : -2 ≤ angular a b c := by
  unfold angular
  have h : ∀ x y z : ℝ, |x| ≤ 1 → |y| ≤ 1 → |z| ≤ 1 → -1 ≤ x * y * z := by
    intro x y z hx hy hz
    have : |x * y * z| ≤ 1 := by
      rw [abs_mul, abs_mul]
      exact mul_le_one₀ (mul_le_one₀ hx (abs_nonneg _) hy) (abs_nonneg _) hz
    exact (abs_le.1 this).1
  have := h _ _ _ (Real.abs_cos_le_one (∠ b a c)) (Real.abs_cos_le_one (∠ a b c))
    (Real.abs_cos_le_one (∠ a c b))
  linarith

theorem one_le_angular {a b c : E3} (h : NonObtuse a b c) : 1 ≤ angular a b c := by
  unfold angular
  have hc : ∀ x, 0 ≤ x → x ≤ Real.pi / 2 → 0 ≤ Real.cos x := fun x h1 h2 =>
    Real.cos_nonneg_of_mem_Icc ⟨by linarith [Real.pi_pos], h2⟩
  have h1 := hc _ (EuclideanGeometry.angle_nonneg b a c) h.1
  have h2 := hc _ (EuclideanGeometry.angle_nonneg a b c) h.2.1
  have h3 := hc _ (EuclideanGeometry.angle_nonneg a c b) h.2.2
  have := mul_nonneg (mul_nonneg h1 h2) h3
  linarith

theorem angular_line {a b c : E3} (hab : a ≠ b) (hac : a ≠ c) (hbc : b ≠ c)
    (h : Collinear ℝ {a, b, c}) : angular a b c = -2 := by
  have hs := angles_sum (c := c) hab.symm
  have p1 := EuclideanGeometry.angle_nonneg b a c
  have p2 := EuclideanGeometry.angle_nonneg a b c
  have p3 := EuclideanGeometry.angle_nonneg a c b
  unfold angular
  rcases h.wbtw_or_wbtw_or_wbtw with h | h | h
  · have e : ∠ a b c = Real.pi := Sbtw.angle₁₂₃_eq_pi ⟨h, hab.symm, hbc⟩
    rw [e, show ∠ b a c = 0 by linarith, show ∠ a c b = 0 by linarith]
    norm_num
  · have e : ∠ b c a = Real.pi := Sbtw.angle₁₂₃_eq_pi ⟨h, hbc.symm, hac.symm⟩
    rw [EuclideanGeometry.angle_comm b c a] at e
    rw [e, show ∠ b a c = 0 by linarith, show ∠ a b c = 0 by linarith]
    norm_num
  · have e : ∠ c a b = Real.pi := Sbtw.angle₁₂₃_eq_pi ⟨h, hac, hab⟩
    rw [EuclideanGeometry.angle_comm c a b] at e
    rw [e, show ∠ a b c = 0 by linarith, show ∠ a c b = 0 by linarith]
    norm_num

theorem angular_equilateral {a b c : E3} (hab : a ≠ b) (h1 : dist a c = dist a b)
    (h2 : dist b c = dist a b) : angular a b c = 11 / 8 := by
  have hac : a ≠ c := by
    rw [← dist_pos, h1]; exact dist_pos.2 hab
  have hbc : b ≠ c := by
    rw [← dist_pos, h2]; exact dist_pos.2 hab
  have hd : dist a b ≠ 0 := dist_ne_zero.2 hab
  have e1 := cosSides_eq_cos hab.symm hac.symm
  have e2 := cosSides_eq_cos hab hbc.symm
  have e3 := cosSides_eq_cos hac hbc
  rw [dist_comm b a] at e2
  rw [dist_comm c a, dist_comm c b] at e3
  unfold angular
  rw [← e1, ← e2, ← e3, h1, h2]
  unfold cosSides
  field_simp
  norm_num

/-- Everything but the angular factor. -/
theorem atm_eq (s9 C9 alp R0 : ℝ) (a b c : E3) : atm s9 C9 alp R0 a b c =
    C9 * s9 * (1 / (1 + 6 * (R0 / (dist a b * dist a c * dist b c)) ^ (alp / 3))) /
      (dist a b * dist a c * dist b c) ^ 3 * angular a b c := by
  unfold atm angular
  ring

end Spec

section
variable {env : Env} {numbers : Tensor ℕ} {positions c9 radii : Tensor ℝ} {n : ℕ} {B : Shape}
  {cut s9 alp : ℝ} {b : Idx}

/-- Non-negative C9 coefficients and critical radii of entry `b`. -/
structure D3Nonneg (c9 radii : Tensor ℝ) (n : ℕ) (b : Idx) : Prop where
  c9 : ∀ i j k : Fin n, 0 ≤ c9.get (k.1 :: j.1 :: i.1 :: b)
  radii : ∀ i j : Fin n, 0 ≤ radii.get (j.1 :: i.1 :: b)

/-- The undamped triple contribution `s9 C9 / (r_ij r_ik r_jk)³` of three atoms, with its share of one
sixth in the energy of an atom, added up over the triples that contribute to the energy. -/
noncomputable def atmScale (numbers : Tensor ℕ) (positions c9 : Tensor ℝ) (n : ℕ) (cut s9 : ℝ) (b : Idx)
    (i : Fin n) : ℝ :=
  (∑ j : Fin n, ∑ k : Fin n, if RealTriple numbers b i j k ∧
      dist (coords positions n b i) (coords positions n b j) ≤ cut ∧
      dist (coords positions n b j) (coords positions n b k) ≤ cut then
    s9 * c9.get (k.1 :: j.1 :: i.1 :: b) / (dist (coords positions n b i) (coords positions n b j) *
      dist (coords positions n b i) (coords positions n b k) *
      dist (coords positions n b j) (coords positions n b k)) ^ 3 else 0) / 6

theorem D3Nonneg.term (hn : D3Nonneg c9 radii n b) (hs : 0 ≤ s9)
    (hsep : Separated env numbers positions n b) {i j k : Fin n} (hr : RealTriple numbers b i j k) :
    ∃ w, 0 ≤ w ∧ w ≤ s9 * c9.get (k.1 :: j.1 :: i.1 :: b) /
        (dist (coords positions n b i) (coords positions n b j) *
        dist (coords positions n b i) (coords positions n b k) *
        dist (coords positions n b j) (coords positions n b k)) ^ 3 ∧
      atmAt positions c9 radii n s9 alp b i j k = w *
        Spec.angular (coords positions n b i) (coords positions n b j) (coords positions n b k) := by
  obtain ⟨hi, hj, hk, hij, hik, hjk⟩ := hr
  have d1 := dist_pos.2 (hsep.ne hi hj hij)
  have d2 := dist_pos.2 (hsep.ne hi hk hik)
  have d3 := dist_pos.2 (hsep.ne hj hk hjk)
  refine ⟨_, ?_, ?_, by unfold atmAt; rw [Spec.atm_eq]⟩
  all_goals
    generalize dist (coords positions n b i) (coords positions n b j) = x at *
    generalize dist (coords positions n b i) (coords positions n b k) = y at *
    generalize dist (coords positions n b j) (coords positions n b k) = z at *
    have hC := hn.c9 i j k
    have hR : 0 ≤ radii.get (j.1 :: i.1 :: b) * radii.get (k.1 :: i.1 :: b) *
        radii.get (k.1 :: j.1 :: b) :=
      mul_nonneg (mul_nonneg (hn.radii i j) (hn.radii i k)) (hn.radii j k)
    have hp : 0 ≤ (radii.get (j.1 :: i.1 :: b) * radii.get (k.1 :: i.1 :: b) *
        radii.get (k.1 :: j.1 :: b) / (x * y * z)) ^ (alp / 3) := Real.rpow_nonneg (by positivity) _
    generalize (radii.get (j.1 :: i.1 :: b) * radii.get (k.1 :: i.1 :: b) *
        radii.get (k.1 :: j.1 :: b) / (x * y * z)) ^ (alp / 3) = w at *
  · positivity
  · refine div_le_div_of_nonneg_right ?_ (by positivity)
    have : 1 / (1 + 6 * w) ≤ 1 := by
      rw [div_le_one (by positivity)]; linarith
    calc _ ≤ c9.get (k.1 :: j.1 :: i.1 :: b) * s9 * 1 :=
          mul_le_mul_of_nonneg_left this (by positivity)
      _ = _ := by ring

/-- The three-body energy of an atom lies between -2 times and 11/8 times the sum of the undamped
contributions of its triples. -/
theorem C67_bounds (h : D3Shapes numbers positions c9 radii n B) (hcut : 0 ≤ cut) (hb : InB B b)
    (hsep : Separated env numbers positions n b) (hn : D3Nonneg c9 radii n b) (hs : 0 ≤ s9) (i : Fin n) :
    -2 * atmScale numbers positions c9 n cut s9 b i ≤
      (atmDispersion env numbers positions c9 radii cut .zero s9 alp).get (i.1 :: b) ∧
    (atmDispersion env numbers positions c9 radii cut .zero s9 alp).get (i.1 :: b) ≤
      11 / 8 * atmScale numbers positions c9 n cut s9 b i := by
  rw [C11_energy h hcut hb hsep i]
  unfold atmScale
  constructor
  · rw [← mul_div_assoc]
    refine div_le_div_of_nonneg_right ?_ (by norm_num)
    rw [Finset.mul_sum]
    refine Finset.sum_le_sum fun j _ => ?_
    rw [Finset.mul_sum]
    refine Finset.sum_le_sum fun k _ => ?_
    split_ifs with hc
    · obtain ⟨w, h0, hw, e⟩ := hn.term (alp := alp) hs hsep hc.1
      rw [e]
      have := mul_le_mul_of_nonneg_left (Spec.le_angular (coords positions n b i)
        (coords positions n b j) (coords positions n b k)) h0
      linarith
    · simp
  · rw [← mul_div_assoc]
    refine div_le_div_of_nonneg_right ?_ (by norm_num)
    rw [Finset.mul_sum]
    refine Finset.sum_le_sum fun j _ => ?_
    rw [Finset.mul_sum]
    refine Finset.sum_le_sum fun k _ => ?_
    split_ifs with hc
    · obtain ⟨w, h0, hw, e⟩ := hn.term (alp := alp) hs hsep hc.1
      rw [e]
      have := mul_le_mul_of_nonneg_left (Spec.angular_le (c := coords positions n b k)
        (hsep.ne hc.1.2.1 hc.1.1 hc.1.2.2.2.1.symm)) h0
      linarith
    · simp

/-- Repulsive, if no triangle of real atoms within the cutoff has an obtuse angle. -/
theorem C67_repulsive (h : D3Shapes numbers positions c9 radii n B) (hcut : 0 ≤ cut) (hb : InB B b)
    (hsep : Separated env numbers positions n b) (hn : D3Nonneg c9 radii n b) (hs : 0 ≤ s9)
    (i : Fin n) (hang : ∀ j k, RealTriple numbers b i j k →
      dist (coords positions n b i) (coords positions n b j) ≤ cut →
      dist (coords positions n b j) (coords positions n b k) ≤ cut →
      Spec.NonObtuse (coords positions n b i) (coords positions n b j) (coords positions n b k)) :
    0 ≤ (atmDispersion env numbers positions c9 radii cut .zero s9 alp).get (i.1 :: b) := by
  rw [C11_energy h hcut hb hsep i]
  refine div_nonneg (Finset.sum_nonneg fun j _ => Finset.sum_nonneg fun k _ => ?_) (by norm_num)
  split_ifs with hc
  · obtain ⟨w, h0, -, e⟩ := hn.term (alp := alp) hs hsep hc.1
    rw [e]
    exact mul_nonneg h0 (zero_le_one.trans (Spec.one_le_angular (hang j k hc.1 hc.2.1 hc.2.2)))
  · exact le_rfl

/-- Attractive, if all real atoms are on a line. -/
theorem C67_attractive (h : D3Shapes numbers positions c9 radii n B) (hcut : 0 ≤ cut) (hb : InB B b)
    (hsep : Separated env numbers positions n b) (hn : D3Nonneg c9 radii n b) (hs : 0 ≤ s9)
    (hline : Collinear ℝ {x | ∃ i : Fin n, numbers.get (i.1 :: b) ≠ 0 ∧ coords positions n b i = x})
    (i : Fin n) :
    (atmDispersion env numbers positions c9 radii cut .zero s9 alp).get (i.1 :: b) ≤ 0 := by
  rw [C11_energy h hcut hb hsep i]
  refine div_nonpos_of_nonpos_of_nonneg
    (Finset.sum_nonpos fun j _ => Finset.sum_nonpos fun k _ => ?_) (by norm_num)
  split_ifs with hc
  · obtain ⟨w, h0, -, e⟩ := hn.term (alp := alp) hs hsep hc.1
    obtain ⟨hi, hj, hk, hij, hik, hjk⟩ := hc.1
    rw [e, Spec.angular_line (hsep.ne hi hj hij) (hsep.ne hi hk hik) (hsep.ne hj hk hjk)
      (hline.subset (by
        rintro x (rfl | rfl | rfl)
        · exact ⟨i, hi, rfl⟩
        · exact ⟨j, hj, rfl⟩
        · exact ⟨k, hk, rfl⟩))]
    linarith
  · exact le_rfl

end

/-! ## The energies of `dftd4` -/

section
variable {env : Env} {T : Tables} {ext : Ext} {numbers : Tensor ℕ} {positions charge : Tensor ℝ}
  {p p' : Param} {o : DftOpts} {n : ℕ} {B : Shape} {b : Idx} {R : RefCfg} {cn : Spec.CN}
  {eeq : Spec.EEQ} {P P' : Spec.D4Par}

/-- Raising `s9` adds terms with the sign of the angular factors. -/
theorem energy_s9 {M : Spec.Mol n} {cutoff : Cutoff} (h6 : P'.s6 = P.s6) (h8 : P'.s8 = P.s8)
    (h10 : P'.s10 = P.s10) (h1 : P'.a1 = P.a1) (h2 : P'.a2 = P.a2) (ha : P'.alp = P.alp)
    (h9 : P.s9 ≤ P'.s9) (p1 : 0 ≤ P.a1) (p2 : 0 ≤ P.a2)
    (hsep : ∀ i j, M.Z i ≠ 0 → M.Z j ≠ 0 → i ≠ j → √env.eps ≤ dist (M.pos i) (M.pos j)) (i : Fin n) :
    ∃ w : Fin n → Fin n → ℝ, (∀ j k, 0 ≤ w j k) ∧
      Spec.energy (d4Computed env T R P' cutoff) M i = Spec.energy (d4Computed env T R P cutoff) M i +
        ∑ j, ∑ k, if M.Z i ≠ 0 ∧ M.Z j ≠ 0 ∧ M.Z k ≠ 0 ∧ i ≠ j ∧ i ≠ k ∧ j ≠ k ∧
            Spec.withinCut3 (d4Computed env T R P cutoff) M i j k then
          w j k * Spec.angular (M.pos i) (M.pos j) (M.pos k) else 0 := by
  obtain ⟨s6, s8, s10, s9, a1, a2, alp⟩ := P
  obtain ⟨s6', s8', s10', s9', a1', a2', alp'⟩ := P'
  simp only at h6 h8 h10 h1 h2 ha h9 p1 p2
  subst h6 h8 h10 h1 h2 ha
  obtain ⟨S, hS⟩ : ∃ S, S = d4Computed env T R ⟨s6', s8', s10', s9, a1', a2', alp'⟩ cutoff := ⟨_, rfl⟩
  have hε : S.ε = env.eps := by rw [hS]; rfl
  have hr : ∀ i j, M.Z i ≠ 0 → M.Z j ≠ 0 → i ≠ j → M.r S.ε i j = dist (M.pos i) (M.pos j) := by
    intro i j hi hj hij
    have := hsep i j hi hj hij
    unfold Spec.Mol.r Spec.rsqrt
    rw [hε, max_eq_left, Real.sqrt_sq dist_nonneg]
    exact (Real.sqrt_le_left dist_nonneg).1 this
  refine ⟨fun j k => 1 / 6 * ((s9' - s9) * Spec.c9 S M.neutral i j k *
    (1 / (1 + 6 * ((Spec.R0 S M i j * Spec.R0 S M i k * Spec.R0 S M j k) /
      (M.r S.ε i j * M.r S.ε i k * M.r S.ε j k)) ^ (alp' / 3))) /
    (M.r S.ε i j * M.r S.ε i k * M.r S.ε j k) ^ 3), fun j k => ?_, ?_⟩
  · have hR : ∀ i j, 0 ≤ Spec.R0 S M i j := by
      intro i j
      rw [hS]
      exact add_nonneg (mul_nonneg p1 (Spec.rsqrt_nonneg _ _)) p2
    have hp := fun i j => (Spec.Mol.r_pos (ε := S.ε) (by rw [hε]; exact env.eps_pos) M i j)
    have q1 := hp i j
    have q2 := hp i k
    have q3 := hp j k
    have hw : 0 ≤ ((Spec.R0 S M i j * Spec.R0 S M i k * Spec.R0 S M j k) /
      (M.r S.ε i j * M.r S.ε i k * M.r S.ε j k)) ^ (alp' / 3) :=
      Real.rpow_nonneg (div_nonneg (mul_nonneg (mul_nonneg (hR _ _) (hR _ _)) (hR _ _))
        (by positivity)) _
    have hc : 0 ≤ Spec.c9 S M.neutral i j k := Spec.rsqrt_nonneg _ _
    have hs : 0 ≤ s9' - s9 := by linarith
    positivity
  · unfold Spec.energy
    rw [add_assoc]
    congr 1
    show (1 / 6) * ∑ j, ∑ k, _ = (1 / 6) * (∑ j, ∑ k, _) + _
    rw [Finset.mul_sum, Finset.mul_sum, ← Finset.sum_add_distrib]
    refine Finset.sum_congr rfl fun j _ => ?_
    rw [Finset.mul_sum, Finset.mul_sum, ← Finset.sum_add_distrib]
    refine Finset.sum_congr rfl fun k _ => ?_
    by_cases hc : M.Z i ≠ 0 ∧ M.Z j ≠ 0 ∧ M.Z k ≠ 0 ∧ i ≠ j ∧ i ≠ k ∧ j ≠ k ∧
      Spec.withinCut3 S M i j k
    · rw [if_pos (by rw [hS] at hc; exact hc), if_pos (by rw [hS] at hc; exact hc),
        if_pos (by rw [hS] at hc; exact hc)]
      obtain ⟨hi, hj, hk, hij, hik, hjk, -⟩ := hc
      have n1 : M.pos i ≠ M.pos j := dist_pos.1 ((Real.sqrt_pos.2 env.eps_pos).trans_le (hsep i j hi hj hij))
      have n2 : M.pos i ≠ M.pos k := dist_pos.1 ((Real.sqrt_pos.2 env.eps_pos).trans_le (hsep i k hi hk hik))
      have n3 : M.pos j ≠ M.pos k := dist_pos.1 ((Real.sqrt_pos.2 env.eps_pos).trans_le (hsep j k hj hk hjk))
      have e1 := Spec.cosSides_eq_cos n1.symm n2.symm
      have e2 := Spec.cosSides_eq_cos n1 n3.symm
      have e3 := Spec.cosSides_eq_cos n2 n3
      rw [dist_comm (M.pos j) (M.pos i)] at e2
      rw [dist_comm (M.pos k) (M.pos i), dist_comm (M.pos k) (M.pos j)] at e3
      have t : ∀ s, Spec.tripleTerm (d4Computed env T R ⟨s6', s8', s10', s, a1', a2', alp'⟩ cutoff) M
          (Spec.c9 (d4Computed env T R ⟨s6', s8', s10', s, a1', a2', alp'⟩ cutoff) M.neutral)
          (Spec.R0 (d4Computed env T R ⟨s6', s8', s10', s, a1', a2', alp'⟩ cutoff) M) i j k =
          s * Spec.c9 S M.neutral i j k *
            (1 / (1 + 6 * ((Spec.R0 S M i j * Spec.R0 S M i k * Spec.R0 S M j k) /
              (M.r S.ε i j * M.r S.ε i k * M.r S.ε j k)) ^ (alp' / 3))) *
            ((3 * Spec.cosSides (M.r S.ε i j) (M.r S.ε i k) (M.r S.ε j k) *
              Spec.cosSides (M.r S.ε i j) (M.r S.ε j k) (M.r S.ε i k) *
              Spec.cosSides (M.r S.ε i k) (M.r S.ε j k) (M.r S.ε i j) + 1) /
              (M.r S.ε i j * M.r S.ε i k * M.r S.ε j k) ^ 3) := by
        intro s
        rw [hS]
        rfl
      rw [t, t]
      unfold Spec.angular
      rw [← e1, ← e2, ← e3, ← hr i j hi hj hij, ← hr i k hi hk hik, ← hr j k hj hk hjk]
      ring
    · rw [if_neg (by rw [hS] at hc; exact hc), if_neg (by rw [hS] at hc; exact hc),
        if_neg (by rw [hS] at hc; exact hc)]
      ring

/-- With a larger `s9` (in `p'`) no atom is more strongly bound, if no triangle of real atoms has an obtuse
angle. -/
theorem C67_dftd4_repulsive (h : Call env T ext numbers positions charge p o n B R cn eeq P)
    (hp : p'.Reads P') (h6 : P'.s6 = P.s6) (h8 : P'.s8 = P.s8) (h10 : P'.s10 = P.s10)
    (h1 : P'.a1 = P.a1) (h2 : P'.a2 = P.a2) (ha : P'.alp = P.alp) (h9 : P.s9 ≤ P'.s9) (p1 : 0 ≤ P.a1)
    (p2 : 0 ≤ P.a2) (hb : InB B b) (hsep : Separated env numbers positions n b)
    (hang : ∀ i j k : Fin n, RealTriple numbers b i j k →
      Spec.NonObtuse (coords positions n b i) (coords positions n b j) (coords positions n b k)) :
    ∃ e e', dftd4 env T ext numbers positions charge p o = .ok e ∧
      dftd4 env T ext numbers positions charge p' o = .ok e' ∧
      ∀ i : Fin n, e.get (i.1 :: b) ≤ e'.get (i.1 :: b) := by
  obtain ⟨e, he, -, hv⟩ := h.eval
  obtain ⟨e', he', -, hv'⟩ := ({ h with par := hp } :
    Call env T ext numbers positions charge p' o n B R cn eeq P').eval
  refine ⟨e, e', he, he', fun i => ?_⟩
  rw [hv b hb i, hv' b hb i]
  obtain ⟨w, hw, hE⟩ := energy_s9 (env := env) (T := T) (R := R)
    (M := system T cn eeq numbers positions charge o.opts n b) (cutoff := o.opts.cutoff.getD {})
    h6 h8 h10 h1 h2 ha h9 p1 p2 hsep i
  rw [hE, le_add_iff_nonneg_right]
  refine Finset.sum_nonneg fun j _ => Finset.sum_nonneg fun k _ => ?_
  split_ifs with hc
  · exact mul_nonneg (hw j k) (zero_le_one.trans (Spec.one_le_angular
      (hang i j k ⟨hc.1, hc.2.1, hc.2.2.1, hc.2.2.2.1, hc.2.2.2.2.1, hc.2.2.2.2.2.1⟩)))
  · exact le_rfl

/-- With a larger `s9` (in `p'`) no atom is less strongly bound, if all real atoms are on a line. -/
theorem C67_dftd4_attractive (h : Call env T ext numbers positions charge p o n B R cn eeq P)
    (hp : p'.Reads P') (h6 : P'.s6 = P.s6) (h8 : P'.s8 = P.s8) (h10 : P'.s10 = P.s10)
    (h1 : P'.a1 = P.a1) (h2 : P'.a2 = P.a2) (ha : P'.alp = P.alp) (h9 : P.s9 ≤ P'.s9) (p1 : 0 ≤ P.a1)
    (p2 : 0 ≤ P.a2) (hb : InB B b) (hsep : Separated env numbers positions n b)
    (hline : Collinear ℝ {x | ∃ i : Fin n, numbers.get (i.1 :: b) ≠ 0 ∧ coords positions n b i = x}) :
    ∃ e e', dftd4 env T ext numbers positions charge p o = .ok e ∧
      dftd4 env T ext numbers positions charge p' o = .ok e' ∧
      ∀ i : Fin n, e'.get (i.1 :: b) ≤ e.get (i.1 :: b) := by
  obtain ⟨e, he, -, hv⟩ := h.eval
  obtain ⟨e', he', -, hv'⟩ := ({ h with par := hp } :
    Call env T ext numbers positions charge p' o n B R cn eeq P').eval
  refine ⟨e, e', he, he', fun i => ?_⟩
  rw [hv b hb i, hv' b hb i]
  obtain ⟨w, hw, hE⟩ := energy_s9 (env := env) (T := T) (R := R)
    (M := system T cn eeq numbers positions charge o.opts n b) (cutoff := o.opts.cutoff.getD {})
    h6 h8 h10 h1 h2 ha h9 p1 p2 hsep i
  rw [hE, add_le_iff_nonpos_right]
  refine Finset.sum_nonpos fun j _ => Finset.sum_nonpos fun k _ => ?_
  split_ifs with hc
  · obtain ⟨hi, hj, hk, hij, hik, hjk, -⟩ := hc
    have := Spec.angular_line (hsep.ne hi hj hij) (hsep.ne hi hk hik) (hsep.ne hj hk hjk)
      (hline.subset (by
        rintro x (rfl | rfl | rfl)
        · exact ⟨i, hi, rfl⟩
        · exact ⟨j, hj, rfl⟩
        · exact ⟨k, hk, rfl⟩))
    have e : Spec.angular ((system T cn eeq numbers positions charge o.opts n b).pos i)
        ((system T cn eeq numbers positions charge o.opts n b).pos j)
        ((system T cn eeq numbers positions charge o.opts n b).pos k) = -2 := this
    rw [e]
    have := hw j k
    linarith
  · exact le_rfl

end

/-! ## Concrete cases: the right-angled triangle, atoms on a line, and water -/

namespace Demo

theorem angle_le {a b c : Spec.E3} (h : 0 ≤ inner ℝ (a - b) (c - b)) : ∠ a b c ≤ Real.pi / 2 := by
  show Real.arccos _ ≤ _
  rw [Real.arccos_le_pi_div_two]
  exact div_nonneg h (mul_nonneg (norm_nonneg _) (norm_nonneg _))

theorem tri_nonneg : D3Nonneg (full [3, 3, 3] 2) (full [3, 3] 1) 3 [] :=
  ⟨fun _ _ _ => by norm_num [full], fun _ _ => by norm_num [full]⟩

theorem tri_nonobtuse (i j k : Fin 3) :
    Spec.NonObtuse (coords tri 3 [] i) (coords tri 3 [] j) (coords tri 3 [] k) := by
  refine ⟨angle_le ?_, angle_le ?_, angle_le ?_⟩ <;>
    simp only [PiLp.inner_apply, Fin.sum_univ_three, PiLp.sub_apply, RCLike.inner_apply, conj_trivial] <;>
    fin_cases i <;> fin_cases j <;> fin_cases k <;> norm_num [coords, tri]

example := C67_bounds (cut := 40) (s9 := 1) (alp := 16) tri_shapes (by norm_num) InB_nil
  tri_separated tri_nonneg zero_le_one 0

example : 0 ≤ (atmDispersion env triNum tri (full [3, 3, 3] 2) (full [3, 3] 1) 40 .zero 1 16).get [0] :=
  C67_repulsive (n := 3) tri_shapes (by norm_num) InB_nil tri_separated tri_nonneg zero_le_one 0
    fun j k _ _ _ => tri_nonobtuse 0 j k

/-- Three atoms on a line, 2 Bohr apart. -/
noncomputable def row : Tensor ℝ := ⟨none, [3, 3], fun
  | [0, i] => 2 * i
  | _ => 0⟩

theorem row_coords (i : Fin 3) : coords row 3 [] i = (2 * (i : ℝ)) • EuclideanSpace.single 0 1 := by
  ext k
  fin_cases k <;> simp [coords, row]

theorem row_dist (i j : Fin 3) : dist (coords row 3 [] i) (coords row 3 [] j) =
    |2 * (i : ℝ) - 2 * (j : ℝ)| := by
  rw [row_coords, row_coords, dist_eq_norm, ← sub_smul, norm_smul]
  simp

theorem row_separated {numbers : Tensor ℕ} : Separated env numbers row 3 [] := fun i j _ _ h => by
  rw [row_dist]
  refine sqrt_eps_le ?_
  fin_cases i <;> fin_cases j <;> simp at h ⊢ <;> norm_num

theorem row_collinear {s : Set Spec.E3} (h : ∀ x ∈ s, ∃ i : Fin 3, coords row 3 [] i = x) :
    Collinear ℝ s := by
  rw [collinear_iff_exists_forall_eq_smul_vadd]
  refine ⟨0, EuclideanSpace.single 0 1, fun x hx => ?_⟩
  obtain ⟨i, rfl⟩ := h x hx
  exact ⟨_, by rw [row_coords, vadd_eq_add, add_zero]⟩

example : (atmDispersion env triNum row (full [3, 3, 3] 2) (full [3, 3] 1) 40 .zero 1 16).get [0] ≤ 0 :=
  C67_attractive (n := 3) ⟨⟨rfl, rfl⟩, ⟨rfl, rfl⟩, ⟨rfl, rfl⟩, ⟨rfl, rfl⟩⟩ (by norm_num) InB_nil
    row_separated tri_nonneg zero_le_one
    (row_collinear fun x ⟨i, _, h⟩ => ⟨i, h⟩) 0

/-- Water: with three-body term no atom is more strongly bound than without. -/
example : ∃ e e', dftd4 env T ext numbers positions charge paramNoAtm {} = .ok e ∧
    dftd4 env T ext numbers positions charge param {} = .ok e' ∧
    ∀ i : Fin 3, e.get [i.1, 0] ≤ e'.get [i.1, 0] := by
  refine C67_dftd4_repulsive callNoAtm reads rfl rfl rfl rfl rfl rfl (by norm_num [par])
    (by norm_num [par]) (by norm_num [par]) (by simp [InB]) (fun i j _ _ h => ?_) fun i j k _ => ?_
  · refine sqrt_eps_le ?_
    rw [EuclideanSpace.dist_eq]
    refine Real.le_sqrt_of_sq_le ?_
    fin_cases i <;> fin_cases j <;>
      simp [coords, positions, Fin.sum_univ_three, Real.dist_eq] at h ⊢ <;> norm_num
  · refine ⟨angle_le ?_, angle_le ?_, angle_le ?_⟩ <;>
      simp only [PiLp.inner_apply, Fin.sum_univ_three, PiLp.sub_apply, RCLike.inner_apply,
        conj_trivial] <;>
      fin_cases i <;> fin_cases j <;> fin_cases k <;> norm_num [coords, positions]

theorem callLine : Call env T ext triNum row chargeHF paramNoAtm {} 3 [] .d4 cn eeq
    { par with s9 := 0 } :=
  { callNoAtm with
    model := Or.inl ⟨"d4", rfl, keys "d4" (by simp), rfl⟩
    args := { validArgs with
      num := ⟨rfl, rfl⟩
      pos := ⟨rfl, rfl⟩
      charge := ⟨rfl, rfl⟩
      q := fun _ h => by simp at h
      rcov := fun _ h => by simp at h
      r4r2 := fun _ h => by simp at h
      rvdw := fun _ h => by simp at h
      lt := fun _ _ => by show 1 < 104; norm_num } }

/-- Three hydrogen atoms on a line: with three-body term no atom is less strongly bound. -/
example : ∃ e e', dftd4 env T ext triNum row chargeHF paramNoAtm {} = .ok e ∧
    dftd4 env T ext triNum row chargeHF param {} = .ok e' ∧
    ∀ i : Fin 3, e'.get [i.1] ≤ e.get [i.1] :=
  C67_dftd4_attractive callLine reads rfl rfl rfl rfl rfl rfl (by norm_num [par])
    (by norm_num [par]) (by norm_num [par]) InB_nil row_separated
    (row_collinear fun _ ⟨i, _, h⟩ => ⟨i, h⟩)

end Demo

end TadDftd4
