import Verif.Props.C01
import Verif.Props.C13
import Verif.Props.C59
import Verif.Props.C82

/-!
# C84: interaction of two molecules at long range

The pair terms and the three-body terms (dispersion/twobody.py:126-200, dispersion/threebody.py:96-160) between
two molecules, as their distance grows: the interaction energy of `dftd4` is proportional to the inverse sixth
power of the distance, and the factor consists of the C6 coefficients of all pairs and of the three-body terms of
two atoms of one molecule and one atom of the other.
-/

open Filter Topology
open scoped Classical

namespace TadDftd4

namespace Spec

/-- `C9 = √|C6 C6 C6|` of three atoms. -/
noncomputable def c9Atoms (C : C6Settings) (ε : ℝ) (A B D : AtomData) : ℝ :=
  rsqrt ε |c6 C A B * c6 C A D * c6 C B D|

/-- Two atoms with the difference vector `d`, seen from far away in the direction `u`. -/
noncomputable def farFactor (d u : E3) : ℝ := (1 - 3 * Real.cos (InnerProductGeometry.angle d u) ^ 2) / ‖d‖ ^ 3

/-- Coefficient of the long-range interaction `1/R⁶` of the molecules `A` and `B`, where `B` lies in the direction
`u` of `A`: C6 coefficients of all pairs, and three-body terms with a pair in one of the molecules and an atom in
the other one. -/
noncomputable def longRange {a b : ℕ} (C : C6Settings) (ε : ℝ) (P : D4Par) (A : Mol a) (B : Mol b) (u : E3) : ℝ :=
  -P.s6 * (∑ i, ∑ j, if A.Z i ≠ 0 ∧ B.Z j ≠ 0 then c6 C (A.atom i) (B.atom j) else 0) +
  P.s9 * (1 / 2 * (∑ i, ∑ i', ∑ j, if A.Z i ≠ 0 ∧ A.Z i' ≠ 0 ∧ i ≠ i' ∧ B.Z j ≠ 0 then
      c9Atoms C ε (A.neutral i) (A.neutral i') (B.neutral j) * farFactor (A.pos i' - A.pos i) u else 0) +
    1 / 2 * ∑ j, ∑ j', ∑ i, if B.Z j ≠ 0 ∧ B.Z j' ≠ 0 ∧ j ≠ j' ∧ A.Z i ≠ 0 then
      c9Atoms C ε (B.neutral j) (B.neutral j') (A.neutral i) * farFactor (B.pos j' - B.pos j) u else 0)

variable {n a b : ℕ} {ι : Type*} {l : Filter ι} {M : ι → Mol n} {M₀ : Mol n} {C : C6Settings} {ε : ℝ} {P : D4Par}
  {ρ : ι → ℝ} {i j k : Fin n} {d v : E3}

theorem c6_symm (A A' : AtomData) : c6 C A A' = c6 C A' A := by
  unfold c6
  congr 1
  exact Finset.sum_congr rfl fun w _ => by ring

/-- Atoms of one molecule. -/
theorem near_r (hd : Tendsto (fun t => (M t).pos j - (M t).pos i) l (𝓝 d)) (hε : ε < ‖d‖ ^ 2) :
    Tendsto (fun t => (M t).r ε i j) l (𝓝 ‖d‖) ∧ ∀ᶠ t in l, (M t).r ε i j = ‖(M t).pos j - (M t).pos i‖ := by
  have h := hd.norm
  have e : ∀ᶠ t in l, (M t).r ε i j = ‖(M t).pos j - (M t).pos i‖ := by
    filter_upwards [(h.pow 2).eventually (lt_mem_nhds hε)] with t ht
    unfold Mol.r
    rw [dist_comm, dist_eq_norm, rsqrt_of_le ht.le, Real.sqrt_sq (norm_nonneg _)]
  exact ⟨h.congr' (e.mono fun t ht => ht.symm), e⟩

/-- Atoms of different molecules. -/
theorem far_r (hρ : Tendsto ρ l atTop) (hv : Tendsto (fun t => (ρ t)⁻¹ • ((M t).pos k - (M t).pos i)) l (𝓝 v))
    (h1 : ‖v‖ = 1) : Tendsto (fun t => (ρ t)⁻¹ * (M t).r ε i k) l (𝓝 1) ∧
      ∀ᶠ t in l, (M t).r ε i k = ‖(M t).pos k - (M t).pos i‖ := by
  have h := hv.norm
  rw [h1] at h
  have e : ∀ᶠ t in l, (M t).r ε i k = ‖(M t).pos k - (M t).pos i‖ := by
    filter_upwards [h.eventually (lt_mem_nhds (show (1 / 2 : ℝ) < 1 by norm_num)), hρ.eventually_ge_atTop 2,
      hρ.eventually_ge_atTop (2 * |ε|)] with t h1 h2 h3
    have h0 : 0 < ρ t := by linarith
    have hn : ρ t / 2 < ‖(M t).pos k - (M t).pos i‖ := by
      rw [norm_smul, norm_inv, Real.norm_of_nonneg h0.le, inv_mul_eq_div, lt_div_iff₀ h0] at h1
      linarith
    have : ε ≤ ‖(M t).pos k - (M t).pos i‖ ^ 2 := by
      have := le_abs_self ε
      nlinarith
    unfold Mol.r
    rw [dist_comm, dist_eq_norm, rsqrt_of_le this, Real.sqrt_sq (norm_nonneg _)]
  refine ⟨h.congr' ?_, e⟩
  filter_upwards [e, hρ.eventually_ge_atTop 0] with t ht h0
  rw [norm_smul, norm_inv, Real.norm_of_nonneg h0, ht]

/-- The angular factor of two atoms of one molecule and one atom of the other one. -/
theorem tendsto_angular (hρ : Tendsto ρ l atTop) (hd : Tendsto (fun t => (M t).pos j - (M t).pos i) l (𝓝 d))
    (hε : ε < ‖d‖ ^ 2) (hd0 : d ≠ 0)
    (hv : Tendsto (fun t => (ρ t)⁻¹ • ((M t).pos k - (M t).pos i)) l (𝓝 v)) (h1 : ‖v‖ = 1) :
    Tendsto (fun t => ρ t ^ 6 * ((3 * cosSides ((M t).r ε i j) ((M t).r ε i k) ((M t).r ε j k) *
      cosSides ((M t).r ε i j) ((M t).r ε j k) ((M t).r ε i k) *
      cosSides ((M t).r ε i k) ((M t).r ε j k) ((M t).r ε i j) + 1) /
      ((M t).r ε i j * (M t).r ε i k * (M t).r ε j k) ^ 3)) l (𝓝 (farFactor d v)) ∧
    Tendsto (fun t => (M t).r ε i j * (M t).r ε i k * (M t).r ε j k) l atTop := by
  have hv' : Tendsto (fun t => (ρ t)⁻¹ • ((M t).pos k - (M t).pos j)) l (𝓝 v) := by
    have := hv.sub ((tendsto_inv_atTop_zero.comp hρ).smul hd)
    rw [zero_smul, sub_zero] at this
    refine this.congr fun t => ?_
    show _ - (ρ t)⁻¹ • _ = _
    rw [← smul_sub]
    congr 1
    abel
  obtain ⟨x1, x2⟩ := near_r hd hε
  obtain ⟨y1, y2⟩ := far_r (ε := ε) hρ hv h1
  obtain ⟨z1, z2⟩ := far_r (ε := ε) hρ hv' h1
  have hn : 0 < ‖d‖ := norm_pos_iff.2 hd0
  constructor
  · have c1 := (hd.inner hv).div (x1.mul y1) (by simpa using hd0)
    have c2 := ((hd.inner hv').div (x1.mul z1) (by simpa using hd0)).neg
    have c3 := (hv.inner hv').div (y1.mul z1) (by norm_num)
    have L := ((((c1.const_mul 3).mul c2).mul c3).add_const 1).div (((x1.mul y1).mul z1).pow 3)
      (by simpa using hd0)
    have hlim : (3 * (inner ℝ d v / (‖d‖ * 1)) * -(inner ℝ d v / (‖d‖ * 1)) * (inner ℝ v v / (1 * 1)) + 1) /
        (‖d‖ * 1 * 1) ^ 3 = farFactor d v := by
      unfold farFactor
      rw [InnerProductGeometry.cos_angle, real_inner_self_eq_norm_sq, h1]
      ring
    rw [hlim] at L
    refine L.congr' ?_
    filter_upwards [x2, y2, z2, hρ.eventually_gt_atTop 0, x1.eventually (lt_mem_nhds hn),
      y1.eventually (lt_mem_nhds zero_lt_one), z1.eventually (lt_mem_nhds zero_lt_one)] with t hx hy hz h0 px py pz
    have py' : 0 < (M t).r ε i k := by
      have := inv_pos.2 h0
      exact (mul_pos_iff_of_pos_left this).1 py
    have pz' : 0 < (M t).r ε j k := by
      have := inv_pos.2 h0
      exact (mul_pos_iff_of_pos_left this).1 pz
    have e1 : inner ℝ ((M t).pos j - (M t).pos i) ((M t).pos k - (M t).pos i) =
        ((M t).r ε i j ^ 2 + (M t).r ε i k ^ 2 - (M t).r ε j k ^ 2) / 2 := by
      rw [real_inner_eq_norm_mul_self_add_norm_mul_self_sub_norm_sub_mul_self_div_two, hx, hy, hz]
      rw [show (M t).pos j - (M t).pos i - ((M t).pos k - (M t).pos i) = -((M t).pos k - (M t).pos j) by abel,
        norm_neg]
      ring
    have e2 : inner ℝ ((M t).pos j - (M t).pos i) ((M t).pos k - (M t).pos j) =
        -(((M t).r ε i j ^ 2 + (M t).r ε j k ^ 2 - (M t).r ε i k ^ 2) / 2) := by
      rw [real_inner_eq_norm_add_mul_self_sub_norm_mul_self_sub_norm_mul_self_div_two, hx, hy, hz]
      rw [show (M t).pos j - (M t).pos i + ((M t).pos k - (M t).pos j) = (M t).pos k - (M t).pos i by abel]
      ring
    have e3 : inner ℝ ((M t).pos k - (M t).pos i) ((M t).pos k - (M t).pos j) =
        ((M t).r ε i k ^ 2 + (M t).r ε j k ^ 2 - (M t).r ε i j ^ 2) / 2 := by
      rw [real_inner_eq_norm_mul_self_add_norm_mul_self_sub_norm_sub_mul_self_div_two, hx, hy, hz]
      rw [show (M t).pos k - (M t).pos i - ((M t).pos k - (M t).pos j) = (M t).pos j - (M t).pos i by abel]
      ring
    simp only [Pi.div_apply, inner_smul_right, inner_smul_left, e1, e2, e3, cosSides]
    generalize (M t).r ε i j = x at *
    generalize (M t).r ε i k = y at *
    generalize (M t).r ε j k = z at *
    simp only [RCLike.conj_to_real]
    field_simp
  · have hr : Tendsto (fun t => (M t).r ε i j * ((ρ t)⁻¹ * (M t).r ε i k) * ((ρ t)⁻¹ * (M t).r ε j k)) l (𝓝 (‖d‖ * 1 * 1)) :=
      (x1.mul y1).mul z1
    have hρ2 : Tendsto (fun t => ρ t ^ 2) l atTop := (tendsto_pow_atTop (by norm_num)).comp hρ
    refine (hρ2.atTop_mul_pos (by simpa using hd0) hr).congr' ?_
    filter_upwards [hρ.eventually_gt_atTop 0] with t h0
    field_simp

/-- Elements, radii, coordination numbers and charges of a molecule converge. -/
structure Settles (l : Filter ι) (M : ι → Mol n) (M₀ : Mol n) : Prop where
  Z : ∀ t, (M t).Z = M₀.Z
  Q : ∀ t, (M t).Q = M₀.Q
  cn : ∀ i, M₀.Z i ≠ 0 → Tendsto (fun t => (M t).cn i) l (𝓝 (M₀.cn i))
  q : ∀ i, M₀.Z i ≠ 0 → Tendsto (fun t => (M t).q i) l (𝓝 (M₀.q i))

theorem Settles.c6 (h : Settles l M M₀) (hCε : 0 < C.ε) (hq : ∀ i, M₀.Z i ≠ 0 → C.ε < M₀.q i + C.T.zeff (M₀.Z i))
    (hi : M₀.Z i ≠ 0) (hj : M₀.Z j ≠ 0) :
    Tendsto (fun t => c6 C ((M t).atom i) ((M t).atom j)) l (𝓝 (c6 C (M₀.atom i) (M₀.atom j))) := by
  unfold Mol.atom
  simp only [h.Z]
  exact tendsto_c6 hCε (h.cn i hi) (h.q i hi) (h.cn j hj) (h.q j hj) (hq i hi) (hq j hj)

theorem Settles.neutral (h : Settles l M M₀) (hCε : 0 < C.ε) (hz : ∀ i, M₀.Z i ≠ 0 → C.ε < C.T.zeff (M₀.Z i))
    (hi : M₀.Z i ≠ 0) (hj : M₀.Z j ≠ 0) :
    Tendsto (fun t => Spec.c6 C ((M t).neutral i) ((M t).neutral j)) l
      (𝓝 (Spec.c6 C (M₀.neutral i) (M₀.neutral j))) := by
  unfold Mol.neutral
  simp only [h.Z]
  exact tendsto_c6 hCε (h.cn i hi) tendsto_const_nhds (h.cn j hj) tendsto_const_nhds
    (by simpa using hz i hi) (by simpa using hz j hj)

variable {cut2 cut3 : ι → ℝ}

/-- Pair terms between the molecules. -/
theorem far_pairTerm (h : Settles l M M₀) (hCε : 0 < C.ε)
    (hq : ∀ i, M₀.Z i ≠ 0 → C.ε < M₀.q i + C.T.zeff (M₀.Z i)) (hi : M₀.Z i ≠ 0) (hj : M₀.Z j ≠ 0)
    (hρ : Tendsto ρ l atTop) (hv : Tendsto (fun t => (ρ t)⁻¹ • ((M t).pos j - (M t).pos i)) l (𝓝 v)) (h1 : ‖v‖ = 1) :
    Tendsto (fun t => ρ t ^ 6 * pairTerm (d4Settings C ε P (cut2 t) (cut3 t)) (M t) (M t).atom i j) l
      (𝓝 (P.s6 * Spec.c6 C (M₀.atom i) (M₀.atom j))) := by
  have hr := (far_r (ε := ε) hρ hv h1).1
  have hc := h.c6 hCε hq hi hj
  have hinv := tendsto_inv_atTop_zero.comp hρ
  unfold pairTerm
  have key : ∀ (A : ℝ) (m : ℕ), 6 + m ≠ 0 → Tendsto (fun t => ρ t ^ 6 * (1 / ((M t).r ε i j ^ (6 + m) + A))) l
      (𝓝 (0 ^ m)) := by
    intro A m hm
    have := (hinv.pow m).div ((hr.pow (6 + m)).add ((hinv.pow (6 + m)).mul_const A)) (by simp)
    rw [one_pow, zero_pow hm, zero_mul, add_zero, div_one] at this
    refine this.congr' ?_
    filter_upwards [hρ.eventually_gt_atTop 0] with t h0
    simp only [Pi.div_apply, Function.comp_apply]
    rw [mul_pow, ← mul_add, inv_pow, inv_pow, pow_add (ρ t)]
    have h6 := (pow_pos h0 6).ne'
    have hm := (pow_pos h0 m).ne'
    by_cases hs : (M t).r ε i j ^ (6 + m) + A = 0
    · rw [hs]; simp
    · field_simp
  simp only [d4Settings, rad, h.Q]
  generalize 3 * M₀.Q i * M₀.Q j = x
  have k6 := key ((P.a1 * √x + P.a2) ^ 6) 0 (by norm_num)
  have k8 := key ((P.a1 * √x + P.a2) ^ 8) 2 (by norm_num)
  have k10 := key ((P.a1 * √x + P.a2) ^ 10) 4 (by norm_num)
  have L := (((hc.mul k6).const_mul P.s6).add (((hc.mul_const x).mul k8).const_mul P.s8)).add
    (((((hc.mul_const (x ^ 2)).mul_const 49).div_const 40).mul k10).const_mul P.s10)
  norm_num at L
  refine L.congr fun t => ?_
  norm_num
  ring

/-- Three-body terms between the molecules. -/
theorem far_tripleTerm (h : Settles l M M₀) (hCε : 0 < C.ε) (hz : ∀ i, M₀.Z i ≠ 0 → C.ε < C.T.zeff (M₀.Z i))
    (hi : M₀.Z i ≠ 0) (hj : M₀.Z j ≠ 0) (hk : M₀.Z k ≠ 0) (halp : 0 < P.alp)
    (hρ : Tendsto ρ l atTop) (hd : Tendsto (fun t => (M t).pos j - (M t).pos i) l (𝓝 d))
    (hε : ε < ‖d‖ ^ 2) (hd0 : d ≠ 0)
    (hv : Tendsto (fun t => (ρ t)⁻¹ • ((M t).pos k - (M t).pos i)) l (𝓝 v)) (h1 : ‖v‖ = 1) :
    Tendsto (fun t => ρ t ^ 6 * tripleTerm (d4Settings C ε P (cut2 t) (cut3 t)) (M t)
      (c9 (d4Settings C ε P (cut2 t) (cut3 t)) (M t).neutral) (R0 (d4Settings C ε P (cut2 t) (cut3 t)) (M t)) i j k) l
      (𝓝 (P.s9 * (c9Atoms C ε (M₀.neutral i) (M₀.neutral j) (M₀.neutral k) * farFactor d v))) := by
  obtain ⟨a1, a2⟩ := tendsto_angular hρ hd hε hd0 hv h1
  have hc9 : Tendsto (fun t => rsqrt ε |Spec.c6 C ((M t).neutral i) ((M t).neutral j) *
      Spec.c6 C ((M t).neutral i) ((M t).neutral k) * Spec.c6 C ((M t).neutral j) ((M t).neutral k)|) l
      (𝓝 (c9Atoms C ε (M₀.neutral i) (M₀.neutral j) (M₀.neutral k))) := by
    unfold c9Atoms rsqrt
    exact ((((h.neutral hCε hz hi hj).mul (h.neutral hCε hz hi hk)).mul (h.neutral hCε hz hj hk)).abs.max
      tendsto_const_nhds).sqrt
  unfold tripleTerm
  simp only [d4Settings, c9, R0, h.Q]
  generalize (P.a1 * rsqrt ε (3 * M₀.Q i * M₀.Q j) + P.a2) * (P.a1 * rsqrt ε (3 * M₀.Q i * M₀.Q k) + P.a2) *
    (P.a1 * rsqrt ε (3 * M₀.Q j * M₀.Q k) + P.a2) = RR
  have hf : Tendsto (fun t => 1 / (1 + 6 * (RR / ((M t).r ε i j * (M t).r ε i k * (M t).r ε j k)) ^ (P.alp / 3))) l
      (𝓝 1) := by
    have h0 := (a2.const_div_atTop RR).rpow_const (p := P.alp / 3) (Or.inr (by positivity))
    rw [Real.zero_rpow (by positivity)] at h0
    have := tendsto_const_nhds (x := (1 : ℝ)).div ((h0.const_mul 6).const_add 1) (by norm_num)
    rw [mul_zero, add_zero, div_one] at this
    exact this
  have L := ((hc9.mul hf).mul a1).const_mul P.s9
  rw [mul_one] at L
  refine L.congr fun t => ?_
  ring

theorem tripleTerm_swap12 {S : Settings} {N : Mol n} (hs : ∀ A A', S.c6 A A' = S.c6 A' A) (i j k : Fin n) :
    tripleTerm S N (c9 S N.neutral) (R0 S N) j i k = tripleTerm S N (c9 S N.neutral) (R0 S N) i j k := by
  have hR : ∀ i j, R0 S N i j = R0 S N j i := fun i j => by unfold R0; congr 3; ring
  unfold tripleTerm c9
  rw [N.r_symm S.ε j i, hR j i, hs (N.neutral j) (N.neutral i)]
  have e1 : S.c6 (N.neutral i) (N.neutral j) * S.c6 (N.neutral j) (N.neutral k) * S.c6 (N.neutral i) (N.neutral k) =
    S.c6 (N.neutral i) (N.neutral j) * S.c6 (N.neutral i) (N.neutral k) * S.c6 (N.neutral j) (N.neutral k) := by ring
  have e2 : R0 S N i j * R0 S N j k * R0 S N i k = R0 S N i j * R0 S N i k * R0 S N j k := by ring
  have e3 : N.r S.ε i j * N.r S.ε j k * N.r S.ε i k = N.r S.ε i j * N.r S.ε i k * N.r S.ε j k := by ring
  have e4 : ∀ x y z, cosSides x y z = cosSides y x z := fun x y z => by unfold cosSides; congr 1 <;> ring
  simp only [e1, e2, e3]
  rw [e4 (N.r S.ε j k) (N.r S.ε i k)]
  ring

theorem tripleTerm_swap23 {S : Settings} {N : Mol n} (hs : ∀ A A', S.c6 A A' = S.c6 A' A) (i j k : Fin n) :
    tripleTerm S N (c9 S N.neutral) (R0 S N) i k j = tripleTerm S N (c9 S N.neutral) (R0 S N) i j k := by
  have hR : ∀ i j, R0 S N i j = R0 S N j i := fun i j => by unfold R0; congr 3; ring
  unfold tripleTerm c9
  rw [N.r_symm S.ε k j, hR k j, hs (N.neutral k) (N.neutral j)]
  have e1 : S.c6 (N.neutral i) (N.neutral k) * S.c6 (N.neutral i) (N.neutral j) * S.c6 (N.neutral j) (N.neutral k) =
    S.c6 (N.neutral i) (N.neutral j) * S.c6 (N.neutral i) (N.neutral k) * S.c6 (N.neutral j) (N.neutral k) := by ring
  have e2 : R0 S N i k * R0 S N i j * R0 S N j k = R0 S N i j * R0 S N i k * R0 S N j k := by ring
  have e3 : N.r S.ε i k * N.r S.ε i j * N.r S.ε j k = N.r S.ε i j * N.r S.ε i k * N.r S.ε j k := by ring
  have e4 : ∀ x y z, cosSides x y z = cosSides y x z := fun x y z => by unfold cosSides; congr 1 <;> ring
  simp only [e1, e2, e3]
  rw [e4 (N.r S.ε i k) (N.r S.ε i j)]
  ring

/-- Pair term with its conditions. -/
noncomputable def pairOf (S : Settings) (N : Mol n) (i j : Fin n) : ℝ :=
  if N.Z i ≠ 0 ∧ N.Z j ≠ 0 ∧ i ≠ j ∧ N.r S.ε i j ≤ S.cut2 then pairTerm S N N.atom i j else 0

/-- Three-body term with its conditions. -/
noncomputable def tripleOf (S : Settings) (N : Mol n) (i j k : Fin n) : ℝ :=
  if N.Z i ≠ 0 ∧ N.Z j ≠ 0 ∧ N.Z k ≠ 0 ∧ i ≠ j ∧ i ≠ k ∧ j ≠ k ∧ withinCut3 S N i j k then
    tripleTerm S N (c9 S N.neutral) (R0 S N) i j k else 0

theorem sum_energy (S : Settings) (N : Mol n) : ∑ i, energy S N i =
    -(1 / 2) * ∑ i, ∑ j, pairOf S N i j + 1 / 6 * ∑ i, ∑ j, ∑ k, tripleOf S N i j k := by
  simp only [energy, e2, e3, Finset.sum_add_distrib, ← Finset.mul_sum]
  rfl

theorem pairOf_comap (S : Settings) (N : Mol n) {f : Fin a → Fin n} (hf : Function.Injective f) (i j : Fin a) :
    pairOf S (N.comap f) i j = pairOf S N (f i) (f j) := by
  unfold pairOf
  refine if_congr ?_ rfl rfl
  rw [hf.ne_iff]
  rfl

theorem tripleOf_comap (S : Settings) (N : Mol n) {f : Fin a → Fin n} (hf : Function.Injective f) (i j k : Fin a) :
    tripleOf S (N.comap f) i j k = tripleOf S N (f i) (f j) (f k) := by
  unfold tripleOf
  refine if_congr ?_ rfl rfl
  rw [hf.ne_iff, hf.ne_iff, hf.ne_iff]
  rfl

theorem sum_two {F : Fin a → Fin n} {G : Fin b → Fin n} (hFG : Function.Bijective (Sum.elim F G)) (f : Fin n → ℝ) :
    ∑ x, f x = ∑ i, f (F i) + ∑ j, f (G j) := by
  rw [← (Equiv.ofBijective _ hFG).sum_comp f, Fintype.sum_sum_type]
  rfl

/-- The interaction energy consists of the terms with atoms of both molecules. -/
theorem interaction_eq (S : Settings) (N : Mol n) {F : Fin a → Fin n} {G : Fin b → Fin n}
    (hFG : Function.Bijective (Sum.elim F G)) :
    ∑ x, energy S N x - ∑ i, energy S (N.comap F) i - ∑ j, energy S (N.comap G) j =
      -(1 / 2) * ((∑ i, ∑ j, pairOf S N (F i) (G j)) + ∑ i, ∑ j, pairOf S N (G j) (F i)) +
      1 / 6 * ((∑ i, ∑ i', ∑ j, tripleOf S N (F i) (F i') (G j)) + (∑ i, ∑ i', ∑ j, tripleOf S N (F i) (G j) (F i')) +
        (∑ i, ∑ i', ∑ j, tripleOf S N (G j) (F i) (F i')) +
        ((∑ j, ∑ j', ∑ i, tripleOf S N (G j) (G j') (F i)) + (∑ j, ∑ j', ∑ i, tripleOf S N (G j) (F i) (G j')) +
        ∑ j, ∑ j', ∑ i, tripleOf S N (F i) (G j) (G j'))) := by
  have hF : Function.Injective F := fun x y h => by
    simpa using hFG.1 (a₁ := Sum.inl x) (a₂ := Sum.inl y) h
  have hG : Function.Injective G := fun x y h => by
    simpa using hFG.1 (a₁ := Sum.inr x) (a₂ := Sum.inr y) h
  have swap : ∀ {p q r : ℕ} (f : Fin p → Fin q → Fin r → ℝ), ∑ j, ∑ i, ∑ k, f i k j = ∑ i, ∑ k, ∑ j, f i k j := by
    intro p q r f
    rw [Finset.sum_comm]
    exact Finset.sum_congr rfl fun i _ => Finset.sum_comm
  simp only [sum_energy, pairOf_comap S N hF, pairOf_comap S N hG, tripleOf_comap S N hF, tripleOf_comap S N hG]
  simp only [sum_two hFG, Finset.sum_add_distrib]
  rw [Finset.sum_comm (f := fun j i => pairOf S N (G j) (F i)),
    Finset.sum_congr rfl fun i _ => Finset.sum_comm (f := fun j i' => tripleOf S N (F i) (G j) (F i')),
    swap fun i i' j => tripleOf S N (G j) (F i) (F i'), swap fun j j' i => tripleOf S N (F i) (G j) (G j'),
    Finset.sum_congr rfl fun j _ => Finset.sum_comm (f := fun i j' => tripleOf S N (G j) (F i) (G j'))]
  ring

/-- Molecules `F` (the atoms of `A`) and `G` (those of `B`) at a growing distance `ρ` from each other; `B` is in the
direction `u` of `A`. Shape, coordination numbers and charges of each molecule converge to those of `A` and `B`
(for example, they do not change at all). -/
structure Separates (l : Filter ι) (M : ι → Mol n) (F : Fin a → Fin n) (G : Fin b → Fin n) (A : Mol a) (B : Mol b)
    (ρ : ι → ℝ) (u : E3) : Prop where
  atoms : Function.Bijective (Sum.elim F G)
  Z_left : ∀ t i, (M t).Z (F i) = A.Z i
  Z_right : ∀ t j, (M t).Z (G j) = B.Z j
  Q_left : ∀ t i, (M t).Q (F i) = A.Q i
  Q_right : ∀ t j, (M t).Q (G j) = B.Q j
  cn_left : ∀ i, A.Z i ≠ 0 → Tendsto (fun t => (M t).cn (F i)) l (𝓝 (A.cn i))
  cn_right : ∀ j, B.Z j ≠ 0 → Tendsto (fun t => (M t).cn (G j)) l (𝓝 (B.cn j))
  q_left : ∀ i, A.Z i ≠ 0 → Tendsto (fun t => (M t).q (F i)) l (𝓝 (A.q i))
  q_right : ∀ j, B.Z j ≠ 0 → Tendsto (fun t => (M t).q (G j)) l (𝓝 (B.q j))
  shape_left : ∀ i i', A.Z i ≠ 0 → A.Z i' ≠ 0 →
    Tendsto (fun t => (M t).pos (F i') - (M t).pos (F i)) l (𝓝 (A.pos i' - A.pos i))
  shape_right : ∀ j j', B.Z j ≠ 0 → B.Z j' ≠ 0 →
    Tendsto (fun t => (M t).pos (G j') - (M t).pos (G j)) l (𝓝 (B.pos j' - B.pos j))
  distance : Tendsto ρ l atTop
  direction : ∀ i j, A.Z i ≠ 0 → B.Z j ≠ 0 →
    Tendsto (fun t => (ρ t)⁻¹ • ((M t).pos (G j) - (M t).pos (F i))) l (𝓝 u)
  unit : ‖u‖ = 1

/-- Atoms of a molecule that have a positive effective nuclear charge and are not on top of each other. -/
structure WellFormed (C : C6Settings) (ε : ℝ) (A : Mol a) : Prop where
  charge : ∀ i, A.Z i ≠ 0 → C.ε < A.q i + C.T.zeff (A.Z i)
  zeff : ∀ i, A.Z i ≠ 0 → C.ε < C.T.zeff (A.Z i)
  apart : ∀ i i', A.Z i ≠ 0 → A.Z i' ≠ 0 → i ≠ i' → ε < dist (A.pos i) (A.pos i') ^ 2

theorem farFactor_neg (d u : E3) : farFactor d (-u) = farFactor d u := by
  unfold farFactor
  rw [InnerProductGeometry.angle_neg_right, Real.cos_pi_sub]
  ring

/-- **Long-range interaction**: `R⁶` times the interaction energy converges. -/
theorem tendsto_interaction {F : Fin a → Fin n} {G : Fin b → Fin n} {A : Mol a} {B : Mol b} {u : E3}
    (h : Separates l M F G A B ρ u) (hε : 0 < ε) (hCε : 0 < C.ε) (hA : WellFormed C ε A) (hB : WellFormed C ε B)
    (halp : 0 < P.alp)
    (h2 : ∀ᶠ t in l, ∀ i j, (M t).Z i ≠ 0 → (M t).Z j ≠ 0 → (M t).r ε i j ≤ cut2 t)
    (h3 : ∀ᶠ t in l, ∀ i j, (M t).Z i ≠ 0 → (M t).Z j ≠ 0 → (M t).r ε i j ≤ cut3 t) :
    Tendsto (fun t => ρ t ^ 6 * (∑ x, energy (d4Settings C ε P (cut2 t) (cut3 t)) (M t) x -
      ∑ i, energy (d4Settings C ε P (cut2 t) (cut3 t)) ((M t).comap F) i -
      ∑ j, energy (d4Settings C ε P (cut2 t) (cut3 t)) ((M t).comap G) j)) l (𝓝 (longRange C ε P A B u)) := by
  let e := (Equiv.ofBijective _ h.atoms)
  have eF : ∀ i, e.symm (F i) = .inl i := fun i => e.symm_apply_eq.2 rfl
  have eG : ∀ j, e.symm (G j) = .inr j := fun j => e.symm_apply_eq.2 rfl
  have hFG : ∀ i j, F i ≠ G j := fun i j hij => by
    have := h.atoms.1 (a₁ := .inl i) (a₂ := .inr j) hij
    simp at this
  have hF : ∀ {i i'}, F i = F i' ↔ i = i' := fun {x y} => ⟨fun h' => by
    simpa using h.atoms.1 (a₁ := Sum.inl x) (a₂ := Sum.inl y) h', fun h' => by rw [h']⟩
  have hG : ∀ {i i'}, G i = G i' ↔ i = i' := fun {x y} => ⟨fun h' => by
    simpa using h.atoms.1 (a₁ := Sum.inr x) (a₂ := Sum.inr y) h', fun h' => by rw [h']⟩
  let M₀ : Mol n := {
    Z := fun x => Sum.elim A.Z B.Z (e.symm x)
    pos := fun x => Sum.elim A.pos B.pos (e.symm x)
    cn := fun x => Sum.elim A.cn B.cn (e.symm x)
    q := fun x => Sum.elim A.q B.q (e.symm x)
    Q := fun x => Sum.elim A.Q B.Q (e.symm x)
    rvdw := fun _ _ => 0 }
  have cases : ∀ {p : Fin n → Prop}, (∀ i, p (F i)) → (∀ j, p (G j)) → ∀ x, p x := by
    intro p h1 h2 x
    obtain ⟨y, rfl⟩ := e.surjective x
    cases y with
    | inl i => exact h1 i
    | inr j => exact h2 j
  have ZF : ∀ i, M₀.Z (F i) = A.Z i := fun i => by simp [M₀, eF]
  have ZG : ∀ j, M₀.Z (G j) = B.Z j := fun j => by simp [M₀, eG]
  have hs : Settles l M M₀ := by
    refine ⟨fun t => funext (cases (fun i => ?_) fun j => ?_), fun t => funext (cases (fun i => ?_) fun j => ?_),
      cases (fun i hi => ?_) fun j hj => ?_, cases (fun i hi => ?_) fun j hj => ?_⟩
    · rw [h.Z_left, ZF]
    · rw [h.Z_right, ZG]
    · rw [h.Q_left]; simp [M₀, eF]
    · rw [h.Q_right]; simp [M₀, eG]
    · simpa [M₀, eF] using h.cn_left i (by rwa [← ZF])
    · simpa [M₀, eG] using h.cn_right j (by rwa [← ZG])
    · simpa [M₀, eF] using h.q_left i (by rwa [← ZF])
    · simpa [M₀, eG] using h.q_right j (by rwa [← ZG])
  have hq : ∀ x, M₀.Z x ≠ 0 → C.ε < M₀.q x + C.T.zeff (M₀.Z x) := by
    refine cases (fun i hi => ?_) fun j hj => ?_
    · simpa [M₀, eF] using hA.charge i (by rwa [← ZF])
    · simpa [M₀, eG] using hB.charge j (by rwa [← ZG])
  have hz : ∀ x, M₀.Z x ≠ 0 → C.ε < C.T.zeff (M₀.Z x) := by
    refine cases (fun i hi => ?_) fun j hj => ?_
    · rw [ZF]; exact hA.zeff i (by rwa [← ZF])
    · rw [ZG]; exact hB.zeff j (by rwa [← ZG])
  -- pairs
  have pair : ∀ {x y : Fin n} {w : E3}, x ≠ y → (M₀.Z x ≠ 0 → M₀.Z y ≠ 0 →
      Tendsto (fun t => (ρ t)⁻¹ • ((M t).pos y - (M t).pos x)) l (𝓝 w)) → ‖w‖ = 1 →
      Tendsto (fun t => ρ t ^ 6 * pairOf (d4Settings C ε P (cut2 t) (cut3 t)) (M t) x y) l
        (𝓝 (if M₀.Z x ≠ 0 ∧ M₀.Z y ≠ 0 then P.s6 * Spec.c6 C (M₀.atom x) (M₀.atom y) else 0)) := by
    intro x y w hxy hw h1
    by_cases hc : M₀.Z x ≠ 0 ∧ M₀.Z y ≠ 0
    · rw [if_pos hc]
      refine (far_pairTerm (ε := ε) (cut2 := cut2) (cut3 := cut3) hs hCε hq hc.1 hc.2 h.distance (hw hc.1 hc.2) h1).congr' ?_
      filter_upwards [h2] with t ht
      rw [pairOf, if_pos]
      rw [hs.Z]
      exact ⟨hc.1, hc.2, hxy, ht x y (by rw [hs.Z]; exact hc.1) (by rw [hs.Z]; exact hc.2)⟩
    · rw [if_neg hc]
      refine tendsto_const_nhds.congr fun t => ?_
      rw [pairOf, if_neg, mul_zero]
      rw [hs.Z]
      exact fun h' => hc ⟨h'.1, h'.2.1⟩
  -- triples
  have sym : ∀ t (A A' : AtomData), (d4Settings C ε P (cut2 t) (cut3 t)).c6 A A' =
      (d4Settings C ε P (cut2 t) (cut3 t)).c6 A' A := fun t A A' => c6_symm A A'
  have triple : ∀ {x y z : Fin n} {w dd : E3} {D : Prop}, (x ≠ y ↔ D) → x ≠ z → y ≠ z →
      (M₀.Z x ≠ 0 → M₀.Z y ≠ 0 → Tendsto (fun t => (M t).pos y - (M t).pos x) l (𝓝 dd)) →
      (M₀.Z x ≠ 0 → M₀.Z y ≠ 0 → D → ε < ‖dd‖ ^ 2) →
      (M₀.Z x ≠ 0 → M₀.Z z ≠ 0 → Tendsto (fun t => (ρ t)⁻¹ • ((M t).pos z - (M t).pos x)) l (𝓝 w)) → ‖w‖ = 1 →
      ∀ f : ι → ℝ, (∀ t, f t = tripleOf (d4Settings C ε P (cut2 t) (cut3 t)) (M t) x y z ∨
        f t = tripleOf (d4Settings C ε P (cut2 t) (cut3 t)) (M t) x z y ∨
        f t = tripleOf (d4Settings C ε P (cut2 t) (cut3 t)) (M t) z x y) →
      Tendsto (fun t => ρ t ^ 6 * f t) l (𝓝 (if M₀.Z x ≠ 0 ∧ M₀.Z y ≠ 0 ∧ D ∧ M₀.Z z ≠ 0 then
        P.s9 * (c9Atoms C ε (M₀.neutral x) (M₀.neutral y) (M₀.neutral z) * farFactor dd w) else 0)) := by
    intro x y z w dd D hD hxz hyz hd hdε hw h1 f hf
    by_cases hc : M₀.Z x ≠ 0 ∧ M₀.Z y ≠ 0 ∧ D ∧ M₀.Z z ≠ 0
    · rw [if_pos hc]
      obtain ⟨hx, hy, hDD, hz0⟩ := hc
      have hdd := hdε hx hy hDD
      have hd0 : dd ≠ 0 := by
        rintro rfl
        rw [norm_zero] at hdd
        norm_num at hdd
        linarith
      refine (far_tripleTerm (cut2 := cut2) (cut3 := cut3) hs hCε hz hx hy hz0 halp h.distance (hd hx hy) hdd hd0
        (hw hx hz0) h1).congr' ?_
      filter_upwards [h3] with t ht
      have hx' : (M t).Z x ≠ 0 := by rw [hs.Z]; exact hx
      have hy' : (M t).Z y ≠ 0 := by rw [hs.Z]; exact hy
      have hz' : (M t).Z z ≠ 0 := by rw [hs.Z]; exact hz0
      have hxy := hD.2 hDD
      congr 1
      rcases hf t with e | e | e <;> rw [e, tripleOf, if_pos]
      · exact ⟨hx', hy', hz', hxy, hxz, hyz, ht _ _ hx' hy', ht _ _ hy' hz'⟩
      · rw [tripleTerm_swap23 (sym t) x y z]
      · exact ⟨hx', hz', hy', hxz, hxy, hyz.symm, ht _ _ hx' hz', ht _ _ hz' hy'⟩
      · rw [tripleTerm_swap12 (sym t) x z y, tripleTerm_swap23 (sym t) x y z]
      · exact ⟨hz', hx', hy', hxz.symm, hyz.symm, hxy, ht _ _ hz' hx', ht _ _ hx' hy'⟩
    · rw [if_neg hc]
      refine tendsto_const_nhds.congr fun t => ?_
      have : f t = 0 := by
        rcases hf t with e | e | e <;> rw [e, tripleOf, if_neg] <;> rw [hs.Z]
        · exact fun h' => hc ⟨h'.1, h'.2.1, hD.1 h'.2.2.2.1, h'.2.2.1⟩
        · exact fun h' => hc ⟨h'.1, h'.2.2.1, hD.1 h'.2.2.2.2.1, h'.2.1⟩
        · exact fun h' => hc ⟨h'.2.1, h'.2.2.1, hD.1 h'.2.2.2.2.2.1, h'.1⟩
      rw [this, mul_zero]
  have dir : ∀ i j, A.Z i ≠ 0 → B.Z j ≠ 0 →
      Tendsto (fun t => (ρ t)⁻¹ • ((M t).pos (F i) - (M t).pos (G j))) l (𝓝 (-u)) := by
    intro i j hi hj
    refine (h.direction i j hi hj).neg.congr fun t => ?_
    rw [← smul_neg, neg_sub]
  have nu : ‖-u‖ = 1 := by rw [norm_neg, h.unit]
  have tA := fun i i' j => triple (x := F i) (y := F i') (z := G j) (w := u) (dd := A.pos i' - A.pos i) (D := i ≠ i')
    (not_congr hF) (hFG i j) (hFG i' j) (fun hx hy => h.shape_left i i' (by rwa [← ZF]) (by rwa [← ZF]))
    (fun hx hy hD => by
      rw [← dist_eq_norm, dist_comm]
      exact hA.apart i i' (by rwa [← ZF]) (by rwa [← ZF]) hD)
    (fun hx hz => h.direction i j (by rwa [← ZF]) (by rwa [← ZG])) h.unit
  have tB := fun j j' i => triple (x := G j) (y := G j') (z := F i) (w := -u) (dd := B.pos j' - B.pos j) (D := j ≠ j')
    (not_congr hG) (hFG i j).symm (hFG i j').symm (fun hx hy => h.shape_right j j' (by rwa [← ZG]) (by rwa [← ZG]))
    (fun hx hy hD => by
      rw [← dist_eq_norm, dist_comm]
      exact hB.apart j j' (by rwa [← ZG]) (by rwa [← ZG]) hD)
    (fun hx hz => dir i j (by rwa [← ZF]) (by rwa [← ZG])) nu
  have pA := fun i j => pair (x := F i) (y := G j) (w := u) (hFG i j)
    (fun hx hy => h.direction i j (by rwa [← ZF]) (by rwa [← ZG])) h.unit
  have pB := fun i j => pair (x := G j) (y := F i) (w := -u) (hFG i j).symm
    (fun hx hy => dir i j (by rwa [← ZF]) (by rwa [← ZG])) nu
  have L2 := (tendsto_finsetSum Finset.univ fun i _ => tendsto_finsetSum Finset.univ fun j _ => pA i j).add
    (tendsto_finsetSum Finset.univ fun i _ => tendsto_finsetSum Finset.univ fun j _ => pB i j)
  have sum3 : ∀ {p q r : ℕ} {f : Fin p → Fin q → Fin r → ι → ℝ} {g : Fin p → Fin q → Fin r → ℝ},
      (∀ i j k, Tendsto (f i j k) l (𝓝 (g i j k))) →
      Tendsto (fun t => ∑ i, ∑ j, ∑ k, f i j k t) l (𝓝 (∑ i, ∑ j, ∑ k, g i j k)) := fun hfg =>
    tendsto_finsetSum _ fun i _ => tendsto_finsetSum _ fun j _ => tendsto_finsetSum _ fun k _ => hfg i j k
  have L3 := (((sum3 fun i i' j => tA i i' j _ fun t => Or.inl rfl).add
    (sum3 fun i i' j => tA i i' j _ fun t => Or.inr (Or.inl rfl))).add
    (sum3 fun i i' j => tA i i' j _ fun t => Or.inr (Or.inr rfl))).add
    (((sum3 fun j j' i => tB j j' i _ fun t => Or.inl rfl).add
    (sum3 fun j j' i => tB j j' i _ fun t => Or.inr (Or.inl rfl))).add
    (sum3 fun j j' i => tB j j' i _ fun t => Or.inr (Or.inr rfl)))
  have L := (L2.const_mul (-(1 / 2))).add (L3.const_mul (1 / 6))
  have L' := L.congr (f₂ := fun t => ρ t ^ 6 * (∑ x, energy (d4Settings C ε P (cut2 t) (cut3 t)) (M t) x -
      ∑ i, energy (d4Settings C ε P (cut2 t) (cut3 t)) ((M t).comap F) i -
      ∑ j, energy (d4Settings C ε P (cut2 t) (cut3 t)) ((M t).comap G) j)) fun t => by
    rw [interaction_eq _ _ h.atoms]
    simp only [← Finset.mul_sum]
    ring
  refine Eq.mp (congrArg (fun r => Tendsto _ l (𝓝 r)) ?_) L'
  · have aF : ∀ i, M₀.atom (F i) = A.atom i := fun i => by simp [M₀, Mol.atom, eF]
    have aG : ∀ j, M₀.atom (G j) = B.atom j := fun j => by simp [M₀, Mol.atom, eG]
    have nF : ∀ i, M₀.neutral (F i) = A.neutral i := fun i => by simp [M₀, Mol.neutral, eF]
    have nG : ∀ j, M₀.neutral (G j) = B.neutral j := fun j => by simp [M₀, Mol.neutral, eG]
    simp only [ZF, ZG, aF, aG, nF, nG, farFactor_neg]
    have ite2 : ∀ (c c' : Prop) [Decidable c] [Decidable c'] (s v : ℝ), (c ↔ c') →
        (if c then s * v else 0) = s * if c' then v else 0 := by
      intro c c' _ _ s v hcc
      by_cases hc : c
      · rw [if_pos hc, if_pos (hcc.1 hc)]
      · rw [if_neg hc, if_neg fun h' => hc (hcc.2 h'), mul_zero]
    simp only [longRange, ite2 _ _ _ _ Iff.rfl, ← Finset.mul_sum]
    have hcomm : (∑ i, ∑ j, if B.Z j ≠ 0 ∧ A.Z i ≠ 0 then Spec.c6 C (B.atom j) (A.atom i) else 0) =
        ∑ i, ∑ j, if A.Z i ≠ 0 ∧ B.Z j ≠ 0 then Spec.c6 C (A.atom i) (B.atom j) else 0 :=
      Finset.sum_congr rfl fun i _ => Finset.sum_congr rfl fun j _ => by
        rw [c6_symm]
        exact if_congr and_comm rfl rfl
    rw [hcomm]
    ring

end Spec

section

variable {env : Env} {T : Tables} {ext : Ext} {p : Param} {R : RefCfg} {cn : Spec.CN} {eeq : Spec.EEQ}
  {P : Spec.D4Par} {ι : Type*} {l : Filter ι} {n a b : ℕ} {S SA SB : List ℕ} {s sA sB : Idx}
  {numbers numbersA numbersB : ι → Tensor ℕ} {positions positionsA positionsB charge chargeA chargeB : ι → Tensor ℝ}
  {o oA oB : ι → DftOpts} {A : Spec.Mol a} {B : Spec.Mol b} {F : Fin a → Fin n} {G : Fin b → Fin n}
  {ρ : ι → ℝ} {u : Spec.E3} {E EA EB : ι → Tensor ℝ}

/-- **Interaction of two molecules**: three calls of `dftd4`, for the complex and for the two molecules alone. The
molecules move apart in the direction `u`, and their shapes, coordination numbers and charges converge to those of
`A` and `B`. As long as the cutoffs exceed the distances, `R⁶` times the interaction energy converges to the
specified coefficient. -/
theorem C84_interaction
    (h : ∀ t, Call env T ext (numbers t) (positions t) (charge t) p (o t) n S R cn eeq P)
    (hA : ∀ t, Call env T ext (numbersA t) (positionsA t) (chargeA t) p (oA t) a SA R cn eeq P)
    (hB : ∀ t, Call env T ext (numbersB t) (positionsB t) (chargeB t) p (oB t) b SB R cn eeq P)
    (hfl : env.fl = id) (hT : T.Physical R.rq) (hgc : 0 < R.gc) (halp : 0 < P.alp)
    (cA : ∀ t, (oA t).opts.cutoff = (o t).opts.cutoff) (cB : ∀ t, (oB t).opts.cutoff = (o t).opts.cutoff)
    (hs : InB S s) (hsA : InB SA sA) (hsB : InB SB sB)
    (sameA : ∀ᶠ t in l, system T cn eeq (numbersA t) (positionsA t) (chargeA t) (oA t).opts a sA =
      (system T cn eeq (numbers t) (positions t) (charge t) (o t).opts n s).comap F)
    (sameB : ∀ᶠ t in l, system T cn eeq (numbersB t) (positionsB t) (chargeB t) (oB t).opts b sB =
      (system T cn eeq (numbers t) (positions t) (charge t) (o t).opts n s).comap G)
    (hsep : Spec.Separates l (fun t => system T cn eeq (numbers t) (positions t) (charge t) (o t).opts n s) F G A B ρ u)
    (dA : Spec.WellFormed (R.spec T env.eps) env.eps A) (dB : Spec.WellFormed (R.spec T env.eps) env.eps B)
    (hcut : ∀ᶠ t in l, √env.eps ≤ ((o t).opts.cutoff.getD {}).disp2 ∧ √env.eps ≤ ((o t).opts.cutoff.getD {}).disp3 ∧
      ∀ i j, elements (numbers t) n s i ≠ 0 → elements (numbers t) n s j ≠ 0 →
        dist (coords (positions t) n s i) (coords (positions t) n s j) ≤ ((o t).opts.cutoff.getD {}).disp2 ∧
        dist (coords (positions t) n s i) (coords (positions t) n s j) ≤ ((o t).opts.cutoff.getD {}).disp3)
    (hE : ∀ t, dftd4 env T ext (numbers t) (positions t) (charge t) p (o t) = .ok (E t))
    (hEA : ∀ t, dftd4 env T ext (numbersA t) (positionsA t) (chargeA t) p (oA t) = .ok (EA t))
    (hEB : ∀ t, dftd4 env T ext (numbersB t) (positionsB t) (chargeB t) p (oB t) = .ok (EB t)) :
    Tendsto (fun t => ρ t ^ 6 * (∑ i : Fin n, (E t).get (i.1 :: s) - ∑ i : Fin a, (EA t).get (i.1 :: sA) -
      ∑ i : Fin b, (EB t).get (i.1 :: sB))) l (𝓝 (Spec.longRange (R.spec T env.eps) env.eps P A B u)) := by
  have near : ∀ {M : Spec.Mol n} {i j : Fin n} {c : ℝ}, √env.eps ≤ c → dist (M.pos i) (M.pos j) ≤ c →
      M.r env.eps i j ≤ c := by
    intro M i j c h1 h2
    unfold Spec.Mol.r Spec.rsqrt
    refine Real.sqrt_le_iff.2 ⟨dist_nonneg.trans h2, max_le (pow_le_pow_left₀ dist_nonneg h2 2) ?_⟩
    exact (Real.sqrt_le_left ((Real.sqrt_nonneg _).trans h1)).1 h1
  have hL := Spec.tendsto_interaction (P := P) (cut2 := fun t => ((o t).opts.cutoff.getD {}).disp2)
    (cut3 := fun t => ((o t).opts.cutoff.getD {}).disp3) hsep env.eps_pos env.eps_pos dA dB halp
    (hcut.mono fun t ht i j hi hj => near ht.1 (ht.2.2 i j hi hj).1)
    (hcut.mono fun t ht i j hi hj => near ht.2.1 (ht.2.2 i j hi hj).2)
  refine hL.congr' ?_
  filter_upwards [sameA, sameB] with t tA tB
  obtain ⟨e, e1, -, e2⟩ := C01_dftd4_energy (h t) hfl hT hgc
  obtain ⟨e', e1', -, e2'⟩ := C01_dftd4_energy (hA t) hfl hT hgc
  obtain ⟨e'', e1'', -, e2''⟩ := C01_dftd4_energy (hB t) hfl hT hgc
  rw [hE t] at e1
  rw [hEA t] at e1'
  rw [hEB t] at e1''
  cases e1; cases e1'; cases e1''
  simp only [e2 s hs, e2' sA hsA, e2'' sB hsB, tA, tB, cA, cB]

/-- In the mean over any three perpendicular directions the three-body terms cancel, and only the C6 coefficients
remain. -/
theorem C84_mean {C : Spec.C6Settings} {ε : ℝ} (v : OrthonormalBasis (Fin 3) ℝ Spec.E3) :
    (∑ k, Spec.longRange C ε P A B (v k)) / 3 =
      -P.s6 * ∑ i, ∑ j, if A.Z i ≠ 0 ∧ B.Z j ≠ 0 then Spec.c6 C (A.atom i) (B.atom j) else 0 := by
  have h0 : ∀ d, ∑ k, Spec.farFactor d (v k) = 0 := by
    intro d
    unfold Spec.farFactor
    by_cases hd : d = 0
    · simp [hd]
    have hn : ‖d‖ ≠ 0 := norm_ne_zero_iff.2 hd
    have hs : ∑ k, inner ℝ d (v k) ^ 2 = ‖d‖ ^ 2 := by
      rw [← v.sum_sq_norm_inner_left d]
      exact Finset.sum_congr rfl fun k _ => by rw [Real.norm_eq_abs, sq_abs]
    have hc : ∀ k, Real.cos (InnerProductGeometry.angle d (v k)) = inner ℝ d (v k) / ‖d‖ := fun k => by
      rw [InnerProductGeometry.cos_angle, v.norm_eq_one, mul_one]
    simp only [hc]
    rw [← Finset.sum_div, Finset.sum_sub_distrib, ← Finset.mul_sum]
    simp only [div_pow]
    rw [← Finset.sum_div, hs, div_self (pow_ne_zero 2 hn)]
    simp
  have h3 : ∀ {x y z : ℕ} {c : Fin x → Fin y → Fin z → Prop} {w : Fin x → Fin y → Fin z → ℝ}
      {d : Fin x → Fin y → Spec.E3} [∀ i i' j, Decidable (c i i' j)],
      ∑ k, ∑ i, ∑ i', ∑ j, (if c i i' j then w i i' j * Spec.farFactor (d i i') (v k) else 0) = 0 := by
    intro x y z c w d _
    rw [Finset.sum_comm]
    refine Finset.sum_eq_zero fun i _ => ?_
    rw [Finset.sum_comm]
    refine Finset.sum_eq_zero fun i' _ => ?_
    rw [Finset.sum_comm]
    refine Finset.sum_eq_zero fun j _ => ?_
    by_cases hc : c i i' j
    · simp only [if_pos hc, ← Finset.mul_sum, h0, mul_zero]
    · simp only [if_neg hc, Finset.sum_const_zero]
  simp only [Spec.longRange, Finset.sum_add_distrib, ← Finset.mul_sum]
  rw [h3, h3]
  simp
  ring

end

/-! ## A concrete case: a hydrogen atom leaves a hydrogen molecule -/

namespace Demo

/-- The molecule at the origin, and an atom at distance `t`. -/
noncomputable def leaving (t : ℝ) : Tensor ℝ := ⟨none, [3, 3], fun
  | [0, 1] => 2
  | [0, 2] => t
  | _ => 0⟩

noncomputable def stays : Tensor ℝ := ⟨none, [3, 2], fun
  | [0, 1] => 2
  | _ => 0⟩

noncomputable def left (t : ℝ) : Tensor ℝ := ⟨none, [3, 1], fun
  | [0, 0] => t
  | _ => 0⟩

def hydrogens (n : ℕ) : Tensor ℕ := ⟨none, [n], fun _ => 1⟩

/-- Cutoffs that exceed all distances. -/
noncomputable def wide (t : ℝ) : DftOpts := { opts := { cutoff := some { disp2 := |t| + 3, disp3 := |t| + 3 } } }

theorem callWide {n : ℕ} {pos : Tensor ℝ} (hp : pos.Ok [3, n]) (t : ℝ) :
    Call env T extCut (hydrogens n) pos neutral param (wide t) n [] .d4 cnCut eeq par :=
  { callCut (hydrogens n) pos ⟨rfl, rfl⟩ hp fun _ => le_rfl with
    args := { (callCut (hydrogens n) pos ⟨rfl, rfl⟩ hp fun _ => le_rfl).args with
      q := fun _ h => by simp [wide] at h
      rcov := fun _ h => by simp [wide] at h
      r4r2 := fun _ h => by simp [wide] at h
      rvdw := fun _ h => by simp [wide] at h }
    model := Or.inl ⟨"d4", rfl, keys "d4" (by simp), rfl⟩
    cut3 := by show (0 : ℝ) ≤ |t| + 3; positivity }

noncomputable abbrev parted (t : ℝ) : Spec.Mol 3 :=
  system T cnCut eeq (hydrogens 3) (leaving t) neutral (wide t).opts 3 []
noncomputable abbrev molH2 : Spec.Mol 2 := system T cnCut eeq (hydrogens 2) stays neutral (wide 0).opts 2 []
noncomputable abbrev atomH : Spec.Mol 1 := system T cnCut eeq (hydrogens 1) (left 0) neutral (wide 0).opts 1 []

theorem parted_pos (t : ℝ) (i : Fin 3) :
    coords (leaving t) 3 [] i = (![0, 2, t] i : ℝ) • EuclideanSpace.single 0 1 := by
  ext k
  fin_cases i <;> fin_cases k <;> simp [coords, leaving]

theorem parted_dist (t : ℝ) (i j : Fin 3) : dist (coords (leaving t) 3 [] i) (coords (leaving t) 3 [] j) =
    |(![0, 2, t] i : ℝ) - ![0, 2, t] j| := by
  rw [parted_pos, parted_pos, dist_eq_norm, ← sub_smul, norm_smul]
  simp

theorem stays_dist (i j : Fin 2) : dist (coords stays 2 [] i) (coords stays 2 [] j) =
    |(![0, 2] i : ℝ) - ![0, 2] j| := by
  have hp : ∀ i, coords stays 2 [] i = (![0, 2] i : ℝ) • EuclideanSpace.single 0 1 := fun i => by
    ext k
    fin_cases i <;> fin_cases k <;> simp [coords, stays]
  rw [hp, hp, dist_eq_norm, ← sub_smul, norm_smul]
  simp

theorem parted_cn {t : ℝ} (ht : 40 < t) (i : Fin 3) :
    cnCut 3 (elements (hydrogens 3) 3 []) (coords (leaving t) 3 []) i = ![1, 1, 0] i := by
  unfold cnCut
  simp only [parted_dist, elements, hydrogens, Fin.sum_univ_three]
  have h1 : ¬ |t| ≤ 30 := by rw [abs_of_pos (by linarith)]; linarith
  have h2 : ¬ |t - 2| ≤ 30 := by rw [abs_of_pos (by linarith)]; linarith
  have h3 : ¬ |2 - t| ≤ 30 := by rwa [abs_sub_comm]
  fin_cases i <;> simp [h1, h2, h3] <;> norm_num

theorem stays_cn (i : Fin 2) : cnCut 2 (elements (hydrogens 2) 2 []) (coords stays 2 []) i = 1 := by
  unfold cnCut
  simp only [stays_dist, elements, hydrogens, Fin.sum_univ_two]
  fin_cases i <;> simp <;> norm_num

theorem left_cn {t : ℝ} (i : Fin 1) : cnCut 1 (elements (hydrogens 1) 1 []) (coords (left t) 1 []) i = 0 := by
  unfold cnCut
  simp [Subsingleton.elim i 0]

theorem parted_left {t : ℝ} (ht : 40 < t) :
    system T cnCut eeq (hydrogens 2) stays neutral (wide t).opts 2 [] = (parted t).comap Fin.castSucc := by
  have hp : coords stays 2 [] = coords (leaving t) 3 [] ∘ Fin.castSucc := by
    funext i
    ext k
    fin_cases i <;> fin_cases k <;> simp [coords, stays, leaving]
  unfold system Spec.Mol.comap
  simp only [Spec.Mol.mk.injEq]
  refine ⟨rfl, hp, ?_, ?_, rfl, rfl⟩
  · funext i
    rw [stays_cn]
    refine Eq.trans ?_ (parted_cn ht i.castSucc).symm
    fin_cases i <;> rfl
  · funext i
    simp [eeq, neutral, wide, system]

theorem parted_right {t : ℝ} (ht : 40 < t) :
    system T cnCut eeq (hydrogens 1) (left t) neutral (wide t).opts 1 [] = (parted t).comap (Fin.natAdd 2) := by
  have hp : coords (left t) 1 [] = coords (leaving t) 3 [] ∘ Fin.natAdd 2 := by
    funext i
    ext k
    fin_cases i <;> fin_cases k <;> simp [coords, left, leaving]
  unfold system Spec.Mol.comap
  simp only [Spec.Mol.mk.injEq]
  refine ⟨rfl, hp, ?_, ?_, rfl, rfl⟩
  · funext i
    rw [left_cn]
    refine Eq.trans ?_ (parted_cn ht (Fin.natAdd 2 i)).symm
    fin_cases i; rfl
  · funext i
    simp [eeq, neutral, wide, system]

theorem separates : Spec.Separates atTop parted (Fin.castSucc : Fin 2 → Fin 3) (Fin.natAdd 2 : Fin 1 → Fin 3)
    molH2 atomH id (EuclideanSpace.single 0 1) where
  atoms := by
    refine ⟨?_, ?_⟩
    · rintro (i | i) (j | j) h <;> fin_cases i <;> fin_cases j <;> simp at h ⊢
    · intro i
      fin_cases i
      · exact ⟨.inl 0, rfl⟩
      · exact ⟨.inl 1, rfl⟩
      · exact ⟨.inr 0, rfl⟩
  Z_left _ _ := rfl
  Z_right _ _ := rfl
  Q_left _ _ := rfl
  Q_right _ _ := rfl
  cn_left i _ := by
    refine tendsto_const_nhds.congr' ?_
    filter_upwards [eventually_gt_atTop 40] with t ht
    show cnCut _ _ _ i = cnCut _ _ _ _
    rw [stays_cn, parted_cn ht]
    fin_cases i <;> rfl
  cn_right i _ := by
    refine tendsto_const_nhds.congr' ?_
    filter_upwards [eventually_gt_atTop 40] with t ht
    show cnCut _ _ _ i = cnCut _ _ _ _
    rw [left_cn, parted_cn ht]
    fin_cases i; rfl
  q_left i _ := by
    refine tendsto_const_nhds.congr fun t => ?_
    simp [system, eeq, neutral, wide]
  q_right i _ := by
    refine tendsto_const_nhds.congr fun t => ?_
    simp [system, eeq, neutral, wide]
  shape_left i i' _ _ := by
    refine tendsto_const_nhds.congr fun t => ?_
    have hp : coords stays 2 [] = coords (leaving t) 3 [] ∘ Fin.castSucc := by
      funext i
      ext k
      fin_cases i <;> fin_cases k <;> simp [coords, stays, leaving]
    show coords stays 2 [] i' - coords stays 2 [] i = _
    rw [hp]
    rfl
  shape_right i i' _ _ := by
    obtain rfl := Subsingleton.elim i i'
    simp only [sub_self]
    exact tendsto_const_nhds
  distance := tendsto_id
  direction i j _ _ := by
    have h1 : Tendsto (fun t : ℝ => (1 - (![0, 2] i : ℝ) * t⁻¹) • (EuclideanSpace.single 0 1 : Spec.E3)) atTop
        (𝓝 ((1 - (![0, 2] i : ℝ) * 0) • (EuclideanSpace.single 0 1 : Spec.E3))) :=
      ((tendsto_const_nhds.sub (tendsto_const_nhds.mul tendsto_inv_atTop_zero)).smul_const _)
    rw [mul_zero, sub_zero, one_smul] at h1
    refine h1.congr' ?_
    filter_upwards [eventually_gt_atTop 0] with t ht
    show _ = t⁻¹ • (coords (leaving t) 3 [] _ - coords (leaving t) 3 [] _)
    rw [parted_pos, parted_pos, ← sub_smul, smul_smul]
    congr 1
    fin_cases i <;> fin_cases j <;> simp <;> field_simp
  unit := by simp

theorem distinctH2 : Spec.WellFormed (RefCfg.d4.spec T env.eps) env.eps molH2 where
  charge i _ := by
    show (1 : ℝ) / 2 ^ 52 < _
    simp [eeq, neutral, wide, system, RefCfg.spec, T, shipped, zeff, elements, hydrogens]
    norm_num
  zeff i _ := by
    show (1 : ℝ) / 2 ^ 52 < _
    simp [eeq, neutral, wide, system, RefCfg.spec, T, shipped, zeff, elements, hydrogens]
    norm_num
  apart i j _ _ h := by
    show (1 : ℝ) / 2 ^ 52 < dist (coords stays 2 [] i) (coords stays 2 [] j) ^ 2
    rw [stays_dist]
    fin_cases i <;> fin_cases j <;> simp at h ⊢ <;> norm_num

theorem distinctH : Spec.WellFormed (RefCfg.d4.spec T env.eps) env.eps atomH where
  charge i _ := by
    show (1 : ℝ) / 2 ^ 52 < _
    simp [eeq, neutral, wide, system, RefCfg.spec, T, shipped, zeff, elements, hydrogens]
    norm_num
  zeff i _ := by
    show (1 : ℝ) / 2 ^ 52 < _
    simp [eeq, neutral, wide, system, RefCfg.spec, T, shipped, zeff, elements, hydrogens]
    norm_num
  apart i j _ _ h := absurd (Subsingleton.elim i j) h

/-- The hydrogen atom and the hydrogen molecule attract each other with `C/t⁶`. -/
example {E EA EB : ℝ → Tensor ℝ}
    (hE : ∀ t, dftd4 env T extCut (hydrogens 3) (leaving t) neutral param (wide t) = .ok (E t))
    (hA : ∀ t, dftd4 env T extCut (hydrogens 2) stays neutral param (wide t) = .ok (EA t))
    (hB : ∀ t, dftd4 env T extCut (hydrogens 1) (left t) neutral param (wide t) = .ok (EB t)) :
    Tendsto (fun t => t ^ 6 * (∑ i : Fin 3, (E t).get [i.1] - ∑ i : Fin 2, (EA t).get [i.1] -
      ∑ i : Fin 1, (EB t).get [i.1])) atTop
      (𝓝 (Spec.longRange (RefCfg.d4.spec T env.eps) env.eps par molH2 atomH (EuclideanSpace.single 0 1))) :=
  C84_interaction (fun t => callWide ⟨rfl, rfl⟩ t) (fun t => callWide ⟨rfl, rfl⟩ t) (fun t => callWide ⟨rfl, rfl⟩ t)
    rfl physical (by norm_num [RefCfg.d4, gcDefault]) (by norm_num [par]) (fun _ => rfl) (fun _ => rfl) InB_nil InB_nil InB_nil
    (by filter_upwards [eventually_gt_atTop 40] with t ht using parted_left ht)
    (by filter_upwards [eventually_gt_atTop 40] with t ht using parted_right ht) separates distinctH2 distinctH
    (by
      filter_upwards [eventually_gt_atTop 40] with t ht
      have he : √env.eps ≤ 1 := by
        refine Real.sqrt_le_one.2 ?_
        norm_num [env]
      refine ⟨?_, ?_, fun i j _ _ => ?_⟩
      · show _ ≤ |t| + 3
        linarith [abs_nonneg t]
      · show _ ≤ |t| + 3
        linarith [abs_nonneg t]
      · rw [parted_dist]
        have h0 : |(![0, 2, t] i : ℝ) - ![0, 2, t] j| ≤ |t| + 3 := by
          rw [abs_of_pos (a := t) (by linarith), abs_le]
          fin_cases i <;> fin_cases j <;> simp <;> first | (constructor <;> linarith) | linarith
        exact ⟨h0, h0⟩) hE hA hB

example := C84_mean (C := RefCfg.d4.spec T env.eps) (ε := env.eps) (P := par) (A := molH2) (B := atomH)
  (EuclideanSpace.basisFun (Fin 3) ℝ)

end Demo

end TadDftd4
