import Verif.Lemmas.C6Pos
import Verif.Props.C15
import Verif.Lemmas.Setup

/-!
# C6 coefficients decrease with the atomic charges
-/

set_option linter.unusedSimpArgs false

open scoped Classical

namespace TadDftd4

open Tensor

variable {env : Env} {T : Tables} {R : RefCfg}

/-- The effective charge is not in the interval `(0, eps)`, where the scaling function increases. -/
def OffGap (env : Env) (z : ℝ) : Prop := z ≤ 0 ∨ env.eps ≤ z

theorem zetaAt_anti (hT : T.Physical R.rq) (hga : 0 ≤ R.ga) (hgc : 0 < R.gc) {Z : ℕ} (hZ : Z < T.nZ)
    {q q' : ℝ} (hq : q ≤ q') (hg : OffGap env (q + T.zeff Z)) {r : ℕ} (hr : r < nref) :
    zetaAt env T R.ga R.gc R.rq Z q' r ≤ zetaAt env T R.ga R.gc R.rq Z q r := by
  unfold zetaAt
  split_ifs with hc
  · exact C15_decreasing_partial hga (mul_pos (hT.gam Z hZ r hr hc) hgc) (hT.qref Z hZ r hr hc)
      env.eps_pos hg (by linarith)
  · exact le_rfl

theorem zetaAt_strict (hT : T.Physical R.rq) (hga : 0 < R.ga) (hgc : 0 < R.gc) {Z : ℕ} (hZ : Z < T.nZ)
    {q q' : ℝ} (hq : q < q') (hg : env.eps < q + T.zeff Z) {r : ℕ} (hr : r < nref)
    (hc : 0 < T.refc Z r) :
    zetaAt env T R.ga R.gc R.rq Z q' r < zetaAt env T R.ga R.gc R.rq Z q r := by
  unfold zetaAt
  rw [if_pos hc, if_pos hc]
  exact C15_strict hga (mul_pos (hT.gam Z hZ r hr hc) hgc) (hT.qref Z hZ r hr hc)
    env.eps_pos hg (by linarith)

/-- Polarizability of atom `A` at quadrature point `w`, partner `Zp`. -/
noncomputable def polWith (env : Env) (T : Tables) (R : RefCfg) (A : Spec.AtomData) (Zp w : ℕ) : ℝ :=
  polOf env T R.ga R.gc R.rq A.Z (wtAt env T R A Zp) w

theorem polWith_nonneg (A : Spec.AtomData) (Zp w : ℕ) : 0 ≤ polWith env T R A Zp w :=
  polOf_nonneg (wtAt_nonneg _ _) _

theorem polWith_anti (hT : T.Physical R.rq) (hga : 0 ≤ R.ga) (hgc : 0 < R.gc) {Z : ℕ} (hZ : Z < T.nZ)
    {c q q' : ℝ} (hq : q ≤ q') (hg : OffGap env (q + T.zeff Z)) (Zp w : ℕ) :
    polWith env T R ⟨Z, c, q'⟩ Zp w ≤ polWith env T R ⟨Z, c, q⟩ Zp w := by
  unfold polWith polOf
  refine Finset.sum_le_sum fun r hr => mul_le_mul_of_nonneg_right ?_ (alphaAt_nonneg _ _ _ _ _ _)
  exact mul_le_mul_of_nonneg_right (zetaAt_anti hT hga hgc hZ hq hg (Finset.mem_range.1 hr))
    (gwOf_nonneg (expwSel_nonneg _ _ _ _) r)

theorem polWith_strict (hfl : env.fl = id) (hT : T.Physical R.rq) (hga : 0 < R.ga) (hgc : 0 < R.gc)
    {Z : ℕ} (hZ : Z < T.nZ) (hA : T.Polarizable env R Z) {c q q' : ℝ} (hq : q < q')
    (hg : env.eps < q + T.zeff Z) (Zp : ℕ) :
    polWith env T R ⟨Z, c, q'⟩ Zp 0 < polWith env T R ⟨Z, c, q⟩ Zp 0 := by
  obtain ⟨r, hr, hc, ha⟩ := hA
  unfold polWith polOf
  refine Finset.sum_lt_sum (fun s hs => mul_le_mul_of_nonneg_right ?_ (alphaAt_nonneg _ _ _ _ _ _))
    ⟨r, Finset.mem_range.2 hr, mul_lt_mul_of_pos_right ?_ ha⟩
  · exact mul_le_mul_of_nonneg_right (zetaAt_anti hT hga.le hgc hZ hq.le (Or.inr hg.le)
      (Finset.mem_range.1 hs)) (gwOf_nonneg (expwSel_nonneg _ _ _ _) s)
  · unfold wtAt wtOf
    refine mul_lt_mul_of_pos_right (zetaAt_strict hT hga hgc hZ hq hg hr hc) ?_
    rw [gwOf_spec hfl (hT.refc _ hZ) _ _ env.eps hr]
    exact spec_weight_pos (C := R.spec T env.eps) hr hc _ _

theorem c6At_anti (hT : T.Physical R.rq) (hga : 0 ≤ R.ga) (hgc : 0 < R.gc) {Z Z' : ℕ} (hZ : Z < T.nZ)
    (hZ' : Z' < T.nZ) {c q p c' q' p' : ℝ} (hq : q ≤ p) (hq' : q' ≤ p')
    (hg : OffGap env (q + T.zeff Z)) (hg' : OffGap env (q' + T.zeff Z')) :
    c6At env T R ⟨Z, c, p⟩ ⟨Z', c', p'⟩ ≤ c6At env T R ⟨Z, c, q⟩ ⟨Z', c', q'⟩ := by
  rw [c6At_integral, c6At_integral]
  refine mul_le_mul_of_nonneg_left (Finset.sum_le_sum fun w _ =>
    mul_le_mul_of_nonneg_left ?_ (trapzWeights_nonneg w)) thopi_pos.le
  exact mul_le_mul (polWith_anti hT hga hgc hZ hq hg _ _) (polWith_anti hT hga hgc hZ' hq' hg' _ _)
    (polWith_nonneg (R := R) ⟨Z', c', p'⟩ _ _) (polWith_nonneg (R := R) ⟨Z, c, q⟩ _ _)

theorem c6At_strict (hfl : env.fl = id) (hT : T.Physical R.rq) (hga : 0 < R.ga) (hgc : 0 < R.gc)
    {Z Z' : ℕ} (hZ : Z < T.nZ) (hZ' : Z' < T.nZ) (hA : T.Polarizable env R Z)
    (hA' : T.Polarizable env R Z') {c q p c' q' p' : ℝ} (hq : q < p) (hq' : q' ≤ p')
    (hg : env.eps < q + T.zeff Z) (hg' : OffGap env (q' + T.zeff Z')) :
    c6At env T R ⟨Z, c, p⟩ ⟨Z', c', p'⟩ < c6At env T R ⟨Z, c, q⟩ ⟨Z', c', q'⟩ := by
  rw [c6At_integral, c6At_integral]
  have hle : ∀ w, trapzWeights.getD w 0 * (polWith env T R ⟨Z, c, p⟩ Z' w *
      polWith env T R ⟨Z', c', p'⟩ Z w) ≤ trapzWeights.getD w 0 * (polWith env T R ⟨Z, c, q⟩ Z' w *
      polWith env T R ⟨Z', c', q'⟩ Z w) := fun w => by
    refine mul_le_mul_of_nonneg_left ?_ (trapzWeights_nonneg w)
    exact mul_le_mul (polWith_anti hT hga.le hgc hZ hq.le (Or.inr hg.le) _ _)
      (polWith_anti hT hga.le hgc hZ' hq' hg' _ _)
      (polWith_nonneg (R := R) ⟨Z', c', p'⟩ _ _) (polWith_nonneg (R := R) ⟨Z, c, q⟩ _ _)
  refine mul_lt_mul_of_pos_left (Finset.sum_lt_sum (fun w _ => hle w)
    ⟨0, Finset.mem_range.2 (by norm_num), ?_⟩) thopi_pos
  refine mul_lt_mul_of_pos_left ?_ (trapzWeights_pos (by norm_num))
  have h1 := polWith_strict (c := c) hfl hT hga hgc hZ hA hq hg Z'
  have h2 := polWith_anti (c := c') hT hga.le hgc hZ' hq' hg' Z 0
  have h3 : 0 < polWith env T R ⟨Z', c', p'⟩ Z 0 := polOf_pos (A := ⟨Z', c', p'⟩) hfl hT hgc hZ' hA' Z
  have h4 := polWith_nonneg (env := env) (T := T) (R := R) ⟨Z, c, q⟩ Z' 0
  exact lt_of_lt_of_le (mul_lt_mul_of_pos_right h1 h3) (mul_le_mul_of_nonneg_left h2 h4)

section
variable {n : ℕ} {P : Spec.D4Par} {cutoff : Cutoff} {M M' : Spec.Mol n}

/-- Same system but for the charges. -/
structure SameButCharges (M M' : Spec.Mol n) : Prop where
  Z : M'.Z = M.Z
  pos : M'.pos = M.pos
  cn : M'.cn = M.cn
  Q : M'.Q = M.Q

/-- Factor of C6 in the pair term. -/
theorem pairTerm_factor (h6 : 0 ≤ P.s6) (h8 : 0 ≤ P.s8) (h10 : 0 ≤ P.s10) (hM : SameButCharges M M')
    {i j : Fin n} (hQ : 0 ≤ M.Q i) (hQ' : 0 ≤ M.Q j) :
    ∃ F : ℝ, 0 ≤ F ∧ (0 < P.s6 → 0 < F) ∧
      Spec.pairTerm (d4Computed env T R P cutoff) M M.atom i j = F * c6At env T R (M.atom i) (M.atom j) ∧
      Spec.pairTerm (d4Computed env T R P cutoff) M' M'.atom i j =
        F * c6At env T R (M'.atom i) (M'.atom j) := by
  have hr : 0 < M.r env.eps i j := M.r_pos env.eps_pos i j
  have hqq : 0 ≤ 3 * M.Q i * M.Q j := mul_nonneg (mul_nonneg (by norm_num) hQ) hQ'
  have hf : ∀ k : ℕ, Even k → ∀ x : ℝ, 0 < 1 / (M.r env.eps i j ^ k + x ^ k) := fun k hk x =>
    one_div_pos.2 (by linarith [pow_pos hr k, hk.pow_nonneg x])
  have t6 := hf 6 (by decide) (P.a1 * √(3 * M.Q i * M.Q j) + P.a2)
  have t8 := hf 8 (by decide) (P.a1 * √(3 * M.Q i * M.Q j) + P.a2)
  have t10 := hf 10 (by decide) (P.a1 * √(3 * M.Q i * M.Q j) + P.a2)
  refine ⟨P.s6 * (1 / (M.r env.eps i j ^ 6 + (P.a1 * √(3 * M.Q i * M.Q j) + P.a2) ^ 6)) +
    P.s8 * (3 * M.Q i * M.Q j * (1 / (M.r env.eps i j ^ 8 + (P.a1 * √(3 * M.Q i * M.Q j) + P.a2) ^ 8))) +
    P.s10 * ((3 * M.Q i * M.Q j) ^ 2 * 49 / 40 *
      (1 / (M.r env.eps i j ^ 10 + (P.a1 * √(3 * M.Q i * M.Q j) + P.a2) ^ 10))), ?_, ?_, ?_, ?_⟩
  · have := mul_nonneg h6 t6.le
    have := mul_nonneg h8 (mul_nonneg hqq t8.le)
    have := mul_nonneg h10 (mul_nonneg (by positivity : 0 ≤ (3 * M.Q i * M.Q j) ^ 2 * 49 / 40) t10.le)
    linarith
  · intro hs
    have := mul_pos hs t6
    have := mul_nonneg h8 (mul_nonneg hqq t8.le)
    have := mul_nonneg h10 (mul_nonneg (by positivity : 0 ≤ (3 * M.Q i * M.Q j) ^ 2 * 49 / 40) t10.le)
    linarith
  · simp only [Spec.pairTerm, d4Computed, Spec.d4Settings, Spec.rad]
    ring
  · have e : M'.r env.eps i j = M.r env.eps i j := by unfold Spec.Mol.r; rw [hM.pos]
    simp only [Spec.pairTerm, d4Computed, Spec.d4Settings, Spec.rad, hM.Q, e]
    ring

/-- Three-body energies do not depend on the charges. -/
theorem e3_same (hM : SameButCharges M M') (i : Fin n) :
    Spec.e3 (d4Computed env T R P cutoff) M' (Spec.c9 (d4Computed env T R P cutoff) M'.neutral)
        (Spec.R0 (d4Computed env T R P cutoff) M') i =
      Spec.e3 (d4Computed env T R P cutoff) M (Spec.c9 (d4Computed env T R P cutoff) M.neutral)
        (Spec.R0 (d4Computed env T R P cutoff) M) i := by
  cases M
  cases M'
  obtain ⟨h1, h2, h3, h4⟩ := hM
  simp only at h1 h2 h3 h4
  subst h1 h2 h3 h4
  rfl

/-- Energies increase with charges. -/
theorem energy_anti (hT : T.Physical R.rq) (hga : 0 ≤ R.ga) (hgc : 0 < R.gc)
    (h6 : 0 ≤ P.s6) (h8 : 0 ≤ P.s8) (h10 : 0 ≤ P.s10) (hM : SameButCharges M M')
    (hZ : ∀ i, M.Z i < T.nZ) (hQ : ∀ i, M.Z i ≠ 0 → 0 ≤ M.Q i)
    (hq : ∀ i, M.Z i ≠ 0 → M.q i ≤ M'.q i)
    (hg : ∀ i, M.Z i ≠ 0 → OffGap env (M.q i + T.zeff (M.Z i))) (i : Fin n) :
    Spec.energy (d4Computed env T R P cutoff) M i ≤ Spec.energy (d4Computed env T R P cutoff) M' i ∧
    (env.fl = id → 0 < R.ga → 0 < P.s6 → M.Z i ≠ 0 → T.Polarizable env R (M.Z i) →
      env.eps < M.q i + T.zeff (M.Z i) → M.q i < M'.q i → ∀ j, M.Z j ≠ 0 → i ≠ j →
      T.Polarizable env R (M.Z j) → M.r env.eps i j ≤ cutoff.disp2 →
      Spec.energy (d4Computed env T R P cutoff) M i < Spec.energy (d4Computed env T R P cutoff) M' i) := by
  unfold Spec.energy
  rw [e3_same hM]
  have er : ∀ i j, M'.r env.eps i j = M.r env.eps i j := fun i j => by unfold Spec.Mol.r; rw [hM.pos]
  have ea : ∀ i, M'.atom i = ⟨M.Z i, M.cn i, M'.q i⟩ := fun i => by
    unfold Spec.Mol.atom; rw [hM.Z, hM.cn]
  set S := d4Computed env T R P cutoff with hS
  have hle : ∀ j, (if M'.Z i ≠ 0 ∧ M'.Z j ≠ 0 ∧ i ≠ j ∧ M'.r S.ε i j ≤ S.cut2 then
      Spec.pairTerm S M' M'.atom i j else 0) ≤
      if M.Z i ≠ 0 ∧ M.Z j ≠ 0 ∧ i ≠ j ∧ M.r S.ε i j ≤ S.cut2 then
      Spec.pairTerm S M M.atom i j else 0 := by
    intro j
    have e : M'.r S.ε i j = M.r S.ε i j := er i j
    rw [hM.Z, e]
    split_ifs with h
    · obtain ⟨F, hF, -, h1, h2⟩ := pairTerm_factor (env := env) (T := T) (R := R) (cutoff := cutoff)
        h6 h8 h10 hM (hQ i h.1) (hQ j h.2.1)
      rw [h1, h2, ea, ea]
      exact mul_le_mul_of_nonneg_left (c6At_anti hT hga hgc (hZ i) (hZ j) (hq i h.1) (hq j h.2.1)
        (hg i h.1) (hg j h.2.1)) hF
    · exact le_rfl
  constructor
  · have := Finset.sum_le_sum fun j (_ : j ∈ Finset.univ) => hle j
    unfold Spec.e2
    linarith
  · intro hfl hga' hs6 hi hpi hqi hlt j hj hij hpj hcut
    have := Finset.sum_lt_sum (fun j (_ : j ∈ Finset.univ) => hle j) ⟨j, Finset.mem_univ _, by
      have hc : M.r S.ε i j ≤ S.cut2 := hcut
      have e : M'.r S.ε i j = M.r S.ε i j := er i j
      rw [hM.Z, e, if_pos ⟨hi, hj, hij, hc⟩, if_pos ⟨hi, hj, hij, hc⟩]
      obtain ⟨F, -, hF, h1, h2⟩ := pairTerm_factor (env := env) (T := T) (R := R) (cutoff := cutoff)
        h6 h8 h10 hM (hQ i hi) (hQ j hj)
      rw [h1, h2, ea, ea]
      exact mul_lt_mul_of_pos_left (c6At_strict hfl hT hga' hgc (hZ i) (hZ j) hpi hpj hlt (hq j hj)
        hqi (hg j hj)) (hF hs6)⟩
    unfold Spec.e2
    linarith

/-- Charges of padding atoms have no effect. -/
theorem energy_pad (hM : SameButCharges M M') (hq : ∀ i, M.Z i ≠ 0 → M'.q i = M.q i) (i : Fin n) :
    Spec.energy (d4Computed env T R P cutoff) M' i = Spec.energy (d4Computed env T R P cutoff) M i := by
  unfold Spec.energy
  rw [e3_same hM]
  congr 1
  unfold Spec.e2
  congr 1
  refine Finset.sum_congr rfl fun j _ => ?_
  have er : ∀ ε i j, M'.r ε i j = M.r ε i j := fun ε i j => by unfold Spec.Mol.r; rw [hM.pos]
  have ea : ∀ i, M.Z i ≠ 0 → M'.atom i = M.atom i := fun i hi => by
    unfold Spec.Mol.atom; rw [hM.Z, hM.cn, hq i hi]
  rw [hM.Z, er]
  split_ifs with h
  · unfold Spec.pairTerm Spec.rad
    simp only [er, hM.Q, ea i h.1, ea j h.2.1]
    rfl
  · rfl

end

end TadDftd4
