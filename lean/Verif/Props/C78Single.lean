import Verif.Lemmas.C6Upper
import Verif.Lemmas.IeeeModest
import Verif.Props.C78

/-!
# C78: single precision for atoms that are apart

For atoms that are at least half a bohr apart, single precision has enough range, although powers of
distances overflow to infinity for atoms that are far apart.
-/

open scoped Classical

namespace TadDftd4

open Tensor Rounded

namespace Spec

/-- Up to 2048 atoms, apart by at least half a bohr, and parameters of usual size. Nothing is said about
cutoffs and about the exponent of the three-body damping. -/
structure Modest {n : ℕ} (S : Settings) (P : D4Par) (M : Mol n) : Prop where
  size : n ≤ 2 ^ 11
  apart : ∀ i j, M.Z i ≠ 0 → M.Z j ≠ 0 → i ≠ j →
    1 / 2 ≤ dist (M.pos i) (M.pos j) ∧ dist (M.pos i) (M.pos j) ≤ 2 ^ 17
  c6 : ∀ i j, S.c6 (M.atom i) (M.atom j) ≤ 2 ^ 23 ∧ S.c6 (M.neutral i) (M.neutral j) ≤ 2 ^ 23
  Q : ∀ i, 0 ≤ M.Q i ∧ M.Q i ≤ 2 ^ 5
  s6 : |P.s6| ≤ 2 ^ 10
  s8 : |P.s8| ≤ 2 ^ 10
  s10 : |P.s10| ≤ 2 ^ 10
  s9 : |P.s9| ≤ 2
  a1 : 0 ≤ P.a1 ∧ P.a1 ≤ 2
  a2 : 1 / 2 ^ 4 ≤ P.a2 ∧ P.a2 ≤ 2 ^ 5

end Spec

section
variable {env : Env} {T : Tables} {R : RefCfg} {P : Spec.D4Par} {p : Param} {cutoff : Cutoff} {n : ℕ}
  {M : Spec.Mol n} {kd kc kQ : ℕ} {u : ℝ}

theorem Rounded.modest_input (heps : env.eps = 1 / 2 ^ 23) (hp : p.Reads P) (hu : 0 ≤ u) (hu1 : u ≤ 1 / 10)
    (hkd : kd * u ≤ 1 / 2) (hkc : kc * u ≤ 1 / 2) (hkQ : kQ * u ≤ 1 / 2)
    (h : Spec.Modest (d4Computed env T R P cutoff) P M) :
    (machineInput env T R P p cutoff M kd kc kQ).Modest u where
  n := h.size
  d i j hp := by
    obtain ⟨h1, h2⟩ := h.apart i j hp.1 hp.2.1 hp.2.2
    have e : (machineInput env T R P p cutoff M kd kc kQ).d i j = dist (M.pos i) (M.pos j) := by
      show √(max (dist (M.pos i) (M.pos j) ^ 2) env.eps) = _
      rw [max_eq_left, Real.sqrt_sq (by linarith)]
      rw [heps]
      nlinarith
    rw [e]
    exact ⟨by norm_num at h1 ⊢; exact h1, by norm_num at h2 ⊢; exact h2⟩
  tri i j k _ := by
    have s : ∀ i j, M.r env.eps i j = M.r env.eps j i := fun i j => by
      unfold Spec.Mol.r; rw [dist_comm]
    show M.r env.eps i j ≤ M.r env.eps i k + M.r env.eps j k ∧
      M.r env.eps i k ≤ M.r env.eps i j + M.r env.eps j k ∧
      M.r env.eps j k ≤ M.r env.eps i j + M.r env.eps i k
    refine ⟨?_, Spec.r_triangle env.eps_pos i j k, ?_⟩
    · rw [s j k]; exact Spec.r_triangle env.eps_pos i k j
    · rw [s i j]; exact Spec.r_triangle env.eps_pos j i k
  c6 i j := ⟨c6At_nonneg _ _, (h.c6 i j).1.trans (by norm_num)⟩
  c6n i j := ⟨c6At_nonneg _ _, (h.c6 i j).2.trans (by norm_num)⟩
  Q i := ⟨(h.Q i).1, (h.Q i).2.trans (by norm_num)⟩
  s6 := h.s6.trans (by norm_num)
  s8 := h.s8.trans (by norm_num)
  s10 s hs := by
    have hs : p.s10.kw none = some s := hs
    rcases hp.kw10 with e | ⟨e, -⟩
    · rw [hs] at e
      cases e
      exact h.s10.trans (by norm_num)
    · rw [hs] at e; cases e
  s9 := h.s9.trans (by norm_num)
  a1 := ⟨h.a1.1, h.a1.2.trans (by norm_num)⟩
  a2 := ⟨le_trans (by norm_num) h.a2.1, h.a2.2.trans (by norm_num)⟩
  ε := by
    show env.eps ≤ 1
    rw [heps]; norm_num
  kd := half_le_pow hu (by linarith) (by norm_num at hkd ⊢; exact hkd)
  kc := half_le_pow hu (by linarith) (by norm_num at hkc ⊢; exact hkc)
  kQ := half_le_pow hu (by linarith) (by norm_num at hkQ ⊢; exact hkQ)

/-- **C78.** In single precision every evaluation of the energy of an atom gives a finite number if the
atoms are apart, for any cutoffs and any exponent of the three-body damping. -/
theorem C78_single_finite (heps : env.eps = 1 / 2 ^ 23) (hp : p.Reads P) (hu : 0 ≤ u) (hu1 : u ≤ 1 / 10)
    (hkd : kd * u ≤ 1 / 2) (hkc : kc * u ≤ 1 / 2) (hkQ : kQ * u ≤ 1 / 2)
    (h : Spec.Modest (d4Computed env T R P cutoff) P M) (i : Fin n) {r : FP}
    (hr : ((machineInput env T R P p cutoff M kd kc kQ).energy i).Runs binary32 u r) : ∃ z, r = .fin z := by
  obtain ⟨z, hz, -⟩ := Input.fine_energy hu (by linarith) (modest_input heps hp hu hu1 hkd hkc hkQ h) i r hr
  exact ⟨z, hz⟩

/-- **C78.** There is such an evaluation. -/
theorem C78_single_finite_runs (heps : env.eps = 1 / 2 ^ 23) (hp : p.Reads P) (hu : 1 / 2 ^ 24 ≤ u)
    (hu1 : u ≤ 1 / 10) (hkd : kd * u ≤ 1 / 2) (hkc : kc * u ≤ 1 / 2) (hkQ : kQ * u ≤ 1 / 2)
    (h1 : 1 ≤ kd) (h2 : 1 ≤ kc) (h3 : 1 ≤ kQ)
    (h : Spec.Modest (d4Computed env T R P cutoff) P M)
    (hc : ∀ i j, Spec.InRange (1 / 2 ^ 100) (2 ^ 60) (c6At env T R (M.atom i) (M.atom j)) ∧
      Spec.InRange (1 / 2 ^ 100) (2 ^ 60) (c6At env T R (M.neutral i) (M.neutral j)))
    (hQ : ∀ i, Spec.InRange (1 / 2 ^ 20) (2 ^ 5) (M.Q i)) (i : Fin n) :
    ∃ z, ((machineInput env T R P p cutoff M kd kc kQ).energy i).Runs binary32 u (.fin z) := by
  have hU : binary32.unit ≤ u := le_trans (by show (2 : ℝ) ^ (-24 : ℤ) ≤ _; norm_num) hu
  have hu0 : 0 ≤ u := le_trans (by positivity) hu
  have hm := modest_input (kd := kd) (kc := kc) (kQ := kQ) heps hp hu0 hu1 hkd hkc hkQ h
  have fits : ((machineInput env T R P p cutoff M kd kc kQ).energy i).Fits binary32 u := by
    refine Input.fits_of (fun i j hp => ?_) (fun i j => ?_) (fun i j => ?_) (fun i => ?_) i
    · exact exists_near ok32 hU (by linarith) (s := .pos) (by decide)
        (in_pos (hm.d i j hp).1 (hm.d i j hp).2) (range32 (by norm_num) (by norm_num) (by norm_num)) h1
    · exact exists_near ok32 hU (by linarith) (by decide) (in_range_nn (c6At_nonneg _ _) (hc i j).1)
        (range32 (by norm_num) (by norm_num) (by norm_num)) h2
    · exact exists_near ok32 hU (by linarith) (by decide) (in_range_nn (c6At_nonneg _ _) (hc i j).2)
        (range32 (by norm_num) (by norm_num) (by norm_num)) h2
    · exact exists_near ok32 hU (by linarith) (by decide) (in_range_nn (h.Q i).1 (hQ i))
        (range32 (by norm_num) (by norm_num) (by norm_num)) h3
  obtain ⟨r, hr⟩ := fits.exists_runs ok32 hU hu0
  obtain ⟨z, rfl⟩ := C78_single_finite heps hp hu0 hu1 hkd hkc hkQ h i hr
  exact ⟨z, hr⟩

end

/-- **C78.** C6 coefficients of D4 and D4S with the shipped tables are below `2^23` for all coordination
numbers and charges, also where Gaussians underflow. -/
theorem C78_c6_le {nExt : ℕ} {gam zeff : ℕ → ℝ} {vdw : ℕ → ℕ → ℝ} {env : Env} (hx : ExtTables nExt gam zeff)
    {R : RefCfg} (hR : R = .d4 ∨ R = .d4s (shipped nExt gam zeff vdw)) {A A' : Spec.AtomData}
    (hA : A.Z ≤ 103) (hA' : A'.Z ≤ 103) : c6At env (shipped nExt gam zeff vdw) R A A' ≤ 2 ^ 23 := by
  have hrq : R.rq = "eeq" := by rcases hR with rfl | rfl <;> rfl
  refine shipped_c6_le (by rw [hrq]; exact shipped_physical hx (Or.inl rfl)) ?_ ?_ hA hA'
  · rcases hR with rfl | rfl <;> rfl
  · rcases hR with rfl | rfl <;> rfl

/-! ## Cases -/

namespace Demo

theorem water_modest : Spec.Modest (d4Computed env24 T .d4 parB {}) parB waterMol where
  size := by norm_num
  apart i j _ _ h := by
    obtain ⟨h1, h2⟩ := water_r (D := env24) le_rfl h
    rw [Spec.r_eq_max env24.eps_pos] at h1 h2
    have hs : √env24.eps < 1 := by
      rw [Real.sqrt_lt' one_pos]; norm_num [env24]
    refine ⟨?_, (le_max_left _ _).trans (h2.trans (by norm_num))⟩
    rcases le_max_iff.1 h1 with h | h
    · linarith
    · linarith
  c6 i j := ⟨C78_c6_le (env := env24) (vdw := fun _ _ => 3) extTables (R := .d4) (Or.inl rfl) (wat_Z' i).2.1
      (wat_Z' j).2.1,
    C78_c6_le (env := env24) (vdw := fun _ _ => 3) extTables (R := .d4) (Or.inl rfl) (wat_Z' i).2.1
      (wat_Z' j).2.1⟩
  Q i := ⟨(water_Q i).1, (water_Q i).2.trans (by norm_num)⟩
  s6 := by norm_num [parB]
  s8 := by norm_num [parB]
  s10 := by norm_num [parB]
  s9 := by norm_num [parB]
  a1 := by norm_num [parB]
  a2 := by norm_num [parB]

/-- Water in single precision. -/
example (i : Fin 3) {r : FP}
    (hr : ((machineInput env24 T .d4 parB paramB {} waterMol 30 100 5).energy i).Runs binary32 roundS r) :
    ∃ z, r = .fin z :=
  C78_single_finite rfl readsB (by norm_num [roundS]) (by norm_num [roundS]) (by norm_num [roundS])
    (by norm_num [roundS]) (by norm_num [roundS]) water_modest i hr

/-- The three atoms of helium of C78, but apart. -/
noncomputable def lineHe : Spec.Mol 3 := { pileHe with pos := fun i => EuclideanSpace.single 0 (i.1 : ℝ) }

theorem lineHe_dist (i j : Fin 3) : dist (lineHe.pos i) (lineHe.pos j) = |(i.1 : ℝ) - j.1| := by
  show dist (EuclideanSpace.single (0 : Fin 3) (i.1 : ℝ)) (EuclideanSpace.single 0 (j.1 : ℝ)) = _
  rw [EuclideanSpace.dist_single_same, Real.dist_eq]

theorem lineHe_modest : Spec.Modest (d4Computed env24 T .d4 parB {}) parB lineHe where
  size := by norm_num
  apart i j _ _ h := by
    rw [lineHe_dist]
    fin_cases i <;> fin_cases j <;> first | exact absurd rfl h | norm_num [abs_of_pos]
  c6 i j := ⟨C78_c6_le (env := env24) (vdw := fun _ _ => 3) (R := .d4) (A := ⟨2, 0, 0⟩) (A' := ⟨2, 0, 0⟩) extTables
      (Or.inl rfl) (by norm_num) (by norm_num),
    C78_c6_le (env := env24) (vdw := fun _ _ => 3) (R := .d4) (A := ⟨2, 0, 0⟩) (A' := ⟨2, 0, 0⟩) extTables
      (Or.inl rfl) (by norm_num) (by norm_num)⟩
  Q i := by norm_num [lineHe, pileHe]
  s6 := by norm_num [parB]
  s8 := by norm_num [parB]
  s10 := by norm_num [parB]
  s9 := by norm_num [parB]
  a1 := by norm_num [parB]
  a2 := by norm_num [parB]

example (i : Fin 3) : ∃ z,
    ((machineInput env24 T .d4 parB paramB {} lineHe 30 100 5).energy i).Runs binary32 roundS (.fin z) :=
  C78_single_finite_runs rfl readsB (by norm_num [roundS]) (by norm_num [roundS]) (by norm_num [roundS])
    (by norm_num [roundS]) (by norm_num [roundS]) (by norm_num) (by norm_num) (by norm_num) lineHe_modest
    (fun i j => ⟨pileHe_c6, pileHe_c6⟩) (fun i => (range_of (by simp [lineHe, pileHe])
      (by norm_num [lineHe, pileHe]) (by norm_num [lineHe, pileHe])).2) i

end Demo

end TadDftd4
