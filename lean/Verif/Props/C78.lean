import Verif.Lemmas.IeeeFits
import Verif.Lemmas.C6Range
import Verif.Props.C57

/-!
# C78: range of the floating point formats

C57 bounds rounding errors but knows no overflow and no underflow. Here the energies are evaluated in a
binary format of IEEE 754. In double precision all intermediate results of the D4 energy stay within the
range of normal numbers for any geometry, also for coincident atoms, so that the result is finite and
the error bound of C57 holds. In single precision this is not so: for three atoms at the same position
`r5` underflows to zero, and the energy of these atoms is NaN.
-/

set_option linter.unusedSimpArgs false

open scoped Classical

namespace TadDftd4

open Tensor Rounded

namespace Spec

/-- Zero, or of a magnitude between `lo` and `hi`. -/
def InRange (lo hi x : ℝ) : Prop := x = 0 ∨ lo ≤ |x| ∧ |x| ≤ hi

/-- Not too many atoms, not too far apart; coefficients, parameters and cutoffs of a reasonable magnitude,
the latter two being numbers of the format. -/
structure Moderate {n : ℕ} (F : Fmt) (S : Settings) (P : D4Par) (M : Mol n) : Prop where
  size : n ≤ 2 ^ 20
  r : ∀ i j, M.Z i ≠ 0 → M.Z j ≠ 0 → i ≠ j → M.r S.ε i j ≤ 2 ^ 20
  c6 : ∀ i j, InRange (1 / 2 ^ 250) (2 ^ 60) (S.c6 (M.atom i) (M.atom j)) ∧
    InRange (1 / 2 ^ 250) (2 ^ 60) (S.c6 (M.neutral i) (M.neutral j))
  Q : ∀ i, 0 ≤ M.Q i ∧ InRange (1 / 2 ^ 20) (2 ^ 5) (M.Q i)
  s6 : 0 ≤ P.s6 ∧ InRange (1 / 2 ^ 20) (2 ^ 20) P.s6
  s8 : 0 ≤ P.s8 ∧ InRange (1 / 2 ^ 20) (2 ^ 20) P.s8
  s10 : 0 ≤ P.s10 ∧ InRange (1 / 2 ^ 20) (2 ^ 20) P.s10
  s9 : InRange (1 / 2 ^ 20) (2 ^ 20) P.s9
  a1 : 0 ≤ P.a1 ∧ InRange (1 / 2 ^ 20) 2 P.a1
  a2 : 1 / 2 ^ 5 ≤ P.a2 ∧ P.a2 ≤ 2 ^ 5
  alp : 0 ≤ P.alp ∧ P.alp ≤ 16
  cut3 : 0 ≤ S.cut3 ∧ InRange (1 / 2 ^ 20) (2 ^ 20) S.cut3
  num : ∀ x ∈ [P.s6, P.s8, P.s10, P.s9, P.a1, P.a2, S.cut2, S.cut3], F.Num x

/-- Three real atoms within `√ε` of each other, and usual parameters. -/
structure Collapsed {n : ℕ} (F : Fmt) (S : Settings) (P : D4Par) (M : Mol n) (i j k : Fin n) : Prop where
  real : M.Z i ≠ 0 ∧ M.Z j ≠ 0 ∧ M.Z k ≠ 0
  distinct : i ≠ j ∧ i ≠ k ∧ j ≠ k
  close : ∀ a ∈ [i, j, k], ∀ b ∈ [i, j, k], dist (M.pos a) (M.pos b) ^ 2 ≤ S.ε
  Q : ∀ i, 0 ≤ M.Q i ∧ InRange (1 / 2 ^ 20) (2 ^ 5) (M.Q i)
  a1 : 0 ≤ P.a1 ∧ InRange (1 / 2 ^ 20) 2 P.a1
  a2 : 1 ≤ P.a2 ∧ P.a2 ≤ 2 ^ 5
  alp : 14 ≤ P.alp
  cut3 : 1 ≤ S.cut3 ∧ S.cut3 ≤ 2 ^ 20
  num : ∀ x ∈ [P.a1, P.a2, S.cut3], F.Num x

end Spec

namespace Rounded

theorem zneg (k : ℕ) : (2 : ℝ) ^ (-(k : ℤ)) = 1 / 2 ^ k := by
  rw [zpow_neg, zpow_natCast, one_div]

theorem in_range {lo hi : ℕ} {x : ℝ} (h : Spec.InRange (1 / 2 ^ lo) (2 ^ hi) x) :
    In .any (-(lo : ℤ)) hi x := by
  refine ⟨trivial, ?_, ?_⟩
  · rw [zneg]; rcases h with h | h
    · exact Or.inl h
    · exact Or.inr h.1
  · rw [zpow_natCast]; rcases h with h | h
    · rw [h, abs_zero]; positivity
    · exact h.2

theorem in_range_nn {lo hi : ℕ} {x : ℝ} (h0 : 0 ≤ x) (h : Spec.InRange (1 / 2 ^ lo) (2 ^ hi) x) :
    In .nn (-(lo : ℤ)) hi x := ⟨h0, (in_range h).2⟩

theorem half_le_pow {u c : ℝ} {k : ℕ} (hu : 0 ≤ u) (hu1 : u ≤ 1) (h : k * u ≤ 1 - c) : c ≤ (1 - u) ^ k := by
  have := one_add_mul_le_pow (a := -u) (by linarith) k
  rw [← sub_eq_add_neg] at this
  linarith

section
variable {env : Env} {T : Tables} {R : RefCfg} {P : Spec.D4Par} {p : Param} {cutoff : Cutoff} {n : ℕ}
  {M : Spec.Mol n} {kd kc kQ : ℕ} {u : ℝ}

theorem moderate_input (heps : env.eps = 1 / 2 ^ 52) (hp : p.Reads P) (hu : 0 ≤ u) (hu1 : u ≤ 1 / 10)
    (hkd : kd * u ≤ 1 / 2) (hkc : kc * u ≤ 1 / 2) (hkQ : kQ * u ≤ 1 / 2)
    (h : Spec.Moderate binary64 (d4Computed env T R P cutoff) P M) :
    (machineInput env T R P p cutoff M kd kc kQ).Moderate u where
  n := h.size
  d i j hp := by
    refine in_pos ?_ ?_
    · show _ ≤ √(max (dist (M.pos i) (M.pos j) ^ 2) env.eps)
      refine Real.le_sqrt_of_sq_le (le_max_of_le_right ?_)
      rw [heps]; norm_num
    · exact (h.r i j hp.1 hp.2.1 hp.2.2).trans (by norm_num)
  c6 i j := in_range_nn (c6At_nonneg _ _) (h.c6 i j).1
  c6n i j := in_range_nn (c6At_nonneg _ _) (h.c6 i j).2
  Q i := in_range_nn (h.Q i).1 (h.Q i).2
  s6 := ⟨in_range_nn h.s6.1 h.s6.2, h.num P.s6 (by simp)⟩
  s8 := ⟨in_range_nn h.s8.1 h.s8.2, h.num P.s8 (by simp)⟩
  s10 s hs := by
    have hs : p.s10.kw none = some s := hs
    rcases hp.kw10 with e | ⟨e, -⟩
    · rw [hs] at e
      cases e
      exact ⟨in_range_nn h.s10.1 h.s10.2, h.num P.s10 (by simp)⟩
    · rw [hs] at e; cases e
  s9 := ⟨in_range h.s9, h.num P.s9 (by simp)⟩
  a1 := ⟨in_range_nn (hi := 1) h.a1.1 (by rw [pow_one]; exact h.a1.2), h.num P.a1 (by simp)⟩
  a2 := ⟨in_pos (by rw [show (-5 : ℤ) = -((5 : ℕ) : ℤ) by norm_num, zneg]; exact h.a2.1)
    (h.a2.2.trans (by norm_num)), h.num P.a2 (by simp)⟩
  cut2 := h.num (d4Computed env T R P cutoff).cut2 (by simp)
  cut3 := ⟨in_range_nn h.cut3.1 h.cut3.2, h.num (d4Computed env T R P cutoff).cut3 (by simp)⟩
  ε := by
    show In .pos (-60) 0 env.eps ∧ binary64.Num env.eps
    rw [heps]
    exact ⟨in_pos (by norm_num) (by norm_num), num64 1 (-52) (by norm_num) (by norm_num) (by norm_num)
      (by norm_num)⟩
  alp := ⟨h.alp.1, by
    show P.alp / 3 * (1 + u) ≤ 6
    have := h.alp
    nlinarith⟩
  kd := half_le_pow hu (by linarith) (by norm_num at hkd ⊢; exact hkd)
  kc := half_le_pow hu (by linarith) (by norm_num at hkc ⊢; exact hkc)
  kQ := half_le_pow hu (by linarith) (by norm_num at hkQ ⊢; exact hkQ)

theorem collapsed_input (heps : env.eps = 1 / 2 ^ 23) (hu : 0 ≤ u) (hu1 : u ≤ 1 / 10)
    (hkd : kd * u ≤ 1 / 4) (hkQ : kQ * u ≤ 1 / 2) {i j k : Fin n}
    (h : Spec.Collapsed binary32 (d4Computed env T R P cutoff) P M i j k) :
    (machineInput env T R P p cutoff M kd kc kQ).Collapsed u i j k where
  t := ⟨h.real.1, h.real.2.1, h.real.2.2, h.distinct⟩
  d a b _ ha hb := by
    show √(max (dist (M.pos a) (M.pos b) ^ 2) env.eps) = _
    rw [max_eq_right (show _ ≤ env.eps from h.close a ha b hb), heps]
    norm_num
  Q i := in_range_nn (h.Q i).1 (h.Q i).2
  a1 := ⟨in_range_nn (hi := 1) h.a1.1 (by rw [pow_one]; exact h.a1.2), h.num P.a1 (by simp)⟩
  a2 := ⟨in_pos (by rw [zpow_zero]; exact h.a2.1) (h.a2.2.trans (by norm_num)), h.num P.a2 (by simp)⟩
  cut3 := ⟨in_pos (by rw [zpow_zero]; exact h.cut3.1) (h.cut3.2.trans (by norm_num)),
    h.num (d4Computed env T R P cutoff).cut3 (by simp)⟩
  ε := by
    show env.eps = _
    rw [heps]; norm_num
  alp := h.alp
  kd := half_le_pow hu (by linarith) (by norm_num at hkd ⊢; exact hkd)
  kQ := half_le_pow hu (by linarith) (by norm_num at hkQ ⊢; exact hkQ)

end

end Rounded

section
variable {env : Env} {T : Tables} {ext : Ext} {numbers : Tensor ℕ} {positions charge : Tensor ℝ}
  {p : Param} {o : DftOpts} {n : ℕ} {B : Shape} {R : RefCfg} {cn : Spec.CN} {eeq : Spec.EEQ}
  {P : Spec.D4Par} {cutoff : Cutoff} {M : Spec.Mol n} {kd kc kQ : ℕ} {u : ℝ}

/-- **C78.** In double precision every evaluation of the energy of an atom gives a finite number, and no
operation overflows or underflows: all relative errors are at most `u`. -/
theorem C78_finite (heps : env.eps = 1 / 2 ^ 52) (hp : p.Reads P) (hu : 1 / 2 ^ 53 ≤ u) (hu1 : u ≤ 1 / 10)
    (hkd : kd * u ≤ 1 / 2) (hkc : kc * u ≤ 1 / 2) (hkQ : kQ * u ≤ 1 / 2)
    (h : Spec.Moderate binary64 (d4Computed env T R P cutoff) P M) (i : Fin n) {r : FP}
    (hr : ((machineInput env T R P p cutoff M kd kc kQ).energy i).Runs binary64 u r) :
    ∃ z, r = .fin z ∧ binary64.Num z ∧ ((machineInput env T R P p cutoff M kd kc kQ).energy i).Rounds u z := by
  have hu0 : 0 ≤ u := le_trans (by positivity) hu
  have hU : binary64.unit ≤ u := le_trans (by rw [unit64]; norm_num) hu
  obtain ⟨z, h1, h2, h3, -⟩ := Input.sound_energy hU hu0 (by linarith)
    (moderate_input heps hp hu0 hu1 hkd hkc hkQ h) i r hr
  exact ⟨z, h1, h2, h3⟩

/-- **C78.** There is such an evaluation. -/
theorem C78_runs (heps : env.eps = 1 / 2 ^ 52) (hp : p.Reads P) (hu : 1 / 2 ^ 53 ≤ u) (hu1 : u ≤ 1 / 10)
    (hkd : kd * u ≤ 1 / 2) (hkc : kc * u ≤ 1 / 2) (hkQ : kQ * u ≤ 1 / 2)
    (h1 : 1 ≤ kd) (h2 : 1 ≤ kc) (h3 : 1 ≤ kQ)
    (h : Spec.Moderate binary64 (d4Computed env T R P cutoff) P M) (i : Fin n) :
    ∃ r, ((machineInput env T R P p cutoff M kd kc kQ).energy i).Runs binary64 u r := by
  have hu0 : 0 ≤ u := le_trans (by positivity) hu
  have hU : binary64.unit ≤ u := le_trans (by rw [unit64]; norm_num) hu
  exact (Input.fits64 hU (by linarith) (moderate_input heps hp hu0 hu1 hkd hkc hkQ h) h1 h2 h3 i).exists_runs
    ok64 hU hu0

/-- **C78.** So the energies of `dftd4` in double precision have the errors of C57. -/
theorem C78_energy (heps : env.eps = 1 / 2 ^ 52)
    (h : Call env T ext numbers positions charge p o n B R cn eeq P) :
    ∃ e, dftd4 env T ext numbers positions charge p o = .ok e ∧
      ∀ (u : ℝ) (kd kc kQ q L : ℕ), 1 / 2 ^ 53 ≤ u → u ≤ 1 / 10 →
      Spec.roundings n kd kc kQ q L * u ≤ 1 / 2 →
      ∀ b, InB B b →
        let S := d4Computed env T R P (o.opts.cutoff.getD {})
        let M := system T cn eeq numbers positions charge o.opts n b
        Spec.Roundable u kd q L S P M → Spec.Moderate binary64 S P M →
        ∀ (i : Fin n) (r : FP),
          ((machineInput env T R P p (o.opts.cutoff.getD {}) M kd kc kQ).energy i).Runs binary64 u r →
          ∃ z, r = .fin z ∧ |z - e.get (i.1 :: b)| ≤ 2 * Spec.roundings n kd kc kQ q L * u *
            (|Spec.e2 S M M.atom i| + Spec.abs3 S M i) := by
  obtain ⟨e, h1, h2⟩ := C57_energy h
  refine ⟨e, h1, ?_⟩
  intro u kd kc kQ q L hu hu1 hK b hb S M hR hM i r hr
  have hu0 : 0 ≤ u := le_trans (by positivity) hu
  have le : ∀ k : ℕ, k ≤ Spec.roundings n kd kc kQ q L → k * u ≤ 1 / 2 := fun k hk =>
    (mul_le_mul_of_nonneg_right (by exact_mod_cast hk) hu0).trans hK
  obtain ⟨z, e1, -, e2⟩ := C78_finite heps h.par hu hu1 (le kd (by unfold Spec.roundings; omega))
    (le kc (by unfold Spec.roundings; omega)) (le kQ (by unfold Spec.roundings; omega)) hM i hr
  exact ⟨z, e1, h2 u kd kc kQ q L hu0 (by linarith) hK b hb hR i z e2⟩

/-- **C78.** In single precision the energy of three atoms at the same position is NaN. -/
theorem C78_single (heps : env.eps = 1 / 2 ^ 23) (hu : 1 / 2 ^ 24 ≤ u) (hu1 : u ≤ 1 / 10)
    (hkd : kd * u ≤ 1 / 4) (hkQ : kQ * u ≤ 1 / 2) {i j k : Fin n}
    (h : Spec.Collapsed binary32 (d4Computed env T R P cutoff) P M i j k) {r : FP}
    (hr : ((machineInput env T R P p cutoff M kd kc kQ).energy i).Runs binary32 u r) : r = .nan :=
  Input.energy32 (le_trans (by show (2 : ℝ) ^ (-24 : ℤ) ≤ _; norm_num) hu)
    (le_trans (by positivity) hu) (by linarith)
    (collapsed_input heps (le_trans (by positivity) hu) hu1 hkd hkQ h) hr

/-- **C78.** There is an evaluation with this result. -/
theorem C78_single_runs (heps : env.eps = 1 / 2 ^ 23) (hu : 1 / 2 ^ 24 ≤ u) (hu1 : u ≤ 1 / 10)
    (hkd : kd * u ≤ 1 / 4) (hkQ : kQ * u ≤ 1 / 2) (h1 : 1 ≤ kd) (h2 : 1 ≤ kc) (h3 : 1 ≤ kQ) {i j k : Fin n}
    (h : Spec.Collapsed binary32 (d4Computed env T R P cutoff) P M i j k)
    (hr : ∀ i j, M.Z i ≠ 0 → M.Z j ≠ 0 → i ≠ j → M.r env.eps i j ≤ 2 ^ 20)
    (hc : ∀ i j, Spec.InRange (1 / 2 ^ 100) (2 ^ 60) (c6At env T R (M.atom i) (M.atom j)) ∧
      Spec.InRange (1 / 2 ^ 100) (2 ^ 60) (c6At env T R (M.neutral i) (M.neutral j))) :
    ((machineInput env T R P p cutoff M kd kc kQ).energy i).Runs binary32 u .nan := by
  have hU : binary32.unit ≤ u := le_trans (by show (2 : ℝ) ^ (-24 : ℤ) ≤ _; norm_num) hu
  have hu0 : 0 ≤ u := le_trans (by positivity) hu
  have fits : ((machineInput env T R P p cutoff M kd kc kQ).energy i).Fits binary32 u := by
    refine Input.fits_of (fun i j hp => ?_) (fun i j => ?_) (fun i j => ?_) (fun i => ?_) i
    · refine exists_near ok32 hU (by linarith) (s := .pos) (m := -12) (M := 20) (by decide) (in_pos ?_ ?_)
        (range32 (by norm_num) (by norm_num) (by norm_num)) h1
      · show _ ≤ √(max (dist (M.pos i) (M.pos j) ^ 2) env.eps)
        refine Real.le_sqrt_of_sq_le (le_max_of_le_right ?_)
        rw [heps]; norm_num
      · exact (hr i j hp.1 hp.2.1 hp.2.2).trans (by norm_num)
    · exact exists_near ok32 hU (by linarith) (by decide) (in_range_nn (c6At_nonneg _ _) (hc i j).1)
        (range32 (by norm_num) (by norm_num) (by norm_num)) h2
    · exact exists_near ok32 hU (by linarith) (by decide) (in_range_nn (c6At_nonneg _ _) (hc i j).2)
        (range32 (by norm_num) (by norm_num) (by norm_num)) h2
    · exact exists_near ok32 hU (by linarith) (by decide) (in_range_nn (h.Q i).1 (h.Q i).2)
        (range32 (by norm_num) (by norm_num) (by norm_num)) h3
  obtain ⟨r, hr⟩ := fits.exists_runs ok32 hU hu0
  have := C78_single heps hu hu1 hkd hkQ h hr
  rwa [← this]

end

/-! ## Coefficients -/

section
variable {nExt : ℕ} {gam zeff : ℕ → ℝ} {vdw : ℕ → ℕ → ℝ} {env : Env}

theorem shipped_usual (hg : ∀ Z, gam Z ≤ 1) {R : RefCfg}
    (hR : R = .d4 ∨ R = .d4s (shipped nExt gam zeff vdw)) {A : Spec.AtomData} {Zp : ℕ} (hZ : A.Z ≤ 103)
    (hZp : Zp ≤ 103) (hq : A.q + zeff A.Z ≤ 0 ∨ env.eps ≤ A.q + zeff A.Z) :
    R.Usual env (shipped nExt gam zeff vdw) A Zp := by
  have hZ' : A.Z < 104 := by omega
  have hZp' : Zp < 104 := by omega
  rcases hR with rfl | rfl
  · exact ⟨rfl, rfl, by norm_num [RefCfg.d4], le_rfl, hZ', hg _, hq⟩
  · obtain ⟨w1, w2⟩ := shipped_wf_le (nExt := nExt) (gam := gam) (zeff := zeff) (vdw := vdw) hZ' hZp'
    exact ⟨rfl, rfl, w1, w2, hZ', hg _, hq⟩

theorem sq_le_of_abs {x : ℝ} (h : |x| ≤ 3) : 6 * x ^ 2 ≤ ((78 : ℕ) : ℝ) * 0.693147 := by
  have : x ^ 2 ≤ 9 := by rw [← sq_abs]; nlinarith [abs_nonneg x]
  norm_num
  linarith

/-- **C78.** For atoms from hydrogen to lawrencium except cerium, with coordination numbers up to 3 and
any charges (outside the gap where `_zeta` vanishes), C6 coefficients of D4 and D4S are in the range
that is assumed above. -/
theorem C78_c6 (hx : ExtTables nExt gam zeff) (hg : ∀ Z, gam Z ≤ 1) (hfl : env.fl = id) {R : RefCfg}
    (hR : R = .d4 ∨ R = .d4s (shipped nExt gam zeff vdw)) {A A' : Spec.AtomData}
    (hA : 1 ≤ A.Z ∧ A.Z ≤ 103 ∧ A.Z ≠ 58) (hA' : 1 ≤ A'.Z ∧ A'.Z ≤ 103 ∧ A'.Z ≠ 58)
    (hc : |A.cn| ≤ 3) (hc' : |A'.cn| ≤ 3)
    (hq : A.q + zeff A.Z ≤ 0 ∨ env.eps ≤ A.q + zeff A.Z)
    (hq' : A'.q + zeff A'.Z ≤ 0 ∨ env.eps ≤ A'.q + zeff A'.Z) :
    1 / 2 ^ 250 ≤ c6At env (shipped nExt gam zeff vdw) R A A' ∧
      c6At env (shipped nExt gam zeff vdw) R A A' ≤ 2 ^ 60 := by
  have hrq : R.rq = "eeq" := by rcases hR with rfl | rfl <;> rfl
  have hT : (shipped nExt gam zeff vdw).Physical R.rq := by
    rw [hrq]; exact shipped_physical hx (Or.inl rfl)
  have us := shipped_usual (A := A) (env := env) hg hR hA.2.1 hA'.2.1 hq
  have us' := shipped_usual (A := A') (env := env) hg hR hA'.2.1 hA.2.1 hq'
  have cov := shipped_covers (env := env) (R := R) (nExt := nExt) (gam := gam) (zeff := zeff) (vdw := vdw)
    (k := 78) hA.1 hA.2.1 hA.2.2 (sq_le_of_abs hc)
  have cov' := shipped_covers (env := env) (R := R) (nExt := nExt) (gam := gam) (zeff := zeff) (vdw := vdw)
    (k := 78) hA'.1 hA'.2.1 hA'.2.2 (sq_le_of_abs hc')
  have lo := c6At_ge hfl hT us us' cov cov'
  have hi := c6At_le_of_alpha hT us us' fun Z hZ r hr w hw => shipped_alpha_le hZ hr hw
  exact ⟨lo, hi⟩

end

/-! ## Cases -/

namespace Demo

/-- Parameters that are machine numbers. -/
noncomputable def paramB : Param := { param with a1 := .val 0.5, s8 := .val 1 }
noncomputable def parB : Spec.D4Par := ⟨1, 1, 0, 1, 0.5, 5, 16⟩

theorem readsB : paramB.Reads parB := { reads with a1 := rfl, s8 := rfl }

theorem callB : Call env T ext numbers positions charge paramB {} 3 [2] .d4 cn eeq parB :=
  { call with par := readsB }

theorem waterB_R0 (i j : Fin 3) :
    5 ≤ Spec.R0 (d4Computed env T .d4 parB {}) waterMol i j ∧
      Spec.R0 (d4Computed env T .d4 parB {}) waterMol i j ≤ 8.5 := by
  have e : Spec.R0 (d4Computed env T .d4 parB {}) waterMol i j =
    0.5 * √(max (3 * waterMol.Q i * waterMol.Q j) env.eps) + 5 := rfl
  have h : √(max (3 * waterMol.Q i * waterMol.Q j) env.eps) ≤ 7 := by
    rw [show (7 : ℝ) = √(7 ^ 2) by rw [Real.sqrt_sq]; norm_num]
    refine Real.sqrt_le_sqrt (max_le ?_ (env_eps.trans (by norm_num)))
    have := mul_le_mul (water_Q i).2 (water_Q j).2 (water_Q j).1 (by norm_num)
    linarith
  have h0 := Real.sqrt_nonneg (max (3 * waterMol.Q i * waterMol.Q j) env.eps)
  rw [e]
  constructor <;> linarith

theorem waterB_roundable : Spec.Roundable dbl 30 6 26 (d4Computed env T .d4 parB {}) parB waterMol where
  Q i := (water_Q i).1
  s6 := by norm_num [parB]
  s8 := by norm_num [parB]
  s10 := by norm_num [parB]
  a1 := by norm_num [parB]
  a2 := by norm_num [parB]
  alp := by norm_num [parB]
  cut2 := water_double.cut2
  cut3 := water_double.cut3
  clear := water_double.clear
  exponent := water_double.exponent
  power i j k _ _ _ hij hik hjk := by
    obtain ⟨a1, a2⟩ := waterB_R0 i j
    obtain ⟨b1, b2⟩ := waterB_R0 i k
    obtain ⟨c1, c2⟩ := waterB_R0 j k
    obtain ⟨x1, x2⟩ := water_r env_eps hij
    obtain ⟨y1, y2⟩ := water_r env_eps hik
    obtain ⟨z1, z2⟩ := water_r env_eps hjk
    show (16 : ℝ) / 3 * |Real.log (Spec.R0 (d4Computed env T .d4 parB {}) waterMol i j *
      Spec.R0 (d4Computed env T .d4 parB {}) waterMol i k *
      Spec.R0 (d4Computed env T .d4 parB {}) waterMol j k /
      (waterMol.r env.eps i j * waterMol.r env.eps i k * waterMol.r env.eps j k))| ≤ (26 : ℕ)
    generalize Spec.R0 (d4Computed env T .d4 parB {}) waterMol i j = A at *
    generalize Spec.R0 (d4Computed env T .d4 parB {}) waterMol i k = B at *
    generalize Spec.R0 (d4Computed env T .d4 parB {}) waterMol j k = C at *
    generalize waterMol.r env.eps i j = x at *
    generalize waterMol.r env.eps i k = y at *
    generalize waterMol.r env.eps j k = z at *
    have hx : 0 < x := by linarith
    have hy : 0 < y := by linarith
    have hz : 0 < z := by linarith
    have r1 : (1.8 : ℝ) * 1.8 * 1.8 ≤ x * y * z := by gcongr
    have r2 : x * y * z ≤ 2.6 * 2.6 * 2.6 := by gcongr
    have R1 : (5 : ℝ) * 5 * 5 ≤ A * B * C := by gcongr
    have R2 : A * B * C ≤ 8.5 * 8.5 * 8.5 := by gcongr
    have hp : 0 < x * y * z := by positivity
    have := log_le (x := A * B * C / (x * y * z)) ((one_le_div hp).2 (by linarith))
      ((div_le_iff₀ hp).2 (by linarith))
    push_cast
    linarith

theorem wat_Z (i : Fin 3) : waterMol.Z i = 8 ∨ waterMol.Z i = 1 := by
  fin_cases i
  · exact Or.inl rfl
  · exact Or.inr rfl
  · exact Or.inr rfl

theorem wat_Z' (i : Fin 3) : 1 ≤ waterMol.Z i ∧ waterMol.Z i ≤ 103 ∧ waterMol.Z i ≠ 58 := by
  rcases wat_Z i with h | h <;> rw [h] <;> norm_num

theorem wat_cn (i : Fin 3) : |waterMol.cn i| ≤ 3 := by
  have e : waterMol.cn i = ∑ j : Fin 3, if waterMol.Z i ≠ 0 ∧ waterMol.Z j ≠ 0 ∧ i ≠ j then
    Real.exp (-dist (waterMol.pos i) (waterMol.pos j)) else 0 := rfl
  rw [e, abs_of_nonneg (Finset.sum_nonneg fun j _ => by split_ifs; exacts [(Real.exp_pos _).le, le_rfl])]
  refine (Finset.sum_le_card_nsmul _ _ 1 fun j _ => ?_).trans (by norm_num)
  split_ifs
  · exact Real.exp_le_one_iff.2 (by linarith [dist_nonneg (x := waterMol.pos i) (y := waterMol.pos j)])
  · norm_num

theorem wat_q (i : Fin 3) : 0 ≤ waterMol.q i := by
  have e : waterMol.q i = if waterMol.Z i ≠ 0 then (1 : ℝ) / ∑ j : Fin 3, (if waterMol.Z j ≠ 0 then 1 else 0)
    else 0 := rfl
  rw [e]
  split_ifs
  · exact div_nonneg zero_le_one (Finset.sum_nonneg fun j _ => by split_ifs <;> norm_num)
  · exact le_rfl

theorem wat_c6 {A A' : Spec.AtomData} {i j : Fin 3} (hA : A.Z = waterMol.Z i ∧ A.cn = waterMol.cn i ∧ 0 ≤ A.q)
    (hA' : A'.Z = waterMol.Z j ∧ A'.cn = waterMol.cn j ∧ 0 ≤ A'.q) :
    Spec.InRange (1 / 2 ^ 250) (2 ^ 60) (c6At env T .d4 A A') := by
  have gap : ∀ {A : Spec.AtomData} {i : Fin 3}, A.Z = waterMol.Z i → 0 ≤ A.q → env.eps ≤ A.q + zeff A.Z := by
    intro A i h h0
    have h1 : (1 : ℝ) ≤ A.Z := by rw [h]; exact_mod_cast (wat_Z' i).1
    have h2 := env_eps
    show env.eps ≤ A.q + (A.Z : ℝ)
    norm_num at h2
    linarith
  obtain ⟨h1, h2⟩ := C78_c6 (vdw := fun _ _ => 3) (env := env) (A := A) (A' := A') extTables
    (fun Z => by norm_num [gam]) rfl (R := .d4) (Or.inl rfl) (by rw [hA.1]; exact wat_Z' i)
    (by rw [hA'.1]; exact wat_Z' j) (by rw [hA.2.1]; exact wat_cn i) (by rw [hA'.2.1]; exact wat_cn j)
    (Or.inr (gap hA.1 hA.2.2)) (Or.inr (gap hA'.1 hA'.2.2))
  have h0 : 0 ≤ c6At env T .d4 A A' := c6At_nonneg _ _
  refine Or.inr ?_
  rw [abs_of_nonneg h0]
  exact ⟨h1, h2⟩

theorem water_Q' (i : Fin 3) : 0 ≤ waterMol.Q i ∧ Spec.InRange (1 / 2 ^ 20) (2 ^ 5) (waterMol.Q i) := by
  have h : 1 / 2 ^ 20 ≤ waterMol.Q i ∧ waterMol.Q i ≤ 2 ^ 5 :=
    shipped_r4r2_range (nExt := 119) (gam := gam) (zeff := zeff) (vdw := fun _ _ => 3) (wat_Z' i).1
      (lt_of_le_of_lt (wat_Z' i).2.1 (by norm_num))
  exact ⟨(water_Q i).1, Or.inr (by rw [abs_of_nonneg (water_Q i).1]; exact h)⟩

theorem range_of {lo hi x : ℝ} (h : 0 ≤ x) (h1 : lo ≤ x) (h2 : x ≤ hi) : 0 ≤ x ∧ Spec.InRange lo hi x :=
  ⟨h, Or.inr (by rw [abs_of_nonneg h]; exact ⟨h1, h2⟩)⟩

theorem num_int {F : Fmt} (hp : 6 ≤ F.p) (h0 : F.emin ≤ 0) (h1 : 0 ≤ F.emax) {m : ℤ} (h : |m| < 64) :
    F.Num m :=
  ⟨m, 0, lt_of_lt_of_le h (by calc (64 : ℤ) = 2 ^ 6 := by norm_num
    _ ≤ 2 ^ F.p := by exact_mod_cast Nat.pow_le_pow_right (by norm_num) hp), h0, h1, by simp⟩

theorem num_half {F : Fmt} (hp : 1 ≤ F.p) (h0 : F.emin ≤ -1) (h1 : -1 ≤ F.emax) : F.Num 0.5 :=
  ⟨1, -1, by rw [abs_one]; exact_mod_cast Nat.one_lt_two_pow (by omega), h0, h1, by norm_num⟩

theorem waterB_moderate : Spec.Moderate binary64 (d4Computed env T .d4 parB {}) parB waterMol where
  size := by norm_num
  r i j _ _ h := (water_r env_eps h).2.trans (by norm_num)
  c6 i j := ⟨wat_c6 (i := i) (j := j) ⟨rfl, rfl, wat_q i⟩ ⟨rfl, rfl, wat_q j⟩,
    wat_c6 (i := i) (j := j) ⟨rfl, rfl, le_rfl⟩ ⟨rfl, rfl, le_rfl⟩⟩
  Q := water_Q'
  s6 := range_of (by norm_num [parB]) (by norm_num [parB]) (by norm_num [parB])
  s8 := range_of (by norm_num [parB]) (by norm_num [parB]) (by norm_num [parB])
  s10 := ⟨le_rfl, Or.inl rfl⟩
  s9 := (range_of (by norm_num [parB]) (by norm_num [parB]) (by norm_num [parB])).2
  a1 := range_of (by norm_num [parB]) (by norm_num [parB]) (by norm_num [parB])
  a2 := by norm_num [parB]
  alp := by norm_num [parB]
  cut3 := range_of water_double.cut3 (by show _ ≤ (40 : ℝ); norm_num) (by show (40 : ℝ) ≤ _; norm_num)
  num x hx := by
    have I : ∀ m : ℤ, |m| < 64 → binary64.Num m := fun m h => num_int (by decide) (by decide) (by decide) h
    simp only [List.mem_cons, List.not_mem_nil, or_false] at hx
    rcases hx with rfl | rfl | rfl | rfl | rfl | rfl | rfl | rfl
    · simpa [parB] using I 1 (by norm_num)
    · simpa [parB] using I 1 (by norm_num)
    · simpa [parB] using I 0 (by norm_num)
    · simpa [parB] using I 1 (by norm_num)
    · exact num_half (by decide) (by decide) (by decide)
    · simpa [parB] using I 5 (by norm_num)
    · exact_mod_cast I 60 (by norm_num)
    · exact_mod_cast I 40 (by norm_num)

/-- Water in double precision: every evaluation is finite and has an error of at most 4e-13 times the sum
of absolute values. -/
example : ∃ e, dftd4 env T ext numbers positions charge paramB {} = .ok e ∧
    ∀ (i : Fin 3) (r : FP),
      ((machineInput env T .d4 parB paramB {} waterMol 30 100 5).energy i).Runs binary64 dbl r →
      ∃ z, r = .fin z ∧ |z - e.get [i.1, 0]| ≤ 4e-13 *
        (|Spec.e2 (d4Computed env T .d4 parB {}) waterMol waterMol.atom i| +
          Spec.abs3 (d4Computed env T .d4 parB {}) waterMol i) := by
  obtain ⟨e, h1, h2⟩ := C78_energy rfl callB
  refine ⟨e, h1, fun i r hr => ?_⟩
  obtain ⟨z, hz, this⟩ := h2 dbl 30 100 5 6 26 (by norm_num [dbl]) (by norm_num [dbl])
    (by norm_num [Spec.roundings, dbl]) [0] (by simp [InB]) waterB_roundable waterB_moderate i r hr
  refine ⟨z, hz, this.trans (mul_le_mul_of_nonneg_right (by norm_num [Spec.roundings, dbl]) ?_)⟩
  exact nonneg_of_mul_nonneg_right ((abs_nonneg _).trans this) (by norm_num [Spec.roundings, dbl])

example (i : Fin 3) {r : FP}
    (hr : ((machineInput env T .d4 parB paramB {} waterMol 30 100 5).energy i).Runs binary64 dbl r) :
    ∃ z, r = .fin z ∧ binary64.Num z :=
  let ⟨z, h1, h2, _⟩ := C78_finite rfl readsB (by norm_num [dbl]) (by norm_num [dbl]) (by norm_num [dbl])
    (by norm_num [dbl]) (by norm_num [dbl]) waterB_moderate i hr
  ⟨z, h1, h2⟩

/-- There are evaluations. -/
example (i : Fin 3) : ∃ r,
    ((machineInput env T .d4 parB paramB {} waterMol 30 100 5).energy i).Runs binary64 dbl r :=
  C78_runs rfl readsB (by norm_num [dbl]) (by norm_num [dbl]) (by norm_num [dbl]) (by norm_num [dbl])
    (by norm_num [dbl]) (by norm_num) (by norm_num) (by norm_num) waterB_moderate i

/-- Three atoms of helium at the origin. -/
noncomputable def pileHe : Spec.Mol 3 where
  Z _ := 2
  pos _ := 0
  cn _ := 0
  q _ := 0
  Q _ := 1
  rvdw _ _ := 3

/-- Single precision. -/
noncomputable def env24 : Env := { env with eps := 1 / 2 ^ 23, eps_pos := by positivity }

theorem pileHe_collapsed : Spec.Collapsed binary32 (d4Computed env24 T .d4 parB {}) parB pileHe 0 1 2 where
  real := by simp [pileHe]
  distinct := by decide
  close a _ b _ := by
    show dist (0 : Spec.E3) 0 ^ 2 ≤ env24.eps
    rw [dist_self]
    simpa using env24.eps_pos.le
  Q i := range_of (by simp [pileHe]) (by norm_num [pileHe]) (by norm_num [pileHe])
  a1 := waterB_moderate.a1
  a2 := by norm_num [parB]
  alp := by norm_num [parB]
  cut3 := by show (1 : ℝ) ≤ 40 ∧ (40 : ℝ) ≤ 2 ^ 20; norm_num
  num x hx := by
    have I : ∀ m : ℤ, |m| < 64 → binary32.Num m := fun m h => num_int (by decide) (by decide) (by decide) h
    simp only [List.mem_cons, List.not_mem_nil, or_false] at hx
    rcases hx with rfl | rfl | rfl
    · exact num_half (by decide) (by decide) (by decide)
    · simpa [parB] using I 5 (by norm_num)
    · exact_mod_cast I 40 (by norm_num)

/-- Unit roundoff of single precision. -/
noncomputable def roundS : ℝ := 1 / 2 ^ 24

example {r : FP} (hr : ((machineInput env24 T .d4 parB paramB {} pileHe 30 100 5).energy 0).Runs binary32 roundS r) :
    r = .nan :=
  C78_single rfl (by norm_num [roundS]) (by norm_num [roundS]) (by norm_num [roundS]) (by norm_num [roundS])
    pileHe_collapsed hr

theorem pileHe_c6 : Spec.InRange (1 / 2 ^ 100) (2 ^ 60) (c6At env24 T .d4 ⟨2, 0, 0⟩ ⟨2, 0, 0⟩) := by
  have us : RefCfg.d4.Usual env24 T ⟨2, 0, 0⟩ 2 :=
    ⟨rfl, rfl, by norm_num [RefCfg.d4], le_rfl, by show 2 < 104; norm_num, by show gam 2 ≤ 1; norm_num [gam],
      Or.inr (by show (1 / 2 ^ 23 : ℝ) ≤ 0 + ((2 : ℕ) : ℝ); norm_num)⟩
  have cov : T.Covers env24 .d4 ⟨2, 0, 0⟩ 0 := shipped_covers (by norm_num) (by norm_num) (by norm_num) (by norm_num)
  have h1 := c6At_ge (A := ⟨2, 0, 0⟩) (A' := ⟨2, 0, 0⟩) rfl physical us us cov cov
  have h2 := c6At_le_of_alpha (T := T) (env := env24) (R := .d4) (A := ⟨2, 0, 0⟩) (A' := ⟨2, 0, 0⟩) physical us us fun Z hZ r hr w hw => shipped_alpha_le hZ hr hw
  refine Or.inr ?_
  rw [abs_of_nonneg (c6At_nonneg _ _)]
  exact ⟨le_trans (by norm_num) h1, h2⟩

example : ((machineInput env24 T .d4 parB paramB {} pileHe 30 100 5).energy 0).Runs binary32 roundS .nan :=
  C78_single_runs rfl (by norm_num [roundS]) (by norm_num [roundS]) (by norm_num [roundS]) (by norm_num [roundS])
    (by norm_num) (by norm_num) (by norm_num) pileHe_collapsed
    (fun i j _ _ _ => by
      show √(max (dist (0 : Spec.E3) 0 ^ 2) env24.eps) ≤ 2 ^ 20
      rw [dist_self, Real.sqrt_le_left (by norm_num)]
      norm_num [env24])
    fun i j => ⟨pileHe_c6, pileHe_c6⟩

end Demo

end TadDftd4
