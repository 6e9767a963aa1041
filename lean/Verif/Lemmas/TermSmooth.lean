import Verif.Lemmas.Forces
import Verif.Lemmas.Runs
import Verif.Props.C62

/-!
# Smoothness of the energy of any term as function of the positions

The counterpart of `Lemmas/Forces.lean` for all damping functions and all three-body terms.
-/

set_option linter.unusedSimpArgs false

open scoped Classical Topology

namespace TadDftd4

/-- What the parameters have to satisfy for the damping function to be smooth in the distance, if the
radius passed to it is `R`. -/
def Damping.SmoothFor (p : Param) (R : ℝ) : Damping → Prop
  | .rational => True
  | .zero => (∀ x, p.rs6 = .val x → 0 < x) ∧ (∀ x, p.rs8 = .val x → 0 < x) ∧ 0 ≤ R
  | .mzero => (∀ x, p.rs6 = .val x → 0 < x) ∧ (∀ x, p.rs8 = .val x → 0 < x) ∧
      (∀ x, p.bet = .val x → 0 ≤ x) ∧ 0 < R
  | .op => (∀ x, p.a1 = .val x → 0 ≤ x) ∧ ∀ x, p.a2 = .val x → 0 ≤ x

/-- A molecule does not lie on one of the surfaces where the energy of term `t` is not smooth; only
real atoms count. The conditions are those of `Spec.Generic` as far as they concern this term. -/
structure Term.Generic {n : ℕ} (ε : ℝ) (C : Spec.C6Settings) (p : Param) (cutoff : Cutoff) (t : Term)
    (M : Spec.Mol n) : Prop where
  /-- no two atoms coincide -/
  apart : ∀ i j, M.Z i ≠ 0 → M.Z j ≠ 0 → i ≠ j → ε < dist (M.pos i) (M.pos j) ^ 2
  /-- no distance equals the cutoff -/
  cut2 : t.cls = .twoBody → ∀ i j, M.Z i ≠ 0 → M.Z j ≠ 0 → i ≠ j →
    dist (M.pos i) (M.pos j) ≠ cutoff.disp2
  cut3 : t.cls ≠ .twoBody → ∀ i j, M.Z i ≠ 0 → M.Z j ≠ 0 → i ≠ j →
    dist (M.pos i) (M.pos j) ≠ cutoff.disp3
  /-- no atom has lost its (effective) nuclear charge -/
  charge : ∀ i, M.Z i ≠ 0 → C.ε < (M.data t.chargeDep i).q + C.T.zeff (M.Z i)
  /-- the square root in the approximate C9 coefficient is not at its threshold -/
  c9 : t.cls = .d4ATMApprox ∨ t.cls = .d3ATM → ∀ i j k, M.Z i ≠ 0 → M.Z j ≠ 0 → M.Z k ≠ 0 → i ≠ j →
    i ≠ k → j ≠ k → |Spec.c6 C (M.data t.chargeDep i) (M.data t.chargeDep j) *
      Spec.c6 C (M.data t.chargeDep i) (M.data t.chargeDep k) *
      Spec.c6 C (M.data t.chargeDep j) (M.data t.chargeDep k)| ≠ ε
  /-- the damping function of pairs is smooth for the van der Waals radii -/
  damping : t.cls = .twoBody → ∀ i j, M.Z i ≠ 0 → M.Z j ≠ 0 → i ≠ j →
    t.damping.SmoothFor p (M.rvdw i j)
  /-- critical radii of triples are not negative -/
  bj : t.cls = .d4ATMApprox ∨ t.cls = .d4ATMExact → ∀ a1 a2, p.a1.Is Defaults.a1 a1 →
    p.a2.Is Defaults.a2 a2 → ∀ i j, M.Z i ≠ 0 → M.Z j ≠ 0 → i ≠ j →
    0 ≤ a1 * Spec.rsqrt ε (3 * M.Q i * M.Q j) + a2
  vdw : t.cls = .d3ATM → ∀ x, p.rs9.Is Defaults.rs9 x → ∀ i j, M.Z i ≠ 0 → M.Z j ≠ 0 → i ≠ j →
    0 ≤ x * M.rvdw i j

section
variable {env : Env} {X : Type} [NormedAddCommGroup X] [NormedSpace ℝ X] {m : WithTop ℕ∞} {n : ℕ}
  {x : X} {r : X → ℝ}

theorem contDiffAt_sdiv_pow {f : X → ℝ} (hf : ContDiffAt ℝ m f x) (hr : ContDiffAt ℝ m r x)
    (h0 : 0 < r x) (k : ℕ) : ContDiffAt ℝ m (fun y => env.sdiv (f y) (r y ^ k)) x := by
  have h1 : ContDiffAt ℝ m (fun y => f y / r y ^ k) x := hf.div (hr.pow k) (pow_pos h0 k).ne'
  refine h1.congr_of_eventuallyEq ?_
  filter_upwards [continuousAt_const.eventually_lt hr.continuousAt h0] with y hy
  rw [Env.sdiv, if_neg (pow_pos hy k).ne']

theorem contDiffAt_zeroDamp {t : X → ℝ} {a : ℝ} (ht : ContDiffAt ℝ m t x) (h0 : 0 < t x) :
    ContDiffAt ℝ m (fun y => 1 / (1 + 6 * t y ^ a)) x := by
  refine contDiffAt_const.div (contDiffAt_const.add (contDiffAt_const.mul
    (ht.rpow_const_of_ne h0.ne'))) ?_
  have := Real.rpow_pos_of_pos h0 a
  positivity

theorem contDiffAt_zeroF {rs a R : ℝ} (hr : ContDiffAt ℝ m r x) (h0 : 0 < r x) (hrs : 0 < rs)
    (hR : 0 ≤ R) : ContDiffAt ℝ m (fun y => zeroF env rs a (r y) R) x := by
  have hp : 0 < (if R = 0 then env.eps else R) := by
    split
    · exact env.eps_pos
    · rename_i h; exact lt_of_le_of_ne hR (Ne.symm h)
  unfold zeroF Env.sdiv
  exact contDiffAt_zeroDamp (contDiffAt_const.mul (hr.div_const _)) (mul_pos hrs (div_pos h0 hp))

theorem contDiffAt_mzeroF {rs a bet R : ℝ} (hr : ContDiffAt ℝ m r x) (h0 : 0 < r x) (hrs : 0 < rs)
    (hb : 0 ≤ bet) (hR : 0 < R) : ContDiffAt ℝ m (fun y => mzeroF rs a bet (r y) R) x := by
  unfold mzeroF
  refine contDiffAt_zeroDamp ((hr.div_const _).add contDiffAt_const) ?_
  have := div_pos h0 (mul_pos hrs hR)
  have := mul_nonneg hb hR.le
  positivity

theorem contDiffAt_opF {a1 a2 bet R : ℝ} {k : ℕ} (hr : ContDiffAt ℝ m r x) (h0 : 0 < r x)
    (h1 : 0 ≤ a1) (h2 : 0 ≤ a2) : ContDiffAt ℝ m (fun y => opF a1 a2 bet k (r y) R) x := by
  have hb := hr.rpow_const_of_ne (p := bet) h0.ne'
  unfold opF
  refine hb.div ((hb.mul (hr.pow k)).add (contDiffAt_const.mul (hr.pow k))) ?_
  have := Real.rpow_pos_of_pos h0 bet
  have := Real.rpow_nonneg (add_nonneg (mul_nonneg h1 (Real.sqrt_nonneg R)) h2) bet
  positivity

theorem PVal.kw_none {v : PVal} {y : ℝ} (h : v.kw Option.none = some y) : v = .val y := by
  cases v with
  | absent => simp [PVal.kw] at h
  | none => simp [PVal.kw] at h
  | val z => simp only [PVal.kw, Option.some.injEq] at h; rw [h]

/-- The two-body damping functions are smooth. -/
theorem Damping.point_smooth {d : Damping} {p : Param} {R : ℝ} {k : ℕ} {f : ℝ → ℝ → ℝ}
    (hf : d.point env k false p.kw = .ok f) (hk : Even k) (hs : d.SmoothFor p R)
    (hr : ContDiffAt ℝ m r x) (h0 : 0 < r x) : ContDiffAt ℝ m (fun y => f (r y) R) x := by
  have hconst : ∀ g : ℝ → ℝ → ℝ, (Except.ok (fun _ _ => (0 : ℝ)) : Except Err (ℝ → ℝ → ℝ)) = .ok g →
      ContDiffAt ℝ m (fun y => g (r y) R) x := by
    intro g hg
    rw [← Except.ok.inj hg]
    exact contDiffAt_const
  unfold Damping.point at hf
  split at hf
  · exact hconst f hf
  split at hf
  · exact hconst f hf
  split at hf
  · exact hconst f hf
  split at hf
  · exact hconst f hf
  split at hf
  · cases hf
  unfold Damping.pointF at hf
  cases d with
  | rational =>
    simp only at hf
    split at hf
    · rw [← Except.ok.inj hf]
      exact Spec.contDiffAt_ratio hk hr h0
    · cases hf
  | zero =>
    simp only at hf
    obtain ⟨s6, s8, hR⟩ := hs
    split at hf
    · cases hf
    split at hf
    · cases hf
    rename_i hk'
    split at hf
    · cases hf
    rename_i rs hrs
    have hk9 : k ≠ 9 := by rintro rfl; exact absurd hk (by decide)
    have hpos : 0 < rs := by
      by_cases h6 : k = 6
      · rw [if_pos h6] at hrs; exact s6 _ (PVal.kw_none hrs)
      · have h8 : k = 8 := by tauto
        rw [if_neg h6, if_pos h8] at hrs; exact s8 _ (PVal.kw_none hrs)
    simp only [Bool.false_eq_true, if_false] at hf
    rw [← Except.ok.inj hf]
    exact contDiffAt_sdiv_pow (contDiffAt_zeroF hr h0 hpos hR) hr h0 k
  | mzero =>
    simp only at hf
    obtain ⟨s6, s8, hb, hR⟩ := hs
    split at hf
    · rename_i alp bet ha hbet
      split at hf
      · cases hf
      rename_i hk'
      split at hf
      · cases hf
      rename_i rs hrs
      have hpos : 0 < rs := by
        by_cases h6 : k = 6
        · rw [if_pos h6] at hrs; exact s6 _ (PVal.kw_none hrs)
        · rw [if_neg h6] at hrs; exact s8 _ (PVal.kw_none hrs)
      rw [← Except.ok.inj hf]
      exact contDiffAt_sdiv_pow (contDiffAt_mzeroF hr h0 hpos (hb _ (PVal.kw_none hbet)) hR) hr h0 k
    · cases hf
  | op =>
    simp only at hf
    obtain ⟨h1, h2⟩ := hs
    split at hf
    · rename_i a1 a2 bet ha1 ha2 hbet
      split at hf
      · cases hf
      rw [← Except.ok.inj hf]
      exact contDiffAt_opF hr h0 (h1 _ (PVal.kw_none ha1)) (h2 _ (PVal.kw_none ha2))
    · cases hf

/-! ## Energies -/

/-- The energy of a term depends on the coefficients of its atoms only. -/
theorem Term.energy_coeff {t : Term} {S : Spec.Settings} {M : Spec.Mol n}
    {c6 : Spec.AtomData → Spec.AtomData → ℝ}
    {c9x : Spec.AtomData → Spec.AtomData → Spec.AtomData → ℝ}
    (h6 : ∀ i j, S.c6 (M.data t.chargeDep i) (M.data t.chargeDep j) =
      c6 (M.data t.chargeDep i) (M.data t.chargeDep j))
    (h9 : t.cls = .d4ATMExact → ∀ i j k,
      S.c9x (M.data t.chargeDep i) (M.data t.chargeDep j) (M.data t.chargeDep k) =
      c9x (M.data t.chargeDep i) (M.data t.chargeDep j) (M.data t.chargeDep k)) (i : Fin n) :
    t.energy S M i = t.energy { S with c6 := c6, c9x := c9x } M i := by
  unfold Term.energy
  cases hc : t.cls with
  | twoBody =>
    simp only [Spec.e2, Spec.pairTerm, h6]
    rfl
  | d4ATMApprox =>
    simp only [Spec.e3, Spec.tripleTerm, Spec.c9, h6]
    rfl
  | d4ATMExact =>
    simp only [Spec.e3, Spec.tripleTerm, h9 hc]
    rfl
  | d3ATM =>
    simp only [Spec.e3, Spec.tripleTerm, Spec.c9, h6]
    rfl

variable {C : Spec.C6Settings} {S : Spec.Settings} {M : X → Spec.Mol n} {dep : Bool}

open Spec in
theorem contDiffAt_c9Triple {Z Z' Z'' : ℕ} {f q f' q' f'' q'' : X → ℝ} (hε : 0 < C.ε)
    (hf : ContDiffAt ℝ m f x) (hq : ContDiffAt ℝ m q x) (hf' : ContDiffAt ℝ m f' x)
    (hq' : ContDiffAt ℝ m q' x) (hf'' : ContDiffAt ℝ m f'' x) (hq'' : ContDiffAt ℝ m q'' x)
    (h : C.ε < q x + C.T.zeff Z) (h' : C.ε < q' x + C.T.zeff Z') (h'' : C.ε < q'' x + C.T.zeff Z'') :
    ContDiffAt ℝ m (fun y => c9Triple C ⟨Z, f y, q y⟩ ⟨Z', f' y, q' y⟩ ⟨Z'', f'' y, q'' y⟩) x := by
  unfold c9Triple
  exact contDiffAt_const.mul (ContDiffAt.sum fun w _ => contDiffAt_const.mul
    (((contDiffAt_alpha hε hf hq h).mul (contDiffAt_alpha hε hf' hq' h')).mul
      (contDiffAt_alpha hε hf'' hq'' h'')))

/-- Charge entering the coefficients of a term. -/
theorem data_eq (M : Spec.Mol n) (i : Fin n) :
    M.data dep i = ⟨M.Z i, M.cn i, (M.data dep i).q⟩ := by
  unfold Spec.Mol.data; split <;> rfl

section
variable (h : Spec.SmoothAt m M x) (hCε : 0 < C.ε)
  (hq : ∀ i, (M x).Z i ≠ 0 → C.ε < ((M x).data dep i).q + C.T.zeff ((M x).Z i))
include h

theorem contDiffAt_data_q {i : Fin n} (hi : (M x).Z i ≠ 0) :
    ContDiffAt ℝ m (fun y => ((M y).data dep i).q) x := by
  cases dep
  · exact contDiffAt_const (c := (0 : ℝ))
  · exact h.q i hi

include hCε hq

theorem contDiffAt_c6_data {i j : Fin n} (hi : (M x).Z i ≠ 0) (hj : (M x).Z j ≠ 0) :
    ContDiffAt ℝ m (fun y => Spec.c6 C ((M y).data dep i) ((M y).data dep j)) x := by
  have : (fun y => Spec.c6 C ((M y).data dep i) ((M y).data dep j)) = fun y =>
      Spec.c6 C ⟨(M x).Z i, (M y).cn i, ((M y).data dep i).q⟩
        ⟨(M x).Z j, (M y).cn j, ((M y).data dep j).q⟩ := by
    funext y
    rw [← h.Z y, ← data_eq, ← data_eq]
  rw [this]
  exact Spec.contDiffAt_c6 hCε (h.cn i hi) (contDiffAt_data_q h hi) (h.cn j hj)
    (contDiffAt_data_q h hj) (hq i hi) (hq j hj)

theorem contDiffAt_c9x_data {i j k : Fin n} (hi : (M x).Z i ≠ 0) (hj : (M x).Z j ≠ 0)
    (hk : (M x).Z k ≠ 0) : ContDiffAt ℝ m
      (fun y => Spec.c9Triple C ((M y).data dep i) ((M y).data dep j) ((M y).data dep k)) x := by
  have : (fun y => Spec.c9Triple C ((M y).data dep i) ((M y).data dep j) ((M y).data dep k)) =
      fun y => Spec.c9Triple C ⟨(M x).Z i, (M y).cn i, ((M y).data dep i).q⟩
        ⟨(M x).Z j, (M y).cn j, ((M y).data dep j).q⟩
        ⟨(M x).Z k, (M y).cn k, ((M y).data dep k).q⟩ := by
    funext y
    rw [← h.Z y, ← data_eq, ← data_eq, ← data_eq]
  rw [this]
  exact contDiffAt_c9Triple hCε (h.cn i hi) (contDiffAt_data_q h hi) (h.cn j hj)
    (contDiffAt_data_q h hj) (h.cn k hk) (contDiffAt_data_q h hk) (hq i hi) (hq j hj) (hq k hk)

theorem contDiffAt_c9_data {i j k : Fin n} (hS : S.c6 = Spec.c6 C) (hε : 0 < S.ε)
    (hi : (M x).Z i ≠ 0) (hj : (M x).Z j ≠ 0) (hk : (M x).Z k ≠ 0)
    (hne : |Spec.c6 C ((M x).data dep i) ((M x).data dep j) *
      Spec.c6 C ((M x).data dep i) ((M x).data dep k) *
      Spec.c6 C ((M x).data dep j) ((M x).data dep k)| ≠ S.ε) :
    ContDiffAt ℝ m (fun y => Spec.c9 S ((M y).data dep) i j k) x := by
  have hp := ((contDiffAt_c6_data h hCε hq hi hj).mul (contDiffAt_c6_data h hCε hq hi hk)).mul
    (contDiffAt_c6_data h hCε hq hj hk)
  unfold Spec.c9
  rw [hS]
  rcases lt_or_gt_of_ne hne with hl | hl
  · refine (contDiffAt_const (c := √S.ε)).congr_of_eventuallyEq ?_
    filter_upwards [hp.continuousAt.abs.eventually_lt continuousAt_const hl] with y hy
    exact congrArg Real.sqrt (max_eq_right (le_of_lt hy))
  · refine Spec.contDiffAt_rsqrt hε (Spec.contDiffAt_abs' hp ?_) hne
    intro h0
    rw [h0, abs_zero] at hl
    exact absurd hε (not_lt.2 hl.le)

end

section
variable (h : Spec.SmoothAt m M x) (hε : 0 < S.ε)
  (ha : ∀ i j, (M x).Z i ≠ 0 → (M x).Z j ≠ 0 → i ≠ j →
    S.ε < dist ((M x).pos i) ((M x).pos j) ^ 2)
include h hε ha

theorem eventually_within {c : ℝ} {i j : Fin n} (hi : (M x).Z i ≠ 0) (hj : (M x).Z j ≠ 0)
    (hij : i ≠ j) (hne : dist ((M x).pos i) ((M x).pos j) ≠ c) :
    ∀ᶠ y in 𝓝 x, ((M y).r S.ε i j ≤ c ↔ (M x).r S.ε i j ≤ c) := by
  refine Spec.eventually_le_iff (h.r hε hi hj (ha i j hi hj hij)).continuousAt ?_
  rw [Spec.r_eq_dist (ha i j hi hj hij)]
  exact hne

theorem contDiffAt_e2_of
    (hcut : ∀ i j, (M x).Z i ≠ 0 → (M x).Z j ≠ 0 → i ≠ j → dist ((M x).pos i) ((M x).pos j) ≠ S.cut2)
    (hp : ∀ i j, (M x).Z i ≠ 0 → (M x).Z j ≠ 0 → i ≠ j →
      ContDiffAt ℝ m (fun y => Spec.pairTerm S (M y) ((M y).data dep) i j) x) (i : Fin n) :
    ContDiffAt ℝ m (fun y => Spec.e2 S (M y) ((M y).data dep) i) x := by
  unfold Spec.e2
  refine contDiffAt_const.mul (ContDiffAt.sum fun j _ => ?_)
  refine Spec.contDiffAt_ite (P := fun y => (M y).Z i ≠ 0 ∧ (M y).Z j ≠ 0 ∧ i ≠ j ∧
      (M y).r S.ε i j ≤ S.cut2) ?_ fun hc => hp i j hc.1 hc.2.1 hc.2.2.1
  by_cases hc : (M x).Z i ≠ 0 ∧ (M x).Z j ≠ 0 ∧ i ≠ j
  · filter_upwards [eventually_within h hε ha hc.1 hc.2.1 hc.2.2 (hcut i j hc.1 hc.2.1 hc.2.2)]
      with y hy
    rw [h.Z y]
    exact and_congr_right fun _ => and_congr_right fun _ => and_congr_right fun _ => hy
  · refine Filter.Eventually.of_forall fun y => ?_
    rw [h.Z y]
    tauto

theorem contDiffAt_e3_of {c : X → Fin n → Fin n → Fin n → ℝ} {R : Fin n → Fin n → ℝ} {a : ℝ}
    (hf9 : S.f9 = zeroF env 1 a)
    (hcut : ∀ i j, (M x).Z i ≠ 0 → (M x).Z j ≠ 0 → i ≠ j → dist ((M x).pos i) ((M x).pos j) ≠ S.cut3)
    (hc9 : ∀ i j k, (M x).Z i ≠ 0 → (M x).Z j ≠ 0 → (M x).Z k ≠ 0 → i ≠ j → i ≠ k → j ≠ k →
      ContDiffAt ℝ m (fun y => c y i j k) x)
    (hR : ∀ i j, (M x).Z i ≠ 0 → (M x).Z j ≠ 0 → i ≠ j → 0 ≤ R i j) (i : Fin n) :
    ContDiffAt ℝ m (fun y => Spec.e3 S (M y) (c y) R i) x := by
  unfold Spec.e3
  refine contDiffAt_const.mul (ContDiffAt.sum fun j _ => ContDiffAt.sum fun k _ => ?_)
  refine Spec.contDiffAt_ite ?_ ?_
  · by_cases hc : (M x).Z i ≠ 0 ∧ (M x).Z j ≠ 0 ∧ (M x).Z k ≠ 0 ∧ i ≠ j ∧ i ≠ k ∧ j ≠ k
    · obtain ⟨hi, hj, hk, hij, hik, hjk⟩ := hc
      filter_upwards [eventually_within h hε ha hi hj hij (hcut i j hi hj hij),
        eventually_within h hε ha hj hk hjk (hcut j k hj hk hjk)] with y h1 h2
      rw [h.Z y]
      unfold Spec.withinCut3
      refine and_congr_right fun _ => and_congr_right fun _ => and_congr_right fun _ =>
        and_congr_right fun _ => and_congr_right fun _ => and_congr_right fun _ => and_congr h1 h2
    · refine Filter.Eventually.of_forall fun y => ?_
      rw [h.Z y]
      tauto
  · rintro ⟨hi, hj, hk, hij, hik, hjk, -⟩
    have r1 := h.r hε hi hj (ha i j hi hj hij)
    have r2 := h.r hε hi hk (ha i k hi hk hik)
    have r3 := h.r hε hj hk (ha j k hj hk hjk)
    have p1 : 0 < (M x).r S.ε i j := Spec.Mol.r_pos hε _ _ _
    have p2 : 0 < (M x).r S.ε i k := Spec.Mol.r_pos hε _ _ _
    have p3 : 0 < (M x).r S.ε j k := Spec.Mol.r_pos hε _ _ _
    have hRR : 0 ≤ R i j * R i k * R j k :=
      mul_nonneg (mul_nonneg (hR i j hi hj hij) (hR i k hi hk hik)) (hR j k hj hk hjk)
    have hc := hc9 i j k hi hj hk hij hik hjk
    unfold Spec.tripleTerm
    generalize R i j * R i k * R j k = RR at hRR
    have hrr := (r1.mul r2).mul r3
    have prr : 0 < (M x).r S.ε i j * (M x).r S.ε i k * (M x).r S.ε j k := by positivity
    have hf : ContDiffAt ℝ m (fun y => S.f9 RR
        ((M y).r S.ε i j * (M y).r S.ε i k * (M y).r S.ε j k)) x := by
      have h1 : ContDiffAt ℝ m (fun y => 1 / (1 + 6 * (RR /
          ((M y).r S.ε i j * (M y).r S.ε i k * (M y).r S.ε j k)) ^ a)) x := by
        rcases hRR.eq_or_lt with h0 | h0
        · simp only [← h0, zero_div]
          exact contDiffAt_const
        · exact contDiffAt_zeroDamp (contDiffAt_const.div hrr prr.ne') (div_pos h0 prr)
      refine h1.congr_of_eventuallyEq (Filter.Eventually.of_forall fun y => ?_)
      have : 0 < (M y).r S.ε i j * (M y).r S.ε i k * (M y).r S.ε j k :=
        mul_pos (mul_pos (Spec.Mol.r_pos hε _ _ _) (Spec.Mol.r_pos hε _ _ _))
          (Spec.Mol.r_pos hε _ _ _)
      simp only [hf9]
      exact zeroF_pos this
    refine ((contDiffAt_const.mul hc).mul hf).mul ?_
    refine ContDiffAt.div (ContDiffAt.add (((contDiffAt_const.mul ?_).mul ?_).mul ?_)
      contDiffAt_const) (hrr.pow 3) (pow_pos prr 3).ne'
    · exact Spec.contDiffAt_cosSides r1 r2 r3 p1 p2
    · exact Spec.contDiffAt_cosSides r1 r3 r2 p1 p3
    · exact Spec.contDiffAt_cosSides r2 r3 r1 p2 p3

end

/-- The energy of a term is smooth away from the surfaces of `Term.Generic`. -/
theorem Term.energy_smooth {T : Tables} {R : RefCfg} {p : Param} {cutoff : Cutoff} {t : Term}
    (hS : TermPar env T R p cutoff t S) (ht : t.Usable env R p cutoff) (hfl : env.fl = id)
    (hT : T.Physical R.rq) (hgc : 0 < R.gc) (h : Spec.SmoothAt m M x)
    (hv : ∀ y, (M y).rvdw = (M x).rvdw) (hZ : ∀ i, (M x).Z i < T.nZ)
    (hg : t.Generic env.eps (R.spec T env.eps) p cutoff (M x)) (i : Fin n) :
    ContDiffAt ℝ m (fun y => t.energy S (M y) i) x := by
  have hCε : 0 < (R.spec T env.eps).ε := env.eps_pos
  have hε : 0 < S.ε := hS.ε ▸ env.eps_pos
  have hlt : ∀ y i, ((M y).data t.chargeDep i).Z < T.nZ := by
    intro y i
    rw [data_eq, h.Z y]
    exact hZ i
  have hE : (fun y => t.energy S (M y) i) = fun y => t.energy { S with
      c6 := Spec.c6 (R.spec T env.eps), c9x := Spec.c9Triple (R.spec T env.eps) } (M y) i := by
    funext y
    refine Term.energy_coeff (fun i j => ?_) (fun hc i j k => ?_) i
    · rw [hS.c6]
      exact c6At_spec hfl hT hgc (hlt y i) (hlt y j)
    · rw [(hS.exact hc).2]
      exact c9At_spec hfl hT hgc (hlt y i) (hlt y j) (hlt y k)
  rw [hE]
  obtain ⟨S', hS'⟩ : ∃ S', S' = { S with
      c6 := Spec.c6 (R.spec T env.eps), c9x := Spec.c9Triple (R.spec T env.eps) } := ⟨_, rfl⟩
  have e1 : S'.ε = env.eps := by rw [hS']; exact hS.ε
  have ha : ∀ i j, (M x).Z i ≠ 0 → (M x).Z j ≠ 0 → i ≠ j →
      S'.ε < dist ((M x).pos i) ((M x).pos j) ^ 2 := by rw [e1]; exact hg.apart
  have hε' : 0 < S'.ε := e1 ▸ env.eps_pos
  have e6 : S'.c6 = Spec.c6 (R.spec T env.eps) := by rw [hS']
  rw [← hS']
  have three : t.cls ≠ .twoBody → (∃ a, S'.f9 = zeroF env 1 a) ∧ S'.cut3 = cutoff.disp3 := by
    intro hc
    obtain ⟨⟨-, alp, -, h9⟩, h10, -⟩ := hS.three hc
    refine ⟨⟨alp / 3, ?_⟩, by rw [hS']; exact h10⟩
    rw [ht.zero hc, point9_zero] at h9
    rw [hS']
    exact (Except.ok.inj h9).symm
  have hR0 : ∀ y, Spec.R0 S' (M y) = Spec.R0 S' (M x) := by
    intro y; funext a b; simp only [Spec.R0, h.Q y]
  have hRv : ∀ y, Spec.R0vdw S' (M y) = Spec.R0vdw S' (M x) := by
    intro y; funext a b; simp only [Spec.R0vdw, hv y]
  have hbj : t.cls = .d4ATMApprox ∨ t.cls = .d4ATMExact → ∀ i j, (M x).Z i ≠ 0 → (M x).Z j ≠ 0 →
      i ≠ j → 0 ≤ Spec.R0 S' (M x) i j := by
    intro hc i j hi hj hij
    unfold Spec.R0
    rw [e1]
    refine hg.bj hc _ _ ?_ ?_ i j hi hj hij
    · rw [hS']; exact (hS.bj hc).1
    · rw [hS']; exact (hS.bj hc).2
  unfold Term.energy
  cases hc : t.cls with
  | twoBody =>
    obtain ⟨h2, hcut⟩ := hS.two hc
    refine contDiffAt_e2_of h hε' ha ?_ ?_ i
    · have : S'.cut2 = cutoff.disp2 := by rw [hS']; exact hcut
      rw [this]
      exact hg.cut2 hc
    · intro i j hi hj hij
      have hr := h.r hε' hi hj (ha i j hi hj hij)
      have hr0 : 0 < (M x).r S'.ε i j := Spec.Mol.r_pos hε' _ i j
      have hc6 := contDiffAt_c6_data h hCε hg.charge hi hj
      have hrad : ∀ y, Spec.rad S' (M y) i j = Spec.rad S' (M x) i j := by
        intro y; unfold Spec.rad; simp only [h.Q y, hv y]
      have hsm : t.damping.SmoothFor p (Spec.rad S' (M x) i j) := by
        have := hg.damping hc i j hi hj hij
        have hrt : S'.radius = t.damping.specRadius := by rw [hS']; exact h2.radius
        cases hd : t.damping <;> rw [hd] at this hrt
        · trivial
        · simpa [Spec.rad, hrt, Damping.specRadius, Damping.radiusType] using this
        · simpa [Spec.rad, hrt, Damping.specRadius, Damping.radiusType] using this
        · exact this
      have f6 := Damping.point_smooth h2.f6 (by decide) hsm hr hr0
      have f8 := Damping.point_smooth h2.f8 (by decide) hsm hr hr0
      have t10 : ContDiffAt ℝ m (fun y => S'.s10 * (S'.c6 ((M y).data t.chargeDep i)
          ((M y).data t.chargeDep j) * (3 * (M x).Q i * (M x).Q j) ^ 2 * 49 / 40 *
          S'.f10 ((M y).r S'.ε i j) (Spec.rad S' (M x) i j))) x := by
        rcases h2.s10 with ⟨-, h0⟩ | ⟨-, h10⟩
        · have : S'.s10 = 0 := by rw [hS']; exact h0
          simp only [this, zero_mul]
          exact contDiffAt_const
        · have f10 := Damping.point_smooth h10 (by decide) hsm hr hr0
          rw [e6]
          have : S'.f10 = S.f10 := by rw [hS']
          rw [this]
          exact contDiffAt_const.mul ((((hc6.mul contDiffAt_const).mul contDiffAt_const).div_const _).mul
            f10)
      unfold Spec.pairTerm
      simp only [hrad, h.Q]
      refine ContDiffAt.add (ContDiffAt.add ?_ ?_) t10
      · rw [e6]
        have : S'.f6 = S.f6 := by rw [hS']
        rw [this]
        exact contDiffAt_const.mul (hc6.mul f6)
      · rw [e6]
        have : S'.f8 = S.f8 := by rw [hS']
        rw [this]
        exact contDiffAt_const.mul ((hc6.mul contDiffAt_const).mul f8)
  | d4ATMApprox =>
    obtain ⟨⟨a, hf9⟩, hcut⟩ := three (by simp [hc])
    simp only [hR0]
    exact contDiffAt_e3_of h hε' ha hf9 (hcut ▸ hg.cut3 (by simp [hc])) (fun i j k hi hj hk hij hik hjk =>
      contDiffAt_c9_data h hCε hg.charge e6 hε' hi hj hk
        (e1 ▸ hg.c9 (Or.inl hc) i j k hi hj hk hij hik hjk)) (hbj (Or.inl hc)) i
  | d4ATMExact =>
    obtain ⟨⟨a, hf9⟩, hcut⟩ := three (by simp [hc])
    simp only [hR0]
    have e9 : S'.c9x = Spec.c9Triple (R.spec T env.eps) := by rw [hS']
    rw [e9]
    exact contDiffAt_e3_of h hε' ha hf9 (hcut ▸ hg.cut3 (by simp [hc])) (fun i j k hi hj hk _ _ _ =>
      contDiffAt_c9x_data h hCε hg.charge hi hj hk) (hbj (Or.inr hc)) i
  | d3ATM =>
    obtain ⟨⟨a, hf9⟩, hcut⟩ := three (by simp [hc])
    simp only [hRv]
    refine contDiffAt_e3_of h hε' ha hf9 (hcut ▸ hg.cut3 (by simp [hc])) (fun i j k hi hj hk hij hik hjk =>
      contDiffAt_c9_data h hCε hg.charge e6 hε' hi hj hk
        (e1 ▸ hg.c9 (Or.inr hc) i j k hi hj hk hij hik hjk)) (fun i j hi hj hij => ?_) i
    unfold Spec.R0vdw
    refine hg.vdw hc _ ?_ i j hi hj hij
    rw [hS']
    exact hS.vdw hc

end
end TadDftd4
