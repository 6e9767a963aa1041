import Verif.Spec.Forces
import Verif.Lemmas.Energy
import Mathlib.Analysis.SpecialFunctions.Pow.Deriv
import Mathlib.Analysis.SpecialFunctions.Sqrt
import Mathlib.Analysis.InnerProductSpace.Calculus
import Mathlib.Analysis.Calculus.ContDiff.Operations

/-!
# Smoothness of the specified energy as function of the positions
-/

open scoped Classical Topology

namespace TadDftd4.Spec

variable {X : Type} [NormedAddCommGroup X] [NormedSpace ℝ X] {m : WithTop ℕ∞} {n : ℕ} {x : X}

theorem contDiffAt_ite {P : X → Prop} [∀ y, Decidable (P y)] {f : X → ℝ} (hP : ∀ᶠ y in 𝓝 x, (P y ↔ P x))
    (hf : P x → ContDiffAt ℝ m f x) : ContDiffAt ℝ m (fun y => if P y then f y else 0) x := by
  by_cases h : P x
  · refine (hf h).congr_of_eventuallyEq ?_
    filter_upwards [hP] with y hy
    rw [if_pos (hy.2 h)]
  · refine (contDiffAt_const (c := (0 : ℝ))).congr_of_eventuallyEq ?_
    filter_upwards [hP] with y hy
    rw [if_neg (fun h' => h (hy.1 h'))]

theorem eventually_le_iff {f : X → ℝ} {c : ℝ} (hf : ContinuousAt f x) (hne : f x ≠ c) :
    ∀ᶠ y in 𝓝 x, (f y ≤ c ↔ f x ≤ c) := by
  rcases lt_or_gt_of_ne hne with h | h
  · filter_upwards [hf.eventually_lt continuousAt_const h] with y hy
    exact ⟨fun _ => h.le, fun _ => hy.le⟩
  · filter_upwards [continuousAt_const.eventually_lt hf h] with y hy
    exact ⟨fun h' => absurd h' (not_le.2 hy), fun h' => absurd h' (not_le.2 h)⟩

theorem contDiffAt_abs' {f : X → ℝ} (hf : ContDiffAt ℝ m f x) (hne : f x ≠ 0) :
    ContDiffAt ℝ m (fun y => |f y|) x := by
  rcases lt_or_gt_of_ne hne with h | h
  · refine hf.neg.congr_of_eventuallyEq ?_
    filter_upwards [hf.continuousAt.eventually_lt continuousAt_const h] with y hy
    exact abs_of_neg hy
  · refine hf.congr_of_eventuallyEq ?_
    filter_upwards [continuousAt_const.eventually_lt hf.continuousAt h] with y hy
    exact abs_of_pos hy

theorem contDiffAt_rsqrt {ε : ℝ} {f : X → ℝ} (hε : 0 < ε) (hf : ContDiffAt ℝ m f x)
    (hne : f x ≠ ε) : ContDiffAt ℝ m (fun y => rsqrt ε (f y)) x := by
  rcases lt_or_gt_of_ne hne with h | h
  · refine (contDiffAt_const (c := √ε)).congr_of_eventuallyEq ?_
    filter_upwards [hf.continuousAt.eventually_lt continuousAt_const h] with y hy
    rw [rsqrt, max_eq_right hy.le]
  · refine (hf.sqrt (hε.trans h).ne').congr_of_eventuallyEq ?_
    filter_upwards [continuousAt_const.eventually_lt hf.continuousAt h] with y hy
    rw [rsqrt, max_eq_left hy.le]

/-! ## C6 coefficients -/

variable {C : C6Settings}

theorem contDiffAt_zeta {ε ga η zref : ℝ} (hε : 0 < ε) {f : X → ℝ} (hf : ContDiffAt ℝ m f x)
    (h : ε < f x) : ContDiffAt ℝ m (fun y => zeta ε ga η zref (f y)) x := by
  have hne : f x - ε ≠ 0 := (sub_pos.2 h).ne'
  have : ContDiffAt ℝ m
      (fun y => Real.exp (ga * (1 - Real.exp (η * (1 - zref / (f y - ε)))))) x := by
    refine ContDiffAt.exp (contDiffAt_const.mul (contDiffAt_const.sub (ContDiffAt.exp
      (contDiffAt_const.mul (contDiffAt_const.sub (contDiffAt_const.div (hf.sub contDiffAt_const)
        hne))))))
  refine this.congr_of_eventuallyEq ?_
  filter_upwards [continuousAt_const.eventually_lt hf.continuousAt h] with y hy
  rw [zeta, if_neg]
  push Not
  exact ⟨hε.trans hy, hy.ne'⟩

theorem contDiffAt_gaussRef {w : ℝ} {Z r : ℕ} {f : X → ℝ} (hf : ContDiffAt ℝ m f x) :
    ContDiffAt ℝ m (fun y => gaussRef C w Z (f y) r) x := by
  unfold gaussRef gaussians
  refine ContDiffAt.sum fun k _ => ContDiffAt.exp (ContDiffAt.neg (contDiffAt_const.mul
    ((hf.sub contDiffAt_const).pow 2)))

theorem gaussRef_pos_of {w : ℝ} {Z r : ℕ} {c : ℝ} (h : C.T.refc Z r ≠ 0) :
    0 < gaussRef C w Z c r := by
  unfold gaussRef gaussians
  refine Finset.sum_pos (fun _ _ => Real.exp_pos _) ?_
  rw [Finset.nonempty_range_iff]
  exact h

theorem gaussRef_nonneg' {w : ℝ} {Z r : ℕ} {c : ℝ} : 0 ≤ gaussRef C w Z c r := by
  unfold gaussRef gaussians
  exact Finset.sum_nonneg fun _ _ => (Real.exp_pos _).le

theorem contDiffAt_weight {w : ℝ} {Z r : ℕ} {f : X → ℝ} (hf : ContDiffAt ℝ m f x) :
    ContDiffAt ℝ m (fun y => weight C w Z (f y) r) x := by
  unfold weight
  by_cases h : ∃ s ∈ Finset.range nref, C.T.refc Z s ≠ 0
  · obtain ⟨s, hs, h⟩ := h
    have hsum : ContDiffAt ℝ m (fun y => ∑ s ∈ Finset.range nref, gaussRef C w Z (f y) s) x :=
      ContDiffAt.sum (fun s _ => contDiffAt_gaussRef hf)
    have hnum : ContDiffAt ℝ m (fun y => gaussRef C w Z (f y) r) x := contDiffAt_gaussRef hf
    have hp : 0 < gaussRef C w Z (f x) s := gaussRef_pos_of h
    have hne : ∑ s ∈ Finset.range nref, gaussRef C w Z (f x) s ≠ 0 := by
      have := Finset.single_le_sum (f := fun s => gaussRef C w Z (f x) s)
        (fun s _ => gaussRef_nonneg' (r := s)) hs
      exact (lt_of_lt_of_le hp this).ne'
    exact hnum.div hsum hne
  · push Not at h
    have h0 : ∀ y, ∑ s ∈ Finset.range nref, gaussRef C w Z (f y) s = 0 := by
      intro y
      refine Finset.sum_eq_zero fun s hs => ?_
      simp [gaussRef, gaussians, h s hs]
    simp only [h0, div_zero]
    exact contDiffAt_const

theorem contDiffAt_alpha {Z Zp w : ℕ} {f q : X → ℝ} (hε : 0 < C.ε) (hf : ContDiffAt ℝ m f x)
    (hq : ContDiffAt ℝ m q x) (h : C.ε < q x + C.T.zeff Z) :
    ContDiffAt ℝ m (fun y => alpha C ⟨Z, f y, q y⟩ Zp w) x := by
  unfold alpha zetaRef
  dsimp only
  refine ContDiffAt.sum fun r _ => ?_
  have h1 : ContDiffAt ℝ m (fun y => zeta C.ε C.ga (C.T.gam Z * C.gc) (C.qref Z r + C.T.zeff Z)
      (q y + C.T.zeff Z)) x := contDiffAt_zeta hε (hq.add contDiffAt_const) h
  have h2 : ContDiffAt ℝ m (fun y => weight C (C.wf Z Zp) Z (f y) r) x := contDiffAt_weight hf
  exact (h1.mul h2).mul contDiffAt_const

theorem contDiffAt_c6 {Z Z' : ℕ} {f q f' q' : X → ℝ} (hε : 0 < C.ε) (hf : ContDiffAt ℝ m f x)
    (hq : ContDiffAt ℝ m q x) (hf' : ContDiffAt ℝ m f' x) (hq' : ContDiffAt ℝ m q' x)
    (h : C.ε < q x + C.T.zeff Z) (h' : C.ε < q' x + C.T.zeff Z') :
    ContDiffAt ℝ m (fun y => c6 C ⟨Z, f y, q y⟩ ⟨Z', f' y, q' y⟩) x := by
  unfold c6
  exact contDiffAt_const.mul (ContDiffAt.sum fun w _ => contDiffAt_const.mul
    ((contDiffAt_alpha hε hf hq h).mul (contDiffAt_alpha hε hf' hq' h')))

/-! ## Energies -/

/-- A molecule whose positions, coordination numbers and charges depend smoothly on parameters. -/
structure SmoothAt (m : WithTop ℕ∞) (M : X → Mol n) (x : X) : Prop where
  Z : ∀ y, (M y).Z = (M x).Z
  Q : ∀ y, (M y).Q = (M x).Q
  pos : ∀ i, (M x).Z i ≠ 0 → ContDiffAt ℝ m (fun y => (M y).pos i) x
  cn : ∀ i, (M x).Z i ≠ 0 → ContDiffAt ℝ m (fun y => (M y).cn i) x
  q : ∀ i, (M x).Z i ≠ 0 → ContDiffAt ℝ m (fun y => (M y).q i) x

variable {ε : ℝ} {P : D4Par} {cut2 cut3 : ℝ} {M : X → Mol n}

theorem SmoothAt.r (h : SmoothAt m M x) (hε : 0 < ε) {i j : Fin n} (hi : (M x).Z i ≠ 0)
    (hj : (M x).Z j ≠ 0) (hd : ε < dist ((M x).pos i) ((M x).pos j) ^ 2) :
    ContDiffAt ℝ m (fun y => (M y).r ε i j) x := by
  unfold Mol.r
  refine contDiffAt_rsqrt hε ?_ hd.ne'
  simp only [dist_eq_norm]
  exact ((h.pos i hi).sub (h.pos j hj)).norm_sq ℝ

theorem r_eq_dist {M : Mol n} {i j : Fin n} (hd : ε < dist (M.pos i) (M.pos j) ^ 2) :
    M.r ε i j = dist (M.pos i) (M.pos j) := by
  rw [Mol.r, rsqrt_of_le hd.le, Real.sqrt_sq dist_nonneg]

theorem contDiffAt_ratio {r : X → ℝ} {k : ℕ} (hk : Even k) {a : ℝ} (hr : ContDiffAt ℝ m r x)
    (h0 : 0 < r x) : ContDiffAt ℝ m (fun y => 1 / (r y ^ k + a ^ k)) x := by
  refine contDiffAt_const.div ((hr.pow k).add contDiffAt_const) ?_
  have := pow_pos h0 k
  have := hk.pow_nonneg a
  positivity

section
variable (hε : 0 < ε) (hCε : 0 < C.ε) (h : SmoothAt m M x)
  (hg : Generic (d4Settings C ε P cut2 cut3) C (M x))

include hε hCε h hg

theorem contDiffAt_pairTerm {i j : Fin n} (hi : (M x).Z i ≠ 0) (hj : (M x).Z j ≠ 0) (hij : i ≠ j) :
    ContDiffAt ℝ m
      (fun y => pairTerm (d4Settings C ε P cut2 cut3) (M y) (M y).atom i j) x := by
  have hr := h.r hε hi hj (hg.apart i j hi hj hij)
  have hr0 : 0 < (M x).r ε i j := Mol.r_pos hε _ i j
  have hc : ContDiffAt ℝ m (fun y => c6 C ((M y).atom i) ((M y).atom j)) x := by
    unfold Mol.atom
    simp only [h.Z]
    exact contDiffAt_c6 hCε (h.cn i hi) (h.q i hi) (h.cn j hj) (h.q j hj) (hg.charge i hi)
      (hg.charge j hj)
  unfold pairTerm
  simp only [d4Settings, rad, h.Q]
  exact ((contDiffAt_const.mul (hc.mul (contDiffAt_ratio (by decide) hr hr0))).add
    (contDiffAt_const.mul ((hc.mul contDiffAt_const).mul
      (contDiffAt_ratio (by decide) hr hr0)))).add
    (contDiffAt_const.mul ((((hc.mul contDiffAt_const).mul contDiffAt_const).div_const _).mul
      (contDiffAt_ratio (by decide) hr hr0)))

omit hCε in
theorem eventually_cut {c : ℝ} {i j : Fin n} (hi : (M x).Z i ≠ 0) (hj : (M x).Z j ≠ 0)
    (hij : i ≠ j) (hne : dist ((M x).pos i) ((M x).pos j) ≠ c) :
    ∀ᶠ y in 𝓝 x, ((M y).r ε i j ≤ c ↔ (M x).r ε i j ≤ c) := by
  refine eventually_le_iff (h.r hε hi hj (hg.apart i j hi hj hij)).continuousAt ?_
  have := r_eq_dist (ε := ε) (hg.apart i j hi hj hij)
  rw [this]
  exact hne

theorem contDiffAt_e2 (i : Fin n) :
    ContDiffAt ℝ m (fun y => e2 (d4Settings C ε P cut2 cut3) (M y) (M y).atom i) x := by
  unfold e2
  refine contDiffAt_const.mul (ContDiffAt.sum fun j _ => ?_)
  refine contDiffAt_ite (P := fun y => (M y).Z i ≠ 0 ∧ (M y).Z j ≠ 0 ∧ i ≠ j ∧
      (M y).r ε i j ≤ cut2) ?_ fun hc => contDiffAt_pairTerm hε hCε h hg hc.1 hc.2.1 hc.2.2.1
  by_cases hc : (M x).Z i ≠ 0 ∧ (M x).Z j ≠ 0 ∧ i ≠ j
  · filter_upwards [eventually_cut hε h hg hc.1 hc.2.1 hc.2.2 (hg.cut2 i j hc.1 hc.2.1 hc.2.2)]
      with y hy
    rw [h.Z y]
    exact and_congr_right fun _ => and_congr_right fun _ => and_congr_right fun _ => hy
  · refine Filter.Eventually.of_forall fun y => ?_
    rw [h.Z y]
    tauto

theorem contDiffAt_c9 {i j k : Fin n} (hi : (M x).Z i ≠ 0) (hj : (M x).Z j ≠ 0)
    (hk : (M x).Z k ≠ 0) (hij : i ≠ j) (hik : i ≠ k) (hjk : j ≠ k) :
    ContDiffAt ℝ m
      (fun y => c9 (d4Settings C ε P cut2 cut3) (M y).neutral i j k) x := by
  have hc : ∀ {i j : Fin n}, (M x).Z i ≠ 0 → (M x).Z j ≠ 0 →
      ContDiffAt ℝ m (fun y => c6 C ((M y).neutral i) ((M y).neutral j)) x := by
    intro i j hi hj
    unfold Mol.neutral
    simp only [h.Z]
    exact contDiffAt_c6 hCε (h.cn i hi) contDiffAt_const (h.cn j hj) contDiffAt_const
      (by simpa using hg.zeff i hi) (by simpa using hg.zeff j hj)
  have hp := ((hc hi hj).mul (hc hi hk)).mul (hc hj hk)
  have hne := hg.c9 i j k hi hj hk hij hik hjk
  unfold c9
  rcases lt_or_gt_of_ne hne with hl | hl
  · refine (contDiffAt_const (c := √ε)).congr_of_eventuallyEq ?_
    filter_upwards [hp.continuousAt.abs.eventually_lt continuousAt_const hl] with y hy
    exact congrArg Real.sqrt (max_eq_right (le_of_lt hy))
  · refine contDiffAt_rsqrt hε ?_ hne
    refine contDiffAt_abs' hp ?_
    intro h0
    have : (0 : ℝ) < 0 := by
      calc (0 : ℝ) < ε := hε
        _ < _ := hl
        _ = 0 := by
          have := congrArg abs h0
          simpa [d4Settings] using this
    exact lt_irrefl _ this

omit hε hCε h hg in
theorem contDiffAt_cosSides {a b c : X → ℝ} (ha : ContDiffAt ℝ m a x) (hb : ContDiffAt ℝ m b x)
    (hc : ContDiffAt ℝ m c x) (h1 : 0 < a x) (h2 : 0 < b x) :
    ContDiffAt ℝ m (fun y => cosSides (a y) (b y) (c y)) x := by
  unfold cosSides
  exact (((ha.pow 2).add (hb.pow 2)).sub (hc.pow 2)).div ((contDiffAt_const.mul ha).mul hb)
    (by positivity)

theorem contDiffAt_tripleTerm {i j k : Fin n} (hi : (M x).Z i ≠ 0) (hj : (M x).Z j ≠ 0)
    (hk : (M x).Z k ≠ 0) (hij : i ≠ j) (hik : i ≠ k) (hjk : j ≠ k) :
    ContDiffAt ℝ m (fun y => tripleTerm (d4Settings C ε P cut2 cut3) (M y)
      (c9 (d4Settings C ε P cut2 cut3) (M y).neutral) (R0 (d4Settings C ε P cut2 cut3) (M y))
      i j k) x := by
  have r1 := h.r hε hi hj (hg.apart i j hi hj hij)
  have r2 := h.r hε hi hk (hg.apart i k hi hk hik)
  have r3 := h.r hε hj hk (hg.apart j k hj hk hjk)
  have p1 : 0 < (M x).r ε i j := Mol.r_pos hε _ _ _
  have p2 : 0 < (M x).r ε i k := Mol.r_pos hε _ _ _
  have p3 : 0 < (M x).r ε j k := Mol.r_pos hε _ _ _
  have hR : ∀ y, R0 (d4Settings C ε P cut2 cut3) (M y) = R0 (d4Settings C ε P cut2 cut3) (M x) := by
    intro y; funext a b; simp only [R0, h.Q y]
  have hRR : 0 ≤ R0 (d4Settings C ε P cut2 cut3) (M x) i j *
      R0 (d4Settings C ε P cut2 cut3) (M x) i k * R0 (d4Settings C ε P cut2 cut3) (M x) j k :=
    mul_nonneg (mul_nonneg (hg.radii i j hi hj hij) (hg.radii i k hi hk hik))
      (hg.radii j k hj hk hjk)
  have hc9 := contDiffAt_c9 (P := P) (cut2 := cut2) (cut3 := cut3) hε hCε h hg hi hj hk hij hik hjk
  unfold tripleTerm
  simp only [hR]
  generalize R0 (d4Settings C ε P cut2 cut3) (M x) i j * R0 (d4Settings C ε P cut2 cut3) (M x) i k *
    R0 (d4Settings C ε P cut2 cut3) (M x) j k = RR at hRR
  have hrr := (r1.mul r2).mul r3
  have prr : 0 < (M x).r ε i j * (M x).r ε i k * (M x).r ε j k := by positivity
  have hf9 : ContDiffAt ℝ m (fun y => (d4Settings C ε P cut2 cut3).f9 RR
      ((M y).r ε i j * (M y).r ε i k * (M y).r ε j k)) x := by
    simp only [d4Settings]
    refine contDiffAt_const.div (contDiffAt_const.add (contDiffAt_const.mul ?_)) ?_
    · rcases hRR.eq_or_lt with h0 | h0
      · simp only [← h0, zero_div]
        exact contDiffAt_const
      · exact (contDiffAt_const.div hrr prr.ne').rpow_const_of_ne (div_pos h0 prr).ne'
    · have := Real.rpow_nonneg (div_nonneg hRR prr.le) (P.alp / 3)
      positivity
  refine ((contDiffAt_const.mul hc9).mul hf9).mul ?_
  refine ContDiffAt.div (ContDiffAt.add (((contDiffAt_const.mul ?_).mul ?_).mul ?_)
    contDiffAt_const) (hrr.pow 3) (pow_pos prr 3).ne'
  · exact contDiffAt_cosSides r1 r2 r3 p1 p2
  · exact contDiffAt_cosSides r1 r3 r2 p1 p3
  · exact contDiffAt_cosSides r2 r3 r1 p2 p3

theorem contDiffAt_e3 (i : Fin n) :
    ContDiffAt ℝ m (fun y => e3 (d4Settings C ε P cut2 cut3) (M y)
      (c9 (d4Settings C ε P cut2 cut3) (M y).neutral) (R0 (d4Settings C ε P cut2 cut3) (M y)) i)
      x := by
  unfold e3
  refine contDiffAt_const.mul (ContDiffAt.sum fun j _ => ContDiffAt.sum fun k _ => ?_)
  refine contDiffAt_ite ?_ fun hc => contDiffAt_tripleTerm hε hCε h hg hc.1 hc.2.1 hc.2.2.1
    hc.2.2.2.1 hc.2.2.2.2.1 hc.2.2.2.2.2.1
  by_cases hc : (M x).Z i ≠ 0 ∧ (M x).Z j ≠ 0 ∧ (M x).Z k ≠ 0 ∧ i ≠ j ∧ i ≠ k ∧ j ≠ k
  · obtain ⟨hi, hj, hk, hij, hik, hjk⟩ := hc
    filter_upwards [eventually_cut hε h hg hi hj hij (hg.cut3 i j hi hj hij),
      eventually_cut hε h hg hj hk hjk (hg.cut3 j k hj hk hjk)] with y h1 h2
    rw [h.Z y]
    unfold withinCut3
    refine and_congr_right fun _ => and_congr_right fun _ => and_congr_right fun _ =>
      and_congr_right fun _ => and_congr_right fun _ => and_congr_right fun _ => and_congr h1 h2
  · refine Filter.Eventually.of_forall fun y => ?_
    rw [h.Z y]
    tauto

/-- Away from the surfaces of `Generic` the energy is as smooth as positions, coordination numbers
and charges are. -/
theorem contDiffAt_energy (i : Fin n) :
    ContDiffAt ℝ m (fun y => energy (d4Settings C ε P cut2 cut3) (M y) i) x :=
  (contDiffAt_e2 hε hCε h hg i).add (contDiffAt_e3 hε hCε h hg i)

end

end TadDftd4.Spec
