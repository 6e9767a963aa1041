import Verif.Lemmas.LocalCN
import Verif.Props.C69
import Verif.Props.C92

/-!
# C97: total energies change in proportion to the sum of the changes; forces do not grow with the system

Displacing a few atoms of a large system changes the total energy by a bounded amount, and the force on an atom stays
bounded however many atoms there are: what an atom feels does not add up over the system. If atoms keep a distance `δ`,
energies of all atoms together change by at most a constant times the sum of the displacements, plus what coordination
numbers and charges contribute by changing themselves. The constants depend neither on the system nor on its size.
-/

set_option linter.unusedSimpArgs false

open Filter Topology
open scoped Classical

namespace TadDftd4

open Tensor

section
variable {env : Env} {T : Tables} {R : RefCfg} {P : Spec.D4Par} {δ w D : ℝ}

theorem sumReal_nonneg {n : ℕ} {Z : Fin n → ℕ} {f : Fin n → ℝ} (h : ∀ j, 0 ≤ f j) : 0 ≤ Spec.sumReal Z f :=
  Finset.sum_nonneg fun j _ => by
    split_ifs
    · exact h j
    · exact le_rfl

/-- Positions, coordination numbers and charges change together. -/
theorem energy_sum (hfl : env.fl = id) (hT : T.Physical R.rq) (hga : 0 ≤ R.ga) (hgc : 0 < R.gc) (hD : 0 ≤ D)
    (hB : Spec.CNBounds T R w D) (ha1 : 0 ≤ P.a1) (ha2 : 0 ≤ P.a2) (hδ : √env.eps ≤ δ) :
    ∃ K K₁ K₂ : ℝ, 0 ≤ K ∧ 0 ≤ K₁ ∧ 0 ≤ K₂ ∧ ∀ (n : ℕ) (M M' : Spec.Mol n) (c : Cutoff),
      M'.Z = M.Z → M'.Q = M.Q → M'.rvdw = M.rvdw →
      (∀ i, M.Z i < T.nZ) → (∀ i, M.Q i = T.r4r2 (M.Z i)) → Spec.Spaced δ M.Z M.pos → Spec.Spaced δ M.Z M'.pos →
      Spec.SameSide c.disp2 M.Z M.pos M'.pos → Spec.SameSide c.disp3 M.Z M.pos M'.pos →
      Spec.ChargesOk env T n M.Z M.q → Spec.ChargesOk env T n M.Z M'.q →
      (∀ i, M.Z i ≠ 0 → dist (M.pos i) (M'.pos i) ≤ δ) → (∀ i, M.Z i ≠ 0 → |M'.cn i - M.cn i| ≤ 1) →
      ∑ i, |Spec.energy (d4Computed env T R P c) M' i - Spec.energy (d4Computed env T R P c) M i| ≤
        K * Spec.sumReal M.Z (fun j => dist (M.pos j) (M'.pos j)) +
        K₁ * Spec.sumReal M.Z (fun j => |M'.cn j - M.cn j|) + K₂ * Spec.sumReal M.Z fun j => |M'.q j - M.q j| := by
  by_cases hnZ : 0 < T.nZ
  · obtain ⟨K, hK0, hK⟩ := energy_move_sum (env := env) (T := T) (R := R) (P := P) hT hga hgc ha1 ha2 hδ
    obtain ⟨K₁, hK10, hK1⟩ := energy_cn_sum (env := env) (T := T) (R := R) (P := P) hfl hT hga hgc hB ha1 ha2 hδ
      (cnSlope_nonneg_of_bounds hB hnZ hnZ hD)
    obtain ⟨K₂, hK20, hK2⟩ := energy_charge_sum (env := env) (T := T) (R := R) (P := P) hT hga hgc ha1 ha2 hδ
    refine ⟨K, K₁, K₂, hK0, hK10, hK20, fun n M M' c eZ eQ eV hZ hMQ hsp hsp' hs2 hs3 hq hq' hd hc => ?_⟩
    set M1 : Spec.Mol n := { M with pos := M'.pos } with hM1
    set M2 : Spec.Mol n := { M' with q := M.q } with hM2
    have s1 := hK n M M1 c ⟨rfl, rfl, rfl, rfl, rfl⟩ hZ hMQ hsp hsp' hs2 hs3 hd
    have s2 := hK1 n M1 M2 c ⟨eZ, rfl, rfl, eQ, eV⟩ hZ hMQ hsp' hc
    have s3 := hK2 n M2 M' c ⟨rfl, rfl, rfl, rfl⟩ (fun i => by show M'.Z i < _; rw [eZ]; exact hZ i)
      (fun i => by show M'.Q i = T.r4r2 (M'.Z i); rw [eZ, eQ]; exact hMQ i) (by show Spec.Spaced δ M'.Z M'.pos; rw [eZ]; exact hsp')
      (by show Spec.ChargesOk env T n M'.Z M.q; rw [eZ]; exact hq) (by show Spec.ChargesOk env T n M'.Z M'.q; rw [eZ]; exact hq')
    have s3' : ∑ i, |Spec.energy (d4Computed env T R P c) M' i - Spec.energy (d4Computed env T R P c) M2 i| ≤
        K₂ * Spec.sumReal M.Z fun j => |M'.q j - M.q j| := by
      rw [← eZ]
      exact s3
    calc _ ≤ ∑ i, (|Spec.energy (d4Computed env T R P c) M1 i - Spec.energy (d4Computed env T R P c) M i| +
          |Spec.energy (d4Computed env T R P c) M2 i - Spec.energy (d4Computed env T R P c) M1 i| +
          |Spec.energy (d4Computed env T R P c) M' i - Spec.energy (d4Computed env T R P c) M2 i|) := by
          refine Finset.sum_le_sum fun i _ => ?_
          refine (abs_sub_le _ (Spec.energy (d4Computed env T R P c) M2 i) _).trans ?_
          have := abs_sub_le (Spec.energy (d4Computed env T R P c) M2 i) (Spec.energy (d4Computed env T R P c) M1 i)
            (Spec.energy (d4Computed env T R P c) M i)
          linarith
      _ ≤ _ := by
          rw [Finset.sum_add_distrib, Finset.sum_add_distrib]
          exact add_le_add (add_le_add s1 s2) s3'
  · refine ⟨0, 0, 0, le_rfl, le_rfl, le_rfl, fun n M M' c eZ eQ eV hZ _ _ _ _ _ _ _ _ _ => ?_⟩
    rw [Finset.sum_eq_zero fun i _ => absurd (hZ i) (by omega)]
    simp

theorem system_quad {cn : Spec.CN} {eeq : Spec.EEQ} {numbers : Tensor ℕ} {positions charge : Tensor ℝ} {o : CalcOpts} {n : ℕ}
    {b : Idx} (h : o.r4r2 = none) (j : Fin n) : (system T cn eeq numbers positions charge o n b).Q j =
      T.r4r2 ((system T cn eeq numbers positions charge o n b).Z j) := by
  show (match o.r4r2 with
    | some x => x.get (j.1 :: b)
    | none => T.r4r2 (elements numbers n b j)) = _
  rw [h]
  rfl

/-- **C97**: two calls of `dftd4` that differ in the positions. Displacements are at most `δ` and coordination numbers
change by at most 1; no distance crosses a cutoff. Sums of changes of real atoms bound the sum of the changes of all
energies, with constants that no system enters. -/
theorem C97_total (hfl : env.fl = id) (hT : T.Physical R.rq) (hga : 0 ≤ R.ga) (hgc : 0 < R.gc) (hD : 0 ≤ D)
    (hB : Spec.CNBounds T R w D) (ha1 : 0 ≤ P.a1) (ha2 : 0 ≤ P.a2) (hδ : √env.eps ≤ δ) :
    ∃ K K₁ K₂ : ℝ, ∀ (ext : Ext) (n : ℕ) (B : Shape) (numbers : Tensor ℕ) (positions positions' charge : Tensor ℝ)
      (p : Param) (o : DftOpts) (cn : Spec.CN) (eeq : Spec.EEQ),
      Call env T ext numbers positions charge p o n B R cn eeq P →
      Call env T ext numbers positions' charge p o n B R cn eeq P → o.opts.r4r2 = none →
      ∃ e e', dftd4 env T ext numbers positions charge p o = .ok e ∧
        dftd4 env T ext numbers positions' charge p o = .ok e' ∧
        ∀ b, InB B b →
          Spec.Spaced δ (elements numbers n b) (coords positions n b) →
          Spec.Spaced δ (elements numbers n b) (coords positions' n b) →
          Spec.SameSide (o.opts.cutoff.getD {}).disp2 (elements numbers n b) (coords positions n b) (coords positions' n b) →
          Spec.SameSide (o.opts.cutoff.getD {}).disp3 (elements numbers n b) (coords positions n b) (coords positions' n b) →
          Spec.ChargesOk env T n (elements numbers n b) (system T cn eeq numbers positions charge o.opts n b).q →
          Spec.ChargesOk env T n (elements numbers n b) (system T cn eeq numbers positions' charge o.opts n b).q →
          (∀ j, elements numbers n b j ≠ 0 → dist (coords positions n b j) (coords positions' n b j) ≤ δ) →
          (∀ j, elements numbers n b j ≠ 0 → |cn n (elements numbers n b) (coords positions' n b) j -
            cn n (elements numbers n b) (coords positions n b) j| ≤ 1) →
          ∑ i : Fin n, |e'.get (i.1 :: b) - e.get (i.1 :: b)| ≤
            K * Spec.sumReal (elements numbers n b) (fun j => dist (coords positions n b j) (coords positions' n b j)) +
            K₁ * Spec.sumReal (elements numbers n b) (fun j => |cn n (elements numbers n b) (coords positions' n b) j -
              cn n (elements numbers n b) (coords positions n b) j|) +
            K₂ * Spec.sumReal (elements numbers n b) (fun j =>
              |(system T cn eeq numbers positions' charge o.opts n b).q j -
                (system T cn eeq numbers positions charge o.opts n b).q j|) := by
  obtain ⟨K, K₁, K₂, -, -, -, hK⟩ := energy_sum (env := env) (T := T) (R := R) (P := P) hfl hT hga hgc hD hB ha1 ha2 hδ
  refine ⟨K, K₁, K₂, fun ext n B numbers positions positions' charge p o cn eeq hc hc' hr4 => ?_⟩
  obtain ⟨e, he, -, hv⟩ := hc.eval
  obtain ⟨e', he', -, hv'⟩ := hc'.eval
  refine ⟨e, e', he, he', fun b hb hsp hsp' hs2 hs3 hq hq' hd hcn => ?_⟩
  have h1 := hK n (system T cn eeq numbers positions charge o.opts n b) (system T cn eeq numbers positions' charge o.opts n b)
    (o.opts.cutoff.getD {}) rfl rfl rfl (hc.args.Z_lt (cn := cn) (eeq := eeq) hb) (system_quad hr4) hsp hsp' hs2 hs3 hq hq' hd hcn
  rw [Finset.sum_congr rfl fun i _ => by rw [hv b hb i, hv' b hb i]]
  exact h1

/-! ## Forces -/

theorem sumReal_tendsto {n : ℕ} {Z : Fin n → ℕ} {f : Fin n → ℝ → ℝ} {a : Fin n → ℝ} {l : Filter ℝ}
    (h : ∀ j, Z j ≠ 0 → Tendsto (f j) l (𝓝 (a j))) :
    Tendsto (fun t => Spec.sumReal Z fun j => |f j t|) l (𝓝 (Spec.sumReal Z fun j => |a j|)) := by
  unfold Spec.sumReal
  refine tendsto_finsetSum _ fun j _ => ?_
  by_cases hj : Z j ≠ 0
  · simp only [if_pos hj]
    exact (h j hj).abs
  · simp only [if_neg hj]
    exact tendsto_const_nhds

theorem sumReal_smul {n : ℕ} {Z : Fin n → ℕ} {f : Fin n → ℝ} (s : ℝ) :
    s * Spec.sumReal Z f = Spec.sumReal Z fun j => s * f j := by
  unfold Spec.sumReal
  rw [Finset.mul_sum]
  refine Finset.sum_congr rfl fun j _ => ?_
  rw [mul_ite, mul_zero]

section
variable {ext : Ext} {numbers : Tensor ℕ} {n : ℕ} {positions : (Fin n → Spec.E3) → Tensor ℝ} {charge : Tensor ℝ} {p : Param}
  {o : DftOpts} {B : Shape} {cn : Spec.CN} {eeq : Spec.EEQ} {b : Idx} {E : (Fin n → Spec.E3) → ℝ} {x : Fin n → Spec.E3}

theorem charge_contDiffAt (h : TotalEnergy env T ext numbers positions charge p o B R cn eeq P b E)
    (heeq : o.opts.q = none → ∀ i, elements numbers n b i ≠ 0 → ContDiffAt ℝ 1 (fun y =>
      eeq n (o.opts.cutoff.getD {}).cnEeq (elements numbers n b) y (charge.get b) i) x) {i : Fin n}
    (hi : elements numbers n b i ≠ 0) :
    ContDiffAt ℝ 1 (fun y => (system T cn eeq numbers (positions y) charge o.opts n b).q i) x := by
  cases hq : o.opts.q with
  | some q =>
    have : (fun y => (system T cn eeq numbers (positions y) charge o.opts n b).q i) =
        fun _ => q.get (i.1 :: b) := by funext y; simp only [system, hq]
    rw [this]
    exact contDiffAt_const
  | none =>
    have : (fun y => (system T cn eeq numbers (positions y) charge o.opts n b).q i) = fun y =>
        eeq n (o.opts.cutoff.getD {}).cnEeq (elements numbers n b) y (charge.get b) i := by
      funext y; simp only [system, hq, h.at_pos]
    rw [this]
    exact heeq hq i hi
end

/-- Derivative of the total energy in a direction `v`. -/
theorem C97_gradient (hfl : env.fl = id) (hT : T.Physical R.rq) (hga : 0 ≤ R.ga) (hgc : 0 < R.gc) (hD : 0 ≤ D)
    (hB : Spec.CNBounds T R w D) (ha1 : 0 ≤ P.a1) (ha2 : 0 ≤ P.a2) (hδ : √env.eps < δ) :
    ∃ K K₁ K₂ : ℝ, 0 ≤ K ∧ 0 ≤ K₁ ∧ 0 ≤ K₂ ∧ ∀ (ext : Ext) (n : ℕ) (B : Shape) (numbers : Tensor ℕ)
      (positions : (Fin n → Spec.E3) → Tensor ℝ) (charge : Tensor ℝ) (p : Param) (o : DftOpts) (cn : Spec.CN) (eeq : Spec.EEQ)
      (b : Idx) (E : (Fin n → Spec.E3) → ℝ) (x : Fin n → Spec.E3),
      TotalEnergy env T ext numbers positions charge p o B R cn eeq P b E → o.opts.r4r2 = none →
      Spec.Spaced δ (elements numbers n b) x →
      (∀ i, elements numbers n b i ≠ 0 → ContDiffAt ℝ 1 (fun y => cn n (elements numbers n b) y i) x) →
      (o.opts.q = none → ∀ i, elements numbers n b i ≠ 0 → ContDiffAt ℝ 1 (fun y =>
        eeq n (o.opts.cutoff.getD {}).cnEeq (elements numbers n b) y (charge.get b) i) x) →
      Spec.Generic (Spec.d4Settings (R.spec T env.eps) env.eps P (o.opts.cutoff.getD {}).disp2
        (o.opts.cutoff.getD {}).disp3) (R.spec T env.eps)
        (system T cn eeq numbers (positions x) charge o.opts n b) →
      ∀ v : Fin n → Spec.E3, |fderiv ℝ E x v| ≤
        K * Spec.sumReal (elements numbers n b) (fun j => ‖v j‖) +
        K₁ * Spec.sumReal (elements numbers n b) (fun j => |fderiv ℝ (fun y => cn n (elements numbers n b) y j) x v|) +
        K₂ * Spec.sumReal (elements numbers n b) (fun j =>
          |fderiv ℝ (fun y => (system T cn eeq numbers (positions y) charge o.opts n b).q j) x v|) := by
  have he0 := Real.sqrt_nonneg env.eps
  obtain ⟨K, K₁, K₂, hK0, hK10, hK20, hK⟩ := energy_sum (env := env) (T := T) (R := R) (P := P) (δ := (√env.eps + δ) / 2)
    hfl hT hga hgc hD hB ha1 ha2 (by linarith)
  refine ⟨K, K₁, K₂, hK0, hK10, hK20, fun ext n B numbers positions charge p o cn eeq b E x h hr4 hsp hcn heeq hg v => ?_⟩
  set δ' := (√env.eps + δ) / 2 with hδ'
  have hδ0 : 0 < δ' := by linarith
  have hδδ : δ' < δ := by linarith
  set Z := elements numbers n b with hZd
  have hline : Tendsto (fun t : ℝ => x + t • v) (𝓝[≠] 0) (𝓝 x) := by
    have : Continuous fun t : ℝ => x + t • v := by fun_prop
    simpa using (this.tendsto 0).mono_left nhdsWithin_le_nhds
  have hdist : ∀ i j, Tendsto (fun t : ℝ => dist ((x + t • v) i) ((x + t • v) j)) (𝓝[≠] 0) (𝓝 (dist (x i) (x j))) :=
    fun i j => ((continuous_apply i).tendsto x |>.comp hline).dist ((continuous_apply j).tendsto x |>.comp hline)
  have hpx : ∀ y, (system T cn eeq numbers (positions y) charge o.opts n b).pos = y := h.at_pos
  have hcx : ∀ y j, (system T cn eeq numbers (positions y) charge o.opts n b).cn j = cn n Z y j := fun y j => by
    show cn n (elements numbers n b) (coords (positions y) n b) j = _
    rw [h.at_pos]
  have a1 : ∀ᶠ t in 𝓝[≠] (0 : ℝ), Spec.Spaced δ' Z (x + t • v) := by
    unfold Spec.Spaced
    refine eventually_all.2 fun i => eventually_all.2 fun j => ?_
    by_cases hij : i ≠ j ∧ Z i ≠ 0 ∧ Z j ≠ 0
    · filter_upwards [(hdist i j).eventually_const_le (hδδ.trans_le (hsp i j hij.1 hij.2.1 hij.2.2))] with t ht _ _ _
      exact ht
    · exact Eventually.of_forall fun t h1 h2 h3 => absurd ⟨h1, h2, h3⟩ hij
  have a2 : ∀ c : ℝ, (∀ i j, Z i ≠ 0 → Z j ≠ 0 → i ≠ j → dist (x i) (x j) ≠ c) →
      ∀ᶠ t in 𝓝[≠] (0 : ℝ), Spec.SameSide c Z x (x + t • v) := by
    intro c hc
    unfold Spec.SameSide
    refine eventually_all.2 fun i => eventually_all.2 fun j => ?_
    by_cases hij : i ≠ j ∧ Z i ≠ 0 ∧ Z j ≠ 0
    · rcases lt_or_gt_of_ne (hc i j hij.2.1 hij.2.2 hij.1) with hl | hl
      · filter_upwards [(hdist i j).eventually_le_const hl] with t ht _ _ _
        exact ⟨fun _ => ht, fun _ => hl.le⟩
      · filter_upwards [(hdist i j).eventually_const_lt hl] with t ht _ _ _
        exact ⟨fun h => absurd h (not_le.2 hl), fun h => absurd h (not_le.2 ht)⟩
    · exact Eventually.of_forall fun t h1 h2 h3 => absurd ⟨h1, h2, h3⟩ hij
  have hg2 := a2 (o.opts.cutoff.getD {}).disp2 fun i j hi hj hij => by
    have := hg.cut2 i j hi hj hij
    rw [hpx] at this
    exact this
  have hg3 := a2 (o.opts.cutoff.getD {}).disp3 fun i j hi hj hij => by
    have := hg.cut3 i j hi hj hij
    rw [hpx] at this
    exact this
  have hqd : ∀ i, Z i ≠ 0 →
      ContDiffAt ℝ 1 (fun y => (system T cn eeq numbers (positions y) charge o.opts n b).q i) x := fun i hi =>
    charge_contDiffAt h heeq hi
  have hq0 : Spec.ChargesOk env T n Z (system T cn eeq numbers (positions x) charge o.opts n b).q := fun i hi =>
    Or.inr (hg.charge i hi).le
  have hq1 : ∀ᶠ t in 𝓝[≠] (0 : ℝ), Spec.ChargesOk env T n Z
      (system T cn eeq numbers (positions (x + t • v)) charge o.opts n b).q := by
    unfold Spec.ChargesOk
    refine eventually_all.2 fun i => ?_
    by_cases hi : Z i ≠ 0
    · have hl := ((hqd i hi).continuousAt.tendsto.comp hline).add_const (T.zeff (Z i))
      filter_upwards [hl.eventually_const_le (hg.charge i hi)] with t ht _
      exact Or.inr ht
    · exact Eventually.of_forall fun t h1 => absurd h1 hi
  have b1 : ∀ᶠ t in 𝓝[≠] (0 : ℝ), ∀ i, Z i ≠ 0 → dist (x i) ((x + t • v) i) ≤ δ' := by
    refine eventually_all.2 fun i => ?_
    have hl : Tendsto (fun t : ℝ => dist (x i) ((x + t • v) i)) (𝓝[≠] 0) (𝓝 (dist (x i) (x i))) :=
      tendsto_const_nhds.dist ((continuous_apply i).tendsto x |>.comp hline)
    rw [dist_self] at hl
    filter_upwards [hl.eventually_le_const hδ0] with t ht _
    exact ht
  have b2 : ∀ᶠ t in 𝓝[≠] (0 : ℝ), ∀ i, Z i ≠ 0 → |cn n Z (x + t • v) i - cn n Z x i| ≤ 1 := by
    refine eventually_all.2 fun i => ?_
    by_cases hi : Z i ≠ 0
    · have hl := (((hcn i hi).continuousAt.tendsto.comp hline).sub_const (cn n Z x i)).abs
      rw [sub_self, abs_zero] at hl
      filter_upwards [hl.eventually_le_const one_pos] with t ht _
      exact ht
    · exact Eventually.of_forall fun t h1 => absurd h1 hi
  have hE : DifferentiableAt ℝ E x := (C42_smooth h hfl hT hgc hcn heeq hg).differentiableAt (by norm_num)
  have key : ∀ᶠ t in 𝓝[≠] (0 : ℝ), |t⁻¹ * (E (x + t • v) - E x)| ≤
      K * Spec.sumReal Z (fun j => ‖v j‖) +
      K₁ * Spec.sumReal Z (fun j => |t⁻¹ * (cn n Z (x + t • v) j - cn n Z x j)|) +
      K₂ * Spec.sumReal Z (fun j => |t⁻¹ * ((system T cn eeq numbers (positions (x + t • v)) charge o.opts n b).q j -
        (system T cn eeq numbers (positions x) charge o.opts n b).q j)|) := by
    filter_upwards [a1, hg2, hg3, hq1, b1, b2, self_mem_nhdsWithin] with t t1 t2 t3 t4 t5 t6 t7
    have ht : t ≠ 0 := t7
    have h1 := hK n (system T cn eeq numbers (positions x) charge o.opts n b)
      (system T cn eeq numbers (positions (x + t • v)) charge o.opts n b) (o.opts.cutoff.getD {}) rfl rfl rfl
      ((h.call x).args.Z_lt (cn := cn) (eeq := eeq) h.batch) (system_quad hr4)
      (by rw [hpx]; exact fun i j hij hi hj => hδδ.le.trans (hsp i j hij hi hj)) (by rw [hpx]; exact t1)
      (by rw [hpx, hpx]; exact t2) (by rw [hpx, hpx]; exact t3) hq0 t4 (by rw [hpx, hpx]; exact t5)
      (by simp only [hcx]; exact t6)
    simp only [hpx, hcx] at h1
    have h2 : |E (x + t • v) - E x| ≤ ∑ i, |Spec.energy (d4Computed env T R P (o.opts.cutoff.getD {}))
        (system T cn eeq numbers (positions (x + t • v)) charge o.opts n b) i - Spec.energy (d4Computed env T R P
        (o.opts.cutoff.getD {})) (system T cn eeq numbers (positions x) charge o.opts n b) i| := by
      rw [h.eval, h.eval, ← Finset.sum_sub_distrib]
      exact Finset.abs_sum_le_sum_abs _ _
    replace h2 := h2.trans h1
    have h3 : Spec.sumReal Z (fun j => dist (x j) ((x + t • v) j)) = |t| * Spec.sumReal Z fun j => ‖v j‖ := by
      rw [sumReal_smul]
      congr 1
      funext j
      rw [dist_eq_norm, Pi.add_apply, sub_add_cancel_left, norm_neg, Pi.smul_apply, norm_smul, Real.norm_eq_abs]
    have ht0 : 0 < |t| := abs_pos.2 ht
    have h4 : |t|⁻¹ * |t| = 1 := inv_mul_cancel₀ ht0.ne'
    simp only [abs_mul, ← sumReal_smul, abs_inv]
    have h5 := mul_le_mul_of_nonneg_left h2 (inv_nonneg.2 ht0.le)
    refine h5.trans (le_of_eq ?_)
    have e3 : Spec.sumReal (system T cn eeq numbers (positions x) charge o.opts n b).Z
        (fun j => dist (x j) ((x + t • v) j)) = |t| * Spec.sumReal Z fun j => ‖v j‖ := h3
    rw [e3, mul_add, mul_add]
    refine congrArg₂ _ (congrArg₂ _ ?_ ?_) ?_
    · rw [mul_left_comm, ← mul_assoc |t|⁻¹, h4, one_mul]
    · exact mul_left_comm _ _ _
    · exact mul_left_comm _ _ _
  refine le_of_tendsto_of_tendsto (along_tendsto hE v).abs ?_ key
  refine ((tendsto_const_nhds).add (Tendsto.const_mul _ ?_)).add (Tendsto.const_mul _ ?_)
  · exact sumReal_tendsto (a := fun j => fderiv ℝ (fun y => cn n Z y j) x v) fun j hj =>
      along_tendsto ((hcn j hj).differentiableAt (by norm_num)) v
  · exact sumReal_tendsto (a := fun j => fderiv ℝ (fun y => (system T cn eeq numbers (positions y) charge o.opts n b).q j) x v)
      fun j hj => along_tendsto ((hqd j hj).differentiableAt (by norm_num)) v

theorem sumReal_unit {n : ℕ} (Z : Fin n → ℕ) (a : Fin n) (k : Fin 3) :
    Spec.sumReal Z (fun j => ‖(Pi.single a (EuclideanSpace.single k 1) : Fin n → Spec.E3) j‖) ≤ 1 := by
  unfold Spec.sumReal
  calc _ ≤ ∑ j, if j = a then (1 : ℝ) else 0 := by
        refine Finset.sum_le_sum fun j _ => ?_
        beta_reduce
        by_cases hj : j = a
        · subst hj
          rw [if_pos rfl, Pi.single_eq_same]
          split_ifs
          · simp
          · exact zero_le_one
        · rw [if_neg hj, Pi.single_eq_of_ne hj, norm_zero, ite_self]
    _ = 1 := by simp

/-- **C97**: forces. In systems of any size the force on an atom is at most `K`, plus `K₁` times what its displacement
changes coordination numbers by, plus `K₂` times what it changes charges by. -/
theorem C97_force (hfl : env.fl = id) (hT : T.Physical R.rq) (hga : 0 ≤ R.ga) (hgc : 0 < R.gc) (hD : 0 ≤ D)
    (hB : Spec.CNBounds T R w D) (ha1 : 0 ≤ P.a1) (ha2 : 0 ≤ P.a2) (hδ : √env.eps < δ) :
    ∃ K K₁ K₂ : ℝ, 0 ≤ K ∧ 0 ≤ K₁ ∧ 0 ≤ K₂ ∧ ∀ (ext : Ext) (n : ℕ) (B : Shape) (numbers : Tensor ℕ)
      (positions : (Fin n → Spec.E3) → Tensor ℝ) (charge : Tensor ℝ) (p : Param) (o : DftOpts) (cn : Spec.CN) (eeq : Spec.EEQ)
      (b : Idx) (E : (Fin n → Spec.E3) → ℝ) (x : Fin n → Spec.E3),
      TotalEnergy env T ext numbers positions charge p o B R cn eeq P b E → o.opts.r4r2 = none →
      Spec.Spaced δ (elements numbers n b) x →
      (∀ i, elements numbers n b i ≠ 0 → ContDiffAt ℝ 1 (fun y => cn n (elements numbers n b) y i) x) →
      (o.opts.q = none → ∀ i, elements numbers n b i ≠ 0 → ContDiffAt ℝ 1 (fun y =>
        eeq n (o.opts.cutoff.getD {}).cnEeq (elements numbers n b) y (charge.get b) i) x) →
      Spec.Generic (Spec.d4Settings (R.spec T env.eps) env.eps P (o.opts.cutoff.getD {}).disp2
        (o.opts.cutoff.getD {}).disp3) (R.spec T env.eps)
        (system T cn eeq numbers (positions x) charge o.opts n b) →
      ∀ a k, |Spec.force E x a k| ≤ K +
        K₁ * Spec.sumReal (elements numbers n b) (fun j => |Spec.force (fun y => cn n (elements numbers n b) y j) x a k|) +
        K₂ * Spec.sumReal (elements numbers n b) (fun j =>
          |Spec.force (fun y => (system T cn eeq numbers (positions y) charge o.opts n b).q j) x a k|) := by
  obtain ⟨K, K₁, K₂, hK0, hK10, hK20, hK⟩ := C97_gradient (env := env) (T := T) (R := R) (P := P) hfl hT hga hgc hD hB ha1 ha2 hδ
  refine ⟨K, K₁, K₂, hK0, hK10, hK20, fun ext n B numbers positions charge p o cn eeq b E x h hr4 hsp hcn heeq hg a k => ?_⟩
  have h1 := hK ext n B numbers positions charge p o cn eeq b E x h hr4 hsp hcn heeq hg
    (Pi.single a (EuclideanSpace.single k 1))
  unfold Spec.force
  simp only [abs_neg]
  have h3 := mul_le_mul_of_nonneg_left (sumReal_unit (elements numbers n b) a k) hK0
  linarith

/-- **C97**: forces with given charges and the coordination numbers of D4. One constant bounds all forces on all atoms of
all systems whose atoms keep a distance `δ`. -/
theorem C97_given {C : Spec.CNPar} (hfl : env.fl = id) (hT : T.Physical R.rq) (hga : 0 ≤ R.ga) (hgc : 0 < R.gc) (hD : 0 ≤ D)
    (hB : Spec.CNBounds T R w D) (ha1 : 0 ≤ P.a1) (ha2 : 0 ≤ P.a2) (hδ : √env.eps < δ) (hk : C.steep ≠ 0)
    (hrcov : ∀ Z < T.nZ, ∀ Z' < T.nZ, Z ≠ 0 → Z' ≠ 0 → 0 < C.rcov Z + C.rcov Z') :
    ∃ K : ℝ, ∀ (ext : Ext) (n : ℕ) (B : Shape) (numbers : Tensor ℕ) (positions : (Fin n → Spec.E3) → Tensor ℝ)
      (charge q : Tensor ℝ) (p : Param) (o : DftOpts) (cutoff : ℝ) (eeq : Spec.EEQ) (b : Idx) (E : (Fin n → Spec.E3) → ℝ)
      (x : Fin n → Spec.E3),
      TotalEnergy env T ext numbers positions charge p o B R (Spec.cnErf C cutoff) eeq P b E →
      o.opts.q = some q → o.opts.r4r2 = none → Spec.Spaced δ (elements numbers n b) x →
      (∀ i j, elements numbers n b i ≠ 0 → elements numbers n b j ≠ 0 → i ≠ j → dist (x i) (x j) ≠ cutoff) →
      Spec.Generic (Spec.d4Settings (R.spec T env.eps) env.eps P (o.opts.cutoff.getD {}).disp2
        (o.opts.cutoff.getD {}).disp3) (R.spec T env.eps)
        (system T (Spec.cnErf C cutoff) eeq numbers (positions x) charge o.opts n b) →
      ∀ a k, |Spec.force E x a k| ≤ K := by
  have hδ0 : 0 < δ := (Real.sqrt_nonneg _).trans_lt hδ
  obtain ⟨K, K₁, K₂, hK0, hK10, hK20, hK⟩ := C97_force (env := env) (T := T) (R := R) (P := P) hfl hT hga hgc hD hB ha1 ha2 hδ
  obtain ⟨A, hA0, hA⟩ := cnErf_along_sum hδ0 hk T.nZ hrcov
  refine ⟨K + K₁ * A, fun ext n B numbers positions charge q p o cutoff eeq b E x h hq hr4 hsp hx hg a k => ?_⟩
  have h1 := hK ext n B numbers positions charge p o _ eeq b E x h hr4 hsp
    (fun i hi => Spec.cnErf_smooth (by norm_num) fun j hj hij => ⟨fun he => by
      have := hsp i j hij hi hj
      rw [he, dist_self] at this
      linarith, hx i j hi hj hij⟩) (fun hn => by rw [hq] at hn; cases hn) hg a k
  have h2 : Spec.sumReal (elements numbers n b) (fun j =>
      |Spec.force (fun y => (system T (Spec.cnErf C cutoff) eeq numbers (positions y) charge o.opts n b).q j) x a k|) = 0 := by
    unfold Spec.sumReal
    refine Finset.sum_eq_zero fun j _ => ?_
    have e : (fun y => (system T (Spec.cnErf C cutoff) eeq numbers (positions y) charge o.opts n b).q j) =
        fun _ => q.get (j.1 :: b) := by funext y; simp only [system, hq]
    beta_reduce
    rw [e]
    unfold Spec.force
    simp
  have h3 : Spec.sumReal (elements numbers n b) (fun j =>
      |Spec.force (fun y => Spec.cnErf C cutoff n (elements numbers n b) y j) x a k|) ≤ A := by
    have := hA n (elements numbers n b) x (Pi.single a (EuclideanSpace.single k 1)) cutoff
      ((h.call x).args.Z_lt (cn := Spec.cnErf C cutoff) (eeq := eeq) h.batch) hsp hx
    unfold Spec.force
    simp only [abs_neg]
    refine this.trans ?_
    calc _ ≤ A * 1 := mul_le_mul_of_nonneg_left (sumReal_unit _ a k) hA0
      _ = A := mul_one A
  rw [h2, mul_zero, add_zero] at h1
  exact h1.trans (by linarith [mul_le_mul_of_nonneg_left h3 hK10])

end

/-! ## Concrete cases -/

namespace Demo

/-- Rows of any length: energies of all atoms together change at most in proportion to the sum of the displacements and
changes of coordination numbers. -/
example : ∃ K K₁ K₂ : ℝ, ∀ (n : ℕ) (f g : ℕ → ℝ) (h : ℝ), (∀ i, |f i| ≤ 1 / 10) → (∀ i, |g i| ≤ 1 / 10) →
    0 ≤ h → n * (2 * h) ≤ 1 → h ≤ 1 → (∀ i, |g i - f i| ≤ h) → ∃ e e',
    dftd4 env T ext (rowNumbers n) (movedPositions n f) (scalar 0) param
      { opts := { cutoff := some { disp2 := 61, disp3 := 41 } } } = .ok e ∧
    dftd4 env T ext (rowNumbers n) (movedPositions n g) (scalar 0) param
      { opts := { cutoff := some { disp2 := 61, disp3 := 41 } } } = .ok e' ∧
    ∑ i : Fin n, |e'.get [i.1] - e.get [i.1]| ≤
      K * Spec.sumReal (elements (rowNumbers n) n []) (fun j =>
        dist (coords (movedPositions n f) n [] j) (coords (movedPositions n g) n [] j)) +
      K₁ * Spec.sumReal (elements (rowNumbers n) n []) (fun j => |cn n (elements (rowNumbers n) n [])
        (coords (movedPositions n g) n []) j - cn n (elements (rowNumbers n) n []) (coords (movedPositions n f) n []) j|) +
      K₂ * Spec.sumReal (elements (rowNumbers n) n []) (fun j =>
        |(system T cn eeq (rowNumbers n) (movedPositions n g) (scalar 0) { cutoff := some { disp2 := 61, disp3 := 41 } } n []).q j -
          (system T cn eeq (rowNumbers n) (movedPositions n f) (scalar 0)
            { cutoff := some { disp2 := 61, disp3 := 41 } } n []).q j|) := by
  obtain ⟨K, K₁, K₂, hK⟩ := C97_total (env := env) (T := T) (R := .d4) (P := par) (D := 15.2) (w := 6) (δ := 1) rfl physical
    (by norm_num [RefCfg.d4]) (by norm_num [RefCfg.d4]) (by norm_num) (shipped_cnBounds (Or.inl rfl)) (by norm_num [par])
    (by norm_num [par]) sqrt_eps_le_one
  refine ⟨K, K₁, K₂, fun n f g h hf hg h0 hn h1 hfg => ?_⟩
  obtain ⟨e, e', he, he', hx⟩ := hK _ _ _ _ _ _ _ _ _ _ _ (moved_call n f { disp2 := 61, disp3 := 41 } (by norm_num))
    (moved_call n g { disp2 := 61, disp3 := 41 } (by norm_num)) rfl
  refine ⟨e, e', he, he', hx [] (by simp [InB]) (moved_spaced n hf) (moved_spaced n hg) ?_ ?_ (moved_chargesOk n f _)
    (moved_chargesOk n g _) (fun j _ => (moved_dist_le n hfg j).trans h1)
    (fun j _ => (moved_cn n h0 hfg j).trans hn)⟩
  · have := moved_sameSide n hf hg 30
    norm_num at this
    exact this
  · have := moved_sameSide n hf hg 20
    norm_num at this
    exact this

theorem spacedHF : Spec.Spaced 1.8 (elements numbers 3 [1]) xHF := fun _ _ hij hi hj => (dist_xHF hi hj hij).ge

theorem sqrt_eps_ltHF : √env.eps < 1.8 := sqrt_eps_le_one.trans_lt (by norm_num)

theorem cnHF_smooth (i : Fin 3) : ContDiffAt ℝ 1 (fun y => cn 3 (elements numbers 3 [1]) y i) xHF :=
  cn_smooth (fun i j hi hj hij he => by
    have := dist_xHF hi hj hij
    rw [he, dist_self] at this
    norm_num at this) i

/-- Derivatives of the energy of hydrogen fluoride. -/
example (v : Fin 3 → Spec.E3) : ∃ K K₁ K₂, |fderiv ℝ totalHF xHF v| ≤
    K * Spec.sumReal (elements numbers 3 [1]) (fun j => ‖v j‖) +
    K₁ * Spec.sumReal (elements numbers 3 [1]) (fun j => |fderiv ℝ (fun y => cn 3 (elements numbers 3 [1]) y j) xHF v|) +
    K₂ * Spec.sumReal (elements numbers 3 [1]) (fun j =>
      |fderiv ℝ (fun y => (system T cn eeq numbers (positionsAt y) charge {} 3 [1]).q j) xHF v|) := by
  obtain ⟨K, K₁, K₂, -, -, -, hK⟩ := C97_gradient (env := env) (T := T) (R := .d4) (P := par) (D := 15.2) (w := 6) (δ := 1.8)
    rfl physical (by norm_num [RefCfg.d4]) (by norm_num [RefCfg.d4]) (by norm_num) (shipped_cnBounds (Or.inl rfl))
    (by norm_num [par]) (by norm_num [par]) sqrt_eps_ltHF
  exact ⟨K, K₁, K₂, hK ext 3 [2] numbers positionsAt charge param {} cn eeq [1] totalHF xHF totalEnergy rfl spacedHF (fun i _ => cnHF_smooth i)
    (fun _ i _ => by unfold eeq; exact contDiffAt_const) generic_HF v⟩

/-- Forces on hydrogen fluoride. -/
example : ∃ K K₁ K₂, ∀ a k, |Spec.force totalHF xHF a k| ≤ K +
    K₁ * Spec.sumReal (elements numbers 3 [1]) (fun j => |Spec.force (fun y => cn 3 (elements numbers 3 [1]) y j) xHF a k|) +
    K₂ * Spec.sumReal (elements numbers 3 [1]) (fun j =>
      |Spec.force (fun y => (system T cn eeq numbers (positionsAt y) charge {} 3 [1]).q j) xHF a k|) := by
  obtain ⟨K, K₁, K₂, -, -, -, hK⟩ := C97_force (env := env) (T := T) (R := .d4) (P := par) (D := 15.2) (w := 6) (δ := 1.8) rfl
    physical (by norm_num [RefCfg.d4]) (by norm_num [RefCfg.d4]) (by norm_num) (shipped_cnBounds (Or.inl rfl))
    (by norm_num [par]) (by norm_num [par]) sqrt_eps_ltHF
  exact ⟨K, K₁, K₂, hK ext 3 [2] numbers positionsAt charge param {} cn eeq [1] totalHF xHF totalEnergy rfl spacedHF (fun i _ => cnHF_smooth i)
    (fun _ i _ => by unfold eeq; exact contDiffAt_const) generic_HF⟩

/-- Charges of water and hydrogen fluoride, given. -/
noncomputable def givenT : Tensor ℝ := ⟨none, [3, 2], fun _ => 0⟩

noncomputable def totalHFq (x : Fin 3 → Spec.E3) : ℝ :=
  match dftd4 env T extT numbers (positionsAt x) charge param { opts := { q := some givenT } } with
  | .ok e => ∑ i : Fin 3, e.get [i.1, 1]
  | .error _ => 0

theorem totalEnergyq : TotalEnergy env T extT numbers positionsAt charge param { opts := { q := some givenT } } [2] .d4
    (Spec.cnErf cnPar 25) (Spec.eeqCharges eeqPar) par [1] totalHFq where
  call x := callT_of { validArgs with pos := ⟨rfl, rfl⟩, q := fun x h => by cases h; exact ⟨rfl, rfl⟩ } rfl rfl rfl rfl
  batch := by simp [InB]
  at_pos x := totalEnergy.at_pos x
  total x e he := by
    simp only [totalHFq, he]

theorem generic_HFq : Spec.Generic (Spec.d4Settings (RefCfg.d4.spec T env.eps) env.eps par 60 40)
    (RefCfg.d4.spec T env.eps) (system T (Spec.cnErf cnPar 25) (Spec.eeqCharges eeqPar) numbers
      (positionsAt xHF) charge { q := some givenT } 3 [1]) where
  apart := generic_HFT.apart
  cut2 := generic_HFT.cut2
  cut3 := generic_HFT.cut3
  charge i hi := by
    show (1 / 2 ^ 52 : ℝ) < 0 + T.zeff (elements numbers 3 [1] i)
    rw [zero_add]
    exact generic_HFT.zeff i hi
  zeff := generic_HFT.zeff
  c9 := generic_HFT.c9
  radii := generic_HFT.radii

/-- With given charges. -/
example : ∃ K : ℝ, ∀ a k, |Spec.force totalHFq xHF a k| ≤ K := by
  obtain ⟨K, hK⟩ := C97_given (env := env) (T := T) (R := .d4) (P := par) (D := 15.2) (w := 6) (δ := 1.8) (C := cnPar) rfl
    physical (by norm_num [RefCfg.d4]) (by norm_num [RefCfg.d4]) (by norm_num) (shipped_cnBounds (Or.inl rfl))
    (by norm_num [par]) (by norm_num [par]) sqrt_eps_ltHF (by norm_num [cnPar])
    (fun Z _ Z' _ _ _ => by simp only [cnPar]; positivity)
  exact ⟨K, hK _ _ _ _ _ _ _ _ _ _ _ _ _ _ totalEnergyq rfl rfl spacedHF
    (fun i j hi hj hij => by rw [dist_xHF hi hj hij]; norm_num) generic_HFq⟩

end Demo

end TadDftd4
