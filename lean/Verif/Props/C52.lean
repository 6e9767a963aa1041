import Verif.Props.C45

/-!
# C52: how much the cutoffs matter

* `C52_inside`: for a system smaller than the cutoffs their values are irrelevant;
* `C52_error`: two calculations that differ in the cutoffs, all of them at least `c₂` (two-body) and `c₃`
  (three-body), give energies that differ by at most
  `n (K₆ / c₂⁶ + K₈ / c₂⁸ + K₁₀ / c₂¹⁰) + n² K₉ / (c₃² d)³`, where `d` is the smallest distance of two
  atoms. The constants depend on tables, model settings and damping parameters only.
-/

set_option linter.unusedSimpArgs false

open scoped Classical

namespace TadDftd4

open Tensor

/-- The same options with other cutoffs. -/
def DftOpts.withCutoff (o : DftOpts) (c : Cutoff) : DftOpts :=
  { o with opts := { o.opts with cutoff := some c } }

section
variable {env : Env} {T : Tables} {R : RefCfg} {P : Spec.D4Par} {ext : Ext} {numbers : Tensor ℕ}
  {positions charge : Tensor ℝ} {p : Param} {o : DftOpts} {n : ℕ} {B : Shape} {cn : Spec.CN}
  {eeq : Spec.EEQ} {c : Cutoff}

theorem Call.withCutoff (h : Call env T ext numbers positions charge p o n B R cn eeq P)
    (hc : 0 ≤ c.disp3) :
    Call env T ext numbers positions charge p (o.withCutoff c) n B R cn eeq P :=
  { keys := h.keys
    args := ⟨h.args.num, h.args.pos, h.args.lt, h.args.fits, h.args.charge, h.args.q, h.args.rcov,
      h.args.r4r2, h.args.rvdw⟩
    model := h.model, cn := h.cn, eeq := h.eeq, damping := h.damping, par := h.par, cut3 := hc }

theorem system_withCutoff (hq : o.opts.q ≠ none ∨ (o.opts.cutoff.getD {}).cnEeq = c.cnEeq) (b : Idx) :
    system T cn eeq numbers positions charge (o.withCutoff c).opts n b =
      system T cn eeq numbers positions charge o.opts n b := by
  unfold system DftOpts.withCutoff
  congr 1
  funext i
  cases h : o.opts.q with
  | some q => simp [h]
  | none =>
    rcases hq with hq | hq
    · exact absurd h hq
    · simp [h, hq]

/-- **C52**: cutoffs beyond all distances do not matter. Charges are computed with a cutoff of their own
(`cn_eeq`), which is kept, unless they are given. -/
theorem C52_inside (h : Call env T ext numbers positions charge p o n B R cn eeq P)
    (hq : o.opts.q ≠ none ∨ (o.opts.cutoff.getD {}).cnEeq = c.cnEeq) (hc : 0 ≤ c.disp3) :
    ∃ e e', dftd4 env T ext numbers positions charge p o = .ok e ∧
      dftd4 env T ext numbers positions charge p (o.withCutoff c) = .ok e' ∧
      ∀ b, InB B b → ∀ D, √env.eps ≤ D → D ≤ (o.opts.cutoff.getD {}).disp2 → D ≤ c.disp2 →
        D ≤ (o.opts.cutoff.getD {}).disp3 → D ≤ c.disp3 →
        (∀ j k : Fin n, elements numbers n b j ≠ 0 → elements numbers n b k ≠ 0 →
          dist (coords positions n b j) (coords positions n b k) ≤ D) →
        ∀ i < n, e.get (i :: b) = e'.get (i :: b) := by
  obtain ⟨e, h1, -, h3⟩ := h.eval
  obtain ⟨e', h1', -, h3'⟩ := (h.withCutoff hc).eval
  refine ⟨e, e', h1, h1', fun b hb D hD h2 h2' h4 h4' hd i hi => ?_⟩
  rw [h3 b hb ⟨i, hi⟩, h3' b hb ⟨i, hi⟩, system_withCutoff hq]
  set M := system T cn eeq numbers positions charge o.opts n b with hM
  set C := o.opts.cutoff.getD {} with hC
  have hr : ∀ j k, M.Z j ≠ 0 → M.Z k ≠ 0 → M.r env.eps j k ≤ D := by
    intro j k hj hk
    rw [Spec.r_eq_max env.eps_pos]
    exact max_le (hd j k hj hk) hD
  unfold Spec.energy
  congr 1
  · unfold Spec.e2
    congr 1
    refine Finset.sum_congr rfl fun j _ => ?_
    have e : (M.Z ⟨i, hi⟩ ≠ 0 ∧ M.Z j ≠ 0 ∧ ⟨i, hi⟩ ≠ j ∧ M.r env.eps ⟨i, hi⟩ j ≤ C.disp2) ↔
        (M.Z ⟨i, hi⟩ ≠ 0 ∧ M.Z j ≠ 0 ∧ ⟨i, hi⟩ ≠ j ∧ M.r env.eps ⟨i, hi⟩ j ≤ c.disp2) := by
      constructor <;> rintro ⟨a1, a2, a3, -⟩
      · exact ⟨a1, a2, a3, (hr _ _ a1 a2).trans h2'⟩
      · exact ⟨a1, a2, a3, (hr _ _ a1 a2).trans h2⟩
    exact if_congr e rfl rfl
  · unfold Spec.e3
    congr 1
    refine Finset.sum_congr rfl fun j _ => Finset.sum_congr rfl fun k _ => ?_
    have e : (M.Z ⟨i, hi⟩ ≠ 0 ∧ M.Z j ≠ 0 ∧ M.Z k ≠ 0 ∧ ⟨i, hi⟩ ≠ j ∧ ⟨i, hi⟩ ≠ k ∧ j ≠ k ∧
          M.r env.eps ⟨i, hi⟩ j ≤ C.disp3 ∧ M.r env.eps j k ≤ C.disp3) ↔
        (M.Z ⟨i, hi⟩ ≠ 0 ∧ M.Z j ≠ 0 ∧ M.Z k ≠ 0 ∧ ⟨i, hi⟩ ≠ j ∧ ⟨i, hi⟩ ≠ k ∧ j ≠ k ∧
          M.r env.eps ⟨i, hi⟩ j ≤ c.disp3 ∧ M.r env.eps j k ≤ c.disp3) := by
      constructor <;> rintro ⟨a1, a2, a3, a4, a5, a6, -⟩
      · exact ⟨a1, a2, a3, a4, a5, a6, (hr _ _ a1 a2).trans h4', (hr _ _ a2 a3).trans h4'⟩
      · exact ⟨a1, a2, a3, a4, a5, a6, (hr _ _ a1 a2).trans h4, (hr _ _ a2 a3).trans h4⟩
    exact if_congr e rfl rfl

theorem abs_ite_sub_le {p q : Prop} [Decidable p] [Decidable q] {t K : ℝ} (hK : 0 ≤ K)
    (h : ¬ (p ↔ q) → |t| ≤ K) : |(if p then t else 0) - (if q then t else 0)| ≤ K := by
  by_cases hp : p <;> by_cases hq : q
  · simp [hp, hq, hK]
  · simpa [hp, hq] using h (by simp [hp, hq])
  · simpa [hp, hq] using h (by simp [hp, hq])
  · simp [hp, hq, hK]

/-- **C52**: error due to the cutoffs. -/
theorem C52_error (hT : T.Physical R.rq) (hga : 0 ≤ R.ga) (hgc : 0 < R.gc) (ha1 : 0 ≤ P.a1)
    (ha2 : 0 ≤ P.a2) :
    ∃ K₆ K₈ K₁₀ K₉ : ℝ, ∀ (ext : Ext) (n : ℕ) (B : Shape) (numbers : Tensor ℕ)
      (positions charge : Tensor ℝ) (p : Param) (o : DftOpts) (cn : Spec.CN) (eeq : Spec.EEQ)
      (c : Cutoff),
      Call env T ext numbers positions charge p o n B R cn eeq P → o.opts.r4r2 = none →
      o.opts.q ≠ none ∨ (o.opts.cutoff.getD {}).cnEeq = c.cnEeq → 0 ≤ c.disp3 →
      ∃ e e', dftd4 env T ext numbers positions charge p o = .ok e ∧
        dftd4 env T ext numbers positions charge p (o.withCutoff c) = .ok e' ∧
        ∀ b, InB B b → ∀ c₂ c₃ d : ℝ, 0 < c₂ → 0 < c₃ → 0 < d →
          c₂ ≤ (o.opts.cutoff.getD {}).disp2 → c₂ ≤ c.disp2 →
          c₃ ≤ (o.opts.cutoff.getD {}).disp3 → c₃ ≤ c.disp3 →
          (∀ j k : Fin n, elements numbers n b j ≠ 0 → elements numbers n b k ≠ 0 → j ≠ k →
            d ≤ dist (coords positions n b j) (coords positions n b k)) →
          ∀ i < n, |e.get (i :: b) - e'.get (i :: b)| ≤
            n * (K₆ / c₂ ^ 6 + K₈ / c₂ ^ 8 + K₁₀ / c₂ ^ 10) + n ^ 2 * (K₉ / (c₃ ^ 2 * d) ^ 3) := by
  have hC : 0 ≤ c6Max env T R := mul_nonneg thopi_pos.le (Finset.sum_nonneg fun w _ =>
    mul_nonneg (trapzWeights_nonneg w) (mul_self_nonneg _))
  set C := c6Max env T R with hCdef
  set Q := ∑ Z ∈ Finset.range T.nZ, |T.r4r2 Z| with hQdef
  have hQ0 : 0 ≤ Q := Finset.sum_nonneg fun _ _ => abs_nonneg _
  have hQ : ∀ Z < T.nZ, |T.r4r2 Z| ≤ Q := fun Z hZ =>
    Finset.single_le_sum (f := fun Z => |T.r4r2 Z|) (fun _ _ => abs_nonneg _)
      (Finset.mem_range.2 hZ)
  refine ⟨1 / 2 * (|P.s6| * C), 1 / 2 * (|P.s8| * (C * (3 * Q * Q))),
    1 / 2 * (|P.s10| * (C * (3 * Q * Q) ^ 2 * 49 / 40)),
    1 / 6 * (|P.s9| * √(max (C * C * C) env.eps) * 8 * 4),
    fun ext n B numbers positions charge p o cn eeq c h hr4 hq hc0 => ?_⟩
  obtain ⟨e, h1, -, h3⟩ := h.eval
  obtain ⟨e', h1', -, h3'⟩ := (h.withCutoff hc0).eval
  refine ⟨e, e', h1, h1', fun b hb c₂ c₃ d hc2 hc3 hd0 l2 l2' l3 l3' hd i hi => ?_⟩
  rw [h3 b hb ⟨i, hi⟩, h3' b hb ⟨i, hi⟩, system_withCutoff hq]
  set M := system T cn eeq numbers positions charge o.opts n b with hM
  set D := o.opts.cutoff.getD {} with hD
  have hZ : ∀ j, M.Z j < T.nZ := fun j => h.args.Z_lt hb j
  have hMQ : ∀ j, |M.Q j| ≤ Q := by
    intro j
    have : M.Q j = T.r4r2 (elements numbers n b j) := by
      show (match o.opts.r4r2 with
        | some x => x.get (j.1 :: b)
        | none => T.r4r2 (elements numbers n b j)) = _
      rw [hr4]
    rw [this]
    exact hQ _ (hZ j)
  have hx : ∀ j k, |3 * M.Q j * M.Q k| ≤ 3 * Q * Q := by
    intro j k
    rw [abs_mul, abs_mul, abs_of_pos (by norm_num : (0 : ℝ) < 3)]
    exact mul_le_mul (mul_le_mul_of_nonneg_left (hMQ j) (by norm_num)) (hMQ k) (abs_nonneg _)
      (by positivity)
  have hc6 : ∀ A A' : Spec.AtomData, A.Z < T.nZ → A'.Z < T.nZ → |c6At env T R A A'| ≤ C :=
    fun A A' hA hA' => by
      rw [abs_of_nonneg (c6At_nonneg _ _)]; exact c6At_le hT hga hgc A A' hA hA'
  have hdr : ∀ j k : Fin n, M.Z j ≠ 0 → M.Z k ≠ 0 → j ≠ k → d ≤ M.r env.eps j k := by
    intro j k hj hk hjk
    rw [Spec.r_eq_max env.eps_pos]
    exact (hd j k hj hk hjk).trans (le_max_left _ _)
  have hf : ∀ (k : ℕ), Even k → ∀ (r x : ℝ), c₂ < r →
      |1 / (r ^ k + (P.a1 * √x + P.a2) ^ k)| ≤ 1 / c₂ ^ k := by
    intro k hk r x hr
    have h0 : 0 ≤ (P.a1 * √x + P.a2) ^ k := hk.pow_nonneg _
    have h1 : 0 < r := hc2.trans hr
    rw [abs_of_nonneg (by positivity)]
    refine one_div_le_one_div_of_le (by positivity) ?_
    exact (pow_le_pow_left₀ hc2.le hr.le k).trans (le_add_of_nonneg_right h0)
  set S := d4Computed env T R P D with hS
  have hpair : ∀ j k, c₂ < M.r env.eps j k → |Spec.pairTerm S M M.atom j k| ≤
      |P.s6| * (C * (1 / c₂ ^ 6)) + |P.s8| * (C * (3 * Q * Q) * (1 / c₂ ^ 8)) +
      |P.s10| * (C * (3 * Q * Q) ^ 2 * 49 / 40 * (1 / c₂ ^ 10)) := by
    intro j k hr
    have hcc := hc6 (M.atom j) (M.atom k) (hZ j) (hZ k)
    have e : Spec.pairTerm S M M.atom j k =
        P.s6 * (c6At env T R (M.atom j) (M.atom k) *
          (1 / (M.r env.eps j k ^ 6 + (P.a1 * √(3 * M.Q j * M.Q k) + P.a2) ^ 6))) +
        P.s8 * (c6At env T R (M.atom j) (M.atom k) * (3 * M.Q j * M.Q k) *
          (1 / (M.r env.eps j k ^ 8 + (P.a1 * √(3 * M.Q j * M.Q k) + P.a2) ^ 8))) +
        P.s10 * (c6At env T R (M.atom j) (M.atom k) * (3 * M.Q j * M.Q k) ^ 2 * 49 / 40 *
          (1 / (M.r env.eps j k ^ 10 + (P.a1 * √(3 * M.Q j * M.Q k) + P.a2) ^ 10))) := rfl
    rw [e]
    refine (abs_add_le _ _).trans (add_le_add ((abs_add_le _ _).trans (add_le_add ?_ ?_)) ?_)
    · rw [abs_mul, abs_mul]
      exact mul_le_mul_of_nonneg_left (mul_le_mul hcc (hf 6 (by decide) _ _ hr) (abs_nonneg _) hC)
        (abs_nonneg _)
    · rw [abs_mul, abs_mul, abs_mul _ (3 * M.Q j * M.Q k)]
      exact mul_le_mul_of_nonneg_left (mul_le_mul (mul_le_mul hcc (hx j k) (abs_nonneg _) hC)
        (hf 8 (by decide) _ _ hr) (abs_nonneg _) (by positivity)) (abs_nonneg _)
    · rw [abs_mul, abs_mul, abs_div, abs_mul, abs_mul _ ((3 * M.Q j * M.Q k) ^ 2),
        abs_pow, abs_of_pos (by norm_num : (0 : ℝ) < 49), abs_of_pos (by norm_num : (0 : ℝ) < 40)]
      refine mul_le_mul_of_nonneg_left (mul_le_mul ?_ (hf 10 (by decide) _ _ hr) (abs_nonneg _)
        (by positivity)) (abs_nonneg _)
      have := mul_le_mul hcc (pow_le_pow_left₀ (abs_nonneg _) (hx j k) 2) (by positivity) hC
      linarith
  have hR0 : ∀ j k, 0 ≤ Spec.R0 S M j k := fun j k =>
    add_nonneg (mul_nonneg ha1 (Real.sqrt_nonneg _)) ha2
  have htri : ∀ j k l, d ≤ M.r env.eps j k → d ≤ M.r env.eps j l → d ≤ M.r env.eps k l →
      c₃ < M.r env.eps j k ∨ c₃ < M.r env.eps k l →
      |Spec.tripleTerm S M (Spec.c9 S M.neutral) (Spec.R0 S M) j k l| ≤
      |P.s9| * √(max (C * C * C) env.eps) * (8 / (c₃ ^ 2 * d) ^ 3) * 4 := by
    intro j k l dx dy dz hfar
    set x := M.r env.eps j k with hxd
    set y := M.r env.eps j l with hyd
    set z := M.r env.eps k l with hzd
    have px : 0 < x := Spec.r_pos env.eps_pos _ _
    have py : 0 < y := Spec.r_pos env.eps_pos _ _
    have pz : 0 < z := Spec.r_pos env.eps_pos _ _
    have t1 : y ≤ x + z := Spec.r_triangle env.eps_pos j k l
    have t2 : x ≤ y + z := by
      have := Spec.r_triangle (M := M) env.eps_pos j l k
      rwa [Spec.r_symm l k] at this
    have t3 : z ≤ x + y := by
      have := Spec.r_triangle (M := M) env.eps_pos k j l
      rwa [Spec.r_symm k j] at this
    set RR := Spec.R0 S M j k * Spec.R0 S M j l * Spec.R0 S M k l with hRR
    have hRRp : 0 ≤ RR := mul_nonneg (mul_nonneg (hR0 _ _) (hR0 _ _)) (hR0 _ _)
    have e : Spec.tripleTerm S M (Spec.c9 S M.neutral) (Spec.R0 S M) j k l =
        P.s9 * Spec.c9 S M.neutral j k l *
          (1 / (1 + 6 * (RR / (x * y * z)) ^ (P.alp / 3)) / (x * y * z) ^ 3) *
          (3 * Spec.cosSides x y z * Spec.cosSides x z y * Spec.cosSides y z x + 1) := by
      have : Spec.tripleTerm S M (Spec.c9 S M.neutral) (Spec.R0 S M) j k l =
        P.s9 * Spec.c9 S M.neutral j k l *
          (1 / (1 + 6 * (RR / (x * y * z)) ^ (P.alp / 3))) *
          ((3 * Spec.cosSides x y z * Spec.cosSides x z y * Spec.cosSides y z x + 1) /
            (x * y * z) ^ 3) := rfl
      rw [this]; ring
    have hc9 : |Spec.c9 S M.neutral j k l| ≤ √(max (C * C * C) env.eps) := by
      unfold Spec.c9 Spec.rsqrt
      rw [abs_of_nonneg (Real.sqrt_nonneg _)]
      refine Real.sqrt_le_sqrt (max_le_max ?_ le_rfl)
      rw [abs_mul, abs_mul]
      exact mul_le_mul (mul_le_mul (hc6 _ _ (hZ j) (hZ k)) (hc6 _ _ (hZ j) (hZ l)) (abs_nonneg _)
        hC) (hc6 _ _ (hZ k) (hZ l)) (abs_nonneg _) (by positivity)
    have hang : |3 * Spec.cosSides x y z * Spec.cosSides x z y * Spec.cosSides y z x + 1| ≤ 4 := by
      have c1 := Spec.cosSides_abs px py t3 t2 t1
      have c2 := Spec.cosSides_abs px pz t1 (by linarith) t3
      have c3 := Spec.cosSides_abs py pz t2 (by linarith) (by linarith)
      refine (abs_add_le _ _).trans ?_
      rw [abs_mul, abs_mul, abs_mul, abs_of_pos (by norm_num : (0 : ℝ) < 3), abs_one]
      have c12 := mul_le_one₀ c1 (abs_nonneg _) c2
      have c123 := mul_le_one₀ c12 (abs_nonneg _) c3
      linarith
    -- one side exceeds the cutoff, a second one exceeds half of it, the third is at least `d`
    have hprod : c₃ ^ 2 * d / 2 ≤ x * y * z := by
      have key : ∀ u v w : ℝ, 0 < v → 0 < w → c₃ < u → u ≤ v + w → d ≤ v → d ≤ w →
          c₃ ^ 2 * d / 2 ≤ u * (v * w) := by
        intro u v w hv hw hu huv hdv hdw
        have hvw : c₃ / 2 * d ≤ v * w := by
          rcases le_total v w with hle | hle
          · have : c₃ / 2 ≤ w := by linarith
            rw [mul_comm v w]
            exact mul_le_mul this hdv hd0.le hw.le
          · have : c₃ / 2 ≤ v := by linarith
            exact mul_le_mul this hdw hd0.le hv.le
        calc c₃ ^ 2 * d / 2 = c₃ * (c₃ / 2 * d) := by ring
          _ ≤ u * (v * w) := mul_le_mul hu.le hvw (by positivity) (by linarith)
      rcases hfar with hfar | hfar
      · have := key x y z py pz hfar t2 dy dz
        linarith [mul_assoc x y z]
      · have := key z x y px py hfar t3 dx dy
        linarith [mul_comm z (x * y)]
    have hdamp : |1 / (1 + 6 * (RR / (x * y * z)) ^ (P.alp / 3)) / (x * y * z) ^ 3| ≤
        8 / (c₃ ^ 2 * d) ^ 3 := by
      have hp : 0 ≤ (RR / (x * y * z)) ^ (P.alp / 3) := Real.rpow_nonneg (by positivity) _
      rw [abs_of_nonneg (by positivity)]
      have a1 : 1 / (1 + 6 * (RR / (x * y * z)) ^ (P.alp / 3)) ≤ 1 := by
        rw [div_le_one (by positivity)]
        linarith
      calc 1 / (1 + 6 * (RR / (x * y * z)) ^ (P.alp / 3)) / (x * y * z) ^ 3
          ≤ 1 / (x * y * z) ^ 3 := div_le_div_of_nonneg_right a1 (by positivity)
        _ ≤ 1 / (c₃ ^ 2 * d / 2) ^ 3 :=
          one_div_le_one_div_of_le (by positivity) (pow_le_pow_left₀ (by positivity) hprod 3)
        _ = 8 / (c₃ ^ 2 * d) ^ 3 := by
          field_simp
          norm_num
    rw [e, abs_mul, abs_mul, abs_mul]
    exact mul_le_mul (mul_le_mul (mul_le_mul_of_nonneg_left hc9 (abs_nonneg _)) hdamp (abs_nonneg _)
      (by positivity)) hang (abs_nonneg _) (by positivity)
  have hK2 : 0 ≤ |P.s6| * (C * (1 / c₂ ^ 6)) + |P.s8| * (C * (3 * Q * Q) * (1 / c₂ ^ 8)) +
      |P.s10| * (C * (3 * Q * Q) ^ 2 * 49 / 40 * (1 / c₂ ^ 10)) := by positivity
  have hK3 : 0 ≤ |P.s9| * √(max (C * C * C) env.eps) * (8 / (c₃ ^ 2 * d) ^ 3) * 4 := by positivity
  have e2 : |Spec.e2 S M M.atom ⟨i, hi⟩ - Spec.e2 (d4Computed env T R P c) M M.atom ⟨i, hi⟩| ≤
      1 / 2 * (n * (|P.s6| * (C * (1 / c₂ ^ 6)) + |P.s8| * (C * (3 * Q * Q) * (1 / c₂ ^ 8)) +
      |P.s10| * (C * (3 * Q * Q) ^ 2 * 49 / 40 * (1 / c₂ ^ 10)))) := by
    unfold Spec.e2
    rw [← mul_sub, abs_mul, show |(-(1 / 2) : ℝ)| = 1 / 2 by norm_num, ← Finset.sum_sub_distrib]
    refine mul_le_mul_of_nonneg_left ?_ (by norm_num)
    refine (Finset.abs_sum_le_sum_abs _ _).trans ?_
    refine (Finset.sum_le_sum (g := fun _ => |P.s6| * (C * (1 / c₂ ^ 6)) +
      |P.s8| * (C * (3 * Q * Q) * (1 / c₂ ^ 8)) +
      |P.s10| * (C * (3 * Q * Q) ^ 2 * 49 / 40 * (1 / c₂ ^ 10))) fun j _ => ?_).trans (le_of_eq ?_)
    · refine abs_ite_sub_le (t := Spec.pairTerm S M M.atom ⟨i, hi⟩ j) hK2 fun hne => hpair _ _ ?_
      by_contra hle
      have hle := not_lt.1 hle
      exact hne (and_congr_right fun _ => and_congr_right fun _ => and_congr_right fun _ =>
        ⟨fun _ => hle.trans l2', fun _ => hle.trans l2⟩)
    · rw [Finset.sum_const, Finset.card_univ, Fintype.card_fin, nsmul_eq_mul]
  have e3 : |Spec.e3 S M (Spec.c9 S M.neutral) (Spec.R0 S M) ⟨i, hi⟩ -
      Spec.e3 (d4Computed env T R P c) M (Spec.c9 S M.neutral) (Spec.R0 S M) ⟨i, hi⟩| ≤
      1 / 6 * (n * (n * (|P.s9| * √(max (C * C * C) env.eps) * (8 / (c₃ ^ 2 * d) ^ 3) * 4))) := by
    unfold Spec.e3
    rw [← mul_sub, abs_mul, show |(1 / 6 : ℝ)| = 1 / 6 by norm_num, ← Finset.sum_sub_distrib]
    refine mul_le_mul_of_nonneg_left ?_ (by norm_num)
    refine (Finset.abs_sum_le_sum_abs _ _).trans ?_
    refine (Finset.sum_le_sum (g := fun _ => n * (|P.s9| * √(max (C * C * C) env.eps) *
      (8 / (c₃ ^ 2 * d) ^ 3) * 4)) fun j _ => ?_).trans (le_of_eq ?_)
    · rw [← Finset.sum_sub_distrib]
      refine (Finset.abs_sum_le_sum_abs _ _).trans ?_
      refine (Finset.sum_le_sum (g := fun _ => |P.s9| * √(max (C * C * C) env.eps) *
        (8 / (c₃ ^ 2 * d) ^ 3) * 4) fun k _ => ?_).trans (le_of_eq ?_)
      · refine abs_ite_sub_le (t := Spec.tripleTerm S M (Spec.c9 S M.neutral) (Spec.R0 S M) ⟨i, hi⟩ j k)
          hK3 fun hne => ?_
        have hreal : M.Z ⟨i, hi⟩ ≠ 0 ∧ M.Z j ≠ 0 ∧ M.Z k ≠ 0 ∧ ⟨i, hi⟩ ≠ j ∧ ⟨i, hi⟩ ≠ k ∧ j ≠ k := by
          by_contra hno
          refine hne ⟨fun h => (hno ⟨h.1, h.2.1, h.2.2.1, h.2.2.2.1, h.2.2.2.2.1, h.2.2.2.2.2.1⟩).elim,
            fun h => (hno ⟨h.1, h.2.1, h.2.2.1, h.2.2.2.1, h.2.2.2.2.1, h.2.2.2.2.2.1⟩).elim⟩
        obtain ⟨z1, z2, z3, n1, n2, n3⟩ := hreal
        refine htri _ _ _ (hdr _ _ z1 z2 n1) (hdr _ _ z1 z3 n2) (hdr _ _ z2 z3 n3) ?_
        by_contra hle
        obtain ⟨f1, f2⟩ := not_or.1 hle
        have f1 := not_lt.1 f1
        have f2 := not_lt.1 f2
        exact hne ⟨fun _ => ⟨z1, z2, z3, n1, n2, n3, f1.trans l3', f2.trans l3'⟩,
          fun _ => ⟨z1, z2, z3, n1, n2, n3, f1.trans l3, f2.trans l3⟩⟩
      · rw [Finset.sum_const, Finset.card_univ, Fintype.card_fin, nsmul_eq_mul]
    · rw [Finset.sum_const, Finset.card_univ, Fintype.card_fin, nsmul_eq_mul]
  have key := (abs_add_le _ _).trans (add_le_add e2 e3)
  refine le_trans (le_of_eq ?_) (key.trans (le_of_eq ?_))
  · congr 1
    unfold Spec.energy
    rw [add_sub_add_comm]
    rfl
  · ring

end

namespace Demo

theorem dist_le (j k : Fin 3) : dist (coords positions 3 [1] j) (coords positions 3 [1] k) ≤ 5 := by
  rw [EuclideanSpace.dist_eq, show (5 : ℝ) = √(5 ^ 2) by simp]
  refine Real.sqrt_le_sqrt ?_
  fin_cases j <;> fin_cases k <;>
    norm_num [Fin.sum_univ_three, coords, positions, Real.dist_eq]

theorem le_dist_water {j k : Fin 3} (h : j ≠ k) :
    1.8 ≤ dist (coords positions 3 [0] j) (coords positions 3 [0] k) := by
  rw [EuclideanSpace.dist_eq, show (1.8 : ℝ) = √(1.8 ^ 2) by
    rw [Real.sqrt_sq]; norm_num]
  refine Real.sqrt_le_sqrt ?_
  fin_cases j <;> fin_cases k <;>
    first
    | exact absurd rfl h
    | norm_num [Fin.sum_univ_three, coords, positions, Real.dist_eq]

/-- For HF (distance 1.8 Bohr) cutoffs of 5 Bohr are as good as the default ones. -/
example : ∃ e e', dftd4 env T ext numbers positions charge param {} = .ok e ∧
    dftd4 env T ext numbers positions charge param
      (DftOpts.withCutoff {} { disp2 := 5, disp3 := 5 }) = .ok e' ∧
    ∀ i < 3, e.get [i, 1] = e'.get [i, 1] := by
  obtain ⟨e, e', h1, h2, h3⟩ := C52_inside (c := { disp2 := 5, disp3 := 5 }) call (Or.inr rfl)
    (by norm_num)
  refine ⟨e, e', h1, h2, h3 [1] (by simp [InB]) 5 ?_ ?_ le_rfl ?_ le_rfl ?_⟩
  · rw [show (5 : ℝ) = √(5 ^ 2) by simp]
    exact Real.sqrt_le_sqrt (by norm_num [env])
  · norm_num [Defaults.disp2Cutoff]
  · norm_num [Defaults.disp3Cutoff]
  · intro j k _ _
    exact dist_le j k

/-- The bound for water, with all atoms at least 1.8 Bohr apart. -/
example : ∃ K₂ K₃ : ℝ, ∀ c : Cutoff, c.cnEeq = 25 → 60 ≤ c.disp2 → 40 ≤ c.disp3 →
    ∃ e e', dftd4 env T ext numbers positions charge param {} = .ok e ∧
      dftd4 env T ext numbers positions charge param (DftOpts.withCutoff {} c) = .ok e' ∧
      |e.get [0, 0] - e'.get [0, 0]| ≤ 3 * (K₂ / 60 ^ 6) + 9 * (K₃ / (40 ^ 2 * 1.8) ^ 3) := by
  obtain ⟨K₆, K₈, K₁₀, K₉, h⟩ := C52_error (env := env) (T := T) (R := .d4) (P := par) physical
    (by norm_num [RefCfg.d4]) (by norm_num [RefCfg.d4]) (by norm_num [par]) (by norm_num [par])
  refine ⟨K₆ + K₈ / 60 ^ 2 + K₁₀ / 60 ^ 4, K₉, fun c h1 h2 h3 => ?_⟩
  obtain ⟨e, e', g1, g2, g3⟩ := h _ _ _ _ _ _ _ _ _ _ c call rfl
    (Or.inr (by rw [h1]; norm_num [Defaults.cnEeqCutoff])) (by linarith)
  refine ⟨e, e', g1, g2, ?_⟩
  have := g3 [0] (by simp [InB]) 60 40 1.8 (by norm_num) (by norm_num) (by norm_num)
    (by norm_num [Defaults.disp2Cutoff]) h2 (by norm_num [Defaults.disp3Cutoff]) h3
    (fun j k _ _ hjk => le_dist_water hjk) 0 (by norm_num)
  refine this.trans (le_of_eq ?_)
  push_cast
  ring

end Demo

end TadDftd4
