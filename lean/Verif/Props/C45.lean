import Verif.Lemmas.Bounds

/-!
# C45: energies and C6 coefficients are bounded whatever the geometry and the charges

`n` atoms of any elements, at any positions (also coinciding ones), with any coordination numbers and
any charges, have energies between `-(n K₂ + n² K₃)` and `n K₂ + n² K₃`: the damping prevents a
collapse. `K₂` and `K₃` depend only on the tables, the settings of the model and the damping
parameters.
-/

set_option linter.unusedSimpArgs false

open scoped Classical

namespace TadDftd4

open Tensor

section
variable {env : Env} {T : Tables} {R : RefCfg} {P : Spec.D4Par}

/-- C6 coefficients of D4 and D4S have a common bound for all elements, coordination numbers and
charges. -/
theorem C45_c6 (hT : T.Physical R.rq) (hga : 0 ≤ R.ga) (hgc : 0 < R.gc) :
    ∃ K : ℝ, ∀ (n : ℕ) (B : Shape) (numbers : Tensor ℕ) (m : RefModel),
      m.IsFor env T numbers R n B → numbers.AllLt T.nZ → ∀ cn q : Tensor ℝ, cn.Ok (n :: B) →
      q.Ok (n :: B) → ∀ b, InB B b → ∀ i < n, ∀ j < n,
        |(m.atomicC6 (m.weights env T (some cn) (some q))).get (j :: i :: b)| ≤ K := by
  refine ⟨c6Max env T R, fun n B numbers m hm hlt cn q hc hq b hb i hi j hj => ?_⟩
  have hs : numbers.shape = n :: B := by rw [← hm.num]; exact hm.good.num.shape
  rw [(model_c6_eval hm (cg := cn.get) (qg := q.get) (Or.inr ⟨cn, rfl, hc, rfl⟩)
    (Or.inr ⟨q, rfl, hq, rfl⟩)).2 b i j hb hi hj,
    abs_of_nonneg (c6At_nonneg _ _)]
  exact c6At_le hT hga hgc _ _ (hlt _ (by rw [hs]; exact ⟨hi, hb⟩))
    (hlt _ (by rw [hs]; exact ⟨hj, hb⟩))

/-- `dftd4` energies with rational damping and the tabulated `r4r2` values. -/
theorem C45_energy (hT : T.Physical R.rq) (hga : 0 ≤ R.ga) (hgc : 0 < R.gc) (ha1 : 0 ≤ P.a1)
    (ha2 : 0 < P.a2) (halp : 9 ≤ P.alp) :
    ∃ K₂ K₃ : ℝ, ∀ (ext : Ext) (n : ℕ) (B : Shape) (numbers : Tensor ℕ)
      (positions charge : Tensor ℝ) (p : Param) (o : DftOpts) (cn : Spec.CN) (eeq : Spec.EEQ),
      Call env T ext numbers positions charge p o n B R cn eeq P → o.opts.r4r2 = none →
      ∃ e, dftd4 env T ext numbers positions charge p o = .ok e ∧
        ∀ b, InB B b → ∀ i < n, |e.get (i :: b)| ≤ n * K₂ + n ^ 2 * K₃ := by
  have hC : 0 ≤ c6Max env T R := mul_nonneg thopi_pos.le (Finset.sum_nonneg fun w _ =>
    mul_nonneg (trapzWeights_nonneg w) (mul_self_nonneg _))
  set C := c6Max env T R with hCdef
  set Q := ∑ Z ∈ Finset.range T.nZ, |T.r4r2 Z| with hQdef
  have hQ0 : 0 ≤ Q := Finset.sum_nonneg fun _ _ => abs_nonneg _
  have hQ : ∀ Z < T.nZ, |T.r4r2 Z| ≤ Q := fun Z hZ =>
    Finset.single_le_sum (f := fun Z => |T.r4r2 Z|) (fun _ _ => abs_nonneg _)
      (Finset.mem_range.2 hZ)
  refine ⟨1 / 2 * (|P.s6| * (C * (1 / P.a2 ^ 6)) + |P.s8| * (C * (3 * Q * Q) * (1 / P.a2 ^ 8)) +
      |P.s10| * (C * (3 * Q * Q) ^ 2 * 49 / 40 * (1 / P.a2 ^ 10))),
    1 / 6 * (|P.s9| * √(max (C * C * C) env.eps) * (1 / (P.a2 * P.a2 * P.a2) ^ 3) * 4),
    fun ext n B numbers positions charge p o cn eeq h hr4 => ?_⟩
  obtain ⟨e, h1, -, h3⟩ := h.eval
  refine ⟨e, h1, fun b hb i hi => ?_⟩
  rw [h3 b hb ⟨i, hi⟩]
  set M := system T cn eeq numbers positions charge o.opts n b with hM
  have hZ : ∀ j, M.Z j < T.nZ := fun j => h.args.Z_lt hb j
  have hMQ : ∀ j, |M.Q j| ≤ Q := by
    intro j
    have : M.Q j = T.r4r2 (elements numbers n b j) := by
      show (match o.opts.r4r2 with
        | some x => x.get (j.1 :: b)
        | none => T.r4r2 (elements numbers n b j)) = _
      rw [hr4]
    rw [this]
    exact hQ _ (hZ j)
  have hx : ∀ j k, |3 * M.Q j * M.Q k| ≤ 3 * Q * Q := by
    intro j k
    rw [abs_mul, abs_mul, abs_of_pos (by norm_num : (0 : ℝ) < 3)]
    exact mul_le_mul (mul_le_mul_of_nonneg_left (hMQ j) (by norm_num)) (hMQ k) (abs_nonneg _)
      (by positivity)
  have hc6 : ∀ A A' : Spec.AtomData, A.Z < T.nZ → A'.Z < T.nZ → |c6At env T R A A'| ≤ C :=
    fun A A' hA hA' => by
      rw [abs_of_nonneg (c6At_nonneg _ _)]; exact c6At_le hT hga hgc A A' hA hA'
  have hf : ∀ (k : ℕ) (r x : ℝ), 0 < r → |1 / (r ^ k + (P.a1 * √x + P.a2) ^ k)| ≤ 1 / P.a2 ^ k := by
    intro k r x hr
    have hb : P.a2 ≤ P.a1 * √x + P.a2 := le_add_of_nonneg_left (by positivity)
    have hb' : 0 < P.a1 * √x + P.a2 := ha2.trans_le hb
    rw [abs_of_nonneg (by positivity)]
    refine one_div_le_one_div_of_le (by positivity) ?_
    exact (pow_le_pow_left₀ ha2.le hb k).trans (le_add_of_nonneg_left (by positivity))
  set S := d4Computed env T R P (o.opts.cutoff.getD {}) with hS
  have hpair : ∀ j k, |Spec.pairTerm S M M.atom j k| ≤ |P.s6| * (C * (1 / P.a2 ^ 6)) +
      |P.s8| * (C * (3 * Q * Q) * (1 / P.a2 ^ 8)) +
      |P.s10| * (C * (3 * Q * Q) ^ 2 * 49 / 40 * (1 / P.a2 ^ 10)) := by
    intro j k
    have hr : 0 < M.r env.eps j k := Spec.r_pos env.eps_pos j k
    have hcc := hc6 (M.atom j) (M.atom k) (hZ j) (hZ k)
    have e : Spec.pairTerm S M M.atom j k =
        P.s6 * (c6At env T R (M.atom j) (M.atom k) *
          (1 / (M.r env.eps j k ^ 6 + (P.a1 * √(3 * M.Q j * M.Q k) + P.a2) ^ 6))) +
        P.s8 * (c6At env T R (M.atom j) (M.atom k) * (3 * M.Q j * M.Q k) *
          (1 / (M.r env.eps j k ^ 8 + (P.a1 * √(3 * M.Q j * M.Q k) + P.a2) ^ 8))) +
        P.s10 * (c6At env T R (M.atom j) (M.atom k) * (3 * M.Q j * M.Q k) ^ 2 * 49 / 40 *
          (1 / (M.r env.eps j k ^ 10 + (P.a1 * √(3 * M.Q j * M.Q k) + P.a2) ^ 10))) := rfl
    rw [e]
    refine (abs_add_le _ _).trans (add_le_add ((abs_add_le _ _).trans (add_le_add ?_ ?_)) ?_)
    · rw [abs_mul, abs_mul]
      exact mul_le_mul_of_nonneg_left (mul_le_mul hcc (hf 6 _ _ hr) (abs_nonneg _) hC)
        (abs_nonneg _)
    · rw [abs_mul, abs_mul, abs_mul _ (3 * M.Q j * M.Q k)]
      exact mul_le_mul_of_nonneg_left (mul_le_mul (mul_le_mul hcc (hx j k) (abs_nonneg _) hC)
        (hf 8 _ _ hr) (abs_nonneg _) (by positivity)) (abs_nonneg _)
    · rw [abs_mul, abs_mul, abs_div, abs_mul, abs_mul _ ((3 * M.Q j * M.Q k) ^ 2),
        abs_pow, abs_of_pos (by norm_num : (0 : ℝ) < 49), abs_of_pos (by norm_num : (0 : ℝ) < 40)]
      refine mul_le_mul_of_nonneg_left (mul_le_mul ?_ (hf 10 _ _ hr) (abs_nonneg _)
        (by positivity)) (abs_nonneg _)
      have := mul_le_mul hcc (pow_le_pow_left₀ (abs_nonneg _) (hx j k) 2) (by positivity) hC
      linarith
  have hR0 : ∀ j k, P.a2 ≤ Spec.R0 S M j k := fun j k =>
    le_add_of_nonneg_left (mul_nonneg ha1 (Real.sqrt_nonneg _))
  have htri : ∀ j k l, |Spec.tripleTerm S M (Spec.c9 S M.neutral) (Spec.R0 S M) j k l| ≤
      |P.s9| * √(max (C * C * C) env.eps) * (1 / (P.a2 * P.a2 * P.a2) ^ 3) * 4 := by
    intro j k l
    set x := M.r env.eps j k with hxd
    set y := M.r env.eps j l with hyd
    set z := M.r env.eps k l with hzd
    have px : 0 < x := Spec.r_pos env.eps_pos _ _
    have py : 0 < y := Spec.r_pos env.eps_pos _ _
    have pz : 0 < z := Spec.r_pos env.eps_pos _ _
    have t1 : y ≤ x + z := Spec.r_triangle env.eps_pos j k l
    have t2 : x ≤ y + z := by
      have := Spec.r_triangle (M := M) env.eps_pos j l k
      rwa [Spec.r_symm l k] at this
    have t3 : z ≤ x + y := by
      have := Spec.r_triangle (M := M) env.eps_pos k j l
      rwa [Spec.r_symm k j] at this
    set RR := Spec.R0 S M j k * Spec.R0 S M j l * Spec.R0 S M k l with hRR
    have hRR' : P.a2 * P.a2 * P.a2 ≤ RR :=
      mul_le_mul (mul_le_mul (hR0 j k) (hR0 j l) ha2.le (ha2.le.trans (hR0 j k))) (hR0 k l) ha2.le
        (mul_nonneg (ha2.le.trans (hR0 j k)) (ha2.le.trans (hR0 j l)))
    have hRRp : 0 < RR := lt_of_lt_of_le (by positivity) hRR'
    have e : Spec.tripleTerm S M (Spec.c9 S M.neutral) (Spec.R0 S M) j k l =
        P.s9 * Spec.c9 S M.neutral j k l *
          (1 / (1 + 6 * (RR / (x * y * z)) ^ (P.alp / 3)) / (x * y * z) ^ 3) *
          (3 * Spec.cosSides x y z * Spec.cosSides x z y * Spec.cosSides y z x + 1) := by
      have : Spec.tripleTerm S M (Spec.c9 S M.neutral) (Spec.R0 S M) j k l =
        P.s9 * Spec.c9 S M.neutral j k l *
          (1 / (1 + 6 * (RR / (x * y * z)) ^ (P.alp / 3))) *
          ((3 * Spec.cosSides x y z * Spec.cosSides x z y * Spec.cosSides y z x + 1) /
            (x * y * z) ^ 3) := rfl
      rw [this]; ring
    have hc9 : |Spec.c9 S M.neutral j k l| ≤ √(max (C * C * C) env.eps) := by
      unfold Spec.c9 Spec.rsqrt
      rw [abs_of_nonneg (Real.sqrt_nonneg _)]
      refine Real.sqrt_le_sqrt (max_le_max ?_ le_rfl)
      rw [abs_mul, abs_mul]
      exact mul_le_mul (mul_le_mul (hc6 _ _ (hZ j) (hZ k)) (hc6 _ _ (hZ j) (hZ l)) (abs_nonneg _)
        hC) (hc6 _ _ (hZ k) (hZ l)) (abs_nonneg _) (by positivity)
    have hang : |3 * Spec.cosSides x y z * Spec.cosSides x z y * Spec.cosSides y z x + 1| ≤ 4 := by
      have c1 := Spec.cosSides_abs px py t3 t2 t1
      have c2 := Spec.cosSides_abs px pz t1 (by linarith) t3
      have c3 := Spec.cosSides_abs py pz t2 (by linarith) (by linarith)
      refine (abs_add_le _ _).trans ?_
      rw [abs_mul, abs_mul, abs_mul, abs_of_pos (by norm_num : (0 : ℝ) < 3), abs_one]
      have c12 := mul_le_one₀ c1 (abs_nonneg _) c2
      have c123 := mul_le_one₀ c12 (abs_nonneg _) c3
      linarith
    have hdamp : |1 / (1 + 6 * (RR / (x * y * z)) ^ (P.alp / 3)) / (x * y * z) ^ 3| ≤
        1 / (P.a2 * P.a2 * P.a2) ^ 3 := by
      have hq : 0 < RR / (x * y * z) := by positivity
      have hp : 0 < (RR / (x * y * z)) ^ (P.alp / 3) := Real.rpow_pos_of_pos hq _
      rw [abs_of_nonneg (by positivity)]
      refine (Spec.f9_le (by linarith) hRRp (by positivity)).trans ?_
      exact one_div_le_one_div_of_le (by positivity) (pow_le_pow_left₀ (by positivity) hRR' 3)
    rw [e, abs_mul, abs_mul, abs_mul]
    exact mul_le_mul (mul_le_mul (mul_le_mul_of_nonneg_left hc9 (abs_nonneg _)) hdamp (abs_nonneg _)
      (by positivity)) hang (abs_nonneg _) (by positivity)
  have hite : ∀ (c : Prop) [Decidable c] (v K : ℝ), |v| ≤ K → |if c then v else 0| ≤ K := by
    intro c _ v K hv
    split_ifs
    · exact hv
    · rw [abs_zero]; exact (abs_nonneg v).trans hv
  unfold Spec.energy
  refine (abs_add_le _ _).trans (add_le_add ?_ ?_)
  · unfold Spec.e2
    rw [abs_mul, show |(-(1 / 2) : ℝ)| = 1 / 2 by norm_num]
    have := (Finset.abs_sum_le_sum_abs (fun j => if M.Z ⟨i, hi⟩ ≠ 0 ∧ M.Z j ≠ 0 ∧ ⟨i, hi⟩ ≠ j ∧
      M.r S.ε ⟨i, hi⟩ j ≤ S.cut2 then Spec.pairTerm S M M.atom ⟨i, hi⟩ j else 0)
      Finset.univ).trans (Finset.sum_le_sum fun j _ => hite _ _ _ (hpair ⟨i, hi⟩ j))
    rw [Finset.sum_const, Finset.card_univ, Fintype.card_fin, nsmul_eq_mul] at this
    have := mul_le_mul_of_nonneg_left this (by norm_num : (0 : ℝ) ≤ 1 / 2)
    refine this.trans (le_of_eq ?_)
    ring
  · unfold Spec.e3
    rw [abs_mul, show |(1 / 6 : ℝ)| = 1 / 6 by norm_num]
    have := (Finset.abs_sum_le_sum_abs (fun j => ∑ k, if M.Z ⟨i, hi⟩ ≠ 0 ∧ M.Z j ≠ 0 ∧ M.Z k ≠ 0 ∧
      ⟨i, hi⟩ ≠ j ∧ ⟨i, hi⟩ ≠ k ∧ j ≠ k ∧ Spec.withinCut3 S M ⟨i, hi⟩ j k then
        Spec.tripleTerm S M (Spec.c9 S M.neutral) (Spec.R0 S M) ⟨i, hi⟩ j k else 0)
      Finset.univ).trans (Finset.sum_le_sum fun j _ => (Finset.abs_sum_le_sum_abs _ _).trans
        (Finset.sum_le_sum fun k _ => hite _ _ _ (htri ⟨i, hi⟩ j k)))
    simp only [Finset.sum_const, Finset.card_univ, Fintype.card_fin, nsmul_eq_mul] at this
    have := mul_le_mul_of_nonneg_left this (by norm_num : (0 : ℝ) ≤ 1 / 6)
    refine this.trans (le_of_eq ?_)
    ring

end

/-- The demonstration systems. -/
example : ∃ K₂ K₃ : ℝ, ∃ e, dftd4 Demo.env Demo.T Demo.ext Demo.numbers Demo.positions Demo.charge
    Demo.param = .ok e ∧ |e.get [0, 1]| ≤ 3 * K₂ + 3 ^ 2 * K₃ := by
  obtain ⟨K₂, K₃, h⟩ := C45_energy (env := Demo.env) (T := Demo.T) (R := .d4) (P := Demo.par)
    Demo.physical (by norm_num [RefCfg.d4]) (by norm_num [RefCfg.d4]) (by norm_num [Demo.par])
    (by norm_num [Demo.par]) (by norm_num [Demo.par])
  obtain ⟨e, h1, h2⟩ := h _ _ _ _ _ _ _ _ _ _ Demo.call rfl
  exact ⟨K₂, K₃, e, h1, by simpa using h2 [1] (by simp [InB]) 0 (by norm_num)⟩

example : ∃ K : ℝ, |((mkModel Demo.env Demo.T .d4 Demo.numbers).atomicC6
    ((mkModel Demo.env Demo.T .d4 Demo.numbers).weights Demo.env Demo.T (some (full [3, 2] 1))
      (some (full [3, 2] 0)))).get [1, 0, 0]| ≤ K := by
  obtain ⟨K, h⟩ := C45_c6 (env := Demo.env) (T := Demo.T) (R := .d4) Demo.physical
    (by norm_num [RefCfg.d4]) (by norm_num [RefCfg.d4])
  exact ⟨K, h 3 [2] _ _ (mkModel_isFor_d4 ⟨rfl, rfl⟩ (fun i _ => Demo.numbers_lt i) Demo.fits)
    (fun i _ => Demo.numbers_lt i) _ _ ⟨rfl, rfl⟩ ⟨rfl, rfl⟩ [0] (by simp [InB]) 0 (by norm_num) 1
    (by norm_num)⟩

end TadDftd4
