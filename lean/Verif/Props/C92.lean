import Verif.Lemmas.Displace

/-!
# C92: errors of positions change energies in proportion

Positions are approximate as well (rounded in files, converted between units, computed in single precision). If atoms
keep a distance `δ`, displacing all of them by at most `h` changes the energy of every atom by at most `K h`, plus
what coordination numbers and charges contribute by changing themselves (C87, C89). The constants depend neither on
the system nor on its size.
-/

set_option linter.unusedSimpArgs false

open scoped Classical

namespace TadDftd4

open Tensor

section
variable {env : Env} {T : Tables} {R : RefCfg} {P : Spec.D4Par} {δ w D : ℝ}

/-- **C92**: two calls of `dftd4` that differ in the positions. `h` bounds the displacements of real atoms, `d` the
changes of their coordination numbers, `t` those of their charges. No distance crosses a cutoff. -/
theorem C92_uniform (hfl : env.fl = id) (hT : T.Physical R.rq) (hga : 0 ≤ R.ga) (hgc : 0 < R.gc) (hD : 0 ≤ D)
    (hB : Spec.CNBounds T R w D) (ha1 : 0 ≤ P.a1) (ha2 : 0 ≤ P.a2) (hδ : √env.eps ≤ δ) :
    ∃ K K₁ K₂ : ℝ, ∀ (ext : Ext) (n : ℕ) (B : Shape) (numbers : Tensor ℕ) (positions positions' charge : Tensor ℝ)
      (p : Param) (o : DftOpts) (cn : Spec.CN) (eeq : Spec.EEQ),
      Call env T ext numbers positions charge p o n B R cn eeq P →
      Call env T ext numbers positions' charge p o n B R cn eeq P → o.opts.r4r2 = none →
      ∃ e e', dftd4 env T ext numbers positions charge p o = .ok e ∧
        dftd4 env T ext numbers positions' charge p o = .ok e' ∧
        ∀ b, InB B b →
          Spec.Spaced δ (elements numbers n b) (coords positions n b) →
          Spec.Spaced δ (elements numbers n b) (coords positions' n b) →
          Spec.SameSide (o.opts.cutoff.getD {}).disp2 (elements numbers n b) (coords positions n b) (coords positions' n b) →
          Spec.SameSide (o.opts.cutoff.getD {}).disp3 (elements numbers n b) (coords positions n b) (coords positions' n b) →
          Spec.ChargesOk env T n (elements numbers n b) (system T cn eeq numbers positions charge o.opts n b).q →
          Spec.ChargesOk env T n (elements numbers n b) (system T cn eeq numbers positions' charge o.opts n b).q →
          ∀ h d t, 0 ≤ h → 0 ≤ d → 0 ≤ t →
            (∀ j, elements numbers n b j ≠ 0 → dist (coords positions n b j) (coords positions' n b j) ≤ h) →
            (∀ j, elements numbers n b j ≠ 0 → |cn n (elements numbers n b) (coords positions' n b) j -
              cn n (elements numbers n b) (coords positions n b) j| ≤ d) →
            (∀ j, elements numbers n b j ≠ 0 → |(system T cn eeq numbers positions' charge o.opts n b).q j -
              (system T cn eeq numbers positions charge o.opts n b).q j| ≤ t) →
            ∀ i < n, |e'.get (i :: b) - e.get (i :: b)| ≤
              K * h + K₁ * (Real.exp (3 * Spec.cnSlope w D * d) - 1) + K₂ * t := by
  have hδ0 : 0 < δ := (Real.sqrt_pos.2 env.eps_pos).trans_le hδ
  obtain ⟨K, hK0, hK⟩ := energy_move (env := env) (T := T) (R := R) (P := P) hT hga hgc ha1 ha2 hδ
  obtain ⟨E, hE0, hE⟩ := magnitude_le (env := env) (T := T) (R := R) (P := P) hT hga hgc ha1 ha2 hδ
  have hL := c6Slope_nonneg (env := env) (T := T) (R := R)
  set Q := ∑ Z ∈ Finset.range T.nZ, |T.r4r2 Z| with hQdef
  have hQ0 : 0 ≤ Q := Finset.sum_nonneg fun _ _ => abs_nonneg _
  have hQ : ∀ Z < T.nZ, |T.r4r2 Z| ≤ Q := fun Z hZ =>
    Finset.single_le_sum (f := fun Z => |T.r4r2 Z|) (fun _ _ => abs_nonneg _) (Finset.mem_range.2 hZ)
  set L := 1 / 2 * (c6Slope env T R * (|P.s6| + |P.s8| * (3 * Q * Q) / δ ^ 2 +
    |P.s10| * ((3 * Q * Q) ^ 2 * 49 / 40) / δ ^ 4)) with hLd
  have hL0 : 0 ≤ L := by positivity
  refine ⟨K, E, L * (2 * (5488 / δ ^ 6)), fun ext n B numbers positions positions' charge p o cn eeq hc hc' hr4 => ?_⟩
  obtain ⟨e, he, -, hv⟩ := hc.eval
  obtain ⟨e', he', -, hv'⟩ := hc'.eval
  refine ⟨e, e', he, he', fun b hb hsp hsp' hs2 hs3 hq hq' h d t h0 hd0 ht0 hh hd ht i hi => ?_⟩
  rw [hv b hb ⟨i, hi⟩, hv' b hb ⟨i, hi⟩]
  have hZ := hc.args.Z_lt (cn := cn) (eeq := eeq) hb
  set c := o.opts.cutoff.getD {} with hcd
  set M := system T cn eeq numbers positions charge o.opts n b with hM
  set M3 := system T cn eeq numbers positions' charge o.opts n b with hM3
  set M1 : Spec.Mol n := { M with pos := M3.pos } with hM1
  set M2 : Spec.Mol n := { M3 with q := M.q } with hM2
  set S := d4Computed env T R P c with hS
  have hMQ : ∀ j, M.Q j = T.r4r2 (M.Z j) := by
    intro j
    show (match o.opts.r4r2 with
      | some x => x.get (j.1 :: b)
      | none => T.r4r2 (elements numbers n b j)) = _
    rw [hr4]
    rfl
  have s1 := hK n M M1 c ⟨rfl, rfl, rfl, rfl, rfl⟩ hZ hMQ hsp hsp' hs2 hs3 h h0 hh ⟨i, hi⟩
  have s2 : |Spec.energy S M2 ⟨i, hi⟩ - Spec.energy S M1 ⟨i, hi⟩| ≤ E * (Real.exp (3 * Spec.cnSlope w D * d) - 1) := by
    have hsl := cnSlope_nonneg_of_bounds hB (hZ ⟨i, hi⟩) (hZ ⟨i, hi⟩) hD
    refine (system_factor (P := P) (c := c) (M := M1) (M' := M2) hfl hT hgc hB hsl hd0 ⟨rfl, rfl, rfl, rfl, rfl⟩ hZ hd
      ⟨i, hi⟩).2.trans ?_
    rw [mul_comm]
    exact mul_le_mul_of_nonneg_right (hE n M1 c hZ hMQ hsp' ⟨i, hi⟩) (sub_nonneg.2 (Real.one_le_exp (by positivity)))
  have s3 : |Spec.energy S M3 ⟨i, hi⟩ - Spec.energy S M2 ⟨i, hi⟩| ≤ L * (2 * (5488 / δ ^ 6)) * t := by
    refine (energy_lip_charges (c := c) (M := M2) (M' := M3) hT hga hgc ha1 ha2 hδ hQ0 ⟨rfl, rfl, rfl, rfl⟩ hZ
      (fun j => ?_) hsp' hq hq' ⟨i, hi⟩).trans ?_
    · show |M.Q j| ≤ Q
      rw [hMQ]
      exact hQ _ (hZ j)
    · rw [← hLd, mul_assoc L]
      refine mul_le_mul_of_nonneg_left ?_ hL0
      have h6 := spaced_sum_six hδ0 hsp' ⟨i, hi⟩
      calc _ ≤ ∑ j, 2 * t * (if elements numbers n b ⟨i, hi⟩ ≠ 0 ∧ elements numbers n b j ≠ 0 ∧ (⟨i, hi⟩ : Fin n) ≠ j then
            1 / dist (coords positions' n b ⟨i, hi⟩) (coords positions' n b j) ^ 6 else 0) := by
            refine Finset.sum_le_sum fun j _ => ?_
            by_cases hj : elements numbers n b ⟨i, hi⟩ ≠ 0 ∧ elements numbers n b j ≠ 0 ∧ (⟨i, hi⟩ : Fin n) ≠ j
            · rw [if_pos hj, mul_one_div]
              refine (if_pos hj).le.trans ?_
              refine div_le_div_of_nonneg_right ?_ (by positivity)
              have h1 := ht ⟨i, hi⟩ hj.1
              have h2 := ht j hj.2.1
              show |M3.q ⟨i, hi⟩ - M.q ⟨i, hi⟩| + |M3.q j - M.q j| ≤ 2 * t
              linarith
            · rw [if_neg hj, mul_zero]
              exact (if_neg hj).le
        _ ≤ 2 * t * (5488 / δ ^ 6) := by
            rw [← Finset.mul_sum]
            exact mul_le_mul_of_nonneg_left h6 (by positivity)
        _ = _ := by ring
  have e1 : Spec.energy S M3 ⟨i, hi⟩ - Spec.energy S M ⟨i, hi⟩ = (Spec.energy S M1 ⟨i, hi⟩ - Spec.energy S M ⟨i, hi⟩) +
      (Spec.energy S M2 ⟨i, hi⟩ - Spec.energy S M1 ⟨i, hi⟩) + (Spec.energy S M3 ⟨i, hi⟩ - Spec.energy S M2 ⟨i, hi⟩) := by ring
  rw [e1]
  exact (abs_add_le _ _).trans (add_le_add ((abs_add_le _ _).trans (add_le_add s1 s2)) s3)

/-- **C92**: the same without the condition on cutoffs. Pairs and triples that enter or leave the range of the cutoffs
contribute at most `K₃ / disp2³ + K₄ / disp3²`. -/
theorem C92_cutoffs (hfl : env.fl = id) (hT : T.Physical R.rq) (hga : 0 ≤ R.ga) (hgc : 0 < R.gc) (hD : 0 ≤ D)
    (hB : Spec.CNBounds T R w D) (ha1 : 0 ≤ P.a1) (ha2 : 0 ≤ P.a2) (hδ : √env.eps ≤ δ) :
    ∃ K K₁ K₂ K₃ K₄ : ℝ, ∀ (ext : Ext) (n : ℕ) (B : Shape) (numbers : Tensor ℕ) (positions positions' charge : Tensor ℝ)
      (p : Param) (o : DftOpts) (cn : Spec.CN) (eeq : Spec.EEQ) (c : Cutoff),
      Call env T ext numbers positions charge p { o with opts := { o.opts with cutoff := some c } } n B R cn eeq P →
      Call env T ext numbers positions' charge p { o with opts := { o.opts with cutoff := some c } } n B R cn eeq P →
      o.opts.r4r2 = none → 2 * δ ≤ c.disp2 → 2 * δ ≤ c.disp3 →
      ∃ e e', dftd4 env T ext numbers positions charge p { o with opts := { o.opts with cutoff := some c } } = .ok e ∧
        dftd4 env T ext numbers positions' charge p { o with opts := { o.opts with cutoff := some c } } = .ok e' ∧
        ∀ b, InB B b →
          Spec.Spaced δ (elements numbers n b) (coords positions n b) →
          Spec.Spaced δ (elements numbers n b) (coords positions' n b) →
          Spec.ChargesOk env T n (elements numbers n b)
            (system T cn eeq numbers positions charge { o.opts with cutoff := some c } n b).q →
          Spec.ChargesOk env T n (elements numbers n b)
            (system T cn eeq numbers positions' charge { o.opts with cutoff := some c } n b).q →
          ∀ h d t, 0 ≤ h → 0 ≤ d → 0 ≤ t →
            (∀ j, elements numbers n b j ≠ 0 → dist (coords positions n b j) (coords positions' n b j) ≤ h) →
            (∀ j, elements numbers n b j ≠ 0 → |cn n (elements numbers n b) (coords positions' n b) j -
              cn n (elements numbers n b) (coords positions n b) j| ≤ d) →
            (∀ j, elements numbers n b j ≠ 0 →
              |(system T cn eeq numbers positions' charge { o.opts with cutoff := some c } n b).q j -
              (system T cn eeq numbers positions charge { o.opts with cutoff := some c } n b).q j| ≤ t) →
            ∀ i < n, |e'.get (i :: b) - e.get (i :: b)| ≤
              K * h + K₁ * (Real.exp (3 * Spec.cnSlope w D * d) - 1) + K₂ * t +
                K₃ / c.disp2 ^ 3 + K₄ / c.disp3 ^ 2 := by
  obtain ⟨K, K₁, K₂, hK⟩ := C92_uniform (env := env) (T := T) (R := R) (P := P) hfl hT hga hgc hD hB ha1 ha2 hδ
  obtain ⟨L₂, L₃, hL⟩ := C86_cutoff (env := env) (T := T) (R := R) (P := P) hT hga hgc ha1 ha2 hδ
  refine ⟨K, K₁, K₂, 2 * L₂, 2 * L₃, fun ext n B numbers positions positions' charge p o cn eeq c hc hc' hr4 h2 h3 => ?_⟩
  obtain ⟨e, he, -, -⟩ := hc.eval
  obtain ⟨e', he', -, -⟩ := hc'.eval
  refine ⟨e, e', he, he', fun b hb hsp hsp' hq hq' h d t h0 hd0 ht0 hh hd ht i hi => ?_⟩
  set m := ∑ i, ∑ j, (dist (coords positions n b i) (coords positions n b j) +
    dist (coords positions' n b i) (coords positions' n b j)) with hm
  have hle : ∀ i j, dist (coords positions n b i) (coords positions n b j) ≤ m ∧
      dist (coords positions' n b i) (coords positions' n b j) ≤ m := by
    intro i j
    have h1 : dist (coords positions n b i) (coords positions n b j) +
        dist (coords positions' n b i) (coords positions' n b j) ≤ m :=
      (Finset.single_le_sum (f := fun j => dist (coords positions n b i) (coords positions n b j) +
        dist (coords positions' n b i) (coords positions' n b j)) (fun _ _ => by positivity) (Finset.mem_univ j)).trans
        (Finset.single_le_sum (f := fun i => ∑ j, (dist (coords positions n b i) (coords positions n b j) +
          dist (coords positions' n b i) (coords positions' n b j)))
          (fun _ _ => Finset.sum_nonneg fun _ _ => by positivity) (Finset.mem_univ i))
    have h2 := dist_nonneg (x := coords positions n b i) (y := coords positions n b j)
    have h3 := dist_nonneg (x := coords positions' n b i) (y := coords positions' n b j)
    constructor <;> linarith
  set c' : Cutoff := { c with disp2 := max c.disp2 m, disp3 := max c.disp3 m } with hcd
  have hl2 : c.disp2 ≤ c'.disp2 := le_max_left _ _
  have hl3 : c.disp3 ≤ c'.disp3 := le_max_left _ _
  obtain ⟨f, g, hf, hg, hx⟩ := hL ext n B numbers positions charge p o cn eeq c c' hc hr4 hl2 hl3 rfl h2 h3
  obtain ⟨f', g', hf', hg', hx'⟩ := hL ext n B numbers positions' charge p o cn eeq c c' hc' hr4 hl2 hl3 rfl h2 h3
  obtain ⟨k, k', hk, hk', hy⟩ := hK ext n B numbers positions positions' charge p
    { o with opts := { o.opts with cutoff := some c' } } cn eeq (hc.setDispCutoff hl3) (hc'.setDispCutoff hl3) hr4
  obtain rfl : e = f := by rw [he] at hf; exact Except.ok.inj hf
  obtain rfl : e' = f' := by rw [he'] at hf'; exact Except.ok.inj hf'
  obtain rfl : k = g := by rw [hk] at hg; exact Except.ok.inj hg
  obtain rfl : k' = g' := by rw [hk'] at hg'; exact Except.ok.inj hg'
  have b1 := hx b hb hsp i hi
  have b2 := hx' b hb hsp' i hi
  have b3 := hy b hb hsp hsp'
    (fun i j _ _ _ => ⟨fun _ => (hle i j).2.trans (le_max_right _ _), fun _ => (hle i j).1.trans (le_max_right _ _)⟩)
    (fun i j _ _ _ => ⟨fun _ => (hle i j).2.trans (le_max_right _ _), fun _ => (hle i j).1.trans (le_max_right _ _)⟩)
    hq hq' h d t h0 hd0 ht0 hh hd ht i hi
  rw [abs_le] at b1 b2 b3 ⊢
  have e2 : 2 * L₂ / c.disp2 ^ 3 = L₂ / c.disp2 ^ 3 + L₂ / c.disp2 ^ 3 := by ring
  have e3 : 2 * L₃ / c.disp3 ^ 2 = L₃ / c.disp3 ^ 2 + L₃ / c.disp3 ^ 2 := by ring
  rw [e2, e3]
  constructor <;> linarith [b1.1, b1.2, b2.1, b2.2, b3.1, b3.2]

/-! ## Relative errors of distances -/

private theorem regularised_factor {n : ℕ} {M M' : Spec.Mol n} {l ε : ℝ} (hε : 0 < ε) (hl : 1 ≤ l) {i j : Fin n}
    (h : dist (M'.pos i) (M'.pos j) ≤ l * dist (M.pos i) (M.pos j)) : M'.r ε i j ≤ l * M.r ε i j := by
  rw [Spec.r_eq_max hε, Spec.r_eq_max hε]
  have hl0 : 0 ≤ l := by linarith
  refine max_le (h.trans (mul_le_mul_of_nonneg_left (le_max_left _ _) hl0)) ?_
  calc √ε ≤ max (dist (M.pos i) (M.pos j)) √ε := le_max_right _ _
    _ ≤ _ := le_mul_of_one_le_left ((Real.sqrt_nonneg _).trans (le_max_right _ _)) hl

private theorem pairFactor_factor {x r r' l : ℝ} (h6 : 0 ≤ P.s6) (h8 : 0 ≤ P.s8) (h10 : 0 ≤ P.s10) (ha1 : 0 ≤ P.a1)
    (ha2 : 0 ≤ P.a2) (hx : 0 ≤ x) (hr : 0 < r) (hr' : 0 < r') (hl : 1 ≤ l) (h : r ≤ l * r') :
    0 ≤ pairFactor P x r' ∧ pairFactor P x r' ≤ l ^ 10 * pairFactor P x r := by
  have hb : 0 ≤ P.a1 * √x + P.a2 := by positivity
  set b := P.a1 * √x + P.a2 with hbd
  have hf : ∀ m : ℕ, m ≤ 10 → 1 / (r' ^ m + b ^ m) ≤ l ^ 10 * (1 / (r ^ m + b ^ m)) := by
    intro m hm
    refine (damp_factor m hr' hr hl h hb).trans ?_
    exact mul_le_mul_of_nonneg_right (pow_le_pow_right₀ hl hm) (by positivity)
  constructor
  · unfold pairFactor
    rw [← hbd]
    positivity
  · have e : l ^ 10 * pairFactor P x r = P.s6 * (l ^ 10 * (1 / (r ^ 6 + b ^ 6))) +
        P.s8 * (x * (l ^ 10 * (1 / (r ^ 8 + b ^ 8)))) + P.s10 * (x ^ 2 * 49 / 40 * (l ^ 10 * (1 / (r ^ 10 + b ^ 10)))) := by
      unfold pairFactor
      rw [← hbd]
      ring
    rw [e]
    unfold pairFactor
    rw [← hbd]
    refine add_le_add (add_le_add ?_ ?_) ?_
    · exact mul_le_mul_of_nonneg_left (hf 6 (by norm_num)) h6
    · exact mul_le_mul_of_nonneg_left (mul_le_mul_of_nonneg_left (hf 8 (by norm_num)) hx) h8
    · exact mul_le_mul_of_nonneg_left (mul_le_mul_of_nonneg_left (hf 10 le_rfl) (by positivity)) h10

private theorem pairs_core {n : ℕ} {c : Cutoff} {M M' : Spec.Mol n} {F : ℝ}
    (hp : ∀ i j, 0 ≤ Spec.pairTerm (d4Computed env T R P c) M M.atom i j)
    (hp' : ∀ i j, M.Z i ≠ 0 → M.Z j ≠ 0 → i ≠ j → Spec.pairTerm (d4Computed env T R P c) M' M'.atom i j ≤
      F * Spec.pairTerm (d4Computed env T R P c) M M.atom i j) (h9 : P.s9 = 0) (hZ : M'.Z = M.Z)
    (hs : ∀ i j, i ≠ j → M.Z i ≠ 0 → M.Z j ≠ 0 → (M'.r env.eps i j ≤ c.disp2 ↔ M.r env.eps i j ≤ c.disp2)) (i : Fin n) :
    Spec.energy (d4Computed env T R P c) M i ≤ 0 ∧
    F * Spec.energy (d4Computed env T R P c) M i ≤ Spec.energy (d4Computed env T R P c) M' i := by
  set S := d4Computed env T R P c with hS
  have z3 : ∀ (M : Spec.Mol n) i, Spec.e3 S M (Spec.c9 S M.neutral) (Spec.R0 S M) i = 0 := by
    intro M i
    have : S.s9 = 0 := h9
    simp [Spec.e3, Spec.tripleTerm, this]
  unfold Spec.energy
  rw [z3, z3, add_zero, add_zero]
  unfold Spec.e2
  have hnn : 0 ≤ ∑ j, (if M.Z i ≠ 0 ∧ M.Z j ≠ 0 ∧ i ≠ j ∧ M.r S.ε i j ≤ S.cut2 then Spec.pairTerm S M M.atom i j else 0) :=
    Finset.sum_nonneg fun j _ => by
      split_ifs
      · exact hp i j
      · exact le_rfl
  refine ⟨by linarith, ?_⟩
  have hle : ∑ j, (if M'.Z i ≠ 0 ∧ M'.Z j ≠ 0 ∧ i ≠ j ∧ M'.r S.ε i j ≤ S.cut2 then Spec.pairTerm S M' M'.atom i j else 0) ≤
      F * ∑ j, (if M.Z i ≠ 0 ∧ M.Z j ≠ 0 ∧ i ≠ j ∧ M.r S.ε i j ≤ S.cut2 then Spec.pairTerm S M M.atom i j else 0) := by
    rw [Finset.mul_sum]
    refine Finset.sum_le_sum fun j _ => ?_
    rw [hZ]
    by_cases h : M.Z i ≠ 0 ∧ M.Z j ≠ 0 ∧ i ≠ j ∧ M.r S.ε i j ≤ S.cut2
    · rw [if_pos h, if_pos ⟨h.1, h.2.1, h.2.2.1, (hs i j h.2.2.1 h.1 h.2.1).2 h.2.2.2⟩]
      exact hp' i j h.1 h.2.1 h.2.2.1
    · rw [if_neg h, if_neg fun h' => h ⟨h'.1, h'.2.1, h'.2.2.1, (hs i j h'.2.2.1 h'.1 h'.2.1).1 h'.2.2.2⟩, mul_zero]
  linarith

/-- **C92**: without the three-body term, with the usual signs of the parameters and with given charges. If all distances
agree up to a factor of `l` (converted coordinates, say) and coordination numbers up to `d`, the energies of all atoms
agree up to a factor of `l¹⁰ exp (2 K d)`, however close or distant atoms are. -/
theorem C92_pairs {ext : Ext} {n : ℕ} {B : Shape} {numbers : Tensor ℕ} {positions positions' charge : Tensor ℝ}
    {p : Param} {o : DftOpts} {cn : Spec.CN} {eeq : Spec.EEQ} {q : Tensor ℝ} (hfl : env.fl = id) (hT : T.Physical R.rq) (hgc : 0 < R.gc)
    (hD : 0 ≤ D) (hB : Spec.CNBounds T R w D)
    (h : Call env T ext numbers positions charge p o n B R cn eeq P)
    (h' : Call env T ext numbers positions' charge p o n B R cn eeq P)
    (ho : o.opts.q = some q) (hr4 : o.opts.r4r2 = none) (hQ : ∀ Z < T.nZ, 0 ≤ T.r4r2 Z)
    (h6 : 0 ≤ P.s6) (h8 : 0 ≤ P.s8) (h10 : 0 ≤ P.s10) (h9 : P.s9 = 0) (ha1 : 0 ≤ P.a1) (ha2 : 0 ≤ P.a2) :
    ∃ e e', dftd4 env T ext numbers positions charge p o = .ok e ∧
      dftd4 env T ext numbers positions' charge p o = .ok e' ∧
      ∀ b, InB B b → ∀ l d, 1 ≤ l → 0 ≤ d →
        (∀ i j, elements numbers n b i ≠ 0 → elements numbers n b j ≠ 0 →
          dist (coords positions' n b i) (coords positions' n b j) ≤ l * dist (coords positions n b i) (coords positions n b j) ∧
          dist (coords positions n b i) (coords positions n b j) ≤ l * dist (coords positions' n b i) (coords positions' n b j)) →
        Spec.SameSide (o.opts.cutoff.getD {}).disp2 (elements numbers n b) (coords positions n b) (coords positions' n b) →
        (∀ j, elements numbers n b j ≠ 0 → |cn n (elements numbers n b) (coords positions' n b) j -
          cn n (elements numbers n b) (coords positions n b) j| ≤ d) →
        ∀ i < n, e.get (i :: b) ≤ 0 ∧ e'.get (i :: b) ≤ 0 ∧
          |e'.get (i :: b)| ≤ l ^ 10 * Real.exp (2 * Spec.cnSlope w D * d) * |e.get (i :: b)| ∧
          |e.get (i :: b)| ≤ l ^ 10 * Real.exp (2 * Spec.cnSlope w D * d) * |e'.get (i :: b)| := by
  obtain ⟨e, he, -, hv⟩ := h.eval
  obtain ⟨e', he', -, hv'⟩ := h'.eval
  refine ⟨e, e', he, he', fun b hb l d hl hd hf hs hc i hi => ?_⟩
  rw [hv b hb ⟨i, hi⟩, hv' b hb ⟨i, hi⟩]
  have hZ := h.args.Z_lt (cn := cn) (eeq := eeq) hb
  set c := o.opts.cutoff.getD {} with hcd
  set M := system T cn eeq numbers positions charge o.opts n b with hM
  set M' := system T cn eeq numbers positions' charge o.opts n b with hM'
  have hsl := cnSlope_nonneg_of_bounds hB (hZ ⟨i, hi⟩) (hZ ⟨i, hi⟩) hD
  set F := l ^ 10 * Real.exp (2 * Spec.cnSlope w D * d) with hF
  have hl0 : 0 < l := by linarith
  have hF0 : 0 < F := by positivity
  have hMQ : ∀ j, 0 ≤ M.Q j := by
    intro j
    have : M.Q j = T.r4r2 (elements numbers n b j) := by
      show (match o.opts.r4r2 with
        | some x => x.get (j.1 :: b)
        | none => T.r4r2 (elements numbers n b j)) = _
      rw [hr4]
    rw [this]
    exact hQ _ (hZ j)
  have hqq : M'.q = M.q := by
    funext j
    show (match o.opts.q with
      | some q => q.get (j.1 :: b)
      | none => _) = (match o.opts.q with
      | some q => q.get (j.1 :: b)
      | none => _)
    rw [ho]
  have key : ∀ (X Y : Spec.Mol n), X.Z = M.Z → Y.Z = M.Z → X.Q = M.Q → Y.Q = M.Q → X.q = M.q → Y.q = M.q →
      (∀ i j, M.Z i ≠ 0 → M.Z j ≠ 0 → dist (X.pos i) (X.pos j) ≤ l * dist (Y.pos i) (Y.pos j)) →
      (∀ j, M.Z j ≠ 0 → |Y.cn j - X.cn j| ≤ d) → ∀ i j, M.Z i ≠ 0 → M.Z j ≠ 0 → i ≠ j →
      Spec.pairTerm (d4Computed env T R P c) Y Y.atom i j ≤ F * Spec.pairTerm (d4Computed env T R P c) X X.atom i j := by
    intro X Y zX zY QX QY qX qY hXY hcn i j zi zj hij
    rw [pairFactor_eq, pairFactor_eq, QX, QY]
    have hx : 0 ≤ 3 * M.Q i * M.Q j := mul_nonneg (mul_nonneg (by norm_num) (hMQ i)) (hMQ j)
    have f1 := pairFactor_factor (P := P) h6 h8 h10 ha1 ha2 hx (Spec.r_pos (M := X) env.eps_pos i j)
      (Spec.r_pos (M := Y) env.eps_pos i j) hl (regularised_factor env.eps_pos hl (hXY i j zi zj))
    have eX : ∀ i, X.atom i = ⟨M.Z i, X.cn i, M.q i⟩ := fun i => by unfold Spec.Mol.atom; rw [zX, qX]
    have eY : ∀ i, Y.atom i = ⟨M.Z i, Y.cn i, M.q i⟩ := fun i => by unfold Spec.Mol.atom; rw [zY, qY]
    have f2 : c6At env T R (Y.atom i) (Y.atom j) ≤
        Real.exp (2 * Spec.cnSlope w D * d) * c6At env T R (X.atom i) (X.atom j) := by
      rw [eX, eX, eY, eY]
      refine (c6At_cn_factor hfl hT hgc hB (hZ i) (hZ j) (X.cn i) (Y.cn i) (X.cn j) (Y.cn j) _ _).trans ?_
      refine mul_le_mul_of_nonneg_right (Real.exp_le_exp.2 ?_) (c6At_nonneg _ _)
      have g1 := hcn i zi
      have g2 := hcn j zj
      nlinarith
    calc _ ≤ (l ^ 10 * pairFactor P (3 * M.Q i * M.Q j) (X.r env.eps i j)) *
          (Real.exp (2 * Spec.cnSlope w D * d) * c6At env T R (X.atom i) (X.atom j)) :=
          mul_le_mul f1.2 f2 (c6At_nonneg _ _) (f1.1.trans f1.2)
      _ = _ := by rw [hF]; ring
  have pos : ∀ (X : Spec.Mol n), X.Q = M.Q → ∀ i j, 0 ≤ Spec.pairTerm (d4Computed env T R P c) X X.atom i j := by
    intro X QX i j
    rw [pairFactor_eq, QX]
    have hx : 0 ≤ 3 * M.Q i * M.Q j := mul_nonneg (mul_nonneg (by norm_num) (hMQ i)) (hMQ j)
    have hr := Spec.r_pos (M := X) env.eps_pos i j
    exact mul_nonneg (pairFactor_factor (P := P) (l := 1) h6 h8 h10 ha1 ha2 hx hr hr le_rfl (by linarith)).1
      (c6At_nonneg _ _)
  have side : ∀ i j, i ≠ j → M.Z i ≠ 0 → M.Z j ≠ 0 → (M'.r env.eps i j ≤ c.disp2 ↔ M.r env.eps i j ≤ c.disp2) := by
    intro i j hij zi zj
    rw [Spec.r_eq_max env.eps_pos, Spec.r_eq_max env.eps_pos, max_le_iff, max_le_iff]
    exact and_congr (hs i j hij zi zj).symm Iff.rfl
  obtain ⟨n1, c1⟩ := pairs_core (M := M) (M' := M') (F := F) (pos M rfl)
    (key M M' rfl rfl rfl rfl rfl hqq (fun i j zi zj => (hf i j zi zj).2) hc) h9 rfl side ⟨i, hi⟩
  obtain ⟨n2, c2⟩ := pairs_core (M := M') (M' := M) (F := F) (pos M' rfl)
    (key M' M rfl rfl rfl rfl hqq rfl (fun i j zi zj => (hf i j zi zj).1)
      (fun j zj => by rw [abs_sub_comm]; exact hc j zj)) h9 rfl (fun i j hij zi zj => (side i j hij zi zj).symm) ⟨i, hi⟩
  refine ⟨n1, n2, ?_, ?_⟩
  · rw [abs_of_nonpos n1, abs_of_nonpos n2]
    linarith
  · rw [abs_of_nonpos n1, abs_of_nonpos n2]
    linarith

end

/-! ## Concrete cases: rows of hydrogen atoms, displaced and stretched -/

namespace Demo

/-- A row whose atoms are displaced along the line. -/
noncomputable def movedPositions (n : ℕ) (f : ℕ → ℝ) : Tensor ℝ where
  err := none
  shape := [3, n]
  get
    | [0, i] => 2 * i + f i
    | _ => 0

theorem moved_call (n : ℕ) (f : ℕ → ℝ) (c : Cutoff) (hc : 0 ≤ c.disp3) : Call env T ext (rowNumbers n) (movedPositions n f)
    (scalar 0) param { opts := { cutoff := some c } } n [] .d4 cn eeq par :=
  { row_call n c hc with
    args := { (row_call n c hc).args with pos := ⟨rfl, rfl⟩ } }

theorem moved_dist (n : ℕ) (f : ℕ → ℝ) (i j : Fin n) :
    dist (coords (movedPositions n f) n [] i) (coords (movedPositions n f) n [] j) =
      |2 * ((i.1 : ℝ) - j.1) + (f i - f j)| := by
  rw [EuclideanSpace.dist_eq, Fin.sum_univ_three]
  have e0 : ∀ i : Fin n, coords (movedPositions n f) n [] i 0 = 2 * (i.1 : ℝ) + f i := fun i => rfl
  have e1 : ∀ i : Fin n, coords (movedPositions n f) n [] i 1 = 0 := fun i => rfl
  have e2 : ∀ i : Fin n, coords (movedPositions n f) n [] i 2 = 0 := fun i => rfl
  rw [e0, e0, e1, e1, e2, e2, dist_self, Real.dist_eq]
  rw [show |2 * (i.1 : ℝ) + f i - (2 * j.1 + f j)| ^ 2 + 0 ^ 2 + 0 ^ 2 =
    |2 * ((i.1 : ℝ) - j.1) + (f i - f j)| ^ 2 by rw [sq_abs, sq_abs]; ring]
  exact Real.sqrt_sq (abs_nonneg _)

theorem moved_spaced (n : ℕ) {f : ℕ → ℝ} (hf : ∀ i, |f i| ≤ 1 / 10) :
    Spec.Spaced 1 (elements (rowNumbers n) n []) (coords (movedPositions n f) n []) := by
  intro i j hij _ _
  rw [moved_dist]
  have h1 : (1 : ℤ) ≤ |(i.1 : ℤ) - j.1| := Int.one_le_abs (sub_ne_zero.2 fun h => hij (Fin.ext (by exact_mod_cast h)))
  have h2 : (1 : ℝ) ≤ |(i.1 : ℝ) - j.1| := by exact_mod_cast h1
  have h3 := abs_sub_abs_le_abs_sub (2 * ((i.1 : ℝ) - j.1)) (-(f i - f j))
  rw [abs_neg, sub_neg_eq_add, abs_mul, abs_of_pos (by norm_num : (0 : ℝ) < 2)] at h3
  have h4 := abs_sub (f i.1) (f j.1)
  linarith [hf i.1, hf j.1]

/-- Distances change by at most 0.4, and those of the row are even numbers. -/
theorem moved_sameSide (n : ℕ) {f g : ℕ → ℝ} (hf : ∀ i, |f i| ≤ 1 / 10) (hg : ∀ i, |g i| ≤ 1 / 10) (k : ℤ) :
    Spec.SameSide (2 * k + 1) (elements (rowNumbers n) n []) (coords (movedPositions n f) n [])
      (coords (movedPositions n g) n []) := by
  have key : ∀ (f : ℕ → ℝ), (∀ i, |f i| ≤ 1 / 10) → ∀ i j : Fin n,
      (|2 * ((i.1 : ℝ) - j.1) + (f i - f j)| ≤ 2 * k + 1 ↔ |(i.1 : ℤ) - j.1| ≤ k) := by
    intro f hf i j
    have h3 := abs_sub_abs_le_abs_sub (2 * ((i.1 : ℝ) - j.1)) (-(f i - f j))
    have h5 := abs_add_le (2 * ((i.1 : ℝ) - j.1)) (f i - f j)
    rw [abs_neg, sub_neg_eq_add, abs_mul, abs_of_pos (by norm_num : (0 : ℝ) < 2)] at h3
    rw [abs_mul, abs_of_pos (by norm_num : (0 : ℝ) < 2)] at h5
    have h4 := abs_sub (f i.1) (f j.1)
    have e : ((|(i.1 : ℤ) - j.1| : ℤ) : ℝ) = |(i.1 : ℝ) - j.1| := by push_cast; rfl
    have a1 := hf i.1
    have a2 := hf j.1
    constructor
    · intro h
      by_contra hc
      have h6 : k + 1 ≤ |(i.1 : ℤ) - j.1| := by omega
      have h7 : (k : ℝ) + 1 ≤ |(i.1 : ℝ) - j.1| := by rw [← e]; exact_mod_cast h6
      linarith
    · intro h
      have h7 : |(i.1 : ℝ) - j.1| ≤ k := by rw [← e]; exact_mod_cast h
      linarith
  intro i j _ _ _
  rw [moved_dist, moved_dist, key f hf, key g hg]

theorem moved_dist_le (n : ℕ) {f g : ℕ → ℝ} {h : ℝ} (hfg : ∀ i, |g i - f i| ≤ h) (j : Fin n) :
    dist (coords (movedPositions n f) n [] j) (coords (movedPositions n g) n [] j) ≤ h := by
  rw [EuclideanSpace.dist_eq, Fin.sum_univ_three]
  have e0 : ∀ (f : ℕ → ℝ) (i : Fin n), coords (movedPositions n f) n [] i 0 = 2 * (i.1 : ℝ) + f i := fun f i => rfl
  have e1 : ∀ (f : ℕ → ℝ) (i : Fin n), coords (movedPositions n f) n [] i 1 = 0 := fun f i => rfl
  have e2 : ∀ (f : ℕ → ℝ) (i : Fin n), coords (movedPositions n f) n [] i 2 = 0 := fun f i => rfl
  rw [e0, e0, e1, e1, e2, e2, dist_self, Real.dist_eq]
  rw [show |2 * (j.1 : ℝ) + f j - (2 * j.1 + g j)| ^ 2 + 0 ^ 2 + 0 ^ 2 = |g j - f j| ^ 2 by rw [sq_abs, sq_abs]; ring,
    Real.sqrt_sq (abs_nonneg _)]
  exact hfg j

theorem moved_cn (n : ℕ) {f g : ℕ → ℝ} {h : ℝ} (h0 : 0 ≤ h) (hfg : ∀ i, |g i - f i| ≤ h) (j : Fin n) :
    |cn n (elements (rowNumbers n) n []) (coords (movedPositions n g) n []) j -
      cn n (elements (rowNumbers n) n []) (coords (movedPositions n f) n []) j| ≤ n * (2 * h) := by
  unfold cn
  rw [← Finset.sum_sub_distrib]
  refine (Finset.abs_sum_le_sum_abs _ _).trans ?_
  calc _ ≤ ∑ _k : Fin n, 2 * h := by
        refine Finset.sum_le_sum fun k _ => ?_
        split_ifs
        · have hl : ∀ x y : ℝ, 0 ≤ x → 0 ≤ y → Real.exp (-x) - Real.exp (-y) ≤ |y - x| := by
            intro x y hx hy
            have h1 : Real.exp (-x) ≤ 1 := Real.exp_le_one_iff.2 (by linarith)
            have h2 := Real.add_one_le_exp (x - y)
            have h3 : Real.exp (-y) = Real.exp (-x) * Real.exp (x - y) := by rw [← Real.exp_add]; congr 1; ring
            have h4 := le_abs_self (y - x)
            have h5 := Real.exp_pos (-x)
            have h6 := abs_nonneg (y - x)
            rw [h3]
            nlinarith
          have h1 := hl (dist (coords (movedPositions n g) n [] j) (coords (movedPositions n g) n [] k))
            (dist (coords (movedPositions n f) n [] j) (coords (movedPositions n f) n [] k)) dist_nonneg dist_nonneg
          have h2 := hl (dist (coords (movedPositions n f) n [] j) (coords (movedPositions n f) n [] k))
            (dist (coords (movedPositions n g) n [] j) (coords (movedPositions n g) n [] k)) dist_nonneg dist_nonneg
          have h3 : |dist (coords (movedPositions n g) n [] j) (coords (movedPositions n g) n [] k) -
              dist (coords (movedPositions n f) n [] j) (coords (movedPositions n f) n [] k)| ≤ 2 * h := by
            rw [moved_dist, moved_dist]
            refine (abs_abs_sub_abs_le_abs_sub _ _).trans ?_
            rw [show 2 * ((j.1 : ℝ) - k.1) + (g j - g k) - (2 * ((j.1 : ℝ) - k.1) + (f j - f k)) =
              (g j - f j) - (g k - f k) by ring]
            have := abs_sub (g j.1 - f j.1) (g k.1 - f k.1)
            linarith [hfg j.1, hfg k.1]
          rw [abs_sub_comm] at h1
          rw [abs_le]
          constructor <;> linarith
        · simpa using h0
    _ = _ := by rw [Finset.sum_const, Finset.card_univ, Fintype.card_fin, nsmul_eq_mul]

theorem moved_charges (n : ℕ) (f : ℕ → ℝ) (c : Cutoff) (j : Fin n) : (system T cn eeq (rowNumbers n) (movedPositions n f)
    (scalar 0) { cutoff := some c } n []).q j = 0 := by
  simp [system, eeq, scalar]

theorem moved_chargesOk (n : ℕ) (f : ℕ → ℝ) (c : Cutoff) : Spec.ChargesOk env T n (elements (rowNumbers n) n [])
    (system T cn eeq (rowNumbers n) (movedPositions n f) (scalar 0) { cutoff := some c } n []).q := by
  intro i _
  right
  rw [moved_charges]
  show (1 : ℝ) / 2 ^ 52 ≤ 0 + T.zeff 1
  have h1 : T.zeff 1 = 1 := by show zeff 1 = 1; norm_num [zeff]
  rw [h1]
  norm_num

theorem sqrt_eps_le_one : √env.eps ≤ 1 := by
  refine (Real.sqrt_le_one).2 ?_
  show (1 : ℝ) / 2 ^ 52 ≤ 1
  norm_num

/-- Rows of any length in which atoms are displaced by different amounts; cutoffs of 61 and 41. -/
example : ∃ K K₁ K₂ : ℝ, ∀ (n : ℕ) (f g : ℕ → ℝ) (h : ℝ), (∀ i, |f i| ≤ 1 / 10) → (∀ i, |g i| ≤ 1 / 10) →
    0 ≤ h → (∀ i, |g i - f i| ≤ h) → ∃ e e',
    dftd4 env T ext (rowNumbers n) (movedPositions n f) (scalar 0) param
      { opts := { cutoff := some { disp2 := 61, disp3 := 41 } } } = .ok e ∧
    dftd4 env T ext (rowNumbers n) (movedPositions n g) (scalar 0) param
      { opts := { cutoff := some { disp2 := 61, disp3 := 41 } } } = .ok e' ∧
    ∀ i < n, |e'.get [i] - e.get [i]| ≤
      K * h + K₁ * (Real.exp (3 * Spec.cnSlope 6 15.2 * (n * (2 * h))) - 1) + K₂ * 0 := by
  obtain ⟨K, K₁, K₂, hK⟩ := C92_uniform (env := env) (T := T) (R := .d4) (P := par) (D := 15.2) (w := 6) (δ := 1) rfl physical
    (by norm_num [RefCfg.d4]) (by norm_num [RefCfg.d4]) (by norm_num) (shipped_cnBounds (Or.inl rfl)) (by norm_num [par])
    (by norm_num [par]) sqrt_eps_le_one
  refine ⟨K, K₁, K₂, fun n f g h hf hg h0 hfg => ?_⟩
  obtain ⟨e, e', he, he', hx⟩ := hK _ _ _ _ _ _ _ _ _ _ _ (moved_call n f { disp2 := 61, disp3 := 41 } (by norm_num))
    (moved_call n g { disp2 := 61, disp3 := 41 } (by norm_num)) rfl
  refine ⟨e, e', he, he', hx [] (by simp [InB]) (moved_spaced n hf) (moved_spaced n hg) ?_ ?_ (moved_chargesOk n f _)
    (moved_chargesOk n g _) h (n * (2 * h)) 0 h0 (by positivity) le_rfl (fun j _ => moved_dist_le n hfg j)
    (fun j _ => moved_cn n h0 hfg j) fun j _ => ?_⟩
  · have := moved_sameSide n hf hg 30
    norm_num at this
    exact this
  · have := moved_sameSide n hf hg 20
    norm_num at this
    exact this
  · show |(system T cn eeq (rowNumbers n) (movedPositions n g) (scalar 0) { cutoff := some _ } n []).q j -
      (system T cn eeq (rowNumbers n) (movedPositions n f) (scalar 0) { cutoff := some _ } n []).q j| ≤ 0
    rw [moved_charges, moved_charges]
    simp

/-- The same with the default cutoffs, which distances of 60 and 40 may cross. -/
example : ∃ K K₁ K₂ K₃ K₄ : ℝ, ∀ (n : ℕ) (f g : ℕ → ℝ) (h : ℝ), (∀ i, |f i| ≤ 1 / 10) → (∀ i, |g i| ≤ 1 / 10) →
    0 ≤ h → (∀ i, |g i - f i| ≤ h) → ∃ e e',
    dftd4 env T ext (rowNumbers n) (movedPositions n f) (scalar 0) param { opts := { cutoff := some {} } } = .ok e ∧
    dftd4 env T ext (rowNumbers n) (movedPositions n g) (scalar 0) param { opts := { cutoff := some {} } } = .ok e' ∧
    ∀ i < n, |e'.get [i] - e.get [i]| ≤
      K * h + K₁ * (Real.exp (3 * Spec.cnSlope 6 15.2 * (n * (2 * h))) - 1) + K₂ * 0 + K₃ / 60 ^ 3 + K₄ / 40 ^ 2 := by
  obtain ⟨K, K₁, K₂, K₃, K₄, hK⟩ := C92_cutoffs (env := env) (T := T) (R := .d4) (P := par) (D := 15.2) (w := 6) (δ := 1) rfl
    physical (by norm_num [RefCfg.d4]) (by norm_num [RefCfg.d4]) (by norm_num) (shipped_cnBounds (Or.inl rfl))
    (by norm_num [par]) (by norm_num [par]) sqrt_eps_le_one
  refine ⟨K, K₁, K₂, K₃, K₄, fun n f g h hf hg h0 hfg => ?_⟩
  obtain ⟨e, e', he, he', hx⟩ := hK _ _ _ _ _ _ _ _ {} _ _ {} (moved_call n f {} (by norm_num [Defaults.disp3Cutoff]))
    (moved_call n g {} (by norm_num [Defaults.disp3Cutoff])) rfl (by norm_num [Defaults.disp2Cutoff])
    (by norm_num [Defaults.disp3Cutoff])
  refine ⟨e, e', he, he', fun i hi => ?_⟩
  have := hx [] (by simp [InB]) (moved_spaced n hf) (moved_spaced n hg) (moved_chargesOk n f _)
    (moved_chargesOk n g _) h (n * (2 * h)) 0 h0 (by positivity) le_rfl (fun j _ => moved_dist_le n hfg j)
    (fun j _ => moved_cn n h0 hfg j) (fun j _ => by
      show |(system T cn eeq (rowNumbers n) (movedPositions n g) (scalar 0) { cutoff := some _ } n []).q j -
        (system T cn eeq (rowNumbers n) (movedPositions n f) (scalar 0) { cutoff := some _ } n []).q j| ≤ 0
      rw [moved_charges, moved_charges]
      simp) i hi
  norm_num [Defaults.disp2Cutoff, Defaults.disp3Cutoff] at this ⊢
  exact this

/-- A hydrogen molecule whose bond is too long by one in a thousand. -/
example (f : ℕ → ℝ) : ∃ e e',
    dftd4 env T ext (rowNumbers 2) (movedPositions 2 fun _ => 0) (scalar 0) param0
      { opts := { cutoff := some {}, q := some (rowCharges 2 f) } } = .ok e ∧
    dftd4 env T ext (rowNumbers 2) (movedPositions 2 fun i => if i = 1 then 2 / 1000 else 0) (scalar 0) param0
      { opts := { cutoff := some {}, q := some (rowCharges 2 f) } } = .ok e' ∧
    ∀ i < 2, e.get [i] ≤ 0 ∧ e'.get [i] ≤ 0 ∧
      |e'.get [i]| ≤ 1.001 ^ 10 * Real.exp (2 * Spec.cnSlope 6 15.2 * (8 / 1000)) * |e.get [i]| ∧
      |e.get [i]| ≤ 1.001 ^ 10 * Real.exp (2 * Spec.cnSlope 6 15.2 * (8 / 1000)) * |e'.get [i]| := by
  have c1 := (moved_call 2 (fun _ => 0) {} (by norm_num [Defaults.disp3Cutoff])).withQ
    (q := rowCharges 2 f) ⟨rfl, rfl⟩
  have c2 := (moved_call 2 (fun i => if i = 1 then 2 / 1000 else 0) {} (by norm_num [Defaults.disp3Cutoff])).withQ
    (q := rowCharges 2 f) ⟨rfl, rfl⟩
  obtain ⟨e, e', he, he', hx⟩ := C92_pairs (D := 15.2) (w := 6) (P := par0) (p := param0) rfl physical
    (by norm_num [RefCfg.d4]) (by norm_num) (shipped_cnBounds (Or.inl rfl)) { c1 with par := reads0 }
    { c2 with par := reads0 } rfl rfl (fun Z _ => Real.sqrt_nonneg _) (by norm_num [par0, par]) (by norm_num [par0, par])
    (by norm_num [par0, par]) rfl (by norm_num [par0, par]) (by norm_num [par0, par])
  refine ⟨e, e', he, he', hx [] (by simp [InB]) 1.001 (8 / 1000) (by norm_num) (by norm_num) ?_ ?_ ?_⟩
  · intro i j _ _
    rw [moved_dist, moved_dist]
    fin_cases i <;> fin_cases j <;> norm_num [abs_of_pos, abs_of_neg]
  · intro i j _ _ _
    rw [moved_dist, moved_dist]
    show _ ≤ Defaults.disp2Cutoff ↔ _ ≤ Defaults.disp2Cutoff
    fin_cases i <;> fin_cases j <;> norm_num [abs_of_pos, abs_of_neg, Defaults.disp2Cutoff]
  · intro j _
    have := moved_cn 2 (f := fun _ => 0) (g := fun i => if i = 1 then 2 / 1000 else 0) (h := 2 / 1000) (by norm_num)
      (fun i => by split_ifs <;> norm_num) j
    norm_num at this ⊢
    exact this

end Demo

end TadDftd4
