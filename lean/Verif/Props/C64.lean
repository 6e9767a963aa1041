import Verif.Lemmas.C6Pos
import Verif.Props.C47
import Verif.Props.C51
import Verif.Props.C60

/-!
# C64: response of the energy to damping parameters

* `C64_scaling`, `C64_scaling_strict`: larger `s6`, `s8`, `s10` lower the energy of every atom;
* `C64_damping`, `C64_damping_strict`: without three-body term, larger `a1` or `a2` raise it;
* `C64_gradient_scaling`, `C64_gradient_damping`: the gradients from automatic differentiation have the
  corresponding signs.
-/

set_option linter.unusedSimpArgs false

open scoped Classical Topology

namespace TadDftd4

open Tensor

section
variable {env : Env} {T : Tables} {R : RefCfg} {P P' : Spec.D4Par} {cutoff : Cutoff} {n : ℕ}
  {M : Spec.Mol n}

/-- A pair term of `dftd4`, written out. -/
theorem pairTerm_d4 (i j : Fin n) : Spec.pairTerm (d4Computed env T R P cutoff) M M.atom i j =
    c6At env T R (M.atom i) (M.atom j) *
      (P.s6 * (1 / (M.r env.eps i j ^ 6 + (P.a1 * √(3 * M.Q i * M.Q j) + P.a2) ^ 6)) +
      P.s8 * ((3 * M.Q i * M.Q j) *
        (1 / (M.r env.eps i j ^ 8 + (P.a1 * √(3 * M.Q i * M.Q j) + P.a2) ^ 8))) +
      P.s10 * ((3 * M.Q i * M.Q j) ^ 2 * 49 / 40 *
        (1 / (M.r env.eps i j ^ 10 + (P.a1 * √(3 * M.Q i * M.Q j) + P.a2) ^ 10)))) := by
  have e : Spec.pairTerm (d4Computed env T R P cutoff) M M.atom i j =
      P.s6 * (c6At env T R (M.atom i) (M.atom j) *
        (1 / (M.r env.eps i j ^ 6 + (P.a1 * √(3 * M.Q i * M.Q j) + P.a2) ^ 6))) +
      P.s8 * (c6At env T R (M.atom i) (M.atom j) * (3 * M.Q i * M.Q j) *
        (1 / (M.r env.eps i j ^ 8 + (P.a1 * √(3 * M.Q i * M.Q j) + P.a2) ^ 8))) +
      P.s10 * (c6At env T R (M.atom i) (M.atom j) * (3 * M.Q i * M.Q j) ^ 2 * 49 / 40 *
        (1 / (M.r env.eps i j ^ 10 + (P.a1 * √(3 * M.Q i * M.Q j) + P.a2) ^ 10))) := rfl
  rw [e]; ring

/-- Comparison of pair terms gives comparison of two-body energies. -/
theorem e2_compare {i : Fin n}
    (hle : ∀ j, M.Z i ≠ 0 → M.Z j ≠ 0 → Spec.pairTerm (d4Computed env T R P' cutoff) M M.atom i j ≤
      Spec.pairTerm (d4Computed env T R P cutoff) M M.atom i j) :
    Spec.e2 (d4Computed env T R P cutoff) M M.atom i ≤ Spec.e2 (d4Computed env T R P' cutoff) M M.atom i ∧
    ∀ j, M.Z i ≠ 0 → M.Z j ≠ 0 → i ≠ j → M.r env.eps i j ≤ cutoff.disp2 →
      Spec.pairTerm (d4Computed env T R P' cutoff) M M.atom i j <
        Spec.pairTerm (d4Computed env T R P cutoff) M M.atom i j →
      Spec.e2 (d4Computed env T R P cutoff) M M.atom i <
        Spec.e2 (d4Computed env T R P' cutoff) M M.atom i := by
  have e : ∀ P : Spec.D4Par, Spec.e2 (d4Computed env T R P cutoff) M M.atom i = -(1 / 2) * ∑ j,
      if M.Z i ≠ 0 ∧ M.Z j ≠ 0 ∧ i ≠ j ∧ M.r env.eps i j ≤ cutoff.disp2 then
        Spec.pairTerm (d4Computed env T R P cutoff) M M.atom i j else 0 := fun P => rfl
  have h1 : ∀ j ∈ Finset.univ, (if M.Z i ≠ 0 ∧ M.Z j ≠ 0 ∧ i ≠ j ∧ M.r env.eps i j ≤ cutoff.disp2 then
        Spec.pairTerm (d4Computed env T R P' cutoff) M M.atom i j else 0) ≤
      if M.Z i ≠ 0 ∧ M.Z j ≠ 0 ∧ i ≠ j ∧ M.r env.eps i j ≤ cutoff.disp2 then
        Spec.pairTerm (d4Computed env T R P cutoff) M M.atom i j else 0 := by
    intro j _
    split_ifs with h
    · exact hle j h.1 h.2.1
    · exact le_rfl
  rw [e, e]
  constructor
  · have := Finset.sum_le_sum h1
    linarith
  · intro j hi hj hij hcut hlt
    have := Finset.sum_lt_sum h1 ⟨j, Finset.mem_univ j, by
      rw [if_pos ⟨hi, hj, hij, hcut⟩, if_pos ⟨hi, hj, hij, hcut⟩]; exact hlt⟩
    linarith

/-- The three-body term does not contain the two-body scaling parameters. -/
theorem e3_scaling (h9 : P'.s9 = P.s9) (h1 : P'.a1 = P.a1) (h2 : P'.a2 = P.a2) (ha : P'.alp = P.alp)
    (i : Fin n) : Spec.energy (d4Computed env T R P' cutoff) M i =
      Spec.e2 (d4Computed env T R P' cutoff) M M.atom i + (Spec.energy (d4Computed env T R P cutoff) M i -
        Spec.e2 (d4Computed env T R P cutoff) M M.atom i) := by
  obtain ⟨s6, s8, s10, s9, a1, a2, alp⟩ := P
  obtain ⟨s6', s8', s10', s9', a1', a2', alp'⟩ := P'
  simp only at h9 h1 h2 ha
  subst h9 h1 h2 ha
  unfold Spec.energy
  rw [add_sub_cancel_left]
  rfl

theorem energy_two (h9 : P.s9 = 0) (i : Fin n) : Spec.energy (d4Computed env T R P cutoff) M i =
    Spec.e2 (d4Computed env T R P cutoff) M M.atom i := by
  unfold Spec.energy
  rw [add_eq_left]
  have : (d4Computed env T R P cutoff).s9 = 0 := h9
  unfold Spec.e3 Spec.tripleTerm
  rw [this]
  simp

/-- Only the scaling parameters differ. -/
theorem energy_scaling (h9 : P'.s9 = P.s9) (h1 : P'.a1 = P.a1) (h2 : P'.a2 = P.a2) (ha : P'.alp = P.alp)
    (h6 : P'.s6 ≤ P.s6) (h8 : P'.s8 ≤ P.s8) (h10 : P'.s10 ≤ P.s10)
    (hQ : ∀ i, M.Z i ≠ 0 → 0 ≤ M.Q i) (i : Fin n) :
    Spec.energy (d4Computed env T R P cutoff) M i ≤ Spec.energy (d4Computed env T R P' cutoff) M i ∧
    (P'.s6 < P.s6 → ∀ j, M.Z i ≠ 0 → M.Z j ≠ 0 → i ≠ j → M.r env.eps i j ≤ cutoff.disp2 →
      0 < c6At env T R (M.atom i) (M.atom j) →
      Spec.energy (d4Computed env T R P cutoff) M i < Spec.energy (d4Computed env T R P' cutoff) M i) := by
  have key : ∀ j, M.Z i ≠ 0 → M.Z j ≠ 0 → ∃ F ≥ 0, (P'.s6 < P.s6 → 0 < F) ∧
      Spec.pairTerm (d4Computed env T R P cutoff) M M.atom i j =
        Spec.pairTerm (d4Computed env T R P' cutoff) M M.atom i j +
          c6At env T R (M.atom i) (M.atom j) * F := by
    intro j hi hj
    obtain ⟨x, hx⟩ : ∃ x, x = 3 * M.Q i * M.Q j := ⟨_, rfl⟩
    have hx0 : 0 ≤ x := by rw [hx]; exact mul_nonneg (mul_nonneg (by norm_num) (hQ i hi)) (hQ j hj)
    have hr := Spec.Mol.r_pos env.eps_pos M i j
    rw [pairTerm_d4, pairTerm_d4, h1, h2, ← hx]
    obtain ⟨y, hy⟩ : ∃ y, y = P.a1 * √x + P.a2 := ⟨_, rfl⟩
    rw [← hy]
    have d6 : 0 < 1 / (M.r env.eps i j ^ 6 + y ^ 6) :=
      one_div_pos.2 (add_pos_of_pos_of_nonneg (pow_pos hr 6) ((by decide : Even 6).pow_nonneg y))
    have d8 : 0 < 1 / (M.r env.eps i j ^ 8 + y ^ 8) :=
      one_div_pos.2 (add_pos_of_pos_of_nonneg (pow_pos hr 8) ((by decide : Even 8).pow_nonneg y))
    have d10 : 0 < 1 / (M.r env.eps i j ^ 10 + y ^ 10) :=
      one_div_pos.2 (add_pos_of_pos_of_nonneg (pow_pos hr 10) ((by decide : Even 10).pow_nonneg y))
    generalize 1 / (M.r env.eps i j ^ 6 + y ^ 6) = f6 at *
    generalize 1 / (M.r env.eps i j ^ 8 + y ^ 8) = f8 at *
    generalize 1 / (M.r env.eps i j ^ 10 + y ^ 10) = f10 at *
    have t6 : 0 ≤ (P.s6 - P'.s6) * f6 := mul_nonneg (by linarith) d6.le
    have t8 : 0 ≤ (P.s8 - P'.s8) * (x * f8) := mul_nonneg (by linarith) (mul_nonneg hx0 d8.le)
    have t10 : 0 ≤ (P.s10 - P'.s10) * (x ^ 2 * 49 / 40 * f10) :=
      mul_nonneg (by linarith) (by positivity)
    refine ⟨(P.s6 - P'.s6) * f6 + (P.s8 - P'.s8) * (x * f8) + (P.s10 - P'.s10) * (x ^ 2 * 49 / 40 * f10),
      by linarith, fun h => ?_, by ring⟩
    have : 0 < (P.s6 - P'.s6) * f6 := mul_pos (by linarith) d6
    linarith
  obtain ⟨c1, c2⟩ := e2_compare (env := env) (T := T) (R := R) (P := P) (P' := P') (cutoff := cutoff)
    (M := M) (i := i) fun j hi hj => by
      obtain ⟨F, hF, -, e⟩ := key j hi hj
      rw [e]
      have := mul_nonneg (c6At_nonneg (env := env) (T := T) (R := R) (M.atom i) (M.atom j)) hF
      linarith
  rw [e3_scaling h9 h1 h2 ha]
  refine ⟨by linarith, fun hs j hi hj hij hcut hc => ?_⟩
  have := c2 j hi hj hij hcut (by
    obtain ⟨F, -, hF, e⟩ := key j hi hj
    rw [e]
    have := mul_pos hc (hF hs)
    linarith)
  linarith

/-- Only `a1` and `a2` differ. -/
theorem energy_damping (h9 : P.s9 = 0) (h9' : P'.s9 = 0) (h6 : P'.s6 = P.s6) (h8 : P'.s8 = P.s8)
    (h10 : P'.s10 = P.s10) (p6 : 0 ≤ P.s6) (p8 : 0 ≤ P.s8) (p10 : 0 ≤ P.s10) (p1 : 0 ≤ P.a1)
    (p2 : 0 ≤ P.a2) (h1 : P.a1 ≤ P'.a1) (h2 : P.a2 ≤ P'.a2)
    (hQ : ∀ i, M.Z i ≠ 0 → 0 ≤ M.Q i) (i : Fin n) :
    Spec.energy (d4Computed env T R P cutoff) M i ≤ Spec.energy (d4Computed env T R P' cutoff) M i ∧
    (0 < P.s6 → ∀ j, P.a1 < P'.a1 ∧ 0 < M.Q i ∧ 0 < M.Q j ∨ P.a2 < P'.a2 → M.Z i ≠ 0 → M.Z j ≠ 0 → i ≠ j →
      M.r env.eps i j ≤ cutoff.disp2 → 0 < c6At env T R (M.atom i) (M.atom j) →
      Spec.energy (d4Computed env T R P cutoff) M i < Spec.energy (d4Computed env T R P' cutoff) M i) := by
  have anti : ∀ {r y y' : ℝ} {k : ℕ}, 0 < r → 0 ≤ y → y ≤ y' →
      1 / (r ^ k + y' ^ k) ≤ 1 / (r ^ k + y ^ k) := fun hr hy h =>
    one_div_le_one_div_of_le (add_pos_of_pos_of_nonneg (pow_pos hr _) (pow_nonneg hy _))
      (add_le_add le_rfl (pow_le_pow_left₀ hy h _))
  have key : ∀ j, M.Z i ≠ 0 → M.Z j ≠ 0 → ∃ F ≥ 0,
      (0 < P.s6 → P.a1 < P'.a1 ∧ 0 < M.Q i ∧ 0 < M.Q j ∨ P.a2 < P'.a2 → 0 < F) ∧
      Spec.pairTerm (d4Computed env T R P cutoff) M M.atom i j =
        Spec.pairTerm (d4Computed env T R P' cutoff) M M.atom i j +
          c6At env T R (M.atom i) (M.atom j) * F := by
    intro j hi hj
    have hlt : P.a1 < P'.a1 ∧ 0 < M.Q i ∧ 0 < M.Q j ∨ P.a2 < P'.a2 →
        P.a1 * √(3 * M.Q i * M.Q j) + P.a2 < P'.a1 * √(3 * M.Q i * M.Q j) + P'.a2 := by
      rintro (⟨h, a, b⟩ | h)
      · have : 0 < √(3 * M.Q i * M.Q j) := Real.sqrt_pos.2 (by positivity)
        nlinarith
      · nlinarith [Real.sqrt_nonneg (3 * M.Q i * M.Q j)]
    obtain ⟨x, hx⟩ : ∃ x, x = 3 * M.Q i * M.Q j := ⟨_, rfl⟩
    have hx0 : 0 ≤ x := by rw [hx]; exact mul_nonneg (mul_nonneg (by norm_num) (hQ i hi)) (hQ j hj)
    have hr := Spec.Mol.r_pos env.eps_pos M i j
    rw [pairTerm_d4, pairTerm_d4, h6, h8, h10, ← hx]
    rw [← hx] at hlt
    have hs := Real.sqrt_nonneg x
    obtain ⟨y, hy⟩ : ∃ y, y = P.a1 * √x + P.a2 := ⟨_, rfl⟩
    obtain ⟨y', hy'⟩ : ∃ y, y = P'.a1 * √x + P'.a2 := ⟨_, rfl⟩
    have hy0 : 0 ≤ y := by rw [hy]; positivity
    have hyy : y ≤ y' := by rw [hy, hy']; nlinarith
    rw [← hy, ← hy'] at hlt ⊢
    have d6 := anti (k := 6) hr hy0 hyy
    have d8 := anti (k := 8) hr hy0 hyy
    have d10 := anti (k := 10) hr hy0 hyy
    have s6 : y < y' → 1 / (M.r env.eps i j ^ 6 + y' ^ 6) < 1 / (M.r env.eps i j ^ 6 + y ^ 6) := fun h =>
      one_div_lt_one_div_of_lt (add_pos_of_pos_of_nonneg (pow_pos hr _) (pow_nonneg hy0 _))
        (by have := pow_lt_pow_left₀ h hy0 (by norm_num : 6 ≠ 0); linarith)
    generalize 1 / (M.r env.eps i j ^ 6 + y ^ 6) = f6 at *
    generalize 1 / (M.r env.eps i j ^ 8 + y ^ 8) = f8 at *
    generalize 1 / (M.r env.eps i j ^ 10 + y ^ 10) = f10 at *
    generalize 1 / (M.r env.eps i j ^ 6 + y' ^ 6) = g6 at *
    generalize 1 / (M.r env.eps i j ^ 8 + y' ^ 8) = g8 at *
    generalize 1 / (M.r env.eps i j ^ 10 + y' ^ 10) = g10 at *
    have t6 : 0 ≤ P.s6 * (f6 - g6) := mul_nonneg p6 (by linarith)
    have t8 : 0 ≤ P.s8 * (x * (f8 - g8)) := mul_nonneg p8 (mul_nonneg hx0 (by linarith))
    have t10 : 0 ≤ P.s10 * (x ^ 2 * 49 / 40 * (f10 - g10)) :=
      mul_nonneg p10 (mul_nonneg (by positivity) (by linarith))
    refine ⟨P.s6 * (f6 - g6) + P.s8 * (x * (f8 - g8)) + P.s10 * (x ^ 2 * 49 / 40 * (f10 - g10)),
      by linarith, fun h h' => ?_, by ring⟩
    have : 0 < P.s6 * (f6 - g6) := mul_pos h (by linarith [s6 (hlt h')])
    linarith
  obtain ⟨c1, c2⟩ := e2_compare (env := env) (T := T) (R := R) (P := P) (P' := P') (cutoff := cutoff)
    (M := M) (i := i) fun j hi hj => by
      obtain ⟨F, hF, -, e⟩ := key j hi hj
      rw [e]
      have := mul_nonneg (c6At_nonneg (env := env) (T := T) (R := R) (M.atom i) (M.atom j)) hF
      linarith
  rw [energy_two h9, energy_two h9']
  refine ⟨c1, fun hs j hlt hi hj hij hcut hc => c2 j hi hj hij hcut ?_⟩
  obtain ⟨F, -, hF, e⟩ := key j hi hj
  rw [e]
  have := mul_pos hc (hF hs hlt)
  linarith

end

section
variable {env : Env} {T : Tables} {ext : Ext} {numbers : Tensor ℕ} {positions charge : Tensor ℝ}
  {p p' : Param} {o : DftOpts} {n : ℕ} {B : Shape} {b : Idx} {R : RefCfg} {cn : Spec.CN}
  {eeq : Spec.EEQ} {P P' : Spec.D4Par}

/-- **C64.** Larger `s6`, `s8`, `s10` (in `p`) give lower energies of all atoms. -/
theorem C64_scaling (h : Call env T ext numbers positions charge p o n B R cn eeq P) (hp : p'.Reads P')
    (h9 : P'.s9 = P.s9) (h1 : P'.a1 = P.a1) (h2 : P'.a2 = P.a2) (ha : P'.alp = P.alp)
    (h6 : P'.s6 ≤ P.s6) (h8 : P'.s8 ≤ P.s8) (h10 : P'.s10 ≤ P.s10) (hb : InB B b)
    (hQ : ∀ i : Fin n, numbers.get (i.1 :: b) ≠ 0 →
      0 ≤ (system T cn eeq numbers positions charge o.opts n b).Q i) :
    ∃ e e', dftd4 env T ext numbers positions charge p o = .ok e ∧
      dftd4 env T ext numbers positions charge p' o = .ok e' ∧
      ∀ i : Fin n, e.get (i.1 :: b) ≤ e'.get (i.1 :: b) := by
  obtain ⟨e, he, -, hv⟩ := h.eval
  obtain ⟨e', he', -, hv'⟩ := (h.reads hp).eval
  refine ⟨e, e', he, he', fun i => ?_⟩
  rw [hv b hb i, hv' b hb i]
  exact (energy_scaling h9 h1 h2 ha h6 h8 h10 hQ i).1

/-- **C64**, strictly, for atoms with a partner within the cutoff (no underflow). -/
theorem C64_scaling_strict (h : Call env T ext numbers positions charge p o n B R cn eeq P)
    (hp : p'.Reads P') (hfl : env.fl = id) (hT : T.Physical R.rq) (hgc : 0 < R.gc)
    (h9 : P'.s9 = P.s9) (h1 : P'.a1 = P.a1) (h2 : P'.a2 = P.a2) (ha : P'.alp = P.alp)
    (h6 : P'.s6 < P.s6) (h8 : P'.s8 ≤ P.s8) (h10 : P'.s10 ≤ P.s10) (hb : InB B b)
    (hQ : ∀ i : Fin n, numbers.get (i.1 :: b) ≠ 0 →
      0 ≤ (system T cn eeq numbers positions charge o.opts n b).Q i)
    {i j : Fin n} (hij : i ≠ j) (hi : numbers.get (i.1 :: b) ≠ 0) (hj : numbers.get (j.1 :: b) ≠ 0)
    (hpi : T.Polarizable env R (numbers.get (i.1 :: b)))
    (hpj : T.Polarizable env R (numbers.get (j.1 :: b)))
    (hcut : (system T cn eeq numbers positions charge o.opts n b).r env.eps i j ≤
      (o.opts.cutoff.getD {}).disp2) :
    ∃ e e', dftd4 env T ext numbers positions charge p o = .ok e ∧
      dftd4 env T ext numbers positions charge p' o = .ok e' ∧ e.get (i.1 :: b) < e'.get (i.1 :: b) := by
  obtain ⟨e, he, -, hv⟩ := h.eval
  obtain ⟨e', he', -, hv'⟩ := (h.reads hp).eval
  refine ⟨e, e', he, he', ?_⟩
  have hZ := h.args.Z_lt (cn := cn) (eeq := eeq) hb
  rw [hv b hb i, hv' b hb i]
  exact (energy_scaling h9 h1 h2 ha h6.le h8 h10 hQ i).2 h6 j hi hj hij hcut
    (c6At_pos hfl hT hgc (hZ i) (hZ j) hpi hpj)

/-- **C64.** Without three-body term, larger `a1` and `a2` (in `p'`) give higher energies of all atoms. -/
theorem C64_damping (h : Call env T ext numbers positions charge p o n B R cn eeq P) (hp : p'.Reads P')
    (h9 : P.s9 = 0) (h9' : P'.s9 = 0) (h6 : P'.s6 = P.s6) (h8 : P'.s8 = P.s8) (h10 : P'.s10 = P.s10)
    (p6 : 0 ≤ P.s6) (p8 : 0 ≤ P.s8) (p10 : 0 ≤ P.s10) (p1 : 0 ≤ P.a1) (p2 : 0 ≤ P.a2)
    (h1 : P.a1 ≤ P'.a1) (h2 : P.a2 ≤ P'.a2) (hb : InB B b)
    (hQ : ∀ i : Fin n, numbers.get (i.1 :: b) ≠ 0 →
      0 ≤ (system T cn eeq numbers positions charge o.opts n b).Q i) :
    ∃ e e', dftd4 env T ext numbers positions charge p o = .ok e ∧
      dftd4 env T ext numbers positions charge p' o = .ok e' ∧
      ∀ i : Fin n, e.get (i.1 :: b) ≤ e'.get (i.1 :: b) := by
  obtain ⟨e, he, -, hv⟩ := h.eval
  obtain ⟨e', he', -, hv'⟩ := (h.reads hp).eval
  refine ⟨e, e', he, he', fun i => ?_⟩
  rw [hv b hb i, hv' b hb i]
  exact (energy_damping h9 h9' h6 h8 h10 p6 p8 p10 p1 p2 h1 h2 hQ i).1

/-- **C64**, strictly, for atoms with a partner within the cutoff (no underflow). -/
theorem C64_damping_strict (h : Call env T ext numbers positions charge p o n B R cn eeq P)
    (hp : p'.Reads P') (hfl : env.fl = id) (hT : T.Physical R.rq) (hgc : 0 < R.gc)
    (h9 : P.s9 = 0) (h9' : P'.s9 = 0) (h6 : P'.s6 = P.s6) (h8 : P'.s8 = P.s8) (h10 : P'.s10 = P.s10)
    (p6 : 0 < P.s6) (p8 : 0 ≤ P.s8) (p10 : 0 ≤ P.s10) (p1 : 0 ≤ P.a1) (p2 : 0 ≤ P.a2)
    (h1 : P.a1 ≤ P'.a1) (h2 : P.a2 ≤ P'.a2) (hlt : P.a1 < P'.a1 ∨ P.a2 < P'.a2) (hb : InB B b)
    (hQ : ∀ i : Fin n, numbers.get (i.1 :: b) ≠ 0 →
      0 < (system T cn eeq numbers positions charge o.opts n b).Q i)
    {i j : Fin n} (hij : i ≠ j) (hi : numbers.get (i.1 :: b) ≠ 0) (hj : numbers.get (j.1 :: b) ≠ 0)
    (hpi : T.Polarizable env R (numbers.get (i.1 :: b)))
    (hpj : T.Polarizable env R (numbers.get (j.1 :: b)))
    (hcut : (system T cn eeq numbers positions charge o.opts n b).r env.eps i j ≤
      (o.opts.cutoff.getD {}).disp2) :
    ∃ e e', dftd4 env T ext numbers positions charge p o = .ok e ∧
      dftd4 env T ext numbers positions charge p' o = .ok e' ∧ e.get (i.1 :: b) < e'.get (i.1 :: b) := by
  obtain ⟨e, he, -, hv⟩ := h.eval
  obtain ⟨e', he', -, hv'⟩ := (h.reads hp).eval
  refine ⟨e, e', he, he', ?_⟩
  have hZ := h.args.Z_lt (cn := cn) (eeq := eeq) hb
  rw [hv b hb i, hv' b hb i]
  exact (energy_damping h9 h9' h6 h8 h10 p6.le p8 p10 p1 p2 h1 h2 (fun i hi => (hQ i hi).le) i).2 p6 j
    (hlt.imp (fun h => ⟨h, hQ i hi, hQ j hj⟩) id) hi hj hij hcut
    (c6At_pos hfl hT hgc (hZ i) (hZ j) hpi hpj)

/-- Functions that do not fall to the right of a point have no negative derivative there. -/
theorem deriv_nonneg_of_right {E : ℝ → ℝ} {x : ℝ} (hd : DifferentiableAt ℝ E x)
    (h : ∀ y, x ≤ y → E x ≤ E y) : 0 ≤ deriv E x := by
  by_contra hneg
  push Not at hneg
  have hlt := hd.hasDerivAt.hasDerivWithinAt (s := Set.Ioi x)
  have hslope := (hasDerivWithinAt_iff_tendsto_slope' (by simp)).1 hlt
  have hev := hslope.eventually_lt_const hneg
  obtain ⟨y, hy, hy'⟩ := (hev.and self_mem_nhdsWithin).exists
  have hyp : 0 < y - x := sub_pos.2 hy'
  rw [slope_def_field, div_neg_iff] at hy
  have := h y (le_of_lt hy')
  rcases hy with h | h <;> linarith

/-- Energy of an atom as function of a parameter. -/
noncomputable def parEnergy (env : Env) (T : Tables) (ext : Ext) (numbers : Tensor ℕ)
    (positions charge : Tensor ℝ) (p : Param) (o : DftOpts) (name : ParName) (i : ℕ) (b : Idx) (v : ℝ) : ℝ :=
  match dftd4 env T ext numbers positions charge (p.assign name v) o with
  | .ok e => e.get (i :: b)
  | .error _ => 0

/-- **C64.** Back-propagation to `s6`, `s8` or `s10` yields a number that is not positive. -/
theorem C64_gradient_scaling (h : Call env T ext numbers positions charge p o n B R cn eeq P)
    (h1 : 0 ≤ P.a1) (h2 : 0 ≤ P.a2) (h12 : P.a1 ≠ 0 ∨ P.a2 ≠ 0) {name : ParName}
    (hn : name = .s6 ∨ name = .s8 ∨ name = .s10) (hb : InB B b)
    (hQ : ∀ i : Fin n, numbers.get (i.1 :: b) ≠ 0 →
      0 ≤ (system T cn eeq numbers positions charge o.opts n b).Q i) (i : Fin n) :
    ∃ g, (paramGraph env T R P p o cn eeq numbers n positions charge name b i).back (P.get name) (.fin 1) =
      .fin g ∧ g ≤ 0 := by
  obtain ⟨hd, hg⟩ := C51_gradient h h1 h2 h12 name hb i
    (E := parEnergy env T ext numbers positions charge p o name i.1 b)
    (fun v e he => by simp only [parEnergy, he]) 1
  refine ⟨_, hg, ?_⟩
  rw [one_mul, ← neg_nonneg, ← deriv.neg]
  refine deriv_nonneg_of_right hd.neg fun y hy => ?_
  obtain ⟨e, e', he, he', hle⟩ := C64_scaling (b := b) (h.reads (h.par.assign name y))
    (h.par.assign name (P.get name)) (by rcases hn with rfl | rfl | rfl <;> rfl)
    (by rcases hn with rfl | rfl | rfl <;> rfl) (by rcases hn with rfl | rfl | rfl <;> rfl)
    (by rcases hn with rfl | rfl | rfl <;> rfl)
    (by rcases hn with rfl | rfl | rfl <;> first | exact hy | exact le_rfl)
    (by rcases hn with rfl | rfl | rfl <;> first | exact hy | exact le_rfl)
    (by rcases hn with rfl | rfl | rfl <;> first | exact hy | exact le_rfl) hb hQ
  have := hle i
  simp only [parEnergy, he, he', Pi.neg_apply]
  linarith

/-- **C64.** Without three-body term, back-propagation to `a1` or `a2` yields a number that is not
negative. -/
theorem C64_gradient_damping (h : Call env T ext numbers positions charge p o n B R cn eeq P)
    (h1 : 0 ≤ P.a1) (h2 : 0 ≤ P.a2) (h12 : P.a1 ≠ 0 ∨ P.a2 ≠ 0) (h9 : P.s9 = 0)
    (p6 : 0 ≤ P.s6) (p8 : 0 ≤ P.s8) (p10 : 0 ≤ P.s10) {name : ParName}
    (hn : name = .a1 ∨ name = .a2) (hb : InB B b)
    (hQ : ∀ i : Fin n, numbers.get (i.1 :: b) ≠ 0 →
      0 ≤ (system T cn eeq numbers positions charge o.opts n b).Q i) (i : Fin n) :
    ∃ g, (paramGraph env T R P p o cn eeq numbers n positions charge name b i).back (P.get name) (.fin 1) =
      .fin g ∧ 0 ≤ g := by
  obtain ⟨hd, hg⟩ := C51_gradient h h1 h2 h12 name hb i
    (E := parEnergy env T ext numbers positions charge p o name i.1 b)
    (fun v e he => by simp only [parEnergy, he]) 1
  refine ⟨_, hg, ?_⟩
  rw [one_mul]
  refine deriv_nonneg_of_right hd fun y hy => ?_
  have hval : ∀ m v, (Spec.D4Par.ofValues (Function.update P.get name v)).get m =
      Function.update P.get name v m := by intro m v; cases m <;> rfl
  obtain ⟨e, e', he, he', hle⟩ := C64_damping (b := b) (h.reads (h.par.assign name (P.get name)))
    (h.par.assign name y) (by rcases hn with rfl | rfl <;> exact h9)
    (by rcases hn with rfl | rfl <;> exact h9)
    (by rcases hn with rfl | rfl <;> rfl) (by rcases hn with rfl | rfl <;> rfl)
    (by rcases hn with rfl | rfl <;> rfl) (by rcases hn with rfl | rfl <;> exact p6)
    (by rcases hn with rfl | rfl <;> exact p8) (by rcases hn with rfl | rfl <;> exact p10)
    (by rcases hn with rfl | rfl <;> exact h1) (by rcases hn with rfl | rfl <;> exact h2)
    (by rcases hn with rfl | rfl <;> first | exact hy | exact le_rfl)
    (by rcases hn with rfl | rfl <;> first | exact hy | exact le_rfl) hb hQ
  have := hle i
  simp only [parEnergy, he, he']
  exact this

end

namespace Demo

theorem Q_pos (i : Fin 3) (h : numbers.get [i.1, 1] ≠ 0) :
    0 < (system T cn eeq numbers positions charge {} 3 [1]).Q i :=
  shipped_r4r2_pos (nExt := 119) (gam := gam) (zeff := zeff) (vdw := fun _ _ => 3)
    (Nat.pos_of_ne_zero h) ((numbers_lt [i.1, 1]).trans (by norm_num))

theorem within_HF : (system T cn eeq numbers positions charge {} 3 [1]).r env.eps (1 : Fin 3) (0 : Fin 3) ≤
    60 := by
  have hd : dist (coords positions 3 [1] 1) (coords positions 3 [1] 0) ≤ 60 := by
    rw [EuclideanSpace.dist_eq, Real.sqrt_le_left (by norm_num)]
    simp [coords, positions, Fin.sum_univ_three, Real.dist_eq]
    norm_num
  show √(max (dist (coords positions 3 [1] 1) (coords positions 3 [1] 0) ^ 2) (1 / 2 ^ 52)) ≤ 60
  rw [Real.sqrt_le_left (by norm_num)]
  exact max_le (pow_le_pow_left₀ dist_nonneg hd 2) (by norm_num)

/-- Hydrogen fluoride with less `s8`. -/
example : ∃ e e', dftd4 env T ext numbers positions charge param {} = .ok e ∧
    dftd4 env T ext numbers positions charge (param.assign .s8 0) {} = .ok e' ∧
    ∀ i : Fin 3, e.get [i.1, 1] ≤ e'.get [i.1, 1] :=
  C64_scaling call (reads.assign .s8 0) rfl rfl rfl rfl le_rfl
    (by show (0 : ℝ) ≤ par.s8; norm_num [par]) le_rfl (by simp [InB]) Q_nonneg

/-- Without `s6` also strictly. -/
example : ∃ e e', dftd4 env T ext numbers positions charge param {} = .ok e ∧
    dftd4 env T ext numbers positions charge (param.assign .s6 0) {} = .ok e' ∧
    e.get [1, 1] < e'.get [1, 1] :=
  C64_scaling_strict (i := (1 : Fin 3)) (j := (0 : Fin 3)) call (reads.assign .s6 0) rfl physical
    (by norm_num [RefCfg.d4]) rfl rfl rfl rfl (by show (0 : ℝ) < par.s6; norm_num [par]) le_rfl le_rfl
    (by simp [InB]) Q_nonneg (by decide) (by decide) (by decide)
    (shipped_polarizable (Z := 1) (by norm_num) (by norm_num) (by norm_num))
    (shipped_polarizable (Z := 9) (by norm_num) (by norm_num) (by norm_num)) within_HF

/-- Without three-body term, stronger damping. -/
example : ∃ e e', dftd4 env T ext numbers positions charge paramNoAtm {} = .ok e ∧
    dftd4 env T ext numbers positions charge (paramNoAtm.assign .a1 2) {} = .ok e' ∧
    ∀ i : Fin 3, e.get [i.1, 1] ≤ e'.get [i.1, 1] :=
  C64_damping callNoAtm (readsNoAtm.assign .a1 2) rfl rfl rfl rfl rfl (by norm_num [par])
    (by norm_num [par]) (by norm_num [par]) (by norm_num [par]) (by norm_num [par])
    (by show par.a1 ≤ 2; norm_num [par]) le_rfl (by simp [InB]) Q_nonneg

example : ∃ e e', dftd4 env T ext numbers positions charge paramNoAtm {} = .ok e ∧
    dftd4 env T ext numbers positions charge (paramNoAtm.assign .a1 2) {} = .ok e' ∧
    e.get [1, 1] < e'.get [1, 1] :=
  C64_damping_strict (i := (1 : Fin 3)) (j := (0 : Fin 3)) callNoAtm (readsNoAtm.assign .a1 2) rfl physical
    (by norm_num [RefCfg.d4]) rfl rfl rfl rfl rfl (by norm_num [par])
    (by norm_num [par]) (by norm_num [par]) (by norm_num [par]) (by norm_num [par])
    (by show par.a1 ≤ 2; norm_num [par]) le_rfl (Or.inl (by show par.a1 < 2; norm_num [par]))
    (by simp [InB]) Q_pos (by decide) (by decide) (by decide)
    (shipped_polarizable (Z := 1) (by norm_num) (by norm_num) (by norm_num))
    (shipped_polarizable (Z := 9) (by norm_num) (by norm_num) (by norm_num)) within_HF

example : ∃ g, (paramGraph env T .d4 par param {} cn eeq numbers 3 positions charge .s8 [1]
    (1 : Fin 3)).back (par.get .s8) (.fin 1) = .fin g ∧ g ≤ 0 :=
  C64_gradient_scaling call (by norm_num [par]) (by norm_num [par]) (Or.inl (by norm_num [par]))
    (Or.inr (Or.inl rfl)) (by simp [InB]) Q_nonneg 1

example : ∃ g, (paramGraph env T .d4 { par with s9 := 0 } paramNoAtm {} cn eeq numbers 3 positions charge .a2
    [1] (1 : Fin 3)).back (par.get .a2) (.fin 1) = .fin g ∧ 0 ≤ g :=
  C64_gradient_damping callNoAtm (by norm_num [par]) (by norm_num [par]) (Or.inl (by norm_num [par])) rfl
    (by norm_num [par]) (by norm_num [par]) (by norm_num [par]) (Or.inr rfl) (by simp [InB]) Q_nonneg 1

end Demo

end TadDftd4
