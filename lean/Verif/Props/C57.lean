import Verif.Lemmas.RoundedEnergy
import Verif.Lemmas.C6Props
import Verif.Lemmas.Setup
import Mathlib.Analysis.Complex.ExponentialBounds

/-!
# C57: rounding errors of energies

A machine that evaluates the energy expressions with a relative error of at most `u` per operation,
adding in any order, gets the energy of each atom up to a multiple of `u` times the sum of the absolute
values of all contributions. For the two-body energy this is a small relative error. The distances must
be accurate for this; they are (being computed by a quadratic expansion) if `u` times the squared
distance of the atoms from the origin is small compared with the squared distance of the atoms.
-/

set_option linter.unusedSimpArgs false

open scoped Classical

namespace TadDftd4

open Tensor Rounded

namespace Spec

/-- `k` roundings do not decide whether `r ≤ c`. -/
def Clear (u : ℝ) (k : ℕ) (r c : ℝ) : Prop := r ≤ (1 - u) ^ k * c ∨ c < (1 - u) ^ k * r

/-- Sum of the absolute values of the terms of the Axilrod-Teller-Muto energy of an atom. -/
noncomputable def abs3 {n : ℕ} (S : Settings) (M : Mol n) (i : Fin n) : ℝ :=
  (1 / 6) * ∑ j, ∑ k, if M.Z i ≠ 0 ∧ M.Z j ≠ 0 ∧ M.Z k ≠ 0 ∧ i ≠ j ∧ i ≠ k ∧ j ≠ k ∧
    withinCut3 S M i j k then
      let x := M.r S.ε i j
      let y := M.r S.ε i k
      let z := M.r S.ε j k
      |S.s9| * c9 S M.neutral i j k * S.f9 (R0 S M i j * R0 S M i k * R0 S M j k) (x * y * z) *
        (3 / 8 * (x ^ 2 + y ^ 2 + z ^ 2) ^ 3 / (x * y * z) ^ 5 + 1 / (x * y * z) ^ 3)
    else 0

/-- Number of roundings: `kd`, `kc`, `kQ` in distances, C6 coefficients and `r4r2`; `q` and `L` bound the
exponent of the three-body damping function and its effect. -/
def roundings (n kd kc kQ q L : ℕ) : ℕ :=
  21 * kd + 2 * kc + 14 * kQ + q * (3 * kQ + 3 * kd + 20) + L + n ^ 2 + 56

/-- Assumptions: no negative parameter, `a2 > 0`, distances clear of the cutoffs, and an exponent `alp/3`
below `q` with `(alp/3) |log (R0³/r³)| ≤ L` for all triples. -/
structure Roundable {n : ℕ} (u : ℝ) (kd q L : ℕ) (S : Settings) (P : D4Par) (M : Mol n) : Prop where
  Q : ∀ i, 0 ≤ M.Q i
  s6 : 0 ≤ P.s6
  s8 : 0 ≤ P.s8
  s10 : 0 ≤ P.s10
  a1 : 0 ≤ P.a1
  a2 : 0 < P.a2
  alp : 0 ≤ P.alp
  cut2 : 0 ≤ S.cut2
  cut3 : 0 ≤ S.cut3
  clear : ∀ i j, M.Z i ≠ 0 → M.Z j ≠ 0 → i ≠ j →
    Clear u (kd + 1) (M.r S.ε i j) S.cut2 ∧ Clear u (kd + 1) (M.r S.ε i j) S.cut3
  exponent : P.alp / 3 ≤ q * (1 - u)
  power : ∀ i j k, M.Z i ≠ 0 → M.Z j ≠ 0 → M.Z k ≠ 0 → i ≠ j → i ≠ k → j ≠ k →
    P.alp / 3 * |Real.log (R0 S M i j * R0 S M i k * R0 S M j k /
      (M.r S.ε i j * M.r S.ε i k * M.r S.ε j k))| ≤ L

end Spec

namespace Rounded

theorem Input.good {n : ℕ} {C : Spec.C6Settings} {ε cut2 cut3 u : ℝ} {P : Spec.D4Par}
    {c : Spec.AtomData → Spec.AtomData → ℝ} {M : Spec.Mol n} {s10 : Option ℝ} {kd kc kQ q L : ℕ}
    (hu : 0 ≤ u) (hu1 : u < 1) (hε : 0 < ε) (hc : ∀ A A', 0 ≤ c A A')
    (h10 : s10 = some P.s10 ∨ s10 = none ∧ P.s10 = 0)
    (h : Spec.Roundable u kd q L (withC6 C ε P cut2 cut3 c) P M) :
    Input.Good u (Input.of (withC6 C ε P cut2 cut3 c) P M s10 kd kc kQ) where
  d i j := M.r_pos hε i j
  c6 i j := hc _ _
  c6n i j := hc _ _
  Q := h.Q
  ε := hε.le
  s6 := h.s6
  s8 := h.s8
  s10 s hs := by
    rcases h10 with e | ⟨e, -⟩
    · rw [show s10 = some s from hs] at e
      rw [Option.some.inj e]; exact h.s10
    · rw [show s10 = some s from hs] at e; cases e
  a1 := h.a1
  a2 := h.a2
  cut2 := h.cut2
  cut3 := h.cut3
  tie2 i j hp := by
    have hp1 : 0 < 1 - u := by linarith
    have hle : (1 - u) ^ (kd + 1) ≤ (1 - u) ^ kd := pow_le_pow_of_le_one hp1.le (by linarith) (by omega)
    rcases (h.clear i j hp.1 hp.2.1 hp.2.2).1 with h1 | h1
    · exact Or.inl (h1.trans (mul_le_mul_of_nonneg_right hle h.cut2))
    · exact Or.inr (h1.trans_le (mul_le_mul_of_nonneg_right hle (M.r_pos hε i j).le))
  tie3 i j hp := by
    have hp1 : 0 < 1 - u := by linarith
    have e : ∀ x : ℝ, (1 - u) ^ (2 * kd + 2) * x ^ 2 = ((1 - u) ^ (kd + 1) * x) ^ 2 := by
      intro x; rw [mul_pow, ← pow_mul]; ring_nf
    have hr : 0 < M.r ε i j := M.r_pos hε i j
    have h3 : 0 ≤ cut3 := h.cut3
    show M.r ε i j ^ 2 ≤ (1 - u) ^ (2 * kd + 2) * cut3 ^ 2 ∨
      cut3 ^ 2 < (1 - u) ^ (2 * kd + 2) * M.r ε i j ^ 2
    rw [e, e]
    rcases (h.clear i j hp.1 hp.2.1 hp.2.2).2 with h1 | h1
    · exact Or.inl (pow_le_pow_left₀ hr.le h1 2)
    · exact Or.inr (pow_lt_pow_left₀ h1 h3 two_ne_zero)

theorem inv_pow_le {u : ℝ} {K : ℕ} (hu : 0 ≤ u) (hu1 : u < 1) (hK : K * u ≤ 1 / 2) :
    ((1 - u) ^ K)⁻¹ - 1 ≤ 2 * K * u := by
  have b : 1 - K * u ≤ (1 - u) ^ K := by
    have := one_add_mul_le_pow (a := -u) (by linarith) K
    rw [← sub_eq_add_neg] at this
    linarith
  have hKu : 0 ≤ K * u := by positivity
  have p : 0 < (1 - u) ^ K := pow_pos (by linarith) K
  rw [sub_le_iff_le_add, inv_le_iff_one_le_mul₀ p]
  nlinarith

theorem one_sub_pow_ge {u : ℝ} {m : ℕ} (hu : 0 ≤ u) (hu1 : u < 1) (hm : 2 * m * u ≤ 1) :
    m * u ≤ 1 - (1 - u) ^ (2 * m) := by
  have b : 1 + (2 * m : ℕ) * u ≤ (1 + u) ^ (2 * m) := one_add_mul_le_pow (by linarith) _
  push_cast at b
  have c : (1 - u) ^ (2 * m) * (1 + u) ^ (2 * m) ≤ 1 := by
    rw [← mul_pow]
    exact pow_le_one₀ (by nlinarith) (by nlinarith)
  have p : 0 ≤ (1 - u) ^ (2 * m) := pow_nonneg (by linarith) _
  have hmu : 0 ≤ m * u := by positivity
  have d : (1 - u) ^ (2 * m) * (1 + 2 * (m * u)) ≤ 1 := by nlinarith
  nlinarith

theorem Input.maj_eq {n : ℕ} {C : Spec.C6Settings} {ε cut2 cut3 : ℝ} {P : Spec.D4Par}
    {c : Spec.AtomData → Spec.AtomData → ℝ} {M : Spec.Mol n} {s10 : Option ℝ} {kd kc kQ : ℕ}
    (hε : 0 < ε) (i : Fin n) :
    (∑ j, ∑ k, (Input.of (withC6 C ε P cut2 cut3 c) P M s10 kd kc kQ).maj i j k) / 6 =
      Spec.abs3 (withC6 C ε P cut2 cut3 c) M i := by
  unfold Spec.abs3
  rw [div_eq_inv_mul, show (6 : ℝ)⁻¹ = 1 / 6 by norm_num]
  congr 1
  refine Finset.sum_congr rfl fun j _ => Finset.sum_congr rfl fun k _ => ?_
  unfold Input.maj
  by_cases h : M.Z i ≠ 0 ∧ M.Z j ≠ 0 ∧ M.Z k ≠ 0 ∧ i ≠ j ∧ i ≠ k ∧ j ≠ k ∧
      Spec.withinCut3 (withC6 C ε P cut2 cut3 c) M i j k
  · rw [if_pos h]
    have h' := h
    obtain ⟨h1, h2, h3, h4, h5, h6, h7⟩ := h'
    refine (if_pos ⟨⟨h1, h2, h3, h4, h5, h6⟩, h7⟩).trans ?_
    rw [Input.fdamp_val hε]
    dsimp only
    have e : ((Input.of (withC6 C ε P cut2 cut3 c) P M s10 kd kc kQ).c9 i j k).val =
      Spec.c9 (withC6 C ε P cut2 cut3 c) M.neutral i j k := rfl
    rw [e, show (0.375 : ℝ) = 3 / 8 by norm_num]
    generalize Spec.c9 (withC6 C ε P cut2 cut3 c) M.neutral i j k = c9
    show (3 / 8 * (M.r ε i j ^ 2 + M.r ε i k ^ 2 + M.r ε j k ^ 2) ^ 3 /
      (M.r ε i j * M.r ε i k * M.r ε j k) ^ 5 + 1 / (M.r ε i j * M.r ε i k * M.r ε j k) ^ 3) *
      _ * |P.s9| * c9 = |P.s9| * c9 * _ * (3 / 8 * (M.r ε i j ^ 2 + M.r ε i k ^ 2 + M.r ε j k ^ 2) ^ 3 /
      (M.r ε i j * M.r ε i k * M.r ε j k) ^ 5 + 1 / (M.r ε i j * M.r ε i k * M.r ε j k) ^ 3)
    have hf : ∀ f g a s c : ℝ, f = g → a * f * s * c = s * c * g * a := by
      rintro f _ a s c rfl; ring
    exact hf _ _ _ _ _ rfl
  · rw [if_neg h]
    refine if_neg fun h' => h ?_
    obtain ⟨⟨h1, h2, h3, h4, h5, h6⟩, h7⟩ := h'
    exact ⟨h1, h2, h3, h4, h5, h6, h7⟩

end Rounded

section
variable {env : Env} {T : Tables} {ext : Ext} {numbers : Tensor ℕ} {positions charge : Tensor ℝ}
  {p : Param} {o : DftOpts} {n : ℕ} {B : Shape} {R : RefCfg} {cn : Spec.CN} {eeq : Spec.EEQ}
  {P : Spec.D4Par}

/-- What a machine starts from: elements, distances, C6 coefficients, `r4r2`, parameters and cutoffs of a
system in a call of `dftd4`; distances, coefficients and `r4r2` have been rounded `kd`, `kc`, `kQ` times. -/
noncomputable def machineInput (env : Env) (T : Tables) (R : RefCfg) (P : Spec.D4Par) (p : Param)
    (cutoff : Cutoff) (M : Spec.Mol n) (kd kc kQ : ℕ) : Input n :=
  Input.of (d4Computed env T R P cutoff) P M (p.s10.kw none) kd kc kQ

theorem Param.Reads.kw10 (h : p.Reads P) :
    p.s10.kw none = some P.s10 ∨ p.s10.kw none = none ∧ P.s10 = 0 := by
  rcases h.s10 with e | ⟨e, e0⟩
  · exact Or.inl (by rw [e]; rfl)
  · exact Or.inr ⟨by rw [e]; rfl, e0⟩

/-- **C57.** The result `z` of any machine for the energy of atom `i` differs from the exact energy by at
most `2 K u` times the sum of the absolute values of the contributions. -/
theorem C57_energy (h : Call env T ext numbers positions charge p o n B R cn eeq P) :
    ∃ e, dftd4 env T ext numbers positions charge p o = .ok e ∧
      ∀ (u : ℝ) (kd kc kQ q L : ℕ), 0 ≤ u → u < 1 → Spec.roundings n kd kc kQ q L * u ≤ 1 / 2 →
      ∀ b, InB B b →
        let S := d4Computed env T R P (o.opts.cutoff.getD {})
        let M := system T cn eeq numbers positions charge o.opts n b
        Spec.Roundable u kd q L S P M →
        ∀ (i : Fin n) (z : ℝ),
          ((machineInput env T R P p (o.opts.cutoff.getD {}) M kd kc kQ).energy i).Rounds u z →
          |z - e.get (i.1 :: b)| ≤ 2 * Spec.roundings n kd kc kQ q L * u *
            (|Spec.e2 S M M.atom i| + Spec.abs3 S M i) := by
  obtain ⟨e, h1, -, h3⟩ := h.eval
  refine ⟨e, h1, ?_⟩
  intro u kd kc kQ q L hu hu1 hK b hb S M hR i z hz
  rw [h3 b hb i]
  have h10 := h.par.kw10
  have hg := Input.good (kc := kc) (kQ := kQ) (c := c6At env T R) hu hu1 env.eps_pos
    (fun A A' => c6At_nonneg A A') h10 hR
  have he := Input.err_energy hu hu1 hg hR.alp hR.exponent (fun i j k ht =>
    hR.power i j k ht.1 ht.2.1 ht.2.2.1 ht.2.2.2.1 ht.2.2.2.2.1 ht.2.2.2.2.2) i
  have hv : ((machineInput env T R P p (o.opts.cutoff.getD {}) M kd kc kQ).energy i).val =
      Spec.energy S M i := Input.energy_val h10 env.eps_pos h.cut3 i
  have h2 : ((machineInput env T R P p (o.opts.cutoff.getD {}) M kd kc kQ).two i).val =
      Spec.e2 S M M.atom i := Input.two_val h10 i
  have hm : (∑ j, ∑ k, (machineInput env T R P p (o.opts.cutoff.getD {}) M kd kc kQ).maj i j k) / 6 =
      Spec.abs3 S M i := Input.maj_eq env.eps_pos i
  have hn := (Input.near_two hu hu1 hg i).1
  have hd := (he.2 z hz).2
  have hX := (abs_nonneg _).trans he.1
  change |z - ((machineInput env T R P p (o.opts.cutoff.getD {}) M kd kc kQ).energy i).val| ≤ _ *
    (-((machineInput env T R P p (o.opts.cutoff.getD {}) M kd kc kQ).two i).val +
      (∑ j, ∑ k, (machineInput env T R P p (o.opts.cutoff.getD {}) M kd kc kQ).maj i j k) / 6) at hd
  change 0 ≤ -((machineInput env T R P p (o.opts.cutoff.getD {}) M kd kc kQ).two i).val at hn
  change 0 ≤ -((machineInput env T R P p (o.opts.cutoff.getD {}) M kd kc kQ).two i).val +
      (∑ j, ∑ k, (machineInput env T R P p (o.opts.cutoff.getD {}) M kd kc kQ).maj i j k) / 6 at hX
  rw [hv, h2, hm] at hd
  rw [h2, hm] at hX
  rw [h2] at hn
  rw [abs_of_nonpos (by linarith : Spec.e2 S M M.atom i ≤ 0)]
  refine hd.trans (mul_le_mul_of_nonneg_right ?_ hX)
  have hKK : ∀ X : Input n, X.kd = kd → X.kc = kc → X.kQ = kQ →
      max (X.K2 + 1) (X.K3 q L) + 1 ≤ Spec.roundings n kd kc kQ q L := by
    rintro X rfl rfl rfl
    have h1 : X.m ≤ X.kd + (X.kQ + 4) := max_le (Nat.le_add_right _ _) (Nat.le_add_left _ _)
    have h2 : n ≤ n ^ 2 := Nat.le_self_pow two_ne_zero n
    have h3 : n * n = n ^ 2 := (sq n).symm
    unfold Input.K2 Input.K3 Input.KF Spec.roundings
    rw [h3]
    omega
  refine le_trans ?_ (inv_pow_le hu hu1 hK)
  refine sub_le_sub_right (inv_anti₀ (pow_pos (by linarith) _) ?_) 1
  exact pow_le_pow_of_le_one (by linarith) (by linarith) (hKK _ rfl rfl rfl)

/-- **C57.** Without three-body term this is a relative error. -/
theorem C57_twobody (h : Call env T ext numbers positions charge p o n B R cn eeq P) (h9 : P.s9 = 0) :
    ∃ e, dftd4 env T ext numbers positions charge p o = .ok e ∧
      ∀ (u : ℝ) (kd kc kQ q L : ℕ), 0 ≤ u → u < 1 → Spec.roundings n kd kc kQ q L * u ≤ 1 / 2 →
      ∀ b, InB B b →
        let S := d4Computed env T R P (o.opts.cutoff.getD {})
        let M := system T cn eeq numbers positions charge o.opts n b
        Spec.Roundable u kd q L S P M →
        ∀ (i : Fin n) (z : ℝ),
          ((machineInput env T R P p (o.opts.cutoff.getD {}) M kd kc kQ).energy i).Rounds u z →
          |z - e.get (i.1 :: b)| ≤ 2 * Spec.roundings n kd kc kQ q L * u * |e.get (i.1 :: b)| := by
  obtain ⟨e, h1, h2⟩ := C57_energy h
  obtain ⟨e', h1', -, h3⟩ := h.eval
  rw [h1] at h1'
  cases h1'
  refine ⟨e, h1, ?_⟩
  intro u kd kc kQ q L hu hu1 hK b hb S M hR i z hz
  have g := h2 u kd kc kQ q L hu hu1 hK b hb hR i z hz
  have hs : S.s9 = 0 := h9
  have e3 : Spec.e3 S M (Spec.c9 S M.neutral) (Spec.R0 S M) i = 0 := by
    unfold Spec.e3 Spec.tripleTerm
    simp only [hs, zero_mul, ite_self, Finset.sum_const_zero, mul_zero]
  have a3 : Spec.abs3 S M i = 0 := by
    unfold Spec.abs3
    simp only [hs, abs_zero, zero_mul, ite_self, Finset.sum_const_zero, mul_zero]
  have he : e.get (i.1 :: b) = Spec.e2 S M M.atom i := by
    rw [h3 b hb i]
    show Spec.e2 S M M.atom i + _ = _
    rw [e3, add_zero]
  change |z - e.get (i.1 :: b)| ≤ _ * (|Spec.e2 S M M.atom i| + Spec.abs3 S M i) at g
  rwa [a3, add_zero, ← he] at g

/-- **C57.** In particular a machine that rounds every result by a function `fl`. -/
theorem C57_machine (h : Call env T ext numbers positions charge p o n B R cn eeq P) :
    ∃ e, dftd4 env T ext numbers positions charge p o = .ok e ∧
      ∀ (u : ℝ) (fl : ℝ → ℝ) (kd kc kQ q L : ℕ), 0 ≤ u → u < 1 → (∀ x, |fl x - x| ≤ u * |x|) →
      Spec.roundings n kd kc kQ q L * u ≤ 1 / 2 → ∀ b, InB B b →
        let S := d4Computed env T R P (o.opts.cutoff.getD {})
        let M := system T cn eeq numbers positions charge o.opts n b
        Spec.Roundable u kd q L S P M → ∀ i : Fin n,
          |((machineInput env T R P p (o.opts.cutoff.getD {}) M kd kc kQ).energy i).run fl -
            e.get (i.1 :: b)| ≤ 2 * Spec.roundings n kd kc kQ q L * u *
            (|Spec.e2 S M M.atom i| + Spec.abs3 S M i) := by
  obtain ⟨e, h1, h2⟩ := C57_energy h
  refine ⟨e, h1, ?_⟩
  intro u fl kd kc kQ q L hu hu1 hfl hK b hb S M hR i
  have hg := Input.good (kc := kc) (kQ := kQ) (c := c6At env T R) hu hu1 env.eps_pos
    (fun A A' => c6At_nonneg A A') h.par.kw10 hR
  exact h2 u kd kc kQ q L hu hu1 hK b hb hR i _ (Ex.Proper.run hu hu1 hfl (Input.proper hg i))

end

/-! ## Distances -/

/-- Squared distance of `x` and `y`, and of `|x|` and `-|y|`. -/
noncomputable def Spec.sq3 (x y : Fin 3 → ℝ) : ℝ := ∑ k, (x k - y k) ^ 2
noncomputable def Spec.far3 (x y : Fin 3 → ℝ) : ℝ := ∑ k, (|x k| + |y k|) ^ 2

/-- **C57.** Distances from exact coordinates are accurate to `m + 1` roundings if
`10 (|x| + |y|)² ≤ m d²`. -/
theorem C57_distance {u ε z : ℝ} {x y : Fin 3 → ℝ} {m : ℕ} (hu : 0 ≤ u) (hu1 : 10 * u ≤ 1)
    (hε : 0 < ε) (hm : 2 * m * u ≤ 1) (hfar : 10 * Spec.far3 x y ≤ m * Spec.sq3 x y)
    (hz : (cdistEx ε x y).Rounds u z) :
    Near u (m + 1) (Spec.rsqrt ε (Spec.sq3 x y)) z := by
  have hu2 : u < 1 := by linarith
  have cst : ∀ c : ℝ, Rounded.Err u (.const c) 0 |c| := fun c =>
    ⟨le_rfl, fun z hz => by cases hz; exact ⟨le_rfl, by simp [Ex.val]⟩⟩
  have dot : ∀ v w : Fin 3 → ℝ, Rounded.Err u (Ex.sum 3 fun k => Ex.mul (Ex.const (v k)) (Ex.const (w k))) 3
      (∑ k, |v k| * |w k|) := fun v w => Ex.err_sum hu hu2 (fun k => Ex.err_mul hu hu2 (cst _) (cst _)
        (m := 1) (by omega)) (by omega)
  have s := Ex.err_sub hu hu2 (Ex.err_add hu hu2 (dot x x) (dot y y) (m := 4) (by omega) (by omega))
    (Ex.err_mul hu hu2 (cst 2) (dot x y) (m := 4) (by omega)) (m := 5) (by omega) (by omega)
  have hF : (∑ k, |x k| * |x k| + ∑ k, |y k| * |y k|) + |2| * ∑ k, |x k| * |y k| = Spec.far3 x y := by
    unfold Spec.far3
    rw [Finset.mul_sum, ← Finset.sum_add_distrib, ← Finset.sum_add_distrib]
    refine Finset.sum_congr rfl fun k _ => ?_
    rw [abs_two]; ring
  rw [hF] at s
  cases hz with
  | @sqrt _ y' _ hy hz =>
    cases hy with
    | @clampMin _ _ w hw =>
      have hd := (s.2 w hw).2
      have hv : ∀ e : Ex, e = (Ex.add (Ex.sum 3 fun k => Ex.mul (Ex.const (x k)) (Ex.const (x k)))
          (Ex.sum 3 fun k => Ex.mul (Ex.const (y k)) (Ex.const (y k)))).sub
          (Ex.mul (Ex.const 2) (Ex.sum 3 fun k => Ex.mul (Ex.const (x k)) (Ex.const (y k)))) →
          e.val = Spec.sq3 x y := by
        rintro e rfl
        simp only [Ex.val, Spec.sq3]
        rw [Finset.mul_sum, ← Finset.sum_add_distrib, ← Finset.sum_sub_distrib]
        refine Finset.sum_congr rfl fun k _ => ?_
        ring
      rw [hv _ rfl] at hd
      have g5 : ((1 - u) ^ 5)⁻¹ - 1 ≤ 10 * u := by
        have := inv_pow_le (K := 5) hu hu2 (by push_cast; linarith)
        push_cast at this
        linarith
      have hF0 : 0 ≤ Spec.far3 x y := Finset.sum_nonneg fun k _ => sq_nonneg _
      have hS0 : 0 ≤ Spec.sq3 x y := Finset.sum_nonneg fun k _ => sq_nonneg _
      have hp := one_sub_pow_ge hu hu2 hm
      obtain ⟨d, hdd⟩ : ∃ d, d = max (Spec.sq3 x y) ε := ⟨_, rfl⟩
      obtain ⟨P, hP⟩ : ∃ P, P = (1 - u) ^ (2 * m) := ⟨_, rfl⟩
      have hP0 : 0 ≤ P := by rw [hP]; exact pow_nonneg (by linarith) _
      have hd0 : 0 < d := by rw [hdd]; exact lt_of_lt_of_le hε (le_max_right _ _)
      have hb : |w - Spec.sq3 x y| ≤ (1 - P) * d := by
        refine hd.trans ?_
        have h1 : (((1 - u) ^ 5)⁻¹ - 1) * Spec.far3 x y ≤ 10 * u * Spec.far3 x y :=
          mul_le_mul_of_nonneg_right g5 hF0
        have h2 : u * (10 * Spec.far3 x y) ≤ u * (m * Spec.sq3 x y) :=
          mul_le_mul_of_nonneg_left hfar hu
        have h3 : m * u * Spec.sq3 x y ≤ (1 - P) * Spec.sq3 x y := by
          rw [hP]; exact mul_le_mul_of_nonneg_right hp hS0
        have h4 : (1 - P) * Spec.sq3 x y ≤ (1 - P) * d := by
          refine mul_le_mul_of_nonneg_left (by rw [hdd]; exact le_max_left _ _) ?_
          rw [hP]; exact le_trans (by positivity) hp
        linarith
      have hb' : |max w ε - d| ≤ (1 - P) * d := by
        rw [hdd]
        exact (abs_max_sub_max_le_abs _ _ _).trans (by rw [← hdd]; exact hb)
      obtain ⟨b1, b2⟩ := abs_le.1 hb'
      have n1 : Near u (2 * m) d (max w ε) := by
        unfold Near
        rw [← hP]
        refine ⟨by linarith, ?_⟩
        have : P * max w ε ≤ P * (d + (1 - P) * d) := mul_le_mul_of_nonneg_left (by linarith) hP0
        nlinarith [mul_nonneg (sq_nonneg (1 - P)) hd0.le]
      have n2 := n1.sqrt hu2
      have n3 := n2.trans hu2 (hz.near hu hu2 (Real.sqrt_nonneg _))
      rw [hdd] at n3
      exact n3

/-- **C57.** Far from the origin, distances can be lost: a rounding of one addition by `u` turns the
distance 1 into `√ε`. -/
theorem C57_far {u ε : ℝ} (hu : 0 < u) (hε : 0 < ε) :
    ∃ x y : Fin 3 → ℝ, Spec.sq3 x y = 1 ∧ (cdistEx ε x y).Rounds u √ε := by
  have fl : ∀ x, Fl u x x := fun x => by
    unfold Fl; rw [sub_self, abs_zero]; exact mul_nonneg hu.le (abs_nonneg _)
  obtain ⟨t, ht⟩ : ∃ t : ℝ, t = 1 + 1 / u := ⟨_, rfl⟩
  have ht1 : 1 ≤ t := by rw [ht]; have := (one_div_pos.2 hu); linarith
  have htu : 1 ≤ u * t := by
    rw [ht, mul_add, mul_one_div_cancel hu.ne']; linarith
  obtain ⟨x, hx⟩ : ∃ x : Fin 3 → ℝ, x = ![t, 0, 0] := ⟨_, rfl⟩
  obtain ⟨y, hy⟩ : ∃ y : Fin 3 → ℝ, y = ![t + 1, 0, 0] := ⟨_, rfl⟩
  have dot : ∀ v w : Fin 3 → ℝ, (Ex.sum 3 fun k => Ex.mul (Ex.const (v k)) (Ex.const (w k))).Rounds u
      (∑ k, v k * w k) := by
    intro v w
    have := Ex.Proper.run (fl := id) (u := 0) (e := Ex.sum 3 fun k => Ex.mul (Ex.const (v k))
      (Ex.const (w k))) le_rfl zero_lt_one (fun x => by simp [Fl]) ⟨by norm_num, fun k => ⟨trivial, trivial⟩⟩
    refine .sum (v := fun k => v k * w k) (fun k => .mul (.const _) (.const _) (fl _)) ?_
    have h := Ex.sumOf_exact hu.le (fun k => v k * w k) (List.finRange 3) (by simp)
    have e1 : (List.finRange 3 : Multiset (Fin 3)) = Finset.univ.val := rfl
    have e2 : ((List.finRange 3).map fun k => v k * w k).sum = ∑ k, v k * w k := by
      rw [← List.ofFn_eq_map, List.sum_ofFn]
    rw [e1, e2] at h
    exact h
  refine ⟨x, y, ?_, ?_⟩
  · rw [hx, hy]; simp [Spec.sq3, Fin.sum_univ_three]
  · have d1 : ∑ k, x k * x k = t ^ 2 := by rw [hx]; simp [Fin.sum_univ_three]; ring
    have d2 : ∑ k, y k * y k = (t + 1) ^ 2 := by rw [hy]; simp [Fin.sum_univ_three]; ring
    have d3 : ∑ k, x k * y k = t * (t + 1) := by rw [hx, hy]; simp [Fin.sum_univ_three]
    have a : (Ex.add (Ex.sum 3 fun k => Ex.mul (Ex.const (x k)) (Ex.const (x k)))
        (Ex.sum 3 fun k => Ex.mul (Ex.const (y k)) (Ex.const (y k)))).Rounds u (2 * (t * (t + 1))) := by
      refine .add (dot x x) (dot y y) ?_
      rw [d1, d2]
      unfold Fl
      rw [show 2 * (t * (t + 1)) - (t ^ 2 + (t + 1) ^ 2) = -1 by ring, abs_neg, abs_one,
        abs_of_nonneg (by positivity)]
      nlinarith [sq_nonneg t]
    have b := Ex.Rounds.sub a (Ex.Rounds.mul (.const 2) (dot x y) (fl _)) (fl _)
    rw [d3, sub_self] at b
    have c := Ex.Rounds.sqrt (Ex.Rounds.clampMin (c := ε) b) (fl _)
    rwa [max_eq_right hε.le] at c

/-! ## Cases -/

namespace Demo

/-- Water as used in the calculation. -/
noncomputable def waterMol : Spec.Mol 3 := system T cn eeq numbers positions charge {} 3 [0]

section
variable {D : Env} (hD : D.eps ≤ 1 / 2 ^ 23)
include hD

theorem water_r {j k : Fin 3} (h : j ≠ k) :
    1.8 ≤ waterMol.r D.eps j k ∧ waterMol.r D.eps j k ≤ 2.6 := by
  have e : waterMol.r D.eps j k = √(max (dist (coords positions 3 [0] j) (coords positions 3 [0] k) ^ 2)
      D.eps) := rfl
  have hd : (1.8 : ℝ) ^ 2 ≤ dist (coords positions 3 [0] j) (coords positions 3 [0] k) ^ 2 ∧
      dist (coords positions 3 [0] j) (coords positions 3 [0] k) ^ 2 ≤ 2.6 ^ 2 := by
    rw [EuclideanSpace.dist_eq, Real.sq_sqrt (Finset.sum_nonneg fun _ _ => sq_nonneg _)]
    fin_cases j <;> fin_cases k <;>
      first
      | exact absurd rfl h
      | norm_num [Fin.sum_univ_three, coords, positions, Real.dist_eq]
  rw [e]
  constructor
  · rw [show (1.8 : ℝ) = √(1.8 ^ 2) by rw [Real.sqrt_sq]; norm_num]
    exact Real.sqrt_le_sqrt (hd.1.trans (le_max_left _ _))
  · rw [show (2.6 : ℝ) = √(2.6 ^ 2) by rw [Real.sqrt_sq]; norm_num]
    exact Real.sqrt_le_sqrt (max_le hd.2 (hD.trans (by norm_num)))

omit hD in
theorem water_Q (i : Fin 3) : 0 ≤ waterMol.Q i ∧ waterMol.Q i ≤ 4 := by
  have e : ∀ i : Fin 3, waterMol.Q i = √(0.5 * ((Data.r4OverR2.getD (numbers.get [i.1, 0]) 0 : ℕ) / 10 ^ 4 *
    √((numbers.get [i.1, 0] : ℕ) : ℝ))) := fun i => rfl
  refine ⟨by rw [e]; exact Real.sqrt_nonneg _, ?_⟩
  rw [e, show (4 : ℝ) = √(4 ^ 2) by rw [Real.sqrt_sq]; norm_num]
  refine Real.sqrt_le_sqrt ?_
  have s8 : √(8 : ℝ) ≤ 3 := by
    rw [show (3 : ℝ) = √(3 ^ 2) by rw [Real.sqrt_sq]; norm_num]
    exact Real.sqrt_le_sqrt (by norm_num)
  fin_cases i <;> norm_num [numbers, Data.r4OverR2]
  linarith

theorem water_R0 (i j : Fin 3) :
    5 ≤ Spec.R0 (d4Computed D T .d4 par {}) waterMol i j ∧
      Spec.R0 (d4Computed D T .d4 par {}) waterMol i j ≤ 8 := by
  have e : Spec.R0 (d4Computed D T .d4 par {}) waterMol i j =
    0.4 * √(max (3 * waterMol.Q i * waterMol.Q j) D.eps) + 5 := rfl
  have h : √(max (3 * waterMol.Q i * waterMol.Q j) D.eps) ≤ 7 := by
    rw [show (7 : ℝ) = √(7 ^ 2) by rw [Real.sqrt_sq]; norm_num]
    refine Real.sqrt_le_sqrt (max_le ?_ (hD.trans (by norm_num)))
    have := mul_le_mul (water_Q i).2 (water_Q j).2 (water_Q j).1 (by norm_num)
    linarith
  have h0 := Real.sqrt_nonneg (max (3 * waterMol.Q i * waterMol.Q j) D.eps)
  rw [e]
  constructor <;> linarith

omit hD in
theorem log_le {x : ℝ} (h1 : 1 ≤ x) (h2 : x ≤ 2 ^ 7) : |Real.log x| ≤ 4.87 := by
  rw [abs_of_nonneg (Real.log_nonneg h1)]
  have := Real.log_le_log (by linarith) h2
  rw [Real.log_pow] at this
  have := Real.log_two_lt_d9
  push_cast at *
  linarith

theorem water_roundable {u : ℝ} (hu : 0 ≤ u) (hu1 : u ≤ 1 / 2 ^ 24) : Spec.Roundable u 30 6 26 (d4Computed D T .d4 par {}) par waterMol where
  Q i := (water_Q i).1
  s6 := by norm_num [par]
  s8 := by norm_num [par]
  s10 := by norm_num [par]
  a1 := by norm_num [par]
  a2 := by norm_num [par]
  alp := by norm_num [par]
  cut2 := by norm_num [d4Computed, Spec.d4Settings, Defaults.disp2Cutoff]
  cut3 := by norm_num [d4Computed, Spec.d4Settings, Defaults.disp3Cutoff]
  clear i j _ _ hij := by
    have h := (water_r hD hij).2
    have hp : (1 / 2 : ℝ) ≤ (1 - u) ^ (30 + 1) := by
      have := one_add_mul_le_pow (a := -u) (by linarith) (30 + 1)
      rw [← sub_eq_add_neg] at this
      push_cast at this
      linarith
    constructor
    · refine Or.inl (h.trans ?_)
      show (2.6 : ℝ) ≤ (1 - u) ^ (30 + 1) * 60
      linarith
    · refine Or.inl (h.trans ?_)
      show (2.6 : ℝ) ≤ (1 - u) ^ (30 + 1) * 40
      linarith
  exponent := by
    show (16 : ℝ) / 3 ≤ (6 : ℕ) * (1 - u)
    push_cast
    linarith
  power i j k _ _ _ hij hik hjk := by
    obtain ⟨a1, a2⟩ := water_R0 hD i j
    obtain ⟨b1, b2⟩ := water_R0 hD i k
    obtain ⟨c1, c2⟩ := water_R0 hD j k
    obtain ⟨x1, x2⟩ := water_r hD hij
    obtain ⟨y1, y2⟩ := water_r hD hik
    obtain ⟨z1, z2⟩ := water_r hD hjk
    show (16 : ℝ) / 3 * |Real.log (Spec.R0 (d4Computed D T .d4 par {}) waterMol i j *
      Spec.R0 (d4Computed D T .d4 par {}) waterMol i k *
      Spec.R0 (d4Computed D T .d4 par {}) waterMol j k /
      (waterMol.r D.eps i j * waterMol.r D.eps i k * waterMol.r D.eps j k))| ≤ (26 : ℕ)
    generalize Spec.R0 (d4Computed D T .d4 par {}) waterMol i j = A at *
    generalize Spec.R0 (d4Computed D T .d4 par {}) waterMol i k = B at *
    generalize Spec.R0 (d4Computed D T .d4 par {}) waterMol j k = C at *
    generalize waterMol.r D.eps i j = x at *
    generalize waterMol.r D.eps i k = y at *
    generalize waterMol.r D.eps j k = z at *
    have hx : 0 < x := by linarith
    have hy : 0 < y := by linarith
    have hz : 0 < z := by linarith
    have r1 : (1.8 : ℝ) * 1.8 * 1.8 ≤ x * y * z := by gcongr
    have r2 : x * y * z ≤ 2.6 * 2.6 * 2.6 := by gcongr
    have R1 : (5 : ℝ) * 5 * 5 ≤ A * B * C := by gcongr
    have R2 : A * B * C ≤ 8 * 8 * 8 := by gcongr
    have hp : 0 < x * y * z := by positivity
    have := log_le (x := A * B * C / (x * y * z)) ((one_le_div hp).2 (by linarith))
      ((div_le_iff₀ hp).2 (by linarith))
    push_cast
    linarith

end

/-- Unit roundoff of double precision. -/
noncomputable def dbl : ℝ := 1 / 2 ^ 53

theorem env_eps : env.eps ≤ 1 / 2 ^ 23 := by norm_num [env]

theorem water_double : Spec.Roundable dbl 30 6 26 (d4Computed env T .d4 par {}) par waterMol :=
  water_roundable env_eps (by norm_num [dbl]) (by norm_num [dbl])

/-- Double precision, with distances, C6 coefficients and `r4r2` that have been rounded up to 30, 100
and 5 times: the energy of an atom of water has an error of at most 4e-13 times the sum of absolute values. -/
example : ∃ e, dftd4 env T ext numbers positions charge param {} = .ok e ∧
    ∀ (i : Fin 3) (z : ℝ), ((machineInput env T .d4 par param {} waterMol 30 100 5).energy i).Rounds dbl z →
      |z - e.get [i.1, 0]| ≤ 4e-13 * (|Spec.e2 (d4Computed env T .d4 par {}) waterMol waterMol.atom i| +
        Spec.abs3 (d4Computed env T .d4 par {}) waterMol i) := by
  obtain ⟨e, h1, h2⟩ := C57_energy call
  refine ⟨e, h1, fun i z hz => ?_⟩
  have := h2 dbl 30 100 5 6 26 (by norm_num [dbl]) (by norm_num [dbl])
    (by norm_num [Spec.roundings, dbl]) [0] (by simp [InB]) water_double i z hz
  refine this.trans (mul_le_mul_of_nonneg_right (by norm_num [Spec.roundings, dbl]) ?_)
  exact nonneg_of_mul_nonneg_right ((abs_nonneg _).trans this) (by norm_num [Spec.roundings, dbl])

/-- Exact arithmetic is one of the machines, so there are values `z`. -/
example (i : Fin 3) : ∃ z, ((machineInput env T .d4 par param {} waterMol 30 100 5).energy i).Rounds dbl z :=
  ⟨_, Ex.Proper.exact (by norm_num [dbl]) (by norm_num [dbl]) (Input.proper (Input.good
    (c := c6At env T .d4) (u := dbl) (by norm_num [dbl]) (by norm_num [dbl]) env.eps_pos
    (fun A A' => c6At_nonneg A A') reads.kw10 water_double) i)⟩

/-- Oxygen at the origin and hydrogen at 1.8 Bohr: accurate to 11 roundings. -/
example {z : ℝ} (hz : (cdistEx (1 / 2 ^ 52) ![0, 0, 0] ![1.8, 0, 0]).Rounds dbl z) :
    Near dbl 11 1.8 z := by
  have h := C57_distance (m := 10) (by norm_num [dbl]) (by norm_num [dbl]) (by norm_num)
    (by norm_num [dbl]) (by simp [Spec.far3, Spec.sq3, Fin.sum_univ_three]) hz
  have e : Spec.rsqrt (1 / 2 ^ 52) (Spec.sq3 ![0, 0, 0] ![1.8, 0, 0]) = 1.8 := by
    unfold Spec.rsqrt
    rw [show Spec.sq3 ![0, 0, 0] ![1.8, 0, 0] = (1.8 : ℝ) ^ 2 by
      simp [Spec.sq3, Fin.sum_univ_three], max_eq_left (by norm_num), Real.sqrt_sq (by norm_num)]
  rwa [e] at h

end Demo

/-- Double precision and `eps` of double precision. -/
example := C57_far (u := Demo.dbl) (ε := 1 / 2 ^ 52) (by norm_num [Demo.dbl]) (by norm_num)

example (fl : ℝ → ℝ) (hfl : ∀ x, |fl x - x| ≤ Demo.dbl * |x|) (i : Fin 3) :
    ∃ e, dftd4 Demo.env Demo.T Demo.ext Demo.numbers Demo.positions Demo.charge Demo.param {} = .ok e ∧
    let S := d4Computed Demo.env Demo.T .d4 Demo.par {}
    |((machineInput Demo.env Demo.T .d4 Demo.par Demo.param {} Demo.waterMol 30 100 5).energy i).run fl -
      e.get [i.1, 0]| ≤ 2 * Spec.roundings 3 30 100 5 6 26 * Demo.dbl *
        (|Spec.e2 S Demo.waterMol Demo.waterMol.atom i| + Spec.abs3 S Demo.waterMol i) := by
  obtain ⟨e, h1, h2⟩ := C57_machine Demo.call
  exact ⟨e, h1, h2 Demo.dbl fl 30 100 5 6 26 (by norm_num [Demo.dbl]) (by norm_num [Demo.dbl]) hfl
    (by norm_num [Spec.roundings, Demo.dbl]) [0] (by simp [InB]) Demo.water_double i⟩

/-- Without three-body term (`s9 = 0`). -/
example (i : Fin 3) (z : ℝ) :
    ∃ e, dftd4 Demo.env Demo.T Demo.ext Demo.numbers Demo.positions Demo.charge
      { Demo.param with s9 := .val 0 } {} = .ok e ∧
    (((machineInput Demo.env Demo.T .d4 { Demo.par with s9 := 0 } { Demo.param with s9 := .val 0 } {}
      Demo.waterMol 30 100 5).energy i).Rounds Demo.dbl z →
    |z - e.get [i.1, 0]| ≤ 2 * Spec.roundings 3 30 100 5 6 26 * Demo.dbl * |e.get [i.1, 0]|) := by
  have hc : Call Demo.env Demo.T Demo.ext Demo.numbers Demo.positions Demo.charge
      { Demo.param with s9 := .val 0 } {} 3 [2] .d4 Demo.cn Demo.eeq { Demo.par with s9 := 0 } :=
    { Demo.call with par := { Demo.reads with s9 := Or.inl rfl } }
  obtain ⟨e, h1, h2⟩ := C57_twobody hc rfl
  exact ⟨e, h1, h2 Demo.dbl 30 100 5 6 26 (by norm_num [Demo.dbl]) (by norm_num [Demo.dbl])
    (by norm_num [Spec.roundings, Demo.dbl]) [0] (by simp [InB])
    ⟨Demo.water_double.Q, Demo.water_double.s6, Demo.water_double.s8, Demo.water_double.s10,
      Demo.water_double.a1, Demo.water_double.a2, Demo.water_double.alp, Demo.water_double.cut2,
      Demo.water_double.cut3, Demo.water_double.clear, Demo.water_double.exponent,
      Demo.water_double.power⟩ i z⟩

end TadDftd4
