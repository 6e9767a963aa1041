import Verif.Lemmas.C6Pos
import Verif.Props.C16

/-!
# C16: C6 coefficients of real atoms are strictly positive
# C08: the two-body energy of `dftd4` is strictly attractive
-/

set_option linter.unusedSimpArgs false

open scoped Classical

namespace TadDftd4

open Tensor

section
variable {env : Env} {T : Tables} {R : RefCfg} {m : RefModel} {numbers : Tensor ℕ} {n : ℕ} {B : Shape}

/-- The C6 coefficient of every pair of atoms with polarizable references is positive (D4 and D4S,
any optional `cn`, `q`; exponentials without underflow). -/
theorem C16_positive (h : m.IsFor env T numbers R n B) (hfl : env.fl = id) (hT : T.Physical R.rq)
    (hgc : 0 < R.gc) {co qo : Option (Tensor ℝ)} {cg qg : Idx → ℝ} (hc : D4.OptIs co n B cg)
    (hq : D4.OptIs qo n B qg) {b : Idx} (hb : InB B b) {i j : ℕ} (hi : i < n) (hj : j < n)
    (pi : T.Polarizable env R (numbers.get (i :: b)))
    (pj : T.Polarizable env R (numbers.get (j :: b))) :
    0 < (m.atomicC6 (m.weights env T co qo)).get (j :: i :: b) := by
  rw [(model_c6_eval h hc hq).2 b i j hb hi hj]
  have hlt : ∀ k < n, numbers.get (k :: b) < T.nZ := by
    intro k hk
    have := h.good.lt (k :: b) (by rw [h.good.shape]; exact ⟨hk, hb⟩)
    rwa [h.num] at this
  exact c6At_pos hfl hT hgc (hlt i hi) (hlt j hj) pi pj

/-- With the shipped tables: all elements from hydrogen to lawrencium except cerium. -/
theorem C16_positive_shipped {nExt : ℕ} {gam zeff : ℕ → ℝ} {vdw : ℕ → ℕ → ℝ}
    (hext : ExtTables nExt gam zeff) (hrq : knownCharges R.rq)
    (h : m.IsFor env (shipped nExt gam zeff vdw) numbers R n B) (hfl : env.fl = id) (hgc : 0 < R.gc)
    {co qo : Option (Tensor ℝ)} {cg qg : Idx → ℝ} (hc : D4.OptIs co n B cg)
    (hq : D4.OptIs qo n B qg) {b : Idx} (hb : InB B b) {i j : ℕ} (hi : i < n) (hj : j < n)
    (pi : numbers.get (i :: b) ≠ 0 ∧ numbers.get (i :: b) ≠ 58)
    (pj : numbers.get (j :: b) ≠ 0 ∧ numbers.get (j :: b) ≠ 58) :
    0 < (m.atomicC6 (m.weights env (shipped nExt gam zeff vdw) co qo)).get (j :: i :: b) := by
  have hlt : ∀ k < n, numbers.get (k :: b) < 104 := by
    intro k hk
    have := h.good.lt (k :: b) (by rw [h.good.shape]; exact ⟨hk, hb⟩)
    rwa [h.num] at this
  have hi' := hlt i hi
  have hj' := hlt j hj
  exact C16_positive h hfl (shipped_physical hext hrq) hgc hc hq hb hi hj
    (shipped_polarizable (by omega) (by omega) pi.2) (shipped_polarizable (by omega) (by omega) pj.2)

end

section
variable {env : Env} {T : Tables} {ext : Ext} {numbers : Tensor ℕ} {positions charge : Tensor ℝ}
  {p : Param} {o : DftOpts} {n : ℕ} {B : Shape} {R : RefCfg} {cn : Spec.CN} {eeq : Spec.EEQ}
  {P : Spec.D4Par}

theorem pairTerm_nonneg {cutoff : Cutoff} {M : Spec.Mol n} (h6 : 0 ≤ P.s6) (h8 : 0 ≤ P.s8)
    (h10 : 0 ≤ P.s10) (hQ : ∀ i, 0 ≤ M.Q i) (i j : Fin n) :
    0 ≤ Spec.pairTerm (d4Computed env T R P cutoff) M M.atom i j ∧
    (0 < P.s6 → 0 < c6At env T R (M.atom i) (M.atom j) →
      0 < Spec.pairTerm (d4Computed env T R P cutoff) M M.atom i j) := by
  have hr : 0 < M.r env.eps i j := M.r_pos env.eps_pos i j
  have hc : 0 ≤ c6At env T R (M.atom i) (M.atom j) := c6At_nonneg _ _
  have hqq : 0 ≤ 3 * M.Q i * M.Q j := mul_nonneg (mul_nonneg (by norm_num) (hQ i)) (hQ j)
  have hf : ∀ k : ℕ, Even k → ∀ x : ℝ, 0 < 1 / (M.r env.eps i j ^ k + x ^ k) := fun k hk x =>
    one_div_pos.2 (by linarith [pow_pos hr k, hk.pow_nonneg x])
  have t6 := hf 6 (by decide) (P.a1 * √(3 * M.Q i * M.Q j) + P.a2)
  have t8 := hf 8 (by decide) (P.a1 * √(3 * M.Q i * M.Q j) + P.a2)
  have t10 := hf 10 (by decide) (P.a1 * √(3 * M.Q i * M.Q j) + P.a2)
  have u8 := mul_nonneg h8 (mul_nonneg (mul_nonneg hc hqq) t8.le)
  have u10 := mul_nonneg h10 (mul_nonneg (div_nonneg (mul_nonneg (mul_nonneg hc (sq_nonneg
    (3 * M.Q i * M.Q j))) (by norm_num : (0 : ℝ) ≤ 49)) (by norm_num : (0 : ℝ) ≤ 40)) t10.le)
  constructor
  · have u6 := mul_nonneg h6 (mul_nonneg hc t6.le)
    exact add_nonneg (add_nonneg u6 u8) u10
  · intro h6' hc'
    have u6 := mul_pos h6' (mul_pos hc' t6)
    exact add_pos_of_pos_of_nonneg (add_pos_of_pos_of_nonneg u6 u8) u10

/-- `dftd4` without three-body term (`s9 = 0`): no energy is positive, and the energy of an atom with
another atom within the cutoff is negative. -/
theorem C08_dftd4 (h : Call env T ext numbers positions charge p o n B R cn eeq P)
    (h9 : P.s9 = 0) (h6 : 0 ≤ P.s6) (h8 : 0 ≤ P.s8) (h10 : 0 ≤ P.s10)
    (hQ : ∀ b, InB B b → ∀ i, 0 ≤ (system T cn eeq numbers positions charge o.opts n b).Q i) :
    ∃ e, dftd4 env T ext numbers positions charge p o = .ok e ∧ ∀ b, InB B b → ∀ i : Fin n,
      e.get (i.1 :: b) ≤ 0 ∧
      (env.fl = id → T.Physical R.rq → 0 < R.gc → 0 < P.s6 →
        ∀ j : Fin n, i ≠ j → numbers.get (i.1 :: b) ≠ 0 → numbers.get (j.1 :: b) ≠ 0 →
        T.Polarizable env R (numbers.get (i.1 :: b)) → T.Polarizable env R (numbers.get (j.1 :: b)) →
        (system T cn eeq numbers positions charge o.opts n b).r env.eps i j ≤
          (o.opts.cutoff.getD {}).disp2 → e.get (i.1 :: b) < 0) := by
  obtain ⟨e, he, -, hv⟩ := h.eval
  refine ⟨e, he, fun b hb i => ?_⟩
  set M := system T cn eeq numbers positions charge o.opts n b with hM
  set S := d4Computed env T R P (o.opts.cutoff.getD {}) with hS
  have h3 : Spec.e3 S M (Spec.c9 S M.neutral) (Spec.R0 S M) i = 0 := by
    have : S.s9 = 0 := h9
    simp [Spec.e3, Spec.tripleTerm, this]
  rw [hv b hb i, Spec.energy, h3, add_zero, Spec.e2]
  have hnn : ∀ j ∈ (Finset.univ : Finset (Fin n)), 0 ≤ (if M.Z i ≠ 0 ∧ M.Z j ≠ 0 ∧ i ≠ j ∧
      M.r S.ε i j ≤ S.cut2 then Spec.pairTerm S M M.atom i j else 0) := by
    intro j _
    split_ifs
    · exact (pairTerm_nonneg h6 h8 h10 (hQ b hb) i j).1
    · exact le_rfl
  constructor
  · linarith [Finset.sum_nonneg hnn]
  · intro hfl hT hgc h6' j hij hZi hZj pi pj hcut
    have hpos := (pairTerm_nonneg (env := env) (T := T) (R := R) (P := P)
      (cutoff := o.opts.cutoff.getD {}) h6 h8 h10 (hQ b hb) i j).2 h6'
      (c6At_pos hfl hT hgc (h.args.Z_lt (cn := cn) (eeq := eeq) hb i)
        (h.args.Z_lt (cn := cn) (eeq := eeq) hb j) pi pj)
    have hs := Finset.single_le_sum hnn (Finset.mem_univ j)
    rw [if_pos ⟨hZi, hZj, hij, hcut⟩] at hs
    have : 0 < Spec.pairTerm S M M.atom i j := hpos
    linarith

end

/-- Water: the O–H coefficient is positive. -/
example : 0 < (D4.atomicC6 Demo.model (D4.weights Demo.env Demo.T Demo.model none none)).get
    [1, 0, 0] := by
  have h : Demo.model.IsFor Demo.env Demo.T Demo.numbers .d4 3 [2] := by
    refine ⟨rfl, Demo.model_good, rfl, rfl, rfl, rfl, rfl, Or.inl ⟨rfl, 6, rfl, fun _ _ => rfl⟩⟩
  exact C16_positive_shipped (R := .d4) (b := [0]) Demo.extTables (Or.inl rfl) h rfl
    (by norm_num [RefCfg.d4]) (Or.inl ⟨rfl, rfl⟩) (Or.inl ⟨rfl, rfl⟩) (by simp [InB]) (by norm_num)
    (by norm_num) (by decide) (by decide)

/-- The same from the table entries, for oxygen and hydrogen. -/
example : 0 < (D4.atomicC6 Demo.model (D4.weights Demo.env Demo.T Demo.model none none)).get
    [1, 0, 0] := by
  have h : Demo.model.IsFor Demo.env Demo.T Demo.numbers .d4 3 [2] := by
    refine ⟨rfl, Demo.model_good, rfl, rfl, rfl, rfl, rfl, Or.inl ⟨rfl, 6, rfl, fun _ _ => rfl⟩⟩
  exact C16_positive (R := .d4) (b := [0]) h rfl Demo.physical (by norm_num [RefCfg.d4])
    (Or.inl ⟨rfl, rfl⟩) (Or.inl ⟨rfl, rfl⟩) (by simp [InB]) (by norm_num) (by norm_num)
    (shipped_polarizable (by decide) (by decide) (by decide))
    (shipped_polarizable (by decide) (by decide) (by decide))

/-- Water and hydrogen fluoride without three-body term. -/
example := C08_dftd4 (p := { Demo.param with s9 := .val 0 }) (P := { Demo.par with s9 := 0 })
  { Demo.call with
    par := { Demo.reads with s9 := Or.inl rfl } } rfl (by norm_num [Demo.par])
  (by norm_num [Demo.par]) (by norm_num [Demo.par]) (fun _ _ _ => Real.sqrt_nonneg _)

end TadDftd4
