import Verif.Lemmas.C6Pos
import Verif.Lemmas.Errors

/-!
# C27: omitting a scaling parameter equals passing its documented default

True for s6, s9, alp and rs9 (for every input and damping function), for s10 with rational damping.
Omitting s8 (documented default 1) is the same as passing `s8 = 0`; the documented behaviour is false
of the code. With zero damping, passing the default `s10 = 0` is an error.
-/

set_option linter.unusedSimpArgs false

open scoped Classical

namespace TadDftd4

open Tensor

/-- Two parameter dictionaries that no code can distinguish. -/
structure Param.Same (p p' : Param) : Prop where
  extra : p.extra = p'.extra
  kw : p.kw = p'.kw
  s6 : p.s6.tensor Defaults.s6 = p'.s6.tensor Defaults.s6
  s8 : p.s8.tensor Defaults.s8 = p'.s8.tensor Defaults.s8
  s10 : p.s10 = p'.s10
  s9 : p.s9.num Defaults.s9 = p'.s9.num Defaults.s9
  alp : p.alp.num Defaults.alp = p'.alp.num Defaults.alp
  a1 : p.a1.tensor Defaults.a1 = p'.a1.tensor Defaults.a1
  a2 : p.a2.tensor Defaults.a2 = p'.a2.tensor Defaults.a2
  rs9 : p.rs9.tensor Defaults.rs9 = p'.rs9.tensor Defaults.rs9

section
variable {env : Env} {T : Tables} {ext : Ext} {numbers : Tensor ℕ} {positions charge : Tensor ℝ}
  {p p' : Param}

theorem Param.Same.dispersion2 (h : p.Same p') (c6 r4r2 : Tensor ℝ) (rvdw : Option (Tensor ℝ))
    (d : Damping) (cutoff : Option ℝ) (m : Bool) :
    dispersion2 env numbers positions p c6 r4r2 rvdw d cutoff m =
      dispersion2 env numbers positions p' c6 r4r2 rvdw d cutoff m := by
  simp only [TadDftd4.dispersion2, tDamp, Damping.callParam, h.extra, h.kw, h.s6, h.s8, h.s10]

theorem Param.Same.term (h : p.Same p') (t : Term) (cn : Tensor ℝ) (model : RefModel)
    (q : Option (Tensor ℝ)) (r4r2 rvdw : Tensor ℝ) (cutoff : Cutoff) :
    t.calculate env T numbers positions p cn model q r4r2 rvdw cutoff =
      t.calculate env T numbers positions p' cn model q r4r2 rvdw cutoff := by
  unfold Term.calculate Term.radii radiiBJ radiiVDW
  simp only [h.dispersion2, h.s9, h.alp, h.a1, h.a2, h.rs9]

theorem Param.Same.calculate (h : p.Same p') (d : Disp) (o : CalcOpts) :
    d.calculate env T ext numbers positions charge p o =
      d.calculate env T ext numbers positions charge p' o := by
  simp only [Disp.calculate, sumTerms, h.term]

theorem Param.Same.dftd4 (h : p.Same p') (o : DftOpts) :
    dftd4 env T ext numbers positions charge p o = dftd4 env T ext numbers positions charge p' o := by
  simp only [TadDftd4.dftd4, h.calculate]

/-- Omitting `s6` is the same as passing `s6 = 1`: for all inputs, damping functions and options. -/
theorem C27_s6 (h : p.s6 = .absent) (o : DftOpts) :
    dftd4 env T ext numbers positions charge p o =
      dftd4 env T ext numbers positions charge { p with s6 := .val 1 } o := by
  refine Param.Same.dftd4 ?_ o
  constructor <;> simp [Param.kw, PVal.kw, PVal.tensor, h, Defaults.s6]

/-- Omitting `s9` is the same as passing `s9 = 1`. -/
theorem C27_s9 (h : p.s9 = .absent) (o : DftOpts) :
    dftd4 env T ext numbers positions charge p o =
      dftd4 env T ext numbers positions charge { p with s9 := .val 1 } o := by
  refine Param.Same.dftd4 ?_ o
  constructor <;> simp [Param.kw, PVal.kw, PVal.tensor, PVal.num, h, Defaults.s9]

/-- Omitting `alp` is the same as passing `alp = 16`. -/
theorem C27_alp (h : p.alp = .absent) (o : DftOpts) :
    dftd4 env T ext numbers positions charge p o =
      dftd4 env T ext numbers positions charge { p with alp := .val 16 } o := by
  refine Param.Same.dftd4 ?_ o
  constructor <;> simp [Param.kw, PVal.kw, PVal.tensor, PVal.num, h, Defaults.alp]

/-- The same for `rs9` (default 1), in any `Disp` object. -/
theorem C27_rs9 (h : p.rs9 = .absent) (d : Disp) (o : CalcOpts) :
    d.calculate env T ext numbers positions charge p o =
      d.calculate env T ext numbers positions charge { p with rs9 := .val 1 } o := by
  refine Param.Same.calculate ?_ d o
  constructor <;> simp [Param.kw, PVal.kw, PVal.tensor, PVal.num, h, Defaults.rs9]

variable {o : DftOpts} {n : ℕ} {B : Shape} {R : RefCfg} {cn : Spec.CN} {eeq : Spec.EEQ}
  {P : Spec.D4Par}

/-- Omitting `s10` is the same as passing `s10 = 0` (rational damping). -/
theorem C27_s10 (hp : p.s10 = .absent)
    (h : Call env T ext numbers positions charge p o n B R cn eeq P) :
    ∃ e e', dftd4 env T ext numbers positions charge p o = .ok e ∧
      dftd4 env T ext numbers positions charge { p with s10 := .val 0 } o = .ok e' ∧
      e.shape = e'.shape ∧ ∀ b, InB B b → ∀ i < n, e.get (i :: b) = e'.get (i :: b) := by
  have hP : P.s10 = 0 := by
    rcases h.par.s10 with h10 | ⟨-, h10⟩
    · rw [hp] at h10; cases h10
    · exact h10
  have h' : Call env T ext numbers positions charge { p with s10 := .val 0 } o n B R cn eeq P :=
    { h with par := { h.par with s10 := Or.inl (by rw [hP]) } }
  obtain ⟨e, he, hok, hv⟩ := h.eval
  obtain ⟨e', he', hok', hv'⟩ := h'.eval
  refine ⟨e, e', he, he', by rw [hok.shape, hok'.shape], fun b hb i hi => ?_⟩
  rw [hv b hb ⟨i, hi⟩, hv' b hb ⟨i, hi⟩]

/-- With zero damping, passing the documented default `s10 = 0` (or any other number) always fails,
while omitting it does not. -/
theorem C27_s10_zero (hd : o.damping = .zero) {x : ℝ} (hx : p.s10 = .val x) (e : Tensor ℝ) :
    dftd4 env T ext numbers positions charge p o ≠ .ok e := by
  have hterm : ∀ (cnT : Tensor ℝ) m q r4 rv c, (Term.calculate env T ⟨.twoBody, .zero, true⟩ numbers
      positions p cnT m q r4 rv c).err ≠ none := by
    intro cnT m q r4 rv c
    have h10 : ∀ (dist rad : Tensor ℝ), (Damping.callParam env .zero dist rad 10 p).err ≠ none := by
      intro dist rad
      unfold Damping.callParam
      split_ifs
      · simp
      · have hk : p.kw.s10 = some x := by simp [Param.kw, PVal.kw, hx]
        simp only [Damping.call, Damping.checkedF, Damping.required, Damping.f, hk]
        cases p.kw.alp <;> simp
    simp only [Term.calculate, dispersion2, hx]
    have ht : (tDamp env numbers positions p (radii2 .zero r4 (some rv)) .zero
        ((some c.disp2).getD Defaults.disp2Cutoff) 10).err ≠ none := by
      unfold tDamp
      intro h0
      have := h10 (pairDistances env numbers positions) (radii2 .zero r4 (some rv))
      simp only [where_err, orErr_eq_none] at h0
      exact this h0.1.2.1
    intro h0
    simp [orErr_eq_none] at h0
    simp_all
  intro h
  obtain ⟨m, cnT, q, ht⟩ := dftd4_ok h
  exact hterm _ _ _ _ _ _ (ht _ (Or.inl (by rw [hd])))

/-! ## `s8` -/

/-- Settings with the eighth-order damping function switched off. -/
noncomputable def noEight (env : Env) (T : Tables) (R : RefCfg) (P : Spec.D4Par) (cutoff : Cutoff) :
    Spec.Settings :=
  { d4Computed env T R P cutoff with f8 := fun _ _ => 0, s8 := Defaults.s8 }

theorem noEight_energy {cutoff : Cutoff} (M : Spec.Mol n) (i : Fin n) :
    Spec.energy (noEight env T R P cutoff) M i =
      Spec.energy (d4Computed env T R { P with s8 := 0 } cutoff) M i := by
  unfold Spec.energy
  congr 1
  unfold Spec.e2
  congr 1
  refine Finset.sum_congr rfl fun j _ => ?_
  refine if_congr Iff.rfl ?_ rfl
  simp only [Spec.pairTerm, noEight, d4Computed, Spec.d4Settings]
  rw [mul_zero, mul_zero, zero_mul]
  rfl

/-- The call of `dftd4` without `s8` and `rs8`. -/
theorem call_without_s8 (hrs : p.rs8 = .absent)
    (h : Call env T ext numbers positions charge p o n B R cn eeq P) :
    ∃ e, dftd4 env T ext numbers positions charge { p with s8 := .absent } o = .ok e ∧
      e.Ok (n :: B) ∧ ∀ b, InB B b → ∀ i : Fin n, e.get (i.1 :: b) =
        Spec.energy (d4Computed env T R { P with s8 := 0 } (o.opts.cutoff.getD {}))
          (system T cn eeq numbers positions charge o.opts n b) i := by
  have hp : DftPar env T R { p with s8 := .absent } (o.opts.cutoff.getD {}) .rational
      { noEight env T R P (o.opts.cutoff.getD {}) with f9 := zeroF env 1 (P.alp / 3) } := by
    have h6 : p.kw.s6 ≠ none := by
      rcases h.par.s6 with h | ⟨h, -⟩ <;> simp [Param.kw, PVal.kw, h]
    have hr6 : p.kw.s6 = none ↔ False := by simp [h6]
    have k6 : ({ p with s8 := .absent } : Param).kw.s6 = p.kw.s6 := rfl
    have k10 : ({ p with s8 := .absent } : Param).kw.s10 = p.kw.s10 := rfl
    refine ⟨rfl, rfl, ?_, rfl, rfl, h.cut3, h.par.s9, Or.inl h.par.a1, Or.inl h.par.a2,
      ⟨P.alp, h.par.alp, rfl⟩⟩
    refine ⟨h.par.extra, ?_, ?_, h.par.s6, Or.inr ⟨rfl, rfl⟩, ?_, rfl⟩
    · simp only [Damping.point, k6, h6]
      simp [Damping.required, Damping.pointF, Param.kw, PVal.kw, h.par.a1, h.par.a2]
      rfl
    · simp [Damping.point, Param.kw, PVal.kw, hrs]
      rfl
    · rcases h.par.s10 with h10 | ⟨h10, h0⟩
      · refine Or.inr ⟨h10, ?_⟩
        simp [Damping.point, Damping.required, Damping.pointF, Param.kw, PVal.kw, h.par.a1, h.par.a2,
          h10]
        rfl
      · exact Or.inl ⟨h10, h0⟩
  obtain ⟨e, h1, h2, h3⟩ := dftd4_eval h.keys h.args h.model h.cn h.eeq (by rw [h.damping]; exact hp)
  refine ⟨e, h1, h2, fun b hb i => ?_⟩
  rw [h3 b hb i, ← noEight_energy]
  refine Spec.energy_congr ?_ ?_ i
  · exact env.eps_pos
  · constructor
    case f9 => intro R r hr; exact zeroF_pos hr
    all_goals intros; rfl

/-- What is true: without `s8` (and `rs8`), `dftd4` returns the same as with `s8 = 0`. The full
statement is `OmittedS8IsDefault`. -/
theorem C27_s8_partial (hrs : p.rs8 = .absent)
    (h : Call env T ext numbers positions charge p o n B R cn eeq P) :
    ∃ e e', dftd4 env T ext numbers positions charge { p with s8 := .absent } o = .ok e ∧
      dftd4 env T ext numbers positions charge { p with s8 := .val 0 } o = .ok e' ∧
      e.shape = e'.shape ∧ ∀ b, InB B b → ∀ i < n, e.get (i :: b) = e'.get (i :: b) := by
  have h' : Call env T ext numbers positions charge { p with s8 := .val 0 } o n B R cn eeq
      { P with s8 := 0 } := { h with par := { h.par with s8 := rfl } }
  obtain ⟨e, he, hok, hv⟩ := call_without_s8 hrs h
  obtain ⟨e', he', hok', hv'⟩ := h'.eval
  refine ⟨e, e', he, he', by rw [hok.shape, hok'.shape], fun b hb i hi => ?_⟩
  rw [hv b hb ⟨i, hi⟩, hv' b hb ⟨i, hi⟩]

theorem ite_lin {c1 c2 c3 : Prop} [Decidable c1] [Decidable c2] [Decidable c3] {x y z : ℝ} (s : ℝ)
    (h1 : c1 ↔ c3) (h2 : c2 ↔ c3) (h : -(1 / 2) * x = -(1 / 2) * y + 1 / 2 * (s * z)) :
    -(1 / 2) * (if c1 then x else 0) = -(1 / 2) * (if c2 then y else 0) +
      1 / 2 * (s * if c3 then z else 0) := by
  by_cases hc : c3
  · rw [if_pos hc, if_pos (h1.2 hc), if_pos (h2.2 hc)]; exact h
  · rw [if_neg hc, if_neg (fun h => hc (h1.1 h)), if_neg (fun h => hc (h2.1 h))]; simp

/-- The eighth-order energy missing without `s8`. -/
theorem C27_s8_missing (hrs : p.rs8 = .absent)
    (h : Call env T ext numbers positions charge p o n B R cn eeq P) :
    ∃ e e', dftd4 env T ext numbers positions charge { p with s8 := .absent } o = .ok e ∧
      dftd4 env T ext numbers positions charge p o = .ok e' ∧
      ∀ b, InB B b → ∀ i : Fin n,
        let M := system T cn eeq numbers positions charge o.opts n b
        e.get (i.1 :: b) = e'.get (i.1 :: b) + P.s8 * (1 / 2 * ∑ j : Fin n,
          if M.Z i ≠ 0 ∧ M.Z j ≠ 0 ∧ i ≠ j ∧ M.r env.eps i j ≤ (o.opts.cutoff.getD {}).disp2 then
            c6At env T R (M.atom i) (M.atom j) * (3 * M.Q i * M.Q j) /
              (M.r env.eps i j ^ 8 + (P.a1 * √(3 * M.Q i * M.Q j) + P.a2) ^ 8) else 0) := by
  obtain ⟨e, he, hok, hv⟩ := call_without_s8 hrs h
  obtain ⟨e', he', hok', hv'⟩ := h.eval
  refine ⟨e, e', he, he', fun b hb i => ?_⟩
  intro M
  rw [hv b hb i, hv' b hb i]
  unfold Spec.energy
  have : Spec.e2 (d4Computed env T R { P with s8 := 0 } (o.opts.cutoff.getD {})) M M.atom i =
      Spec.e2 (d4Computed env T R P (o.opts.cutoff.getD {})) M M.atom i + P.s8 * (1 / 2 *
        ∑ j : Fin n,
          if M.Z i ≠ 0 ∧ M.Z j ≠ 0 ∧ i ≠ j ∧ M.r env.eps i j ≤ (o.opts.cutoff.getD {}).disp2 then
            c6At env T R (M.atom i) (M.atom j) * (3 * M.Q i * M.Q j) /
              (M.r env.eps i j ^ 8 + (P.a1 * √(3 * M.Q i * M.Q j) + P.a2) ^ 8) else 0) := by
    unfold Spec.e2
    rw [mul_left_comm, Finset.mul_sum, Finset.mul_sum, Finset.mul_sum, Finset.mul_sum,
      ← Finset.sum_add_distrib]
    refine Finset.sum_congr rfl fun j _ => ?_
    refine ite_lin _ Iff.rfl Iff.rfl ?_
    simp only [Spec.pairTerm, d4Computed, Spec.d4Settings, Spec.rad]
    generalize (P.a1 * √(3 * M.Q i * M.Q j) + P.a2) = x
    ring
  rw [this]
  exact add_right_comm _ _ _

end

/-- Full statement: leaving out `s8` gives the energies for `s8 = 1`, the documented default. -/
def OmittedS8IsDefault : Prop :=
  ∀ (env : Env) (T : Tables) (ext : Ext) (numbers : Tensor ℕ) (positions charge : Tensor ℝ)
    (p : Param) (o : DftOpts) (n : ℕ) (B : Shape) (R : RefCfg) (cn : Spec.CN) (eeq : Spec.EEQ)
    (P : Spec.D4Par), p.rs8 = .absent → p.s8 = .val 1 →
    Call env T ext numbers positions charge p o n B R cn eeq P →
    ∀ e e', dftd4 env T ext numbers positions charge { p with s8 := .absent } o = .ok e →
      dftd4 env T ext numbers positions charge p o = .ok e' →
      ∀ b, InB B b → ∀ i < n, e.get (i :: b) = e'.get (i :: b)

namespace Demo

noncomputable def param1 : Param where
  a1 := .val 0.4
  a2 := .val 5
  s8 := .val 1

theorem call1 : Call env T ext numbers positions charge param1 {} 3 [2] .d4 cn eeq
    { par with s8 := 1 } :=
  { call with
    par := ⟨rfl, rfl, rfl, rfl, Or.inr ⟨rfl, rfl⟩, Or.inr ⟨rfl, rfl⟩, Or.inr ⟨rfl, rfl⟩,
      Or.inr ⟨rfl, rfl⟩⟩ }

end Demo

/-- The full statement is false: for water the energy of the oxygen atom differs. -/
theorem C27_s8_false : ¬ OmittedS8IsDefault := by
  intro H
  obtain ⟨e, e', he, he', hv⟩ := C27_s8_missing (p := Demo.param1) rfl Demo.call1
  have hI : InB [2] [0] := by simp [InB]
  have h0 := H _ _ _ _ _ _ _ _ _ _ _ _ _ _ rfl rfl Demo.call1 e e' he he' [0] hI 0 (by norm_num)
  have h1 := hv [0] hI (0 : Fin 3)
  simp only [Fin.val_zero] at h1
  rw [h0] at h1
  have hz : ∀ i : Fin 3, 0 < (elements Demo.numbers 3 [0] i) ∧ elements Demo.numbers 3 [0] i < 10 := by
    intro i; fin_cases i <;> simp [elements, Demo.numbers]
  set M := system Demo.T Demo.cn Demo.eeq Demo.numbers Demo.positions Demo.charge ({} : DftOpts).opts
    3 [0] with hM
  have hZ : ∀ i, M.Z i = elements Demo.numbers 3 [0] i := fun _ => rfl
  have hQ : ∀ i, 0 < M.Q i := by
    intro i
    have := hz i
    exact shipped_r4r2_pos (nExt := 119) (gam := Demo.gam) (zeff := Demo.zeff) (vdw := fun _ _ => 3)
      this.1 (by omega)
  have hc6 : ∀ i j, 0 < c6At Demo.env Demo.T .d4 (M.atom i) (M.atom j) := by
    intro i j
    have hi := hz i
    have hj := hz j
    have hp : ∀ k, Demo.T.Polarizable Demo.env .d4 (M.atom k).Z := fun k => by
      have := hz k
      exact shipped_polarizable (by show 1 ≤ M.Z k; rw [hZ]; omega)
        (by show M.Z k ≤ 103; rw [hZ]; omega) (by show M.Z k ≠ 58; rw [hZ]; omega)
    exact c6At_pos rfl Demo.physical (by norm_num [RefCfg.d4])
      (by show M.Z i < 104; rw [hZ]; omega) (by show M.Z j < 104; rw [hZ]; omega) (hp i) (hp j)
  have hpos : ∀ j, 0 < c6At Demo.env Demo.T .d4 (M.atom 0) (M.atom j) * (3 * M.Q 0 * M.Q j) /
      (M.r Demo.env.eps 0 j ^ 8 + (0.4 * √(3 * M.Q 0 * M.Q j) + 5) ^ 8) := by
    intro j
    refine div_pos (mul_pos (hc6 0 j) (mul_pos (mul_pos (by norm_num) (hQ 0)) (hQ j))) ?_
    have : 0 < M.r Demo.env.eps 0 j := M.r_pos Demo.env.eps_pos 0 j
    positivity
  have hr : M.r Demo.env.eps 0 1 ≤ (({} : DftOpts).opts.cutoff.getD {}).disp2 := by
    have h1 : dist (coords Demo.positions 3 [0] 0) (coords Demo.positions 3 [0] 1) ≤ 60 := by
      rw [EuclideanSpace.dist_eq, Real.sqrt_le_left (by norm_num)]
      simp [coords, Demo.positions, Fin.sum_univ_three, Real.dist_eq]
      norm_num
    show √(max _ _) ≤ (60 : ℝ)
    rw [Real.sqrt_le_left (by norm_num)]
    refine max_le (pow_le_pow_left₀ dist_nonneg h1 2) ?_
    norm_num [Demo.env]
  have hs : 0 < ∑ j : Fin 3, if M.Z 0 ≠ 0 ∧ M.Z j ≠ 0 ∧ (0 : Fin 3) ≠ j ∧
      M.r Demo.env.eps 0 j ≤ (({} : DftOpts).opts.cutoff.getD {}).disp2 then
      c6At Demo.env Demo.T .d4 (M.atom 0) (M.atom j) * (3 * M.Q 0 * M.Q j) /
      (M.r Demo.env.eps 0 j ^ 8 + (0.4 * √(3 * M.Q 0 * M.Q j) + 5) ^ 8) else 0 := by
    refine Finset.sum_pos' (fun j _ => ?_) ⟨1, Finset.mem_univ _, ?_⟩
    · split_ifs
      · exact (hpos j).le
      · exact le_rfl
    · rw [if_pos ⟨by rw [hZ]; exact (hz 0).1.ne', by rw [hZ]; exact (hz 1).1.ne', by decide, hr⟩]
      exact hpos 1
  have hs' : (1 : ℝ) * (1 / 2 * ∑ j : Fin 3, if M.Z 0 ≠ 0 ∧ M.Z j ≠ 0 ∧ (0 : Fin 3) ≠ j ∧
      M.r Demo.env.eps 0 j ≤ (({} : DftOpts).opts.cutoff.getD {}).disp2 then
      c6At Demo.env Demo.T .d4 (M.atom 0) (M.atom j) * (3 * M.Q 0 * M.Q j) /
      (M.r Demo.env.eps 0 j ^ 8 + (0.4 * √(3 * M.Q 0 * M.Q j) + 5) ^ 8) else 0) = 0 := by
    have := h1
    simp only [Demo.par] at this
    linarith
  linarith

/-- The hypotheses of the positive statements are met: the dictionary of the water example omits `s6`,
`s9`, `alp`, `rs9`, `s10`. -/
example : Demo.param.s6 = .absent ∧ Demo.param.s9 = .absent ∧ Demo.param.alp = .absent ∧
    Demo.param.rs9 = .absent ∧ Demo.param.s10 = .absent ∧ Demo.param.rs8 = .absent :=
  ⟨rfl, rfl, rfl, rfl, rfl, rfl⟩

example := C27_s10 (p := Demo.param) rfl Demo.call
example := C27_s8_partial (p := Demo.param) rfl Demo.call

example := C27_s6 (env := Demo.env) (T := Demo.T) (ext := Demo.ext) (numbers := Demo.numbers)
  (positions := Demo.positions) (charge := Demo.charge) (p := Demo.param) rfl {}
example := C27_s9 (env := Demo.env) (T := Demo.T) (ext := Demo.ext) (numbers := Demo.numbers)
  (positions := Demo.positions) (charge := Demo.charge) (p := Demo.param) rfl {}
example := C27_alp (env := Demo.env) (T := Demo.T) (ext := Demo.ext) (numbers := Demo.numbers)
  (positions := Demo.positions) (charge := Demo.charge) (p := Demo.param) rfl {}
example (d : Disp) := C27_rs9 (env := Demo.env) (T := Demo.T) (ext := Demo.ext)
  (numbers := Demo.numbers) (positions := Demo.positions) (charge := Demo.charge) (p := Demo.param)
  rfl d {}
example := C27_s8_missing (p := Demo.param) rfl Demo.call
example := C27_s10_zero (env := Demo.env) (T := Demo.T) (ext := Demo.ext) (numbers := Demo.numbers)
  (positions := Demo.positions) (charge := Demo.charge) (o := { damping := .zero })
  (p := { rs6 := .val 1.2, rs8 := .val 1, alp := .val 14, s10 := .val 0 }) rfl rfl

end TadDftd4
