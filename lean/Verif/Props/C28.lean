import Verif.Lemmas.Setup

/-!
# C28: the energy is linear in the scaling parameters
-/

set_option linter.unusedSimpArgs false

open scoped Classical

namespace TadDftd4

open Tensor

namespace Spec
variable {n : ℕ} (S : Settings) (M : Mol n)

/-- Settings with other scaling parameters. -/
def Settings.scale (s6 s8 s10 s9 : ℝ) : Settings :=
  { S with s6 := s6, s8 := s8, s10 := s10, s9 := s9 }

theorem e2_linear (s6 s8 s10 s9 : ℝ) (A : Fin n → AtomData) (i : Fin n) :
    e2 (S.scale s6 s8 s10 s9) M A i = s6 * e2 (S.scale 1 0 0 0) M A i +
      s8 * e2 (S.scale 0 1 0 0) M A i + s10 * e2 (S.scale 0 0 1 0) M A i := by
  unfold e2
  simp only [Finset.mul_sum]
  rw [← Finset.sum_add_distrib, ← Finset.sum_add_distrib]
  refine Finset.sum_congr rfl fun j _ => ?_
  by_cases hc : M.Z i ≠ 0 ∧ M.Z j ≠ 0 ∧ i ≠ j ∧ M.r S.ε i j ≤ S.cut2
  · have h : ∀ a b c d : ℝ, (if M.Z i ≠ 0 ∧ M.Z j ≠ 0 ∧ i ≠ j ∧ M.r (S.scale a b c d).ε i j ≤
        (S.scale a b c d).cut2 then pairTerm (S.scale a b c d) M A i j else 0) =
        pairTerm (S.scale a b c d) M A i j := fun a b c d => if_pos hc
    rw [h, h, h, h]
    simp only [pairTerm, Settings.scale, rad]
    ring
  · have h : ∀ a b c d : ℝ, (if M.Z i ≠ 0 ∧ M.Z j ≠ 0 ∧ i ≠ j ∧ M.r (S.scale a b c d).ε i j ≤
        (S.scale a b c d).cut2 then pairTerm (S.scale a b c d) M A i j else 0) = 0 :=
      fun a b c d => if_neg hc
    rw [h, h, h, h]
    ring

theorem e3_linear (s6 s8 s10 s9 : ℝ) (C : Fin n → Fin n → Fin n → ℝ) (R : Fin n → Fin n → ℝ)
    (i : Fin n) : e3 (S.scale s6 s8 s10 s9) M C R i = s9 * e3 (S.scale 0 0 0 1) M C R i := by
  unfold e3
  simp only [Finset.mul_sum]
  refine Finset.sum_congr rfl fun j _ => Finset.sum_congr rfl fun k _ => ?_
  by_cases hc : M.Z i ≠ 0 ∧ M.Z j ≠ 0 ∧ M.Z k ≠ 0 ∧ i ≠ j ∧ i ≠ k ∧ j ≠ k ∧ withinCut3 S M i j k
  · have h : ∀ a b c d : ℝ, (if M.Z i ≠ 0 ∧ M.Z j ≠ 0 ∧ M.Z k ≠ 0 ∧ i ≠ j ∧ i ≠ k ∧ j ≠ k ∧
        withinCut3 (S.scale a b c d) M i j k then tripleTerm (S.scale a b c d) M C R i j k else 0) =
        tripleTerm (S.scale a b c d) M C R i j k := fun a b c d => if_pos hc
    rw [h, h]
    simp only [tripleTerm, Settings.scale]
    ring
  · have h : ∀ a b c d : ℝ, (if M.Z i ≠ 0 ∧ M.Z j ≠ 0 ∧ M.Z k ≠ 0 ∧ i ≠ j ∧ i ≠ k ∧ j ≠ k ∧
        withinCut3 (S.scale a b c d) M i j k then tripleTerm (S.scale a b c d) M C R i j k else 0) =
        0 := fun a b c d => if_neg hc
    rw [h, h]
    ring

theorem e3_zero (s6 s8 s10 : ℝ) (C : Fin n → Fin n → Fin n → ℝ) (R : Fin n → Fin n → ℝ)
    (i : Fin n) : e3 (S.scale s6 s8 s10 0) M C R i = 0 := by
  rw [e3_linear, zero_mul]

theorem e2_zero (s9 : ℝ) (A : Fin n → AtomData) (i : Fin n) : e2 (S.scale 0 0 0 s9) M A i = 0 := by
  rw [e2_linear]; ring

theorem energy_linear (s6 s8 s10 s9 : ℝ) (i : Fin n) :
    energy (S.scale s6 s8 s10 s9) M i = s6 * energy (S.scale 1 0 0 0) M i +
      s8 * energy (S.scale 0 1 0 0) M i + s10 * energy (S.scale 0 0 1 0) M i +
      s9 * energy (S.scale 0 0 0 1) M i := by
  unfold energy
  rw [e2_linear, e3_linear]
  simp only [e3_zero, e2_zero, add_zero, zero_add]
  rfl

end Spec

section
variable {env : Env} {T : Tables} {ext : Ext} {numbers : Tensor ℕ} {positions charge : Tensor ℝ}
  {p : Param} {o : DftOpts} {n : ℕ} {B : Shape} {R : RefCfg} {cn : Spec.CN} {eeq : Spec.EEQ}
  {P : Spec.D4Par}

/-- Rational damping: for fixed system, options, `a1`, `a2` and `alp` there are energies `e6`, `e8`,
`e10`, `e9` of the atoms such that for all parameter dictionaries with these `a1`, `a2`, `alp` and any
scaling parameters the energies are `s6 e6 + s8 e8 + s10 e10 + s9 e9`. -/
theorem C28_linear (h : Call env T ext numbers positions charge p o n B R cn eeq P) :
    ∃ e6 e8 e10 e9 : Idx → ℝ, ∀ (p' : Param) (P' : Spec.D4Par), p'.Reads P' → P'.a1 = P.a1 →
      P'.a2 = P.a2 → P'.alp = P.alp →
      ∃ e, dftd4 env T ext numbers positions charge p' o = .ok e ∧ ∀ b, InB B b → ∀ i < n,
        e.get (i :: b) = P'.s6 * e6 (i :: b) + P'.s8 * e8 (i :: b) + P'.s10 * e10 (i :: b) +
          P'.s9 * e9 (i :: b) := by
  set S := d4Computed env T R P (o.opts.cutoff.getD {}) with hS
  let E : Spec.Settings → Idx → ℝ := fun S idx => match idx with
    | [] => 0
    | i :: b => if hi : i < n then
        Spec.energy S (system T cn eeq numbers positions charge o.opts n b) ⟨i, hi⟩ else 0
  refine ⟨E (S.scale 1 0 0 0), E (S.scale 0 1 0 0), E (S.scale 0 0 1 0), E (S.scale 0 0 0 1),
    fun p' P' hp' h1 h2 h3 => ?_⟩
  have h' : Call env T ext numbers positions charge p' o n B R cn eeq P' := { h with par := hp' }
  obtain ⟨e, he, -, hv⟩ := h'.eval
  refine ⟨e, he, fun b hb i hi => ?_⟩
  have hs : d4Computed env T R P' (o.opts.cutoff.getD {}) =
      S.scale P'.s6 P'.s8 P'.s10 P'.s9 := by
    simp only [hS, d4Computed, Spec.d4Settings, Spec.Settings.scale, h1, h2, h3]
  rw [hv b hb ⟨i, hi⟩, hs, Spec.energy_linear]
  simp only [E, hi, dif_pos]

/-- Parameters with other (numeric) `s6`, `s8`, `s9`. -/
def Param.scale (p : Param) (s6 s8 s9 : ℝ) : Param :=
  { p with s6 := .val s6, s8 := .val s8, s9 := .val s9 }

theorem dftPar_scale {d : Damping} {S : Spec.Settings} {c : Cutoff}
    (h : DftPar env T R (p.scale 1 1 1) c d S) (s6 s8 s9 : ℝ) :
    DftPar env T R (p.scale s6 s8 s9) c d (S.scale s6 s8 S.s10 s9) := by
  have hpt : ∀ order, order ≠ 9 → d.point env order false (p.scale s6 s8 s9).kw =
      d.point env order false (p.scale 1 1 1).kw := by
    intro order h9
    unfold Damping.point
    have hf : d.pointF env order false (p.scale s6 s8 s9).kw =
        d.pointF env order false (p.scale 1 1 1).kw := by
      cases d <;> rfl
    have hr : d.required order (p.scale s6 s8 s9).kw = d.required order (p.scale 1 1 1).kw := by
      cases d <;> rfl
    rw [hf, hr]
    have e6 : ∀ a b c : ℝ, (p.scale a b c).kw.s6 = some a := fun _ _ _ => rfl
    have e8 : ∀ a b c : ℝ, (p.scale a b c).kw.s8 = some b := fun _ _ _ => rfl
    simp only [e6, e8, h9, false_and, and_false, if_false, reduceCtorEq]
    rfl
  refine ⟨h.ε, h.c6, ⟨h.two.noExtra, ?_, ?_, Or.inl rfl, Or.inl rfl, ?_, h.two.radius⟩, h.cut2, h.cut3,
    h.cut3_nonneg, Or.inl rfl, h.a1, h.a2, h.alp⟩
  · rw [hpt 6 (by norm_num)]; exact h.two.f6
  · rw [hpt 8 (by norm_num)]; exact h.two.f8
  · rcases h.two.s10 with ⟨h1, h2⟩ | ⟨h1, h2⟩
    · exact Or.inl ⟨h1, h2⟩
    · exact Or.inr ⟨h1, by rw [hpt 10 (by norm_num)]; exact h2⟩

/-- Any damping function: linear in `s6`, `s8`, `s9`, with an offset from a given `s10`. -/
theorem C28_any_damping {S : Spec.Settings} (hk : ext.CasefoldKeys)
    (hv : ValidArgs T numbers positions charge o.opts n B)
    (hs : o.model.Gives env T ext numbers R n B)
    (hcn : CNFunc.PerSystem (o.cnFunction.getD ext.cnD4) (some (o.counting.getD ext.erfCount)) T.nZ
      cn)
    (heeq : ext.EEQPerSystem T.nZ eeq)
    (hp : DftPar env T R (p.scale 1 1 1) (o.opts.cutoff.getD {}) o.damping S) :
    ∃ e6 e8 e9 e0 : Idx → ℝ, ∀ s6 s8 s9 : ℝ,
      ∃ e, dftd4 env T ext numbers positions charge (p.scale s6 s8 s9) o = .ok e ∧
        ∀ b, InB B b → ∀ i < n, e.get (i :: b) =
          s6 * e6 (i :: b) + s8 * e8 (i :: b) + s9 * e9 (i :: b) + e0 (i :: b) := by
  let E : Spec.Settings → Idx → ℝ := fun S idx => match idx with
    | [] => 0
    | i :: b => if hi : i < n then
        Spec.energy S (system T cn eeq numbers positions charge o.opts n b) ⟨i, hi⟩ else 0
  refine ⟨E (S.scale 1 0 0 0), E (S.scale 0 1 0 0), E (S.scale 0 0 0 1),
    fun idx => S.s10 * E (S.scale 0 0 1 0) idx, fun s6 s8 s9 => ?_⟩
  obtain ⟨e, he, -, hval⟩ := dftd4_eval hk hv hs hcn heeq (dftPar_scale hp s6 s8 s9)
  refine ⟨e, he, fun b hb i hi => ?_⟩
  rw [hval b hb ⟨i, hi⟩, Spec.energy_linear]
  simp only [E, hi, dif_pos]
  ring

end

/-- Water and hydrogen fluoride. -/
example := C28_linear Demo.call

/-- Zero damping for the same systems meets the hypotheses of `C28_any_damping`. -/
theorem Demo.zeroPar : ∃ S, DftPar Demo.env Demo.T .d4
    (({ rs6 := .val 1.2, rs8 := .val 1, alp := .val 14 } : Param).scale 1 1 1) {} .zero S := by
  refine ⟨{ ε := Demo.env.eps, c6 := c6At Demo.env Demo.T .d4, c9x := fun _ _ _ => 0,
            f6 := fun d r => Demo.env.sdiv (zeroF Demo.env 1.2 14 d r) (d ^ 6),
            f8 := fun d r => Demo.env.sdiv (zeroF Demo.env 1 (14 + 2) d r) (d ^ 8),
            f10 := fun _ _ => 0, f9 := zeroF Demo.env 1 (14 / 3), radius := .rvdw, s6 := 1, s8 := 1,
            s10 := 0, s9 := 1, a1 := Defaults.a1, a2 := Defaults.a2, rs9 := 1,
            cut2 := Defaults.disp2Cutoff, cut3 := Defaults.disp3Cutoff },
    rfl, rfl, ⟨rfl, ?_, ?_, Or.inl rfl, Or.inl rfl, Or.inl ⟨rfl, rfl⟩, rfl⟩, rfl, rfl,
    by norm_num [Defaults.disp3Cutoff], Or.inl rfl, Or.inr ⟨rfl, rfl⟩, Or.inr ⟨rfl, rfl⟩, 14,
    Or.inl rfl, rfl⟩ <;>
    simp [Damping.point, Damping.required, Damping.pointF, Param.kw, PVal.kw, Param.scale]

example := C28_any_damping (o := { damping := .zero })
  (p := { rs6 := .val 1.2, rs8 := .val 1, alp := .val 14 }) Demo.keys Demo.call.args Demo.call.model
  Demo.call.cn Demo.call.eeq Demo.zeroPar.choose_spec

end TadDftd4
