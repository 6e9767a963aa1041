import Verif.Lemmas.Setup
import Verif.Lemmas.C6Props
import Verif.Props.C14
import Mathlib.Algebra.Order.BigOperators.Ring.Finset

/-!
# C16: C6 coefficients are symmetric, non-negative, and positive semidefinite for D4
# C17: C6 coefficients are Casimir-Polder integrals of the weighted polarizabilities
-/

set_option linter.unusedSimpArgs false

open scoped Classical

namespace TadDftd4

open Tensor

/-- The reference C6 coefficients of the model object are the default ones (no `rc6` argument). -/
def RefModel.DefaultRC6 (env : Env) (T : Tables) (m : RefModel) : Prop :=
  m.rc6 = getRefC6 env T m.numbers m.ga m.gc m.refCharges

section
variable {env : Env} {T : Tables} {m : RefModel} {n : ℕ} {B : Shape} {gw : Tensor ℝ}

theorem RefModel.DefaultRC6.ok (hr : m.DefaultRC6 env T) (h : m.Good T n B) :
    m.rc6.Ok (nref :: nref :: n :: n :: B) := by
  rw [hr]; exact getRefC6_ok h.num h.fits h.known h.lim

theorem RefModel.DefaultRC6.get (hr : m.DefaultRC6 env T) (h : m.Good T n B) {e : Idx} {i j : ℕ}
    (he : InB B e) (hi : i < n) (hj : j < n) : ∀ a < nref, ∀ b < nref,
    m.rc6.get (b :: a :: j :: i :: e) =
      rc6At env T m.ga m.gc m.refCharges (m.numbers.get (i :: e)) (m.numbers.get (j :: e)) a b := by
  intro a ha b hb
  rw [hr, getRefC6_get h.num h.fits h.known h.lim he hi hj ha hb]

/-- D4 C6 coefficients for given weights as integrals. -/
theorem D4.c6_integral (hr : m.DefaultRC6 env T) (h : m.Good T n B) (hg : gw.Ok (nref :: n :: B))
    {e : Idx} {i j : ℕ} (he : InB B e) (hi : i < n) (hj : j < n) :
    (D4.atomicC6 m gw).get (j :: i :: e) = thopi * ∑ w ∈ Finset.range nfreq,
      trapzWeights.getD w 0 * ((D4.weightedPols env T m gw).get (w :: i :: e) *
        (D4.weightedPols env T m gw).get (w :: j :: e)) := by
  rw [D4.atomicC6_get (hr.ok h) hg he hi hj, c6Of_congr (hr.get h he hi hj) (fun _ _ => rfl)
    (fun _ _ => rfl)]
  unfold rc6At
  rw [c6Of_integral]
  refine congrArg _ (Finset.sum_congr rfl fun w hw => ?_)
  have hw := Finset.mem_range.1 hw
  rw [D4.weightedPols_get h hg he hi hw, D4.weightedPols_get h hg he hj hw]
  rfl

/-- D4S C6 coefficients for given weights as integrals. -/
theorem D4S.c6_integral (hr : m.DefaultRC6 env T) (h : m.Good T n B)
    (hg : gw.Ok (nref :: n :: n :: B)) {e : Idx} {i j : ℕ} (he : InB B e) (hi : i < n)
    (hj : j < n) :
    (D4S.atomicC6 m gw).get (j :: i :: e) = thopi * ∑ w ∈ Finset.range nfreq,
      trapzWeights.getD w 0 *
        (polOf env T m.ga m.gc m.refCharges (m.numbers.get (i :: e))
          (fun r => gw.get (r :: i :: j :: e)) w *
        polOf env T m.ga m.gc m.refCharges (m.numbers.get (j :: e))
          (fun r => gw.get (r :: j :: i :: e)) w) := by
  rw [D4S.atomicC6_get (hr.ok h) hg he hi hj, c6Of_congr (hr.get h he hi hj) (fun _ _ => rfl)
    (fun _ _ => rfl)]
  unfold rc6At
  rw [c6Of_integral]
  rfl

/-! ## C16 -/

/-- Symmetric, for every weights tensor. -/
theorem C16_symmetric (hr : m.DefaultRC6 env T) (h : m.Good T n B) {e : Idx} {i j : ℕ}
    (he : InB B e) (hi : i < n) (hj : j < n) :
    (gw.Ok (nref :: n :: B) →
      (D4.atomicC6 m gw).get (j :: i :: e) = (D4.atomicC6 m gw).get (i :: j :: e)) ∧
    (gw.Ok (nref :: n :: n :: B) →
      (D4S.atomicC6 m gw).get (j :: i :: e) = (D4S.atomicC6 m gw).get (i :: j :: e)) := by
  constructor
  · intro hg
    rw [D4.c6_integral hr h hg he hi hj, D4.c6_integral hr h hg he hj hi]
    exact congrArg _ (Finset.sum_congr rfl fun w _ => by ring)
  · intro hg
    rw [D4S.c6_integral hr h hg he hi hj, D4S.c6_integral hr h hg he hj hi]
    exact congrArg _ (Finset.sum_congr rfl fun w _ => by ring)

/-- Weights returned by `weight_references` are never negative, for any optional `cn` and `q`. -/
theorem C16_weights_nonneg {co qo : Option (Tensor ℝ)} {cg qg : Idx → ℝ} (h : m.Good T n B)
    (hc : D4.OptIs co n B cg) (hq : D4.OptIs qo n B qg) {e : Idx} {i j r : ℕ} (he : InB B e)
    (hi : i < n) (hj : j < n) (hr : r < nref) :
    (∀ w, m.wf = scalar w → 0 ≤ (D4.weights env T m co qo).get (r :: i :: e)) ∧
    (m.wf.Ok (n :: n :: B) → 0 ≤ (D4S.weights env T m co qo).get (r :: i :: j :: e)) := by
  constructor
  · intro w hw
    rw [D4.weights_get h hw hc hq he hi hr]
    exact mul_nonneg (zetaAt_nonneg _ _ _ _ _ _) (gwOf_nonneg (expwD4_nonneg _ _ _) r)
  · intro hw
    rw [D4S.weights_get h hw hc hq he hi hj hr]
    exact mul_nonneg (zetaAt_nonneg _ _ _ _ _ _) (gwOf_nonneg (expwD4S_nonneg _ _ _) r)

/-- Non-negative, for D4 and D4S. -/
theorem C16_nonneg {co qo : Option (Tensor ℝ)} {cg qg : Idx → ℝ} (hr : m.DefaultRC6 env T)
    (h : m.Good T n B) (hc : D4.OptIs co n B cg) (hq : D4.OptIs qo n B qg) {e : Idx} {i j : ℕ}
    (he : InB B e) (hi : i < n) (hj : j < n) :
    (∀ w, m.wf = scalar w → 0 ≤ (D4.atomicC6 m (D4.weights env T m co qo)).get (j :: i :: e)) ∧
    (m.wf.Ok (n :: n :: B) →
      0 ≤ (D4S.atomicC6 m (D4S.weights env T m co qo)).get (j :: i :: e)) := by
  have key : ∀ {Z Z' : ℕ} {W W' : ℕ → ℝ}, (∀ a < nref, 0 ≤ W a) → (∀ a < nref, 0 ≤ W' a) →
      0 ≤ c6Of (rc6At env T m.ga m.gc m.refCharges Z Z') W W' := by
    intro Z Z' W W' h1 h2
    refine Finset.sum_nonneg fun a ha => Finset.sum_nonneg fun b hb => ?_
    have ha := h1 a (Finset.mem_range.1 ha)
    have hb := h2 b (Finset.mem_range.1 hb)
    refine mul_nonneg (mul_nonneg thopi_pos.le (Finset.sum_nonneg fun w _ => ?_))
      (mul_nonneg ha hb)
    exact mul_nonneg (trapzWeights_nonneg w) (mul_nonneg (alphaAt_nonneg _ _ _ _ _ _)
      (alphaAt_nonneg _ _ _ _ _ _))
  constructor
  · intro w hw
    rw [D4.atomicC6_get (hr.ok h) (D4.weights_ok h hw hc hq) he hi hj,
      c6Of_congr (hr.get h he hi hj) (fun _ _ => rfl) (fun _ _ => rfl)]
    exact key (fun a ha => (C16_weights_nonneg h hc hq he hi hj ha).1 w hw)
      (fun a ha => (C16_weights_nonneg h hc hq he hj hj ha).1 w hw)
  · intro hw
    rw [D4S.atomicC6_get (hr.ok h) (D4S.weights_ok h hw hc hq) he hi hj,
      c6Of_congr (hr.get h he hi hj) (fun _ _ => rfl) (fun _ _ => rfl)]
    exact key (fun a ha => (C16_weights_nonneg h hc hq he hi hj ha).2 hw)
      (fun a ha => (C16_weights_nonneg h hc hq he hj hi ha).2 hw)

/-- D4: the matrix of C6 coefficients of a system is positive semidefinite, for every weights
tensor. -/
theorem C16_psd (hr : m.DefaultRC6 env T) (h : m.Good T n B) (hg : gw.Ok (nref :: n :: B)) {e : Idx}
    (he : InB B e) (x : Fin n → ℝ) :
    0 ≤ ∑ i : Fin n, ∑ j : Fin n, x i * x j * (D4.atomicC6 m gw).get (j :: i :: e) := by
  have : ∑ i : Fin n, ∑ j : Fin n, x i * x j * (D4.atomicC6 m gw).get (j :: i :: e) =
      thopi * ∑ w ∈ Finset.range nfreq, trapzWeights.getD w 0 *
        (∑ i : Fin n, x i * (D4.weightedPols env T m gw).get (w :: i :: e)) ^ 2 := by
    simp_rw [D4.c6_integral hr h hg he (Fin.is_lt _) (Fin.is_lt _), sq, Finset.sum_mul_sum,
      Finset.mul_sum]
    rw [Finset.sum_congr rfl fun i _ => Finset.sum_comm, Finset.sum_comm]
    refine Finset.sum_congr rfl fun w _ => Finset.sum_congr rfl fun i _ =>
      Finset.sum_congr rfl fun j _ => ?_
    ring
  rw [this]
  exact mul_nonneg thopi_pos.le (Finset.sum_nonneg fun w _ =>
    mul_nonneg (trapzWeights_nonneg w) (sq_nonneg _))

/-- D4: Cauchy-Schwarz, `C6_ij² ≤ C6_ii C6_jj`, for every weights tensor. -/
theorem C16_cauchy_schwarz (hr : m.DefaultRC6 env T) (h : m.Good T n B)
    (hg : gw.Ok (nref :: n :: B)) {e : Idx} {i j : ℕ} (he : InB B e) (hi : i < n) (hj : j < n) :
    (D4.atomicC6 m gw).get (j :: i :: e) ^ 2 ≤
      (D4.atomicC6 m gw).get (i :: i :: e) * (D4.atomicC6 m gw).get (j :: j :: e) := by
  rw [D4.c6_integral hr h hg he hi hj, D4.c6_integral hr h hg he hi hi,
    D4.c6_integral hr h hg he hj hj]
  have := Finset.sum_mul_sq_le_sq_mul_sq (Finset.range nfreq)
    (fun w => Real.sqrt (trapzWeights.getD w 0) * (D4.weightedPols env T m gw).get (w :: i :: e))
    (fun w => Real.sqrt (trapzWeights.getD w 0) * (D4.weightedPols env T m gw).get (w :: j :: e))
  have e1 : ∀ w, Real.sqrt (trapzWeights.getD w 0) * Real.sqrt (trapzWeights.getD w 0) =
      trapzWeights.getD w 0 := fun w => Real.mul_self_sqrt (trapzWeights_nonneg w)
  have e2 : ∀ f g : ℕ → ℝ, ∑ w ∈ Finset.range nfreq, Real.sqrt (trapzWeights.getD w 0) * f w *
      (Real.sqrt (trapzWeights.getD w 0) * g w) = ∑ w ∈ Finset.range nfreq,
      trapzWeights.getD w 0 * (f w * g w) := by
    intro f g
    refine Finset.sum_congr rfl fun w _ => ?_
    calc _ = Real.sqrt (trapzWeights.getD w 0) * Real.sqrt (trapzWeights.getD w 0) * (f w * g w) := by
          ring
      _ = _ := by rw [e1]
  simp only [sq] at this
  rw [e2, e2, e2] at this
  nlinarith [mul_le_mul_of_nonneg_left this (mul_nonneg thopi_pos.le thopi_pos.le)]

/-! ## C17 -/

/-- D4: integrating the weighted polarizabilities pairwise gives the C6 coefficients, for every
weights tensor. -/
theorem C17_d4 (hr : m.DefaultRC6 env T) (h : m.Good T n B) (hg : gw.Ok (nref :: n :: B)) {e : Idx}
    {i j : ℕ} (he : InB B e) (hi : i < n) (hj : j < n) :
    (trapzdNoref (D4.weightedPols env T m gw) (some (D4.weightedPols env T m gw))).get
      (j :: i :: e) = (D4.atomicC6 m gw).get (j :: i :: e) := by
  have hp := D4.weightedPols_ok (env := env) h hg
  rw [trapzdNoref_get hp hp he hi hj, D4.c6_integral hr h hg he hi hj]

/-- D4: `get_polarizabilities` is the value of `get_weighted_pols` at the first frequency. -/
theorem C17_static (h : m.Good T n B) (hg : gw.Ok (nref :: n :: B)) {e : Idx} {i : ℕ}
    (he : InB B e) (hi : i < n) : (polarizabilities env T m gw).get (i :: e) =
      (D4.weightedPols env T m gw).get (0 :: i :: e) := by
  rw [polarizabilities_get h hg he hi, D4.weightedPols_get h hg he hi (by norm_num)]

end

namespace Demo

theorem model_rc6 : model.DefaultRC6 env T := rfl

theorem weights_ok : (D4.weights env T model none none).Ok [nref, 3, 2] :=
  D4.weights_ok (w := 6) model_good rfl (Or.inl ⟨rfl, rfl⟩) (Or.inl ⟨rfl, rfl⟩)

end Demo

/-- Water: O–H against O–O and H–H. -/
example : (D4.atomicC6 Demo.model (D4.weights Demo.env Demo.T Demo.model none none)).get [1, 0, 0]
    ^ 2 ≤ (D4.atomicC6 Demo.model (D4.weights Demo.env Demo.T Demo.model none none)).get [0, 0, 0] *
    (D4.atomicC6 Demo.model (D4.weights Demo.env Demo.T Demo.model none none)).get [1, 1, 0] :=
  C16_cauchy_schwarz Demo.model_rc6 Demo.model_good Demo.weights_ok (e := [0]) (by simp [InB])
    (by norm_num) (by norm_num)

example : 0 ≤ (D4.atomicC6 Demo.model (D4.weights Demo.env Demo.T Demo.model none none)).get
    [1, 0, 0] :=
  (C16_nonneg Demo.model_rc6 Demo.model_good (Or.inl ⟨rfl, rfl⟩) (Or.inl ⟨rfl, rfl⟩) (e := [0])
    (by simp [InB]) (by norm_num) (by norm_num)).1 6 rfl

example (x : Fin 3 → ℝ) : 0 ≤ ∑ i : Fin 3, ∑ j : Fin 3, x i * x j *
    (D4.atomicC6 Demo.model (D4.weights Demo.env Demo.T Demo.model none none)).get [j, i, 0] :=
  C16_psd Demo.model_rc6 Demo.model_good Demo.weights_ok (e := [0]) (by simp [InB]) x

example : (D4.atomicC6 Demo.model (D4.weights Demo.env Demo.T Demo.model none none)).get [1, 0, 0] =
    (D4.atomicC6 Demo.model (D4.weights Demo.env Demo.T Demo.model none none)).get [0, 1, 0] :=
  (C16_symmetric Demo.model_rc6 Demo.model_good (e := [0]) (by simp [InB]) (by norm_num)
    (by norm_num)).1 Demo.weights_ok

example : 0 ≤ (D4.weights Demo.env Demo.T Demo.model none none).get [3, 0, 0] :=
  (C16_weights_nonneg Demo.model_good (Or.inl ⟨rfl, rfl⟩) (Or.inl ⟨rfl, rfl⟩) (e := [0]) (i := 0)
    (j := 0) (by simp [InB]) (by norm_num) (by norm_num) (by norm_num)).1 6 rfl

example := C17_d4 (i := 0) (j := 1) Demo.model_rc6 Demo.model_good Demo.weights_ok (e := [0])
  (by simp [InB]) (by norm_num) (by norm_num)

example := C17_static (i := 0) Demo.model_good Demo.weights_ok (env := Demo.env) (e := [0])
  (by simp [InB]) (by norm_num)

end TadDftd4
