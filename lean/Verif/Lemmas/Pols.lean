import Verif.Lemmas.Kernel

/-!
# Evaluation of weighted polarizabilities, their Casimir-Polder integrals and exact C9
-/

set_option linter.unusedSimpArgs false

open scoped Classical

namespace TadDftd4

open Tensor

section
variable {env : Env} {T : Tables} {m : RefModel} {numbers : Tensor ℕ} {R : RefCfg} {n : ℕ}
  {B : Shape} {gw : Tensor ℝ}

theorem trapzdNoref_ok {p1 p2 : Tensor ℝ} {n2 : ℕ} (h1 : p1.Ok (nfreq :: n :: B))
    (h2 : p2.Ok (nfreq :: n2 :: B)) : (trapzdNoref p1 (some p2)).Ok (n2 :: n :: B) := by
  constructor <;>
  simp [trapzdNoref, einsum, Operand.dims, Operand.rankOk, Operand.batch, h1.err, h1.shape, h2.err,
      h2.shape, lblOk, lblDim, bcompats, bshapes, wTensor]

theorem trapzdNoref_get {p1 p2 : Tensor ℝ} {n2 : ℕ} (h1 : p1.Ok (nfreq :: n :: B))
    (h2 : p2.Ok (nfreq :: n2 :: B)) {e : Idx} {i j : ℕ} (he : InB B e) (hi : i < n) (hj : j < n2) :
    (trapzdNoref p1 (some p2)).get (j :: i :: e) =
      thopi * ∑ w ∈ Finset.range nfreq, trapzWeights.getD w 0 *
        (p1.get (w :: i :: e) * p2.get (w :: j :: e)) := by
  have hs := (trapzdNoref_ok h1 h2).shape
  simp only [trapzdNoref, mul_shape, scalar_shape, bshape_nil_left] at hs
  simp only [trapzdNoref, mul_get, scalar_get]
  rw [hs]
  congr 1
  simp [einsum, Operand.dims, Operand.rankOk, Operand.batch, h1.shape, h2.shape, lblDim,
    wTensor, contracted, sumOver, lblSet, bindOut, pick_cons_lt hi, pick_cons_lt hj, pick_of_InB he]
  refine Finset.sum_congr rfl fun w hw => ?_
  have hw := Finset.mem_range.1 hw
  simp [pick_cons_lt hi, pick_cons_lt hj, pick_of_InB he, pick_cons_lt hw]

theorem trapzdAtm_ok {p : Tensor ℝ} (h : p.Ok (nfreq :: n :: n :: n :: B)) :
    (trapzdAtm p).Ok (n :: n :: n :: B) := by
  constructor <;>
  simp [trapzdAtm, einsum, Operand.dims, Operand.rankOk, Operand.batch, h.err, h.shape,
      lblOk, lblDim, bcompats, bshapes, wTensor]

theorem trapzdAtm_get {p : Tensor ℝ} (h : p.Ok (nfreq :: n :: n :: n :: B)) {e : Idx} {i j k : ℕ}
    (he : InB B e) (hi : i < n) (hj : j < n) (hk : k < n) :
    (trapzdAtm p).get (k :: j :: i :: e) =
      thopi * ∑ w ∈ Finset.range nfreq, p.get (w :: k :: j :: i :: e) * trapzWeights.getD w 0 := by
  have hs := (trapzdAtm_ok h).shape
  simp only [trapzdAtm, mul_shape, scalar_shape, bshape_nil_left] at hs
  simp only [trapzdAtm, mul_get, scalar_get]
  rw [hs]
  congr 1
  simp [einsum, Operand.dims, Operand.rankOk, Operand.batch, h.shape, lblDim,
    wTensor, contracted, sumOver, lblSet, bindOut, pick_cons_lt hi, pick_cons_lt hj,
    pick_cons_lt hk, pick_of_InB he]
  refine Finset.sum_congr rfl fun w hw => ?_
  have hw := Finset.mem_range.1 hw
  simp [pick_cons_lt hi, pick_cons_lt hj, pick_cons_lt hk, pick_of_InB he, pick_cons_lt hw]

theorem c9Exact_ok {aiw : Tensor ℝ} (h : aiw.Ok (nfreq :: n :: B)) :
    (c9Exact aiw).Ok (n :: n :: n :: B) := by
  apply trapzdAtm_ok
  constructor <;> simp [h.err, h.shape]

theorem c9Exact_get {aiw : Tensor ℝ} (h : aiw.Ok (nfreq :: n :: B)) {e : Idx} {i j k : ℕ}
    (he : InB B e) (hi : i < n) (hj : j < n) (hk : k < n) :
    (c9Exact aiw).get (k :: j :: i :: e) = thopi * ∑ w ∈ Finset.range nfreq,
      aiw.get (w :: i :: e) * aiw.get (w :: j :: e) * aiw.get (w :: k :: e) *
        trapzWeights.getD w 0 := by
  unfold c9Exact
  simp only []
  rw [trapzdAtm_get ?_ he hi hj hk]
  · congr 1
    refine Finset.sum_congr rfl fun w hw => ?_
    have hw := Finset.mem_range.1 hw
    simp [h.shape, pick_cons_lt hi, pick_cons_lt hj, pick_cons_lt hk, pick_of_InB he,
      pick_cons_lt hw]
  · constructor <;> simp [h.err, h.shape]

/-- D4 weighted polarizability from weights `W`. -/
noncomputable def polOf (env : Env) (T : Tables) (ga gc : ℝ) (rq : String) (Z : ℕ) (W : ℕ → ℝ)
    (w : ℕ) : ℝ := ∑ r ∈ Finset.range nref, W r * alphaAt env T ga gc rq Z r w

theorem D4.weightedPols_ok (hm : m.Good T n B) (hg : gw.Ok (nref :: n :: B)) :
    (D4.weightedPols env T m gw).Ok (nfreq :: n :: B) := by
  have h := getAlpha_ok (env := env) (ga := m.ga) (gc := m.gc) hm.num hm.fits hm.known hm.lim
  constructor <;>
  simp [D4.weightedPols, einsum, Operand.dims, Operand.rankOk, Operand.batch, h.err, h.shape,
      hg.err, hg.shape, lblOk, lblDim, bcompats, bshapes]

theorem D4.weightedPols_get (hm : m.Good T n B) (hg : gw.Ok (nref :: n :: B)) {e : Idx} {i w : ℕ}
    (he : InB B e) (hi : i < n) (hw : w < nfreq) :
    (D4.weightedPols env T m gw).get (w :: i :: e) =
      polOf env T m.ga m.gc m.refCharges (m.numbers.get (i :: e)) (fun r => gw.get (r :: i :: e))
        w := by
  have h := getAlpha_ok (env := env) (ga := m.ga) (gc := m.gc) hm.num hm.fits hm.known hm.lim
  simp [D4.weightedPols, einsum, Operand.dims, Operand.rankOk, Operand.batch, h.shape, hg.shape,
    lblDim, contracted, sumOver, lblSet, bindOut, polOf]
  refine Finset.sum_congr rfl fun a ha => ?_
  have ha := Finset.mem_range.1 ha
  simp [pick_cons_lt ha, pick_cons_lt hw, pick_cons_lt hi, pick_of_InB he,
    getAlpha_get hm.num hm.fits hm.known hm.lim he hi ha hw]

theorem polarizabilities_ok (hm : m.Good T n B) (hg : gw.Ok (nref :: n :: B)) :
    (polarizabilities env T m gw).Ok (n :: B) := by
  have h := getAlpha_ok (env := env) (ga := m.ga) (gc := m.gc) hm.num hm.fits hm.known hm.lim
  constructor <;>
  simp [polarizabilities, selectLast, einsum, Operand.dims, Operand.rankOk, Operand.batch, h.err,
    h.shape, hg.err, hg.shape, lblOk, lblDim, bcompats, bshapes]

theorem polarizabilities_get (hm : m.Good T n B) (hg : gw.Ok (nref :: n :: B)) {e : Idx} {i : ℕ}
    (he : InB B e) (hi : i < n) :
    (polarizabilities env T m gw).get (i :: e) =
      polOf env T m.ga m.gc m.refCharges (m.numbers.get (i :: e)) (fun r => gw.get (r :: i :: e))
        0 := by
  have h := getAlpha_ok (env := env) (ga := m.ga) (gc := m.gc) hm.num hm.fits hm.known hm.lim
  simp [polarizabilities, selectLast, einsum, Operand.dims, Operand.rankOk, Operand.batch, h.shape,
    hg.shape, lblDim, contracted, sumOver, lblSet, bindOut, polOf]
  refine Finset.sum_congr rfl fun a ha => ?_
  have ha := Finset.mem_range.1 ha
  simp [pick_cons_lt ha, pick_cons_lt hi, pick_of_InB he,
    getAlpha_get hm.num hm.fits hm.known hm.lim he hi ha (by norm_num : 0 < nfreq)]

/-- Weighted polarizability of an atom in a D4 model. -/
noncomputable def polAt (env : Env) (T : Tables) (R : RefCfg) (A : Spec.AtomData) (w : ℕ) : ℝ :=
  polOf env T R.ga R.gc R.rq A.Z (wtAt env T R A 0) w

/-- Exact C9 of three atoms as computed by the code (D4). -/
noncomputable def c9At (env : Env) (T : Tables) (R : RefCfg) (A A' A'' : Spec.AtomData) : ℝ :=
  thopi * ∑ w ∈ Finset.range nfreq, polAt env T R A w * polAt env T R A' w * polAt env T R A'' w *
    trapzWeights.getD w 0

/-- Weighted polarizabilities of a D4 model. -/
theorem model_pols_eval (h : m.IsFor env T numbers R n B) (hk : R.kind = .d4)
    {co qo : Option (Tensor ℝ)} {cg qg : Idx → ℝ} (hc : D4.OptIs co n B cg)
    (hq : D4.OptIs qo n B qg) :
    (m.weightedPols env T (m.weights env T co qo)).Ok (nfreq :: n :: B) ∧
    ∀ b i w, InB B b → i < n → w < nfreq →
      (m.weightedPols env T (m.weights env T co qo)).get (w :: i :: b) =
        polAt env T R ⟨numbers.get (i :: b), cg (i :: b), qg (i :: b)⟩ w := by
  have hg := h.good
  rcases h.wf with ⟨hk1, w, hw, hR⟩ | ⟨hk1, _⟩
  · have hwt := D4.weights_ok (env := env) hg hw hc hq
    simp only [RefModel.weights, RefModel.weightedPols, hk1]
    refine ⟨D4.weightedPols_ok hg hwt, fun b i f hb hi hf => ?_⟩
    rw [D4.weightedPols_get hg hwt hb hi hf]
    unfold polAt polOf
    refine Finset.sum_congr rfl fun r hr => ?_
    beta_reduce
    rw [D4.weights_get hg hw hc hq hb hi (Finset.mem_range.1 hr), wtAt, h.ga, h.gc, h.rq, h.num, hk,
      hR]
    rfl
  · rw [h.kind, hk] at hk1; simp at hk1

/-- Exact C9 coefficients of a D4 model. -/
theorem model_c9x_eval (h : m.IsFor env T numbers R n B) (hk : R.kind = .d4)
    {co qo : Option (Tensor ℝ)} {cg qg : Idx → ℝ} (hc : D4.OptIs co n B cg)
    (hq : D4.OptIs qo n B qg) :
    (c9Exact (m.weightedPols env T (m.weights env T co qo))).Ok (n :: n :: n :: B) ∧
    ∀ b i j k, InB B b → i < n → j < n → k < n →
      (c9Exact (m.weightedPols env T (m.weights env T co qo))).get (k :: j :: i :: b) =
        c9At env T R ⟨numbers.get (i :: b), cg (i :: b), qg (i :: b)⟩
          ⟨numbers.get (j :: b), cg (j :: b), qg (j :: b)⟩
          ⟨numbers.get (k :: b), cg (k :: b), qg (k :: b)⟩ := by
  obtain ⟨hok, hget⟩ := model_pols_eval h hk hc hq
  refine ⟨c9Exact_ok hok, fun b i j k hb hi hj hk => ?_⟩
  rw [c9Exact_get hok hb hi hj hk]
  unfold c9At
  congr 1
  refine Finset.sum_congr rfl fun w hw => ?_
  have hw := Finset.mem_range.1 hw
  rw [hget b i w hb hi hw, hget b j w hb hj hw, hget b k w hb hk hw]

end
end TadDftd4
