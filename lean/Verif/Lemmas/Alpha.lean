import Verif.Lemmas.TwoBody

/-!
# Evaluation of reference polarizabilities and reference C6 coefficients
-/

set_option linter.unusedSimpArgs false

open scoped Classical

namespace TadDftd4

open Tensor

/-- Table dimensions fit together (holds for the shipped tables, `Data/*`). -/
structure Tables.Fits (T : Tables) : Prop where
  ext : T.nZ ≤ T.nExt
  pair : T.nZ ≤ T.nPair
  r4 : T.nZ ≤ T.nR4
  gfn : T.nG ≤ T.nZ
  sysSec : ∀ Z < T.nZ, ∀ r < nref, T.refsys Z r < T.nSec
  sysExt : ∀ Z < T.nZ, ∀ r < nref, T.refsys Z r < T.nExt

/-- The atomic numbers covered by the reference charges `rq`; `none`-like for unknown keys. -/
def Tables.limit (T : Tables) (rq : String) : ℕ :=
  if rq = "eeq" then T.nZ else if rq = "gfn2" then T.nG else 0

theorem Tables.limit_le {T : Tables} (hT : T.Fits) (rq : String) : T.limit rq ≤ T.nZ := by
  unfold Tables.limit; split_ifs
  · exact le_rfl
  · exact hT.gfn
  · exact Nat.zero_le _

/-- The two keys accepted by the code. -/
def knownCharges (rq : String) : Prop := rq = "eeq" ∨ rq = "gfn2"

/-- Reference charge of the hydrogenated reference. -/
noncomputable def refsqAt (T : Tables) (rq : String) (Z r : ℕ) : ℝ :=
  if rq = "eeq" then T.eeqH Z r else T.gfnH Z r

noncomputable def refqAt (T : Tables) (rq : String) (Z r : ℕ) : ℝ :=
  if rq = "eeq" then T.eeqQ Z r else T.gfnQ Z r

/-- Value of `_get_alpha` for element `Z`, reference `r`, frequency `w`. -/
noncomputable def alphaAt (env : Env) (T : Tables) (ga gc : ℝ) (rq : String) (Z r w : ℕ) : ℝ :=
  max 0 (T.refascale Z r * (T.refalpha Z r w - T.refscount Z r *
    (T.secscale (T.refsys Z r) * T.secalpha (T.refsys Z r) w *
      (if 0 < T.refsys Z r then
        (zetaF env.eps ga (T.gam (T.refsys Z r) * gc) (T.zeff (T.refsys Z r))
          (refsqAt T rq Z r + T.zeff (T.refsys Z r))).toReal
      else 0))))

/-- Reference C6 of two references. -/
noncomputable def rc6At (env : Env) (T : Tables) (ga gc : ℝ) (rq : String) (Z Z' a b : ℕ) : ℝ :=
  thopi * ∑ w ∈ Finset.range nfreq, trapzWeights.getD w 0 *
    (alphaAt env T ga gc rq Z a w * alphaAt env T ga gc rq Z' b w)

section
variable {env : Env} {T : Tables} {numbers : Tensor ℕ} {n : ℕ} {B : Shape} {ga gc : ℝ} {rq : String}

theorem gather_err_none (hn : numbers.err = none) {N M : ℕ} (h : numbers.AllLt N) (hNM : N ≤ M) :
    gatherErr M numbers = none :=
  gatherErr_eq_none hn fun i hi => lt_of_lt_of_le (h i hi) hNM

theorem gather1_sys_err (hT : T.Fits) (hn : numbers.err = none) (hlt : numbers.AllLt T.nZ)
    {M : ℕ} (hM : ∀ Z < T.nZ, ∀ r < nref, T.refsys Z r < M) :
    gatherErr M (gather1 T.nZ nref T.refsys numbers) = none := by
  refine gatherErr_eq_none (by simp [gather_err_none hn hlt le_rfl]) ?_
  intro i hi
  obtain ⟨r, j, rfl, hr, hj⟩ := InB_cases (d := nref) (s := numbers.shape) (by simpa using hi)
  simpa using hM _ (hlt _ hj) _ hr

theorem refsqT_ok (hn : numbers.Ok (n :: B)) (hT : T.Fits) (hrq : knownCharges rq)
    (hlt : numbers.AllLt (T.limit rq)) : (refsqT T rq numbers).Ok (nref :: n :: B) := by
  unfold refsqT
  rcases hrq with rfl | rfl
  · have : gatherErr T.nZ numbers = none := gatherErr_eq_none hn.err (by simpa [Tables.limit] using hlt)
    constructor <;> simp [this, hn.shape]
  · have : gatherErr T.nG numbers = none := gatherErr_eq_none hn.err (by simpa [Tables.limit] using hlt)
    constructor <;> simp [this, hn.shape]

theorem refqT_ok (hn : numbers.Ok (n :: B)) (hT : T.Fits) (hrq : knownCharges rq)
    (hlt : numbers.AllLt (T.limit rq)) : (refqT T rq numbers).Ok (nref :: n :: B) := by
  unfold refqT
  rcases hrq with rfl | rfl
  · have : gatherErr T.nZ numbers = none := gatherErr_eq_none hn.err (by simpa [Tables.limit] using hlt)
    constructor <;> simp [this, hn.shape]
  · have : gatherErr T.nG numbers = none := gatherErr_eq_none hn.err (by simpa [Tables.limit] using hlt)
    constructor <;> simp [this, hn.shape]

theorem refsqT_get (hrq : knownCharges rq) (r : ℕ) (i : Idx) :
    (refsqT T rq numbers).get (r :: i) = refsqAt T rq (numbers.get i) r := by
  unfold refsqT refsqAt
  rcases hrq with rfl | rfl <;> simp

theorem refqT_get (hrq : knownCharges rq) (r : ℕ) (i : Idx) :
    (refqT T rq numbers).get (r :: i) = refqAt T rq (numbers.get i) r := by
  unfold refqT refqAt
  rcases hrq with rfl | rfl <;> simp

@[simp] theorem map3_err {α β γ δ : Type} (f : α → β → γ → δ) (x : Tensor α) (y : Tensor β)
    (z : Tensor γ) : (map3 f x y z).err = orErr (orErr (orErr (orErr x.err y.err)
      (bErr x.shape y.shape)) z.err) (bErr (bshape x.shape y.shape) z.shape) := rfl
@[simp] theorem map3_shape {α β γ δ : Type} (f : α → β → γ → δ) (x : Tensor α) (y : Tensor β)
    (z : Tensor γ) : (map3 f x y z).shape = bshape (bshape x.shape y.shape) z.shape := rfl
theorem map3_get {α β γ δ : Type} (f : α → β → γ → δ) (x : Tensor α) (y : Tensor β)
    (z : Tensor γ) (i : Idx) : (map3 f x y z).get i =
      f (x.get (pick x.shape (pick (bshape x.shape y.shape) i)))
        (y.get (pick y.shape (pick (bshape x.shape y.shape) i))) (z.get (pick z.shape i)) := rfl

theorem getAlpha_ok (hn : numbers.Ok (n :: B)) (hT : T.Fits) (hrq : knownCharges rq)
    (hlt : numbers.AllLt (T.limit rq)) :
    (getAlpha env T numbers ga gc rq).Ok (nfreq :: nref :: n :: B) := by
  have hlt' : numbers.AllLt T.nZ := fun i hi => lt_of_lt_of_le (hlt i hi) (Tables.limit_le hT rq)
  have e1 := gather_err_none hn.err hlt' (le_refl T.nZ)
  have e2 := gather1_sys_err hT hn.err hlt' hT.sysSec
  have e3 := gather1_sys_err hT hn.err hlt' hT.sysExt
  have hq := refsqT_ok hn hT hrq hlt
  constructor
  · simp [getAlpha, zetaT, e1, e2, e3, hn.shape, hq.err, hq.shape]
  · simp [getAlpha, zetaT, hn.shape, hq.shape]

theorem clip_get (x : Tensor ℝ) (i : Idx) :
    (where_ (x.gtc 0) x (scalar 0)).get i = max 0 (x.get (pick x.shape i)) := by
  by_cases h : 0 < x.get (pick x.shape i)
  · rw [where_get_of_pos (by simpa using h), max_eq_right h.le]
  · rw [where_get_of_neg (by simpa using h), max_eq_left (not_lt.1 h)]; rfl

theorem getAlpha_get (hn : numbers.Ok (n :: B)) (hT : T.Fits) (hrq : knownCharges rq)
    (hlt : numbers.AllLt (T.limit rq)) {b : Idx} {i r w : ℕ} (hb : InB B b) (hi : i < n)
    (hr : r < nref) (hw : w < nfreq) :
    (getAlpha env T numbers ga gc rq).get (w :: r :: i :: b) =
      alphaAt env T ga gc rq (numbers.get (i :: b)) r w := by
  have hq := refsqT_ok hn hT hrq hlt
  simp only [getAlpha]
  rw [clip_get, alphaAt]
  congr 1
  simp [hn.shape, hq.shape, zetaT, pick_cons_lt hi, pick_cons_lt hr, pick_cons_lt hw,
    pick_of_InB hb, where_get, map3_get, refsqT_get hrq]

theorem trapzd_ok {p1 p2 : Tensor ℝ} {n2 : ℕ} (h1 : p1.Ok (nfreq :: nref :: n :: B))
    (h2 : p2.Ok (nfreq :: nref :: n2 :: B)) :
    (trapzd p1 (some p2)).Ok (nref :: nref :: n2 :: n :: B) := by
  constructor
  · simp [trapzd, einsum, Operand.dims, Operand.rankOk, Operand.batch, h1.err, h1.shape, h2.err,
      h2.shape, lblOk, lblDim, bcompats, bshapes, wTensor]
  · simp [trapzd, einsum, Operand.dims, Operand.rankOk, Operand.batch, h1.shape,
      h2.shape, lblOk, lblDim, bcompats, bshapes, wTensor]

theorem trapzd_get {p1 p2 : Tensor ℝ} {n2 : ℕ} (h1 : p1.Ok (nfreq :: nref :: n :: B))
    (h2 : p2.Ok (nfreq :: nref :: n2 :: B)) {e : Idx} {i j a b : ℕ} (he : InB B e)
    (hi : i < n) (hj : j < n2) (ha : a < nref) (hb : b < nref) :
    (trapzd p1 (some p2)).get (b :: a :: j :: i :: e) =
      thopi * ∑ w ∈ Finset.range nfreq, trapzWeights.getD w 0 *
        (p1.get (w :: a :: i :: e) * p2.get (w :: b :: j :: e)) := by
  have hs := (trapzd_ok h1 h2).shape
  simp only [trapzd, mul_shape, scalar_shape, bshape_nil_left] at hs
  simp only [trapzd, mul_get, scalar_get]
  rw [hs]
  congr 1
  simp [einsum, Operand.dims, Operand.rankOk, Operand.batch, h1.shape, h2.shape, lblDim,
    wTensor, contracted, sumOver, lblSet, bindOut, pick_cons_lt hi, pick_cons_lt hj,
    pick_cons_lt ha, pick_cons_lt hb, pick_of_InB he]
  refine Finset.sum_congr rfl fun w hw => ?_
  have hw := Finset.mem_range.1 hw
  simp [pick_cons_lt hi, pick_cons_lt hj, pick_cons_lt ha, pick_cons_lt hb, pick_of_InB he,
    pick_cons_lt hw]

theorem getRefC6_ok (hn : numbers.Ok (n :: B)) (hT : T.Fits) (hrq : knownCharges rq)
    (hlt : numbers.AllLt (T.limit rq)) :
    (getRefC6 env T numbers ga gc rq).Ok (nref :: nref :: n :: n :: B) := by
  have h := getAlpha_ok (env := env) (ga := ga) (gc := gc) hn hT hrq hlt
  exact trapzd_ok h h

theorem getRefC6_get (hn : numbers.Ok (n :: B)) (hT : T.Fits) (hrq : knownCharges rq)
    (hlt : numbers.AllLt (T.limit rq)) {e : Idx} {i j a b : ℕ} (he : InB B e)
    (hi : i < n) (hj : j < n) (ha : a < nref) (hb : b < nref) :
    (getRefC6 env T numbers ga gc rq).get (b :: a :: j :: i :: e) =
      rc6At env T ga gc rq (numbers.get (i :: e)) (numbers.get (j :: e)) a b := by
  have h := getAlpha_ok (env := env) (ga := ga) (gc := gc) hn hT hrq hlt
  refine (trapzd_get h h he hi hj ha hb).trans ?_
  unfold rc6At
  congr 1
  refine Finset.sum_congr rfl fun w hw => ?_
  have hw := Finset.mem_range.1 hw
  rw [getAlpha_get hn hT hrq hlt he hi ha hw, getAlpha_get hn hT hrq hlt he hj hb hw]

end
end TadDftd4
