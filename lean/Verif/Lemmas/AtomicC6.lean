import Verif.Lemmas.Weights

/-!
# Evaluation of D4S weights and of atomic C6 coefficients of both models
-/

set_option linter.unusedSimpArgs false

open scoped Classical

namespace TadDftd4

open Tensor

/-- C6 from reference C6 and weights. -/
noncomputable def c6Of (rc : ℕ → ℕ → ℝ) (W W' : ℕ → ℝ) : ℝ :=
  ∑ a ∈ Finset.range nref, ∑ b ∈ Finset.range nref, rc a b * (W a * W' b)

section
variable {env : Env} {T : Tables} {m : RefModel} {n : ℕ} {B : Shape} {w : ℝ}

/-- `get_atomic_c6` of D4 on any weights. -/
theorem D4.atomicC6_ok {gw : Tensor ℝ} (hr : m.rc6.Ok (nref :: nref :: n :: n :: B))
    (hg : gw.Ok (nref :: n :: B)) : (D4.atomicC6 m gw).Ok (n :: n :: B) := by
  constructor <;>
  simp [D4.atomicC6, einsum, Operand.dims, Operand.rankOk, Operand.batch, hr.err, hr.shape, hg.err,
      hg.shape, lblOk, lblDim, bcompats, bshapes]

theorem D4.atomicC6_get {gw : Tensor ℝ} (hr : m.rc6.Ok (nref :: nref :: n :: n :: B))
    (hg : gw.Ok (nref :: n :: B)) {e : Idx} {i j : ℕ} (he : InB B e) (hi : i < n) (hj : j < n) :
    (D4.atomicC6 m gw).get (j :: i :: e) =
      c6Of (fun a b => m.rc6.get (b :: a :: j :: i :: e)) (fun a => gw.get (a :: i :: e))
        (fun b => gw.get (b :: j :: e)) := by
  simp [D4.atomicC6, einsum, Operand.dims, Operand.rankOk, Operand.batch, hr.shape, hg.shape,
    lblDim, contracted, sumOver, lblSet, bindOut, c6Of]
  refine Finset.sum_congr rfl fun a ha => Finset.sum_congr rfl fun b hb => ?_
  have ha := Finset.mem_range.1 ha
  have hb := Finset.mem_range.1 hb
  simp [pick_cons_lt ha, pick_cons_lt hb, pick_cons_lt hi, pick_cons_lt hj, pick_of_InB he]

/-- `get_atomic_c6` of D4S on any weights. -/
theorem D4S.atomicC6_ok {gw : Tensor ℝ} (hr : m.rc6.Ok (nref :: nref :: n :: n :: B))
    (hg : gw.Ok (nref :: n :: n :: B)) : (D4S.atomicC6 m gw).Ok (n :: n :: B) := by
  constructor <;>
  simp [D4S.atomicC6, einsum, Operand.dims, Operand.rankOk, Operand.batch, hr.err, hr.shape, hg.err,
      hg.shape, lblOk, lblDim, bcompats, bshapes]

theorem D4S.atomicC6_get {gw : Tensor ℝ} (hr : m.rc6.Ok (nref :: nref :: n :: n :: B))
    (hg : gw.Ok (nref :: n :: n :: B)) {e : Idx} {i j : ℕ} (he : InB B e) (hi : i < n)
    (hj : j < n) :
    (D4S.atomicC6 m gw).get (j :: i :: e) =
      c6Of (fun a b => m.rc6.get (b :: a :: j :: i :: e)) (fun a => gw.get (a :: i :: j :: e))
        (fun b => gw.get (b :: j :: i :: e)) := by
  simp [D4S.atomicC6, einsum, Operand.dims, Operand.rankOk, Operand.batch, hr.shape, hg.shape,
    lblDim, contracted, sumOver, lblSet, bindOut, c6Of]
  refine Finset.sum_congr rfl fun a ha => Finset.sum_congr rfl fun b hb => ?_
  have ha := Finset.mem_range.1 ha
  have hb := Finset.mem_range.1 hb
  simp [pick_cons_lt ha, pick_cons_lt hb, pick_cons_lt hi, pick_cons_lt hj, pick_of_InB he]

namespace D4S

section
variable {cn q : Tensor ℝ}
variable (h : m.Good T n B) (hw : m.wf.Ok (n :: n :: B)) (hc : cn.Ok (n :: B)) (hq : q.Ok (n :: B))

include h in
theorem spread_ok {α : Type} {x : Tensor α} (hx : x.Ok (nref :: n :: B)) :
    (spread T m x).Ok (nref :: n :: n :: B) := by
  have := (D4.refc_ok h).shape
  constructor <;> simp [spread, shp, this, hx.err, hx.shape]

theorem spread_get {α : Type} {x : Tensor α} (hx : x.Ok (nref :: n :: B)) {b : Idx} {i k r : ℕ}
    (hb : InB B b) (hi : i < n) (hr : r < nref) :
    (spread T m x).get (r :: i :: k :: b) = x.get (r :: i :: b) := by
  simp [spread, hx.shape, pick_cons_lt hi, pick_cons_lt hr, pick_of_InB hb]

include h in
theorem refc_ok : (refc T m).Ok (nref :: n :: n :: B) := spread_ok h (D4.refc_ok h)
include h in
theorem refcn_ok : (refcn T m).Ok (nref :: n :: n :: B) := spread_ok h (D4.refcn_ok h)
include h in
theorem mask_ok : (mask T m).Ok (nref :: n :: n :: B) := by
  constructor <;> simp [mask, (refc_ok h).err, (refc_ok h).shape]
include h hc in
theorem dcn_ok : (dcn T m cn).Ok (nref :: n :: n :: B) := by
  have := refcn_ok h
  constructor <;> simp [dcn, hc.err, hc.shape, this.err, this.shape]
include h hc hw in
theorem arg_ok : (arg T m cn).Ok (nref :: n :: n :: B) := by
  have := dcn_ok h hc
  constructor <;>
  simp [arg, einsum, Operand.dims, Operand.rankOk, Operand.batch, hw.err, hw.shape, this.err,
      this.shape, lblOk, lblDim, bcompats, bshapes]
include h hc hw in
theorem tmp_ok : (tmp env T m cn).Ok (nref :: n :: n :: B) := by
  have h1 := arg_ok h hw hc
  have h2 := mask_ok h
  constructor <;> simp [tmp, h1.err, h1.shape, h2.err, h2.shape]
include h hc hw in
theorem powT_ok (i : ℕ) : (powT env T m cn i).Ok (nref :: n :: n :: B) := by
  have := tmp_ok (env := env) h hw hc
  constructor <;> simp [powT, this.err, this.shape]
include h hc hw in
theorem expw_ok : (expw env T m cn).Ok (nref :: n :: n :: B) := by
  have h1 := tmp_ok (env := env) h hw hc
  have h2 := fun i => powT_ok (env := env) h hw hc i
  have h3 := refc_ok h
  have h4 := mask_ok h
  constructor <;>
  simp [expw, refcPow1, refcPow3, h1.err, h1.shape, (h2 _).err, (h2 _).shape, h3.err, h3.shape,
    h4.err, h4.shape]

variable {b : Idx} {i k r : ℕ} (hb : InB B b) (hi : i < n) (hk : k < n) (hr : r < nref)

include h hb hi hr in
theorem refc_get : (refc T m).get (r :: i :: k :: b) = T.refc (m.numbers.get (i :: b)) r := by
  rw [refc, spread_get (D4.refc_ok h) hb hi hr]; rfl
include h hb hi hr in
theorem refcn_get : (refcn T m).get (r :: i :: k :: b) = T.refcn (m.numbers.get (i :: b)) r := by
  rw [refcn, spread_get (D4.refcn_ok h) hb hi hr]; rfl
include h hb hi hr in
theorem mask_get : (mask T m).get (r :: i :: k :: b) = (0 < T.refc (m.numbers.get (i :: b)) r) := by
  simp [mask, refc_get h hb hi hr]

include h hc hb hi hk hr in
theorem dcn_get : (dcn T m cn).get (r :: i :: k :: b) =
    cn.get (i :: b) - T.refcn (m.numbers.get (i :: b)) r := by
  have := refcn_ok h
  simp [dcn, this.shape, hc.shape, pick_cons_lt hi, pick_cons_lt hr, pick_cons_lt hk,
    pick_of_InB hb, refcn_get h hb hi hr]

include h hc hw hb hi hk hr in
theorem arg_get : (arg T m cn).get (r :: i :: k :: b) =
    -(cn.get (i :: b) - T.refcn (m.numbers.get (i :: b)) r) *
      ((cn.get (i :: b) - T.refcn (m.numbers.get (i :: b)) r) * m.wf.get (k :: i :: b)) := by
  have := dcn_ok h hc
  simp [arg, einsum, Operand.dims, Operand.rankOk, Operand.batch, hw.shape, this.shape,
    lblDim, contracted, sumOver, lblSet, bindOut, pick_cons_lt hi, pick_cons_lt hr, pick_cons_lt hk,
    pick_of_InB hb, dcn_get h hc hb hi hk hr]
  ring

include h hc hw hb hi hk hr in
theorem tmp_get (hm : 0 < T.refc (m.numbers.get (i :: b)) r) :
    (tmp env T m cn).get (r :: i :: k :: b) =
    tmpD4S env (m.wf.get (k :: i :: b)) (cn.get (i :: b)) (T.refcn (m.numbers.get (i :: b)) r) := by
  have h1 := arg_ok h hw hc
  have h2 := mask_ok h
  have hin : InB (nref :: n :: n :: B) (r :: i :: k :: b) := ⟨hr, hi, hk, hb⟩
  simp only [tmp]
  rw [where_get_of_pos]
  · simp [h1.shape, pick_of_InB hin, arg_get h hw hc hb hi hk hr, tmpD4S]
  · rw [h2.shape, pick_of_InB hin, mask_get h hb hi hr]; exact hm

include h hc hw hb hi hk hr in
theorem expw_get : (expw env T m cn).get (r :: i :: k :: b) =
    expwD4S env T (m.wf.get (k :: i :: b)) (m.numbers.get (i :: b)) (cn.get (i :: b)) r := by
  have h1 := tmp_ok (env := env) h hw hc
  have h2 := fun i => powT_ok (env := env) h hw hc i
  have h3 := refc_ok h
  have h4 := mask_ok h
  have hin : InB (nref :: n :: n :: B) (r :: i :: k :: b) := ⟨hr, hi, hk, hb⟩
  simp only [expw, expwD4S]
  by_cases hm : 0 < T.refc (m.numbers.get (i :: b)) r
  · have g1 := tmp_get (env := env) h hw hc hb hi hk hr hm
    have g2 : ∀ s, (powT env T m cn s).get (r :: i :: k :: b) = powD4S env (m.wf.get (k :: i :: b))
        (cn.get (i :: b)) (T.refcn (m.numbers.get (i :: b)) r) s := by
      intro s; simp [powT, powD4S, g1]
    rw [where_get_of_pos (by rw [h4.shape, pick_of_InB hin, mask_get h hb hi hr]; exact hm),
      if_pos hm]
    simp only [where_get]
    simp only [refcPow1, refcPow3, h1.shape, (h2 _).shape, h3.shape, h4.shape, map_shape,
      where_shape, add_shape, scalar_shape, bshape_self, bshape_nil_left, bshape_nil_right,
      pick_of_InB hin, g2, g1, add_get, scalar_get, zero_add, map_get, refc_get h hb hi hr]
  · rw [where_get_of_neg (by rw [h4.shape, pick_of_InB hin, mask_get h hb hi hr]; exact hm),
      if_neg hm]
    simp

include h hc hw in
theorem norm_ok : (norm env T m cn).Ok (nref :: n :: n :: B) := by
  have h1 := expw_ok (env := env) h hw hc
  have h4 := mask_ok h
  constructor <;> simp [norm, h1.err, sumLastKeep_shape h1.shape, h4.err, h4.shape]

include h hc hb hi hk hr hw in
theorem norm_get : (norm env T m cn).get (r :: i :: k :: b) =
    if 0 < T.refc (m.numbers.get (i :: b)) r then ∑ s ∈ Finset.range nref,
      expwD4S env T (m.wf.get (k :: i :: b)) (m.numbers.get (i :: b)) (cn.get (i :: b)) s
    else tiny := by
  have h1 := expw_ok (env := env) h hw hc
  have h4 := mask_ok h
  have hin : InB (nref :: n :: n :: B) (r :: i :: k :: b) := ⟨hr, hi, hk, hb⟩
  simp only [norm, where_get]
  simp only [sumLastKeep_shape h1.shape, h4.shape, pick_of_InB hin, pick_one, pick_of_InB
    (show InB (n :: n :: B) (i :: k :: b) from ⟨hi, hk, hb⟩), sumLastKeep_get h1.shape,
    List.tail_cons, scalar_get]
  rw [Finset.sum_congr rfl fun s hs => expw_get h hw hc hb hi hk (Finset.mem_range.1 hs)]
  exact ite_iff (by rw [mask_get h hb hi hr]) rfl rfl

include h hc hw in
theorem gwTemp_ok : (gwTemp env T m cn).Ok (nref :: n :: n :: B) := by
  have h1 := expw_ok (env := env) h hw hc
  have h2 := norm_ok (env := env) h hw hc
  constructor <;> simp [gwTemp, h1.err, h1.shape, h2.err, h2.shape]

include h hc hb hi hk hr hw in
theorem gwTemp_get : (gwTemp env T m cn).get (r :: i :: k :: b) =
    gwTempOf T (m.numbers.get (i :: b))
      (expwD4S env T (m.wf.get (k :: i :: b)) (m.numbers.get (i :: b)) (cn.get (i :: b))) r := by
  have h1 := expw_ok (env := env) h hw hc
  have h2 := norm_ok (env := env) h hw hc
  have hin : InB (nref :: n :: n :: B) (r :: i :: k :: b) := ⟨hr, hi, hk, hb⟩
  simp [gwTemp, h1.shape, h2.shape, pick_of_InB hin, expw_get h hw hc hb hi hk hr,
    norm_get h hw hc hb hi hk hr, gwTempOf]

include h hc hw in
theorem gw_ok : (gw env T m cn).Ok (nref :: n :: n :: B) := by
  have h1 := gwTemp_ok (env := env) h hw hc
  have h2 := refcn_ok h
  constructor <;> simp [gw, maxcn, h1.err, h1.shape, h2.err, h2.shape,
    maxLastKeep_err (d := 6) h2.shape, maxLastKeep_shape h2.shape]

include h hc hb hi hk hr hw in
theorem gw_get : (gw env T m cn).get (r :: i :: k :: b) =
    gwOf env T (m.numbers.get (i :: b))
      (expwD4S env T (m.wf.get (k :: i :: b)) (m.numbers.get (i :: b)) (cn.get (i :: b))) r := by
  have h1 := gwTemp_ok (env := env) h hw hc
  have h2 := refcn_ok h
  have hin : InB (nref :: n :: n :: B) (r :: i :: k :: b) := ⟨hr, hi, hk, hb⟩
  have hmax : maxN (fun s => (refcn T m).get (s :: i :: k :: b)) (nref - 1) =
      maxN (T.refcn (m.numbers.get (i :: b))) (nref - 1) := by
    show maxN _ 6 = maxN _ 6
    simp only [maxN]
    rw [refcn_get h hb hi (by decide), refcn_get h hb hi (by decide), refcn_get h hb hi (by decide),
      refcn_get h hb hi (by decide), refcn_get h hb hi (by decide), refcn_get h hb hi (by decide),
      refcn_get h hb hi (by decide)]
  simp only [gw, where_get, gwOf]
  simp only [maxcn, h1.shape, h2.shape, maxLastKeep_shape h2.shape, maxLastKeep_get h2.shape,
    map_shape, where_shape, map2_shape, scalar_shape, bshape_self, bshape_nil_left,
    bshape_nil_right, pick_of_InB hin, map_get, map2_get, gwTemp_get h hw hc hb hi hk hr, scalar_get,
    bshape_cons, bdim_one_right, bdim_self, pick_one, pick_of_InB
    (show InB (n :: n :: B) (i :: k :: b) from ⟨hi, hk, hb⟩), List.tail_cons, hmax,
    refcn_get h hb hi hr]

include h hq in
theorem zetaIn_ok : (zetaT env m.ga (gamT T m.numbers m.gc)
      (refqT T m.refCharges m.numbers + zeffT T m.numbers) (q.unsqueeze 0 + zeffT T m.numbers)).Ok
    (nref :: n :: B) := by
  have h1 := refqT_ok h.num h.fits h.known h.lim
  constructor <;> simp [zetaT, zeffT, gamT, h1.err, h1.shape, hq.err, hq.shape, h.gExt, h.shape]

include h hq in
theorem dzetaIn_ok : (dzetaT env m.ga (gamT T m.numbers m.gc)
      (refqT T m.refCharges m.numbers + zeffT T m.numbers) (q.unsqueeze 0 + zeffT T m.numbers)).Ok
    (nref :: n :: B) := by
  have h1 := refqT_ok h.num h.fits h.known h.lim
  constructor <;> simp [dzetaT, zeffT, gamT, h1.err, h1.shape, hq.err, hq.shape, h.gExt, h.shape]

include h hq in
theorem zeta_ok : (zeta env T m q).Ok (nref :: n :: n :: B) := by
  have h1 := spread_ok h (zetaIn_ok (env := env) h hq)
  have h4 := mask_ok h
  constructor <;> simp [zeta, h1.err, h1.shape, h4.err, h4.shape]

include h hq in
theorem dzeta_ok : (dzeta env T m q).Ok (nref :: n :: n :: B) := by
  have h1 := spread_ok h (dzetaIn_ok (env := env) h hq)
  have h4 := mask_ok h
  constructor <;> simp [dzeta, h1.err, h1.shape, h4.err, h4.shape]

include h hq hb hi hk hr in
theorem zeta_get : (zeta env T m q).get (r :: i :: k :: b) =
    zetaAt env T m.ga m.gc m.refCharges (m.numbers.get (i :: b)) (q.get (i :: b)) r := by
  have h0 := zetaIn_ok (env := env) h hq
  have h1 := spread_ok h h0
  have h2 := refqT_ok h.num h.fits h.known h.lim
  have h4 := mask_ok h
  have hin : InB (nref :: n :: n :: B) (r :: i :: k :: b) := ⟨hr, hi, hk, hb⟩
  have hin' : InB (nref :: n :: B) (r :: i :: b) := ⟨hr, hi, hb⟩
  simp only [zeta, where_get, zetaAt]
  rw [h1.shape, h4.shape, pick_of_InB hin, spread_get h0 hb hi hr]
  refine ite_iff (by rw [mask_get h hb hi hr]) ?_ rfl
  simp [zetaT, zeffT, gamT, h2.shape, hq.shape, h.shape, map3_get, pick_of_InB hin',
    refqT_get h.known, pick_of_InB (show InB (n :: B) (i :: b) from ⟨hi, hb⟩), pick_cons_lt hi,
    pick_cons_lt hr, pick_of_InB hb]

include h hq hb hi hk hr in
theorem dzeta_get : (dzeta env T m q).get (r :: i :: k :: b) =
    dzetaAt env T m.ga m.gc m.refCharges (m.numbers.get (i :: b)) (q.get (i :: b)) r := by
  have h0 := dzetaIn_ok (env := env) h hq
  have h1 := spread_ok h h0
  have h2 := refqT_ok h.num h.fits h.known h.lim
  have h4 := mask_ok h
  have hin : InB (nref :: n :: n :: B) (r :: i :: k :: b) := ⟨hr, hi, hk, hb⟩
  have hin' : InB (nref :: n :: B) (r :: i :: b) := ⟨hr, hi, hb⟩
  simp only [dzeta, where_get, dzetaAt]
  rw [h1.shape, h4.shape, pick_of_InB hin, spread_get h0 hb hi hr]
  refine ite_iff (by rw [mask_get h hb hi hr]) ?_ rfl
  simp [dzetaT, zeffT, gamT, h2.shape, hq.shape, h.shape, map3_get, pick_of_InB hin',
    refqT_get h.known, pick_of_InB (show InB (n :: B) (i :: b) from ⟨hi, hb⟩), pick_cons_lt hi,
    pick_cons_lt hr, pick_of_InB hb]

end

theorem weights_ok (h : m.Good T n B) (hw : m.wf.Ok (n :: n :: B)) {co qo : Option (Tensor ℝ)}
    {cg qg : Idx → ℝ} (hc : D4.OptIs co n B cg) (hq : D4.OptIs qo n B qg) :
    (weights env T m co qo).Ok (nref :: n :: n :: B) := by
  obtain ⟨hc1, _⟩ := hc.getD h.num
  obtain ⟨hq1, _⟩ := hq.getD h.num
  have h1 := gw_ok (env := env) h hw hc1
  have h2 := zeta_ok (env := env) h hq1
  constructor <;> simp [weights, h1.err, h1.shape, h2.err, h2.shape]

/-- Weight of reference `r` of atom `i` for partner `k`. -/
theorem weights_get (h : m.Good T n B) (hw : m.wf.Ok (n :: n :: B)) {co qo : Option (Tensor ℝ)}
    {cg qg : Idx → ℝ} (hc : D4.OptIs co n B cg) (hq : D4.OptIs qo n B qg) {b : Idx} {i k r : ℕ}
    (hb : InB B b) (hi : i < n) (hk : k < n) (hr : r < nref) :
    (weights env T m co qo).get (r :: i :: k :: b) =
      wtOf env T m.ga m.gc m.refCharges (m.numbers.get (i :: b)) (qg (i :: b))
        (expwD4S env T (m.wf.get (k :: i :: b)) (m.numbers.get (i :: b)) (cg (i :: b))) r := by
  obtain ⟨hc1, hc2⟩ := hc.getD h.num
  obtain ⟨hq1, hq2⟩ := hq.getD h.num
  have h1 := gw_ok (env := env) h hw hc1
  have h2 := zeta_ok (env := env) h hq1
  have hin : InB (nref :: n :: n :: B) (r :: i :: k :: b) := ⟨hr, hi, hk, hb⟩
  simp only [weights, mul_get, map_get, map_shape, h1.shape, h2.shape, pick_of_InB hin,
    gw_get h hw hc1 hb hi hk hr, zeta_get h hq1 hb hi hk hr, wtOf, hc2, hq2]

end D4S

end
end TadDftd4
