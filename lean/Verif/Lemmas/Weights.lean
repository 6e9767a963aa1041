import Verif.Lemmas.Alpha

/-!
# Evaluation of the reference weights and atomic C6 coefficients
-/

set_option linter.unusedSimpArgs false

open scoped Classical

namespace TadDftd4

open Tensor

/-! ## Values for one atom -/

/-- `exp(-dcn²)` after rounding. -/
noncomputable def tmpD4 (env : Env) (cn rcn : ℝ) : ℝ := env.fl (Real.exp (-(cn - rcn) * (cn - rcn)))
noncomputable def powD4 (env : Env) (w cn rcn : ℝ) (i : ℕ) : ℝ :=
  env.fl (tmpD4 env cn rcn ^ ((i : ℝ) * w))

/-- Sum of the Gaussians of one reference, D4. -/
noncomputable def expwD4 (env : Env) (T : Tables) (w : ℝ) (Z : ℕ) (cn : ℝ) (r : ℕ) : ℝ :=
  if 0 < T.refc Z r then
    if T.refc Z r = 3 then powD4 env w cn (T.refcn Z r) 1 + powD4 env w cn (T.refcn Z r) 2 +
      powD4 env w cn (T.refcn Z r) 3
    else if T.refc Z r = 1 then powD4 env w cn (T.refcn Z r) 1
    else tmpD4 env cn (T.refcn Z r)
  else 0

noncomputable def tmpD4S (env : Env) (w cn rcn : ℝ) : ℝ :=
  env.fl (Real.exp (-(cn - rcn) * ((cn - rcn) * w)))
noncomputable def powD4S (env : Env) (w cn rcn : ℝ) (i : ℕ) : ℝ := env.fl (tmpD4S env w cn rcn ^ i)

/-- Sum of the Gaussians of one reference, D4S. -/
noncomputable def expwD4S (env : Env) (T : Tables) (w : ℝ) (Z : ℕ) (cn : ℝ) (r : ℕ) : ℝ :=
  if 0 < T.refc Z r then
    if T.refc Z r = 3 then powD4S env w cn (T.refcn Z r) 1 + powD4S env w cn (T.refcn Z r) 2 +
      powD4S env w cn (T.refcn Z r) 3
    else if T.refc Z r = 1 then powD4S env w cn (T.refcn Z r) 1
    else tmpD4S env w cn (T.refcn Z r)
  else 0

/-- Normalised weight of reference `r` for given Gaussian sums `E`. -/
noncomputable def gwTempOf (T : Tables) (Z : ℕ) (E : ℕ → ℝ) (r : ℕ) : FP :=
  FP.div (.fin (E r)) (.fin (if 0 < T.refc Z r then ∑ s ∈ Finset.range nref, E s else tiny))

noncomputable def gwOf (env : Env) (T : Tables) (Z : ℕ) (E : ℕ → ℝ) (r : ℕ) : FP :=
  if FP.isExceptional env.fmax (gwTempOf T Z E r) then
    if T.refcn Z r = maxN (T.refcn Z) (nref - 1) then .fin 1 else .fin 0
  else gwTempOf T Z E r

/-- Charge scaling of reference `r`. -/
noncomputable def zetaAt (env : Env) (T : Tables) (ga gc : ℝ) (rq : String) (Z : ℕ) (q : ℝ)
    (r : ℕ) : ℝ :=
  if 0 < T.refc Z r then (zetaF env.eps ga (T.gam Z * gc) (refqAt T rq Z r + T.zeff Z)
    (q + T.zeff Z)).toReal else 0

noncomputable def dzetaAt (env : Env) (T : Tables) (ga gc : ℝ) (rq : String) (Z : ℕ) (q : ℝ)
    (r : ℕ) : ℝ :=
  if 0 < T.refc Z r then (dzetaF env ga (T.gam Z * gc) (refqAt T rq Z r + T.zeff Z)
    (q + T.zeff Z)).toReal else 0

/-- Weight of reference `r`. -/
noncomputable def wtOf (env : Env) (T : Tables) (ga gc : ℝ) (rq : String) (Z : ℕ) (q : ℝ)
    (E : ℕ → ℝ) (r : ℕ) : ℝ :=
  zetaAt env T ga gc rq Z q r * (gwOf env T Z E r).toReal

/-! ## Tensors -/

/-- A model object for the given numbers with known reference charges. -/
structure RefModel.Good (T : Tables) (m : RefModel) (n : ℕ) (B : Shape) : Prop where
  num : m.numbers.Ok (n :: B)
  fits : T.Fits
  known : knownCharges m.refCharges
  lim : m.numbers.AllLt (T.limit m.refCharges)

namespace RefModel.Good
variable {T : Tables} {m : RefModel} {n : ℕ} {B : Shape} (h : m.Good T n B)
include h

theorem lt : m.numbers.AllLt T.nZ := fun i hi =>
  lt_of_lt_of_le (h.lim i hi) (Tables.limit_le h.fits _)
theorem gZ : gatherErr T.nZ m.numbers = none := gather_err_none h.num.err h.lt le_rfl
theorem gExt : gatherErr T.nExt m.numbers = none := gather_err_none h.num.err h.lt h.fits.ext
theorem shape : m.numbers.shape = n :: B := h.num.shape
end RefModel.Good

/-- Rounding `zero + x` in the model is `x`. -/
theorem zero_add_get (x : Tensor ℝ) (i : Idx) :
    (scalar 0 + x).get i = x.get (pick x.shape i) := by simp

section
variable {env : Env} {T : Tables} {m : RefModel} {cn q : Tensor ℝ} {n : ℕ} {B : Shape} {w : ℝ}

namespace D4

section
variable (h : m.Good T n B) (hw : m.wf = scalar w) (hc : cn.Ok (n :: B)) (hq : q.Ok (n :: B))

include h in
theorem refc_ok : (refc T m).Ok (nref :: n :: B) := by
  constructor <;> simp [refc, h.gZ, h.shape]
include h in
theorem refcn_ok : (refcn T m).Ok (nref :: n :: B) := by
  constructor <;> simp [refcn, h.gZ, h.shape]
include h in
theorem mask_ok : (mask T m).Ok (nref :: n :: B) := by
  constructor <;> simp [mask, (refc_ok h).err, (refc_ok h).shape]
include h hc in
theorem dcn_ok : (dcn T m cn).Ok (nref :: n :: B) := by
  have := refcn_ok h
  constructor <;> simp [dcn, hc.err, hc.shape, this.err, this.shape]
include h hc in
theorem tmp_ok : (tmp env T m cn).Ok (nref :: n :: B) := by
  have := dcn_ok h hc
  constructor <;> simp [tmp, this.err, this.shape]
include h hc hw in
theorem powT_ok (i : ℕ) : (powT env T m cn i).Ok (nref :: n :: B) := by
  have := tmp_ok (env := env) h hc
  constructor <;> simp [powT, this.err, this.shape, hw]
include h hc hw in
theorem expw_ok : (expw env T m cn).Ok (nref :: n :: B) := by
  have h1 := tmp_ok (env := env) h hc
  have h2 := fun i => powT_ok (env := env) h hw hc i
  have h3 := refc_ok h
  have h4 := mask_ok h
  constructor <;>
  simp [expw, refcPow1, refcPow3, h1.err, h1.shape, (h2 _).err, (h2 _).shape, h3.err, h3.shape,
    h4.err, h4.shape]

variable {b : Idx} {i r : ℕ} (hb : InB B b) (hi : i < n) (hr : r < nref)

include h hc hb hi hr in
theorem dcn_get : (dcn T m cn).get (r :: i :: b) =
    cn.get (i :: b) - T.refcn (m.numbers.get (i :: b)) r := by
  have := refcn_ok h
  simp [dcn, this.shape, hc.shape, pick_cons_lt hi, pick_cons_lt hr, pick_of_InB hb]
  simp [refcn]

include h hc hb hi hr in
theorem tmp_get : (tmp env T m cn).get (r :: i :: b) =
    tmpD4 env (cn.get (i :: b)) (T.refcn (m.numbers.get (i :: b)) r) := by
  have := dcn_ok h hc
  simp [tmp, this.shape, pick_cons_lt hi, pick_cons_lt hr, pick_of_InB hb, dcn_get h hc hb hi hr,
    tmpD4]

include h hc hb hi hr hw in
theorem powT_get (k : ℕ) : (powT env T m cn k).get (r :: i :: b) =
    powD4 env w (cn.get (i :: b)) (T.refcn (m.numbers.get (i :: b)) r) k := by
  have := tmp_ok (env := env) h hc
  simp [powT, this.shape, pick_cons_lt hi, pick_cons_lt hr, pick_of_InB hb, tmp_get h hc hb hi hr,
    powD4, hw]

include h hc hb hi hr hw in
theorem expw_get : (expw env T m cn).get (r :: i :: b) =
    expwD4 env T w (m.numbers.get (i :: b)) (cn.get (i :: b)) r := by
  have h1 := tmp_ok (env := env) h hc
  have h2 := fun i => powT_ok (env := env) h hw hc i
  have h3 := refc_ok h
  have h4 := mask_ok h
  have hin : InB (nref :: n :: B) (r :: i :: b) := ⟨hr, hi, hb⟩
  have g2 := fun k => powT_get (env := env) h hw hc hb hi hr k
  simp only [expw, where_get, expwD4]
  simp only [refcPow1, refcPow3, h1.shape, (h2 _).shape, h3.shape, h4.shape, map_shape, where_shape,
    add_shape, scalar_shape, bshape_self, bshape_nil_left, bshape_nil_right, pick_of_InB hin, g2,
    tmp_get h hc hb hi hr, add_get, scalar_get, zero_add, map_get]
  simp [mask, refc]
  exact ite_iff Iff.rfl (ite_iff Iff.rfl rfl (ite_iff Iff.rfl rfl rfl)) rfl

include h hc hw in
theorem norm_ok : (norm env T m cn).Ok (nref :: n :: B) := by
  have h1 := expw_ok (env := env) h hw hc
  have h4 := mask_ok h
  constructor <;> simp [norm, h1.err, sumLastKeep_shape h1.shape, h4.err, h4.shape]

include h hc hb hi hr hw in
theorem norm_get : (norm env T m cn).get (r :: i :: b) =
    if 0 < T.refc (m.numbers.get (i :: b)) r then ∑ s ∈ Finset.range nref,
      expwD4 env T w (m.numbers.get (i :: b)) (cn.get (i :: b)) s else tiny := by
  have h1 := expw_ok (env := env) h hw hc
  have h4 := mask_ok h
  have hin : InB (nref :: n :: B) (r :: i :: b) := ⟨hr, hi, hb⟩
  simp only [norm, where_get]
  simp only [sumLastKeep_shape h1.shape, h4.shape, pick_of_InB hin, pick_one, pick_of_InB
    (show InB (n :: B) (i :: b) from ⟨hi, hb⟩), sumLastKeep_get h1.shape, List.tail_cons,
    scalar_get]
  rw [Finset.sum_congr rfl fun s hs => expw_get h hw hc hb hi (Finset.mem_range.1 hs)]
  simp [mask, refc]
  exact ite_iff Iff.rfl rfl rfl

include h hc hw in
theorem gwTemp_ok : (gwTemp env T m cn).Ok (nref :: n :: B) := by
  have h1 := expw_ok (env := env) h hw hc
  have h2 := norm_ok (env := env) h hw hc
  constructor <;> simp [gwTemp, h1.err, h1.shape, h2.err, h2.shape]

include h hc hb hi hr hw in
theorem gwTemp_get : (gwTemp env T m cn).get (r :: i :: b) =
    gwTempOf T (m.numbers.get (i :: b))
      (expwD4 env T w (m.numbers.get (i :: b)) (cn.get (i :: b))) r := by
  have h1 := expw_ok (env := env) h hw hc
  have h2 := norm_ok (env := env) h hw hc
  have hin : InB (nref :: n :: B) (r :: i :: b) := ⟨hr, hi, hb⟩
  simp [gwTemp, h1.shape, h2.shape, pick_of_InB hin, expw_get h hw hc hb hi hr,
    norm_get h hw hc hb hi hr, gwTempOf]

include h hc hw in
theorem gw_ok : (gw env T m cn).Ok (nref :: n :: B) := by
  have h1 := gwTemp_ok (env := env) h hw hc
  have h2 := refcn_ok h
  constructor <;> simp [gw, maxcn, h1.err, h1.shape, h2.err, h2.shape,
    maxLastKeep_err (d := 6) h2.shape, maxLastKeep_shape h2.shape]

include h hc hb hi hr hw in
theorem gw_get : (gw env T m cn).get (r :: i :: b) =
    gwOf env T (m.numbers.get (i :: b))
      (expwD4 env T w (m.numbers.get (i :: b)) (cn.get (i :: b))) r := by
  have h1 := gwTemp_ok (env := env) h hw hc
  have h2 := refcn_ok h
  have hin : InB (nref :: n :: B) (r :: i :: b) := ⟨hr, hi, hb⟩
  simp only [gw, where_get, gwOf]
  simp only [maxcn, h1.shape, h2.shape, maxLastKeep_shape h2.shape, maxLastKeep_get h2.shape,
    map_shape, where_shape, map2_shape, scalar_shape, bshape_self, bshape_nil_left,
    bshape_nil_right, pick_of_InB hin, map_get, map2_get, gwTemp_get h hw hc hb hi hr, scalar_get,
    bshape_cons, bdim_one_right, bdim_self, pick_one, pick_of_InB
    (show InB (n :: B) (i :: b) from ⟨hi, hb⟩), List.tail_cons]
  simp [refcn]
  congr!

include h hq in
theorem zeta_ok : (zeta env T m q).Ok (nref :: n :: B) := by
  have h1 := refqT_ok h.num h.fits h.known h.lim
  have h4 := mask_ok h
  constructor <;> simp [zeta, zetaT, zeffT, gamT, h1.err, h1.shape, h4.err, h4.shape, hq.err,
    hq.shape, h.gExt, h.shape]

include h hq hb hi hr in
theorem zeta_get : (zeta env T m q).get (r :: i :: b) =
    zetaAt env T m.ga m.gc m.refCharges (m.numbers.get (i :: b)) (q.get (i :: b)) r := by
  have h1 := refqT_ok h.num h.fits h.known h.lim
  have h4 := mask_ok h
  have hin : InB (nref :: n :: B) (r :: i :: b) := ⟨hr, hi, hb⟩
  simp only [zeta, where_get, zetaAt]
  simp [zetaT, zeffT, gamT, h1.shape, h4.shape, hq.shape, h.shape, map3_get, pick_of_InB hin,
    refqT_get h.known, pick_of_InB (show InB (n :: B) (i :: b) from ⟨hi, hb⟩), pick_cons_lt hi,
    pick_cons_lt hr, pick_of_InB hb]
  simp [mask, refc]
  exact ite_iff Iff.rfl rfl rfl

include h hq in
theorem dzeta_ok : (dzeta env T m q).Ok (nref :: n :: B) := by
  have h1 := refqT_ok h.num h.fits h.known h.lim
  have h4 := mask_ok h
  constructor <;> simp [dzeta, dzetaT, zeffT, gamT, h1.err, h1.shape, h4.err, h4.shape, hq.err,
    hq.shape, h.gExt, h.shape]

include h hq hb hi hr in
theorem dzeta_get : (dzeta env T m q).get (r :: i :: b) =
    dzetaAt env T m.ga m.gc m.refCharges (m.numbers.get (i :: b)) (q.get (i :: b)) r := by
  have h1 := refqT_ok h.num h.fits h.known h.lim
  have h4 := mask_ok h
  have hin : InB (nref :: n :: B) (r :: i :: b) := ⟨hr, hi, hb⟩
  simp only [dzeta, where_get, dzetaAt]
  simp [dzetaT, zeffT, gamT, h1.shape, h4.shape, hq.shape, h.shape, map3_get, pick_of_InB hin,
    refqT_get h.known, pick_of_InB (show InB (n :: B) (i :: b) from ⟨hi, hb⟩), pick_cons_lt hi,
    pick_cons_lt hr, pick_of_InB hb]
  simp [mask, refc]
  exact ite_iff Iff.rfl rfl rfl

end

/-- Optional tensor argument with its default `zeros`. -/
def OptIs (x : Option (Tensor ℝ)) (n : ℕ) (B : Shape) (g : Idx → ℝ) : Prop :=
  (x = none ∧ g = fun _ => 0) ∨ ∃ t, x = some t ∧ t.Ok (n :: B) ∧ t.get = g

theorem OptIs.getD {x : Option (Tensor ℝ)} {g : Idx → ℝ} (hx : OptIs x n B g)
    (hn : m.numbers.Ok (n :: B)) :
    (x.getD (full m.numbers.shape 0)).Ok (n :: B) ∧ (x.getD (full m.numbers.shape 0)).get = g := by
  rcases hx with ⟨rfl, rfl⟩ | ⟨t, rfl, h1, h2⟩
  · exact ⟨⟨rfl, hn.shape⟩, rfl⟩
  · exact ⟨h1, h2⟩

theorem weights_ok (h : m.Good T n B) (hw : m.wf = scalar w) {co qo : Option (Tensor ℝ)}
    {cg qg : Idx → ℝ} (hc : OptIs co n B cg) (hq : OptIs qo n B qg) :
    (weights env T m co qo).Ok (nref :: n :: B) := by
  obtain ⟨hc1, _⟩ := hc.getD h.num
  obtain ⟨hq1, _⟩ := hq.getD h.num
  have h1 := gw_ok (env := env) h hw hc1
  have h2 := zeta_ok (env := env) h hq1
  constructor <;> simp [weights, h1.err, h1.shape, h2.err, h2.shape]

theorem weights_get (h : m.Good T n B) (hw : m.wf = scalar w) {co qo : Option (Tensor ℝ)}
    {cg qg : Idx → ℝ} (hc : OptIs co n B cg) (hq : OptIs qo n B qg) {b : Idx} {i r : ℕ}
    (hb : InB B b) (hi : i < n) (hr : r < nref) :
    (weights env T m co qo).get (r :: i :: b) =
      wtOf env T m.ga m.gc m.refCharges (m.numbers.get (i :: b)) (qg (i :: b))
        (expwD4 env T w (m.numbers.get (i :: b)) (cg (i :: b))) r := by
  obtain ⟨hc1, hc2⟩ := hc.getD h.num
  obtain ⟨hq1, hq2⟩ := hq.getD h.num
  have h1 := gw_ok (env := env) h hw hc1
  have h2 := zeta_ok (env := env) h hq1
  have hin : InB (nref :: n :: B) (r :: i :: b) := ⟨hr, hi, hb⟩
  simp only [weights, mul_get, map_get, map_shape, h1.shape, h2.shape, pick_of_InB hin,
    gw_get h hw hc1 hb hi hr, zeta_get h hq1 hb hi hr, wtOf, hc2, hq2]

end D4

end
end TadDftd4
