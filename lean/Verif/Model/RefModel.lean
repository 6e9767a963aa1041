import Verif.Model.Utils

/-!
# Dispersion models: `/repo/src/tad_dftd4/model/{base,d4,d4s,d3,d5}.py`
-/

open scoped Classical

namespace TadDftd4

open Tensor Tensor.Lbl

/-- The tables read by the models.  Rows are indexed by atomic number (row 0 is padding).

* `refcn`, `refc`, `refsys`, `refascale`, `refscount`, `refalpha`, `secscale`, `secalpha`:
  `reference/d4/params.py` (`refcovcn`, ...)
* `eeqQ`, `eeqH`: `reference/d4/charge_eeq.py` (`clsq`, `clsh`)
* `gfnQ`, `gfnH`: `reference/d4/charge_gfn2.py` (`refq`, `refh`)
* `wfpair`: `data/wfpair.py`; `r4r2`: `data/r4r2.py`
* `gam`, `zeff`, `vdw`: `tad_mctc.data.{GAM, ZEFF, VDW_PAIRWISE}` (external)
(`reference/d4/params.py`, `charge_eeq.py`, `charge_gfn2.py`, `data/*.py`). -/
structure Tables where
  nZ : ℕ
  refcn : ℕ → ℕ → ℝ
  refc : ℕ → ℕ → ℕ
  refsys : ℕ → ℕ → ℕ
  refascale : ℕ → ℕ → ℝ
  refscount : ℕ → ℕ → ℝ
  refalpha : ℕ → ℕ → ℕ → ℝ
  nSec : ℕ
  secscale : ℕ → ℝ
  secalpha : ℕ → ℕ → ℝ
  eeqQ : ℕ → ℕ → ℝ
  eeqH : ℕ → ℕ → ℝ
  nG : ℕ
  gfnQ : ℕ → ℕ → ℝ
  gfnH : ℕ → ℕ → ℝ
  nPair : ℕ
  wfpair : ℕ → ℕ → ℝ
  nR4 : ℕ
  r4r2 : ℕ → ℝ
  nExt : ℕ
  gam : ℕ → ℝ
  zeff : ℕ → ℝ
  vdw : ℕ → ℕ → ℝ

/-- `model/d4.py:54` `D4Model`, `model/d4s.py:56` `D4SModel`, `model/d4s.py:319` `D4SDebug`,
`model/d3.py`/`model/d5.py` (subclasses of `BaseModel` that implement none of the abstract
methods; these therefore return `None`). -/
inductive ModelKind | d4 | d4s | d4sDebug | d3 | d5
  deriving DecidableEq, Repr

/-- State of a model object, `model/base.py:105` `__slots__`. -/
structure RefModel where
  kind : ModelKind
  numbers : Tensor ℕ
  ga : ℝ
  gc : ℝ
  wf : Tensor ℝ
  refCharges : String
  rc6 : Tensor ℝ

/-- `model/base.py:57-59` -/
def gaDefault : ℝ := 3
/-- `model/base.py:58` -/
def gcDefault : ℝ := 2
/-- `model/base.py:59` -/
def wfDefault : ℝ := 6

/-! ## Charge scaling -/

/-- `model/base.py:326-329`, `scale = exp(gam * (1 - qref / (qmod - eps)))`, in IEEE arithmetic. -/
noncomputable def scaleF (eps gam qref qmod : ℝ) : FP :=
  FP.exp (FP.mul (.fin gam) (FP.sub (.fin 1) (FP.div (.fin qref) (.fin (qmod - eps)))))

/-- `model/base.py:308-335` `_zeta`, element-wise. -/
noncomputable def zetaF (eps ga gam qref qmod : ℝ) : FP :=
  if 0 < qmod then FP.exp (FP.mul (.fin ga) (FP.sub (.fin 1) (scaleF eps gam qref qmod)))
  else .fin (Real.exp ga)

/-- `model/base.py:337-365` `_dzeta`, element-wise. -/
noncomputable def dzetaF (env : Env) (ga gam qref qmod : ℝ) : FP :=
  if 0 < qmod then
    let scale := scaleF env.eps gam qref qmod
    let zeta := FP.exp (FP.mul (.fin ga) (FP.sub (.fin 1) scale))
    FP.mul (FP.mul (FP.mul (.fin (-ga * gam)) scale) zeta) (.fin (env.sdiv qref (qmod ^ 2)))
  else .fin 0

/-- Element-wise ternary operation with broadcasting (e.g. `model/base.py:329`). -/
noncomputable def map3 {α β γ δ : Type} (f : α → β → γ → δ) (x : Tensor α) (y : Tensor β)
    (z : Tensor γ) : Tensor δ := map2 (fun g c => g c) (map2 f x y) z

/-- `_zeta` on tensors (`model/base.py:308-335`). -/
noncomputable def zetaT (env : Env) (ga : ℝ) (gam qref qmod : Tensor ℝ) : Tensor ℝ :=
  (map3 (zetaF env.eps ga) gam qref qmod).map FP.toReal

/-- `_dzeta` on tensors (`model/base.py:337-365`). -/
noncomputable def dzetaT (env : Env) (ga : ℝ) (gam qref qmod : Tensor ℝ) : Tensor ℝ :=
  (map3 (dzetaF env ga) gam qref qmod).map FP.toReal

/-! ## Reference polarizabilities and reference C6 -/

section base
variable (env : Env) (T : Tables)

/-- Size and content of the table of reference charges of the hydrogenated species,
`model/base.py:388-399`; ValueError for an unknown key. -/
noncomputable def refsqT (refCharges : String) (numbers : Tensor ℕ) : Tensor ℝ :=
  if refCharges = "eeq" then gather1 T.nZ nref T.eeqH numbers
  else if refCharges = "gfn2" then gather1 T.nG nref T.gfnH numbers
  else Tensor.fail .value

/-- `model/base.py:367-418` `_get_alpha`, shape `(..., nat, ref, 23)`. -/
noncomputable def getAlpha (numbers : Tensor ℕ) (ga gc : ℝ) (refCharges : String) : Tensor ℝ :=
  let refsys := gather1 T.nZ nref T.refsys numbers
  let refascale := gather1 T.nZ nref T.refascale numbers
  let refalpha := gather2 T.nZ nref nfreq T.refalpha numbers
  let refscount := gather1 T.nZ nref T.refscount numbers
  let refsq := refsqT T refCharges numbers
  let mask := refsys.map (0 < ·)
  let zeff := gather T.nExt T.zeff refsys
  let gam := gather T.nExt T.gam refsys * scalar gc
  let zeta := where_ mask (zetaT env ga gam zeff (refsq + zeff)) (scalar 0)
  let aiw := gather1 T.nSec 1 (fun s _ => T.secscale s) refsys
    * gather1 T.nSec nfreq T.secalpha refsys * zeta.unsqueeze 0
  let h := refalpha - refscount.unsqueeze 0 * aiw
  let alpha := refascale.unsqueeze 0 * h
  where_ (alpha.gtc 0) alpha (scalar 0)

/-- `model/base.py:420-431` `_get_refc6`, shape `(..., nat, nat, nref, nref)`. -/
noncomputable def getRefC6 (numbers : Tensor ℕ) (ga gc : ℝ) (refCharges : String) : Tensor ℝ :=
  trapzd (getAlpha env T numbers ga gc refCharges)

/-- `_get_wf` of the models: `d4.py:59-61`, `d4s.py:61-67`, `d4s.py:326-329`. The stub models
return `None`; the value is never read. -/
noncomputable def getWf (kind : ModelKind) (numbers : Tensor ℕ) : Tensor ℝ :=
  match kind with
  | .d4 => scalar wfDefault
  | .d4s => gatherPair T.nPair T.wfpair (numbers.unsqueeze 0) (numbers.unsqueeze 1)
  | .d4sDebug => match numbers.shape.getLast? with
    | some s => full [s, s] wfDefault
    | none => Tensor.fail .index
  | .d3 => scalar 0
  | .d5 => scalar 0

/-- `model/base.py:107-151`, the constructor. An exception raised while `wf` or `rc6` are computed
is an exception of the constructor (see `RefModel.ctorErr`). -/
noncomputable def mkModel (kind : ModelKind) (numbers : Tensor ℕ) (ga : ℝ := gaDefault)
    (gc : ℝ := gcDefault) (wf : Option (Tensor ℝ) := none) (refCharges : String := "eeq")
    (rc6 : Option (Tensor ℝ) := none) : RefModel :=
  { kind, numbers, ga, gc, refCharges
    wf := wf.getD (getWf T kind numbers)
    rc6 := rc6.getD (getRefC6 env T numbers ga gc refCharges) }

/-- Exception of the constructor call that produced the model (`model/base.py:107-151`). -/
def RefModel.ctorErr (m : RefModel) : Option Err := orErr m.wf.err m.rc6.err

/-- Reference charges, `d4.py:142-154`, `d4s.py:148-159`. -/
noncomputable def refqT (refCharges : String) (numbers : Tensor ℕ) : Tensor ℝ :=
  if refCharges = "eeq" then gather1 T.nZ nref T.eeqQ numbers
  else if refCharges = "gfn2" then gather1 T.nG nref T.gfnQ numbers
  else Tensor.fail .value

/-- `zeff`, `gam` with reference axis, `d4.py:220-221`, `d4s.py:239-240`. -/
noncomputable def zeffT (numbers : Tensor ℕ) : Tensor ℝ := (gather T.nExt T.zeff numbers).unsqueeze 0
/-- `model/d4.py:221` -/
noncomputable def gamT (numbers : Tensor ℕ) (gc : ℝ) : Tensor ℝ :=
  (gather T.nExt T.gam numbers).unsqueeze 0 * scalar gc

/-- The constant `1e-300` of `d4.py:203`, `d4s.py:222` (0 in the quotient only for `0/1e-300`). -/
noncomputable def tiny : ℝ := 1 / 10 ^ 300

end base

/-! ## D4: `model/d4.py` -/

namespace D4
variable (env : Env) (T : Tables) (m : RefModel) (cn q : Tensor ℝ)

/-- `d4.py:159-160` -/
noncomputable def refc : Tensor ℕ := gather1 T.nZ nref T.refc m.numbers
/-- `mask`, `model/d4.py:160` -/
noncomputable def mask : Tensor Prop := (refc T m).map (0 < ·)
/-- `d4.py:170-172` -/
noncomputable def refcn : Tensor ℝ := gather1 T.nZ nref T.refcn m.numbers
/-- `d4.py:177` -/
noncomputable def dcn : Tensor ℝ := cn.unsqueeze 0 - refcn T m
/-- `d4.py:178`, `tmp = exp(-dcn * dcn)` -/
noncomputable def tmp : Tensor ℝ :=
  (-(dcn T m cn) * dcn T m cn).map (fun x => env.fl (Real.exp x))
/-- `torch.pow(tmp, i * self.wf)` (`model/d4.py:187`). -/
noncomputable def powT (i : ℕ) : Tensor ℝ :=
  map2 (fun t w => env.fl (t ^ w)) (tmp env T m cn) (scalar (i : ℝ) * m.wf)
/-- `d4.py:185-189` `refc_pow` for n = 1 and n = 3 -/
noncomputable def refcPow1 : Tensor ℝ := scalar 0 + powT env T m cn 1
/-- `refc_pow(3)`, `model/d4.py:185-189` -/
noncomputable def refcPow3 : Tensor ℝ :=
  scalar 0 + powT env T m cn 1 + powT env T m cn 2 + powT env T m cn 3
/-- `d4.py:191-194` -/
noncomputable def expw : Tensor ℝ :=
  let p1 := where_ ((refc T m).map (· = 1)) (refcPow1 env T m cn) (tmp env T m cn)
  let pf := where_ ((refc T m).map (· = 3)) (refcPow3 env T m cn) p1
  where_ (mask T m) pf (scalar 0)
/-- `d4.py:200-204` -/
noncomputable def norm : Tensor ℝ :=
  where_ (mask T m) (expw env T m cn).sumLastKeep (scalar tiny)
/-- `d4.py:207`; conversion to the working precision is not modelled -/
noncomputable def gwTemp : Tensor FP :=
  map2 FP.div ((expw env T m cn).map .fin) ((norm env T m cn).map .fin)
/-- `d4.py:210` -/
noncomputable def maxcn : Tensor ℝ := (refcn T m).maxLastKeep
/-- `d4.py:213-217` -/
noncomputable def gw : Tensor FP :=
  where_ ((gwTemp env T m cn).map (FP.isExceptional env.fmax))
    (where_ (map2 (· = ·) (refcn T m) (maxcn T m)) (scalar (.fin 1)) (scalar (.fin 0)))
    (gwTemp env T m cn)
/-- `d4.py:220-225` -/
noncomputable def zeta : Tensor ℝ :=
  let zeff := zeffT T m.numbers
  where_ (mask T m)
    (zetaT env m.ga (gamT T m.numbers m.gc) (refqT T m.refCharges m.numbers + zeff)
      (q.unsqueeze 0 + zeff)) (scalar 0)
/-- `d4.py:259-262` -/
noncomputable def dzeta : Tensor ℝ :=
  let zeff := zeffT T m.numbers
  where_ (mask T m)
    (dzetaT env m.ga (gamT T m.numbers m.gc) (refqT T m.refCharges m.numbers + zeff)
      (q.unsqueeze 0 + zeff)) (scalar 0)
/-- `2 * i * self.wf * dcn * torch.pow(tmp, i * self.wf)`, `d4.py:239` -/
noncomputable def dpowT (i : ℕ) : Tensor ℝ :=
  scalar (2 * (i : ℝ)) * m.wf * dcn T m cn * powT env T m cn i
/-- `d4.py:236-247` -/
noncomputable def dexpw : Tensor ℝ :=
  where_ ((refc T m).map (· = 1)) (scalar 0 + dpowT env T m cn 1) (scalar 0) +
  where_ ((refc T m).map (· = 3))
    (scalar 0 + dpowT env T m cn 1 + dpowT env T m cn 2 + dpowT env T m cn 3) (scalar 0)
/-- `d4.py:250-252` -/
noncomputable def dgwRaw : Tensor FP :=
  let dnorm := (dexpw env T m cn).sumLastKeep
  let nrm := (norm env T m cn).map FP.fin
  map2 FP.div (map2 FP.sub ((dexpw env T m cn).map .fin)
    (map2 FP.div ((expw env T m cn * dnorm).map .fin) nrm)) nrm
/-- `d4.py:253-255` -/
noncomputable def dgw : Tensor FP :=
  where_ ((dgwRaw env T m cn).map (FP.isExceptional env.fmax)) (scalar (.fin 0))
    (dgwRaw env T m cn)

/-- `d4.py:103-266` `weight_references` without derivatives. `cn = None` and `q = None` are zeros
(`d4.py:137-140`). -/
noncomputable def weights (cn q : Option (Tensor ℝ)) : Tensor ℝ :=
  let cn := cn.getD (full m.numbers.shape 0)
  let q := q.getD (full m.numbers.shape 0)
  zeta env T m q * (gw env T m cn).map FP.toReal

/-- `d4.py:227-266` `weight_references` with the derivative flags, in the order of the returned
tuple. -/
noncomputable def weightsD (cn q : Option (Tensor ℝ)) (withDq withDcn : Bool) : List (Tensor ℝ) :=
  let cn' := cn.getD (full m.numbers.shape 0)
  let q' := q.getD (full m.numbers.shape 0)
  [weights env T m cn q] ++
  (if withDcn then [zeta env T m q' * (dgw env T m cn').map FP.toReal] else []) ++
  (if withDq then [dzeta env T m q' * (gw env T m cn').map FP.toReal] else [])

/-- `d4.py:268-289` `get_atomic_c6`: `"...ijab,...ia,...jb->...ij"` -/
noncomputable def atomicC6 (gw : Tensor ℝ) : Tensor ℝ :=
  einsum [⟨[b, a, j, i], true, m.rc6⟩, ⟨[a, i], true, gw⟩, ⟨[b, j], true, gw⟩] [j, i]

/-- `d4.py:291-307` `get_weighted_pols`: `"...nr,...nrw->...nw"` -/
noncomputable def weightedPols (gw : Tensor ℝ) : Tensor ℝ :=
  einsum [⟨[r, n], true, gw⟩,
    ⟨[w, r, n], true, getAlpha env T m.numbers m.ga m.gc m.refCharges⟩] [w, n]

end D4

/-- `x[..., k]` (`model/base.py:302`). -/
def selectLast {α : Type} (k : ℕ) (x : Tensor α) : Tensor α where
  err := orErr x.err (match x.shape with
    | d :: _ => if k < d then none else some .index
    | [] => some .index)
  shape := x.shape.tail
  get i := x.get (k :: i)

/-- `model/base.py:286-302` `get_polarizabilities`: `"...nr,...nr->...n"` -/
noncomputable def polarizabilities (env : Env) (T : Tables) (m : RefModel) (gw : Tensor ℝ) :
    Tensor ℝ :=
  einsum [⟨[r, n], true, gw⟩,
    ⟨[r, n], true, selectLast 0 (getAlpha env T m.numbers m.ga m.gc m.refCharges)⟩] [n]

/-! ## D4S: `model/d4s.py` -/

namespace D4S
variable (env : Env) (T : Tables) (m : RefModel) (cn q : Tensor ℝ)

/-- `d4s.py:170`, `shp = (*_refc.shape[:-1], _refc.shape[-2], _refc.shape[-1])` -/
def shp (s : Shape) : Shape :=
  match s with
  | nr :: nat :: bs => nr :: nat :: nat :: bs
  | s => s

/-- `x.unsqueeze(-3).expand(*shp)` (`model/d4s.py:171, 186`). -/
noncomputable def spread {α : Type} (x : Tensor α) : Tensor α :=
  (x.unsqueeze 2).expand (shp (D4.refc T m).shape)

/-- `d4s.py:167-173` -/
noncomputable def refc : Tensor ℕ := spread T m (D4.refc T m)
/-- `mask`, `model/d4s.py:173` -/
noncomputable def mask : Tensor Prop := (refc T m).map (0 < ·)
/-- `d4s.py:183-186` -/
noncomputable def refcn : Tensor ℝ := spread T m (D4.refcn T m)
/-- `d4s.py:191` -/
noncomputable def dcn : Tensor ℝ := (cn.unsqueeze 0).unsqueeze 2 - refcn T m
/-- `d4s.py:197` `"...mnr,...mnr,...nm->...mnr"` -/
noncomputable def arg : Tensor ℝ :=
  einsum [⟨[r, n, Lbl.m], true, -(dcn T m cn)⟩, ⟨[r, n, Lbl.m], true, dcn T m cn⟩,
    ⟨[Lbl.m, n], true, m.wf⟩] [r, n, Lbl.m]
/-- `d4s.py:198` -/
noncomputable def tmp : Tensor ℝ :=
  where_ (mask T m) ((arg T m cn).map (fun x => env.fl (Real.exp x))) (scalar 0)
/-- `torch.pow(tmp, i)` (`model/d4s.py:207`). -/
noncomputable def powT (i : ℕ) : Tensor ℝ := (tmp env T m cn).map (fun t => env.fl (t ^ i))
/-- `d4s.py:205-208` -/
noncomputable def refcPow1 : Tensor ℝ := scalar 0 + powT env T m cn 1
/-- `refc_pow(3)`, `model/d4s.py:205-208` -/
noncomputable def refcPow3 : Tensor ℝ :=
  scalar 0 + powT env T m cn 1 + powT env T m cn 2 + powT env T m cn 3
/-- `d4s.py:210-213` -/
noncomputable def expw : Tensor ℝ :=
  let p1 := where_ ((refc T m).map (· = 1)) (refcPow1 env T m cn) (tmp env T m cn)
  let pf := where_ ((refc T m).map (· = 3)) (refcPow3 env T m cn) p1
  where_ (mask T m) pf (scalar 0)
/-- `d4s.py:219-223` -/
noncomputable def norm : Tensor ℝ :=
  where_ (mask T m) (expw env T m cn).sumLastKeep (scalar tiny)
/-- `d4s.py:226` -/
noncomputable def gwTemp : Tensor FP :=
  map2 FP.div ((expw env T m cn).map .fin) ((norm env T m cn).map .fin)
/-- `d4s.py:229` -/
noncomputable def maxcn : Tensor ℝ := (refcn T m).maxLastKeep
/-- `d4s.py:232-236` -/
noncomputable def gw : Tensor FP :=
  where_ ((gwTemp env T m cn).map (FP.isExceptional env.fmax))
    (where_ (map2 (· = ·) (refcn T m) (maxcn T m)) (scalar (.fin 1)) (scalar (.fin 0)))
    (gwTemp env T m cn)
/-- `d4s.py:239-245` -/
noncomputable def zeta : Tensor ℝ :=
  let zeff := zeffT T m.numbers
  where_ (mask T m)
    (spread T m (zetaT env m.ga (gamT T m.numbers m.gc)
      (refqT T m.refCharges m.numbers + zeff) (q.unsqueeze 0 + zeff))) (scalar 0)
/-- `d4s.py:261-262` -/
noncomputable def dzeta : Tensor ℝ :=
  let zeff := zeffT T m.numbers
  where_ (mask T m)
    (spread T m (dzetaT env m.ga (gamT T m.numbers m.gc)
      (refqT T m.refCharges m.numbers + zeff) (q.unsqueeze 0 + zeff))) (scalar 0)

/-- `d4s.py:109-248` `weight_references` without derivatives, shape `(..., nat, nat, nref)`. -/
noncomputable def weights (cn q : Option (Tensor ℝ)) : Tensor ℝ :=
  let cn := cn.getD (full m.numbers.shape 0)
  let q := q.getD (full m.numbers.shape 0)
  zeta env T m q * (gw env T m cn).map FP.toReal

/-- `d4s.py:247-266` with derivative flags; NotImplementedError for the CN derivative. -/
noncomputable def weightsD (cn q : Option (Tensor ℝ)) (withDq withDcn : Bool) :
    List (Tensor ℝ) :=
  let cn' := cn.getD (full m.numbers.shape 0)
  let q' := q.getD (full m.numbers.shape 0)
  if withDcn then [Tensor.fail .notImplemented]
  else [weights env T m cn q] ++
    (if withDq then [dzeta env T m q' * (gw env T m cn').map FP.toReal] else [])

/-- `d4s.py:268-290` `get_atomic_c6`: `"...ijab,...jia,...ijb->...ij"` -/
noncomputable def atomicC6 (gw : Tensor ℝ) : Tensor ℝ :=
  einsum [⟨[b, a, j, i], true, m.rc6⟩, ⟨[a, i, j], true, gw⟩, ⟨[b, j, i], true, gw⟩] [j, i]

/-- `nat = real_atoms(numbers).sum(dim=-1, keepdim=True)`
(`model/d4s.py:309-310`; at least one atom is real, otherwise PyTorch divides by zero). -/
noncomputable def natT (numbers : Tensor ℕ) : Tensor ℝ :=
  ((realAtoms numbers).map (fun p => if p then (1 : ℝ) else 0)).sumLastKeep

/-- `d4s.py:292-316` `get_weighted_pols`: `einsum("...mnr,...nrw->...mw", gw, a) / nat` -/
noncomputable def weightedPols (gw : Tensor ℝ) : Tensor ℝ :=
  einsum [⟨[r, n, Lbl.m], true, gw⟩,
    ⟨[w, r, n], true, getAlpha env T m.numbers m.ga m.gc m.refCharges⟩] [w, Lbl.m]
  / natT m.numbers

end D4S

/-! ## Method dispatch -/

section dispatch
variable (env : Env) (T : Tables) (m : RefModel)

/-- `model.weight_references(cn, q)`. The stub models return `None`, on which the next operation
fails; this is represented by an error (`twobody.py:72-74`, `threebody.py:293-295, 313-315`). -/
noncomputable def RefModel.weights (cn q : Option (Tensor ℝ)) : Tensor ℝ :=
  match m.kind with
  | .d4 => D4.weights env T m cn q
  | .d4s => D4S.weights env T m cn q
  | .d4sDebug => D4S.weights env T m cn q
  | .d3 => Tensor.fail .type
  | .d5 => Tensor.fail .type

/-- `model.get_atomic_c6(gw)` (`twobody.py:75`, `threebody.py:316`). -/
noncomputable def RefModel.atomicC6 (gw : Tensor ℝ) : Tensor ℝ :=
  match m.kind with
  | .d4 => D4.atomicC6 m gw
  | .d4s => D4S.atomicC6 m gw
  | .d4sDebug => D4S.atomicC6 m gw
  | .d3 => Tensor.fail .type
  | .d5 => Tensor.fail .type

/-- `model.get_weighted_pols(gw)` (`threebody.py:296`). -/
noncomputable def RefModel.weightedPols (gw : Tensor ℝ) : Tensor ℝ :=
  match m.kind with
  | .d4 => D4.weightedPols env T m gw
  | .d4s => D4S.weightedPols env T m gw
  | .d4sDebug => D4S.weightedPols env T m gw
  | .d3 => Tensor.fail .type
  | .d5 => Tensor.fail .type

/-- The model implements the abstract methods of `BaseModel`
(`model/d3.py`, `model/d5.py`, `model/base.py:157-266`). -/
def ModelKind.implemented : ModelKind → Bool
  | .d4 => true
  | .d4s => true
  | .d4sDebug => true
  | .d3 => false
  | .d5 => false

end dispatch

end TadDftd4
