import Verif.Model.Disp

/-!
# Data types (`torch.dtype`)

The same code as in the other model files, followed for the data types of the tensors instead of
their values: which operations promote, which require equal types. Only this is modelled here:
shapes, values and exceptions other than type mismatches are in the other files. Of the types,
`bool`, `int64`, `float32` and `float64` are modelled (no half precision, no complex numbers).

PyTorch's rules (external, trusted):
* `promote`: arithmetic and `torch.where` compute in the type of the highest category (bool < integer
  < float) among the operands; within a category tensors with dimensions take precedence over
  tensors without dimensions, and these over Python numbers; otherwise the wider type is taken.
* `einsum` over a summed index (a matrix product) requires operands of the same type; without summed
  index it is a product.
* `cn_function` and `get_eeq_charges` return the type of the positions.
-/

namespace TadDftd4.DType

/-- `torch.dtype` (of the tensors in `/repo/src/tad_dftd4`; `numbers` are integers, masks booleans). -/
inductive Ty | bool | i64 | f32 | f64
  deriving DecidableEq, Repr

/-- Python number, tensor without dimensions, tensor with dimensions
(what PyTorch's type promotion distinguishes; e.g. `3 * r4r2`, `twobody.py:147`). -/
inductive Rank | py | zero | dim
  deriving DecidableEq, Repr

/-- An operand: type and rank. A Python float has the default type of PyTorch, an int `i64`
(of the expressions in `twobody.py:134-201` etc.). -/
structure Opd where
  ty : Ty
  rank : Rank
  deriving DecidableEq, Repr

/-- `torch.dtype.is_floating_point`; type promotion of PyTorch -/
def Ty.isFloat : Ty → Bool
  | .f32 | .f64 => true
  | _ => false

/-- Category of a type (type promotion of PyTorch). -/
def Ty.cat : Ty → ℕ
  | .bool => 0
  | .i64 => 1
  | .f32 | .f64 => 2

/-- Wider of two types of the same category (type promotion of PyTorch). -/
def Ty.wider : Ty → Ty → Ty
  | .f64, _ => .f64
  | _, .f64 => .f64
  | a, _ => a

/-- Type promotion of PyTorch -/
def Rank.level : Rank → ℕ
  | .py => 0
  | .zero => 1
  | .dim => 2

/-- Rank of the result of broadcasting -/
def Rank.max (a b : Rank) : Rank := if a.level < b.level then b else a

/-- Type promotion, `torch.result_type` (applies to every arithmetic operation, e.g. `twobody.py:147-148`). -/
def promote (a b : Opd) : Opd where
  ty :=
    if a.ty.cat < b.ty.cat then b.ty
    else if b.ty.cat < a.ty.cat then a.ty
    else if a.rank.level < b.rank.level then b.ty
    else if b.rank.level < a.rank.level then a.ty
    else a.ty.wider b.ty
  rank := a.rank.max b.rank

instance : Mul Opd := ⟨promote⟩
instance : Add Opd := ⟨promote⟩
instance : Sub Opd := ⟨promote⟩
instance : Div Opd := ⟨promote⟩

/-- `a ** b`, `torch.pow(a, b)` -/
instance : HPow Opd Opd Opd := ⟨promote⟩

/-- Tensor with dimensions (e.g. `positions`, `disp.py:46`). -/
def dim (t : Ty) : Opd := ⟨t, .dim⟩
/-- `torch.tensor(x, dtype=t)` of a number (e.g. `twobody.py:135`, `threebody.py:102-104`). -/
def scalar (t : Ty) : Opd := ⟨t, .zero⟩

/-- `torch.where(mask, a, b)` with a mask with dimensions (e.g. `twobody.py:141, 159`). -/
def where_ (a b : Opd) : Opd := { promote a b with rank := .dim }

/-- `einsum` with a summed index (`tad_mctc.math.einsum`, `utils.py:91`, `model/d4.py:285`). -/
def contract (a b : Opd) : Except Err Opd :=
  if a.ty = b.ty then .ok { promote a b with rank := .dim } else .error .runtime

section
variable (d : Ty)

/-- A Python float in arithmetic; `d` is the default type of PyTorch (e.g. `0.375`, `threebody.py:158`). -/
def pyFloat : Opd := ⟨d, .py⟩
/-- A Python int (e.g. `3`, `twobody.py:147`). -/
def pyInt : Opd := ⟨.i64, .py⟩

/-- `any_to_tensor(x, dtype=t)` of a number or tensor without dimensions
(`threebody.py:93-94`, `disp.py:187`, `cutoff.py:82-85`). -/
def anyToTensor (t : Ty) (x : Opd) : Opd := ⟨t, x.rank.max .zero⟩

/-! ## Models -/

/-- Type-level content of a model object: class, `dtype`, `wf`, `rc6` (`model/base.py:143-151`). -/
structure MTy where
  kind : ModelKind
  ty : Ty
  wf : Opd
  rc6 : Opd

/-- `model/base.py:308-335` `_zeta` with the model of type `v`. -/
def zeta (v : Ty) (gam qref qmod : Opd) : Opd :=
  let eps := scalar v
  let ga := scalar v
  let scale := gam * (pyFloat d - qref / (qmod - eps))
  where_ (ga * (pyFloat d - scale)) ga

/-- `model/base.py:367-418` `_get_alpha` -/
def getAlpha (v : Ty) : Opd :=
  let zero := scalar v
  let refsys := dim .i64
  let refascale := dim v
  let refalpha := dim v
  let refscount := dim v
  let secscale := dim v
  let secalpha := dim v
  let refsq := dim v
  let zeff := dim refsys.ty
  let gam := dim v * pyFloat d
  let z := where_ (zeta d v gam zeff (refsq + zeff)) zero
  let aiw := secscale * secalpha * z
  let h := refalpha - refscount * aiw
  let alpha := refascale * h
  where_ alpha zero

/-- `utils.py:33-94` `trapzd`: the weights have the type of the polarizabilities. -/
def trapzd (pol : Opd) : Except Err Opd := do
  let x ← contract (dim pol.ty) pol
  let y ← contract x pol
  return pyFloat d * y

/-- Constructor, `model/base.py:107-150`, with `_get_wf` of `d4.py:59`, `d4s.py:61`, `d4s.py:326`;
`D3Model` and `D5Model` are abstract classes. -/
def mkModel (kind : ModelKind) (v : Ty) : Except Err MTy := do
  let rc6 ← trapzd d (getAlpha d v)
  match kind with
    | .d4 => return { kind := kind, ty := v, wf := scalar v, rc6 := rc6 }
    | .d4s | .d4sDebug => return { kind := kind, ty := v, wf := dim v, rc6 := rc6 }
    | .d3 | .d5 => .error .type

/-- `.type(t)` (`model/d4.py:177, 207`). -/
def Opd.cast (a : Opd) (t : Ty) : Opd := { a with ty := t }

/-- `d4.py:103-233` and `d4s.py:109-249` `weight_references` without derivatives. -/
def weights (m : MTy) (cn q : Option Opd) : Opd :=
  let cn := cn.getD (dim m.ty)
  let q := q.getD (dim m.ty)
  let refq := dim m.ty
  let zero := scalar m.ty
  let zeroDouble := scalar .f64
  let refcn := dim .f64
  let dcn := cn.cast .f64 - refcn
  let expw := match m.kind with
    | .d4 =>
      let tmp := dcn * dcn
      let pow1 := scalar d + tmp ^ (pyInt * m.wf)
      let pow3 := pow1 + tmp ^ (pyInt * m.wf) + tmp ^ (pyInt * m.wf)
      where_ (where_ pow3 (where_ pow1 tmp)) zeroDouble
    | _ =>
      let tmp := where_ (dcn * dcn * m.wf) zeroDouble
      where_ (where_ (zeroDouble + tmp + tmp + tmp) (where_ (zeroDouble + tmp) tmp)) zeroDouble
  let norm := where_ expw (scalar .f64)
  let gwTemp := (expw / norm).cast m.ty
  let gw := where_ (where_ (scalar m.ty) zero) gwTemp
  let zeff := dim .i64
  let gam := dim m.ty * pyFloat d
  let z := where_ (zeta d m.ty gam (refq + zeff) (q + zeff)) zero
  z * gw

/-- `d4.py:268-289`, `d4s.py:268-290` `get_atomic_c6` -/
def atomicC6 (m : MTy) (gw : Opd) : Except Err Opd := do
  let x ← contract m.rc6 gw
  contract x gw

/-- `d4.py:291-307`, `d4s.py:292-316` `get_weighted_pols` -/
def weightedPols (m : MTy) (gw : Opd) : Except Err Opd := do
  let x ← contract gw (getAlpha d m.ty)
  return match m.kind with
    | .d4 => x
    | _ => x / pyInt

/-! ## Damping and terms -/

/-- Types of the values of a parameter dictionary, numbers or tensors without dimensions;
`none` if the key is absent (`damping/parameters/base.py:48-85`). -/
structure PTy where
  s6 : Option Opd := none
  s8 : Option Opd := none
  s9 : Option Opd := none
  s10 : Option Opd := none
  a1 : Option Opd := none
  a2 : Option Opd := none
  rs6 : Option Opd := none
  rs8 : Option Opd := none
  rs9 : Option Opd := none
  alp : Option Opd := none
  bet : Option Opd := none

/-- `damping/functions.py` `_f` of the four classes: `:282-286`, `:351-377`, `:415-434`, `:470-488`.
All orders have the same types. -/
def damp (k : Damping) (distances radii : Opd) (rs a1 a2 alp bet : Opd) : Opd :=
  match k with
  | .rational => pyFloat d / (distances ^ (pyInt : Opd) + (a1 * radii + a2) ^ (pyInt : Opd))
  | .zero =>
    let t := rs * (distances / radii)
    let f := pyFloat d / (pyFloat d + pyFloat d * t ^ (alp + pyFloat d))
    f / distances ^ (pyInt : Opd)
  | .mzero =>
    let t := distances / (rs * radii) + bet * radii
    let f := pyFloat d / (pyFloat d + pyFloat d * t ^ (alp + pyFloat d))
    f / distances ^ (pyInt : Opd)
  | .op =>
    let radius := a1 * radii + a2
    let ab := radius ^ bet
    let rb := distances ^ bet
    rb / (rb * distances ^ (pyInt : Opd) + ab * distances ^ (pyInt : Opd))

/-- `twobody.py:89-200` `dispersion2`, positions of type `t`. -/
def dispersion2 (t : Ty) (p : PTy) (c6 r4r2 rvdw : Opd) (k : Damping) : Opd :=
  let zero := scalar t
  let distances := where_ (dim t) (scalar t)
  let qq := pyInt * r4r2 * r4r2
  let c8 := c6 * qq
  let radii := match k with
    | .rational | .op => qq
    | .zero | .mzero => rvdw
  let a1 := p.a1.getD (pyFloat d)
  let a2 := p.a2.getD (pyFloat d)
  let alp := p.alp.getD (pyFloat d)
  let bet := p.bet.getD (pyFloat d)
  let t6 := where_ (damp d k distances radii (p.rs6.getD (pyFloat d)) a1 a2 alp bet) zero
  let t8 := where_ (damp d k distances radii (p.rs8.getD (pyFloat d)) a1 a2 alp bet) zero
  let e6 := c6 * t6
  let e8 := c8 * t8
  let edisp := p.s6.getD (scalar t) * e6 + p.s8.getD (scalar t) * e8
  -- the in-place addition of the order 10 term keeps the type of `edisp`
  pyFloat d * edisp

/-- `threebody.py:54-160` `get_atm_dispersion`, positions of type `t`. -/
def atmDispersion (t : Ty) (c9 radii : Opd) (k : Damping) (s9 alp : Opd) : Opd :=
  let s9 := anyToTensor t s9
  let alp := anyToTensor t alp
  let eps := scalar t
  let zero := scalar t
  let r0 := radii * radii * radii
  let distances := where_ (dim t) eps ^ pyFloat d
  let r2 := distances * distances * distances
  let r1 := r2
  let r3 := where_ (r1 * r2) eps
  let r5 := where_ (r2 * r3) eps
  let fdamp := where_ (damp d k r0 (where_ r1 (scalar t)) (pyFloat d) (pyFloat d) (pyFloat d)
    (alp / pyFloat d) (pyFloat d)) zero
  let s := where_ ((distances + distances - distances) * (distances - distances + distances) *
    (distances + distances + distances)) zero
  let ang := where_ (pyFloat d * s / r5 + pyFloat d / r3) (scalar t)
  ang * fdamp * s9 * c9 / pyFloat d

/-- `calculate` of the terms, `twobody.py:60-86`, `threebody.py:210-235`. The terms are constructed
without `dtype`, so that `self.dtype` of a term is the default type `d`. -/
def termEnergy (tm : Term) (t : Ty) (p : PTy) (cn : Opd) (m : MTy) (q : Option Opd)
    (r4r2 rvdw : Opd) : Except Err Opd :=
  let w := weights d m (some cn) (if tm.chargeDep then q else none)
  match tm.cls with
  | .twoBody => do
    let c6 ← atomicC6 m w
    return dispersion2 d t p c6 r4r2 rvdw tm.damping
  | _ => do
    let c9 ← match tm.cls with
      | .d4ATMExact => do
        let aiw ← weightedPols d m w
        let x ← contract (aiw * aiw * aiw) (dim aiw.ty)
        pure (pyFloat d * x)
      | _ => do
        let c6 ← atomicC6 m w
        pure (c6 * c6 * c6)
    let radii := match tm.cls with
      | .d3ATM => p.rs9.getD (scalar d) * rvdw
      | _ => p.a1.getD (scalar d) * (pyFloat d * r4r2 * r4r2) + p.a2.getD (scalar d)
    return atmDispersion d t c9 radii tm.damping (p.s9.getD (scalar d)) (p.alp.getD (scalar d))

/-! ## `Disp` -/

/-- Optional tensors given by the caller (`disp.py:44-59`). -/
structure OTy where
  q : Option Opd := none
  r4r2 : Option Opd := none
  rvdw : Option Opd := none

/-- `base.py:285-431` `Disp.calculate` for positions of type `t`; `u` is the type of the `Disp`
object, `m` a model object if one was given. -/
def calculate (terms : List Term) (u : Ty) (key : ModelKind) (m : Option MTy) (t : Ty) (p : PTy)
    (o : OTy) : Except Err Opd := do
  let model ← match m with
    | some m => pure m
    | none => mkModel d key u
  let r4r2 := o.r4r2.getD (dim u)
  let rvdw := o.rvdw.getD (dim u)
  let cn := dim t
  let q := match o.q with
    | some q => some q
    | none => if terms.any (·.chargeDep) then some (dim t) else none
  terms.foldlM (fun e tm => do
    let x ← termEnergy d tm t p cn model q r4r2 rvdw
    return e + x) (dim t)

/-- `disp.py:44-146` `dftd4`: the `Disp` object has the type of the positions. -/
def dftd4 (k : Damping) (key : ModelKind) (m : Option MTy) (t : Ty) (p : PTy) (o : OTy) :
    Except Err Opd :=
  calculate d [⟨.twoBody, k, true⟩, ⟨.d4ATMApprox, .zero, false⟩] t key m t p o

/-- `disp.py:149-197` `get_properties`: types of coordination numbers, charges, C6 coefficients and
polarizabilities. -/
def getProperties (t : Ty) : Except Err (Opd × Opd × Opd × Opd) := do
  let m ← mkModel d .d4 t
  let w := weights d m (some (dim t)) (some (dim t))
  let c6 ← atomicC6 m w
  let alpha ← contract w (getAlpha d m.ty)
  return (dim t, dim t, c6, alpha)

end

end TadDftd4.DType
