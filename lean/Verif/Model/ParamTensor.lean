import Verif.Model.Disp

/-!
# Damping parameters given as tensors

The entries of a parameter dictionary are annotated `Tensor | float`
(`/repo/src/tad_dftd4/damping/parameters/base.py:48-85`). `Model/Damping.lean` identifies numbers and
0-dimensional tensors. Here the entries are tensors of any shape (a number is a 0-dimensional tensor),
and every expression in which a parameter occurs broadcasts as in the code. Everything that does not
involve the parameters is the same as in `Model/{Damping,TwoBody,ThreeBody,Disp}.lean`.
-/

open scoped Classical

namespace TadDftd4

open Tensor

/-- Entry of a parameter dictionary: key absent, key with value `None`, key with a tensor
(`damping/parameters/base.py:48-85`). -/
inductive TVal
  | absent
  | none
  | val (x : Tensor ℝ)

/-- `damping/parameters/base.py:48-85` `Param`. -/
structure TParam where
  a1 : TVal := .absent
  a2 : TVal := .absent
  s6 : TVal := .absent
  rs6 : TVal := .absent
  s8 : TVal := .absent
  rs8 : TVal := .absent
  s9 : TVal := .absent
  rs9 : TVal := .absent
  s10 : TVal := .absent
  alp : TVal := .absent
  bet : TVal := .absent
  doi : Option String := none
  extra : List String := []

/-- Keyword arguments as bound by `Damping.__call__`; `none` is Python's `None`
(`damping/functions.py:116-135`). -/
structure TKw where
  a1 : Option (Tensor ℝ) := none
  a2 : Option (Tensor ℝ) := none
  s6 : Option (Tensor ℝ) := some (scalar Defaults.s6)
  rs6 : Option (Tensor ℝ) := none
  s8 : Option (Tensor ℝ) := none
  rs8 : Option (Tensor ℝ) := none
  s9 : Option (Tensor ℝ) := some (scalar Defaults.s9)
  rs9 : Option (Tensor ℝ) := some (scalar Defaults.rs9)
  s10 : Option (Tensor ℝ) := none
  alp : Option (Tensor ℝ) := some (scalar Defaults.alp)
  bet : Option (Tensor ℝ) := none

/-- Value of a keyword argument with default `d` (`damping/functions.py:123-133`). -/
def TVal.kw (d : Option (Tensor ℝ)) : TVal → Option (Tensor ℝ)
  | .absent => d
  | .none => Option.none
  | .val x => some x

/-- `**param` in a call of a damping function (defaults of `functions.py:123-134`). -/
noncomputable def TParam.kw (p : TParam) : TKw where
  a1 := p.a1.kw none
  a2 := p.a2.kw none
  s6 := p.s6.kw (some (scalar Defaults.s6))
  rs6 := p.rs6.kw none
  s8 := p.s8.kw none
  rs8 := p.rs8.kw none
  s9 := p.s9.kw (some (scalar Defaults.s9))
  rs9 := p.rs9.kw (some (scalar Defaults.rs9))
  s10 := p.s10.kw none
  alp := p.alp.kw (some (scalar Defaults.alp))
  bet := p.bet.kw none

/-- `param.get(key, default)` used in an arithmetic expression: `None` raises a TypeError
(`twobody.py:177-178, 197`, `threebody.py:252-253, 269`). -/
def TVal.tensor (d : ℝ) : TVal → Tensor ℝ
  | .absent => scalar d
  | .none => Tensor.fail .type
  | .val x => x

/-- `param.get(key, default)` passed on as `s9` or `alp`, `threebody.py:233-234`; `any_to_tensor`
(`:91-92`) returns tensors as they are and raises for `None`. -/
def TVal.arg (d : ℝ) : TVal → Option (Tensor ℝ)
  | .absent => some (scalar d)
  | .none => Option.none
  | .val x => some x

/-- `REQUIRED_BY_ORDER`, `functions.py:255-259, 322-326, 387-390, 443-446`: the values of the
required keywords. The test `value in (None, _MISSING)` (`:104-108`) is false for every tensor: a
comparison of a tensor with `None` or a plain object is `False`. -/
def Damping.requiredT (d : Damping) (order : ℕ) (kw : TKw) : List (Option (Tensor ℝ)) :=
  match d, order with
  | .rational, 6 => [kw.a1, kw.a2]
  | .rational, 8 => [kw.a1, kw.a2]
  | .rational, 10 => [kw.a1, kw.a2]
  | .zero, 6 => [kw.rs6, kw.alp]
  | .zero, 8 => [kw.rs8, kw.alp]
  | .zero, 9 => [kw.rs9, kw.alp]
  | .mzero, 6 => [kw.rs6, kw.alp, kw.bet]
  | .mzero, 8 => [kw.rs8, kw.alp, kw.bet]
  | .op, 6 => [kw.a1, kw.a2, kw.bet]
  | .op, 8 => [kw.a1, kw.a2, kw.bet]
  | _, _ => []

/-- `functions.py:304-305`: `radius = a1 * sqrt(radii) + a2; 1 / (distances^n + radius^n)` -/
noncomputable def ratT (a1 a2 : Tensor ℝ) (order : ℕ) (dist rad : Tensor ℝ) : Tensor ℝ :=
  let radius := a1 * rad.map Real.sqrt + a2
  scalar 1 / (dist.map (· ^ order) + radius.map (· ^ order))

/-- `functions.py:370-372`: `t = rs * divide(distances, radii); 1 / (1 + 6 t^alp)` -/
noncomputable def zeroT (env : Env) (rs alp : Tensor ℝ) (dist rad : Tensor ℝ) : Tensor ℝ :=
  let t := rs * map2 env.sdiv dist rad
  scalar 1 / (scalar 1 + scalar 6 * map2 (fun x y => x ^ y) t alp)

/-- `functions.py:430-433`: `t = d / (rs * r) + bet * r; 1 / (1 + 6 t^(-alp))` -/
noncomputable def mzeroT (rs alp bet : Tensor ℝ) (dist rad : Tensor ℝ) : Tensor ℝ :=
  let t := dist / (rs * rad) + bet * rad
  scalar 1 / (scalar 1 + scalar 6 * map2 (fun x y => x ^ y) t (-alp))

/-- `functions.py:477-484`: `radius = a1*sqrt(r)+a2; ab = radius^bet; rb = d^bet;`
`rb / (rb * d^n + ab * d^n)` -/
noncomputable def opT (a1 a2 bet : Tensor ℝ) (order : ℕ) (dist rad : Tensor ℝ) : Tensor ℝ :=
  let radius := a1 * rad.map Real.sqrt + a2
  let ab := map2 (fun x y => x ^ y) radius bet
  let rb := map2 (fun x y => x ^ y) dist bet
  ab.after (rb / (rb * dist.map (· ^ order) + ab * dist.map (· ^ order)))

/-- `_f` of the damping classes (`functions.py:262-305, 329-378, 393-434, 449-484`), after the
check of the required keywords. -/
noncomputable def Damping.fT (env : Env) (d : Damping) (dist rad : Tensor ℝ) (order : ℕ)
    (onlyDamping : Bool) (kw : TKw) : Tensor ℝ :=
  match d with
  | .rational => match kw.a1, kw.a2 with
    | some a1, some a2 => ratT a1 a2 order dist rad
    | _, _ => Tensor.fail .assertion
  | .zero => match kw.alp with
    | none => Tensor.fail .assertion
    | some alp =>
      if order ≠ 6 ∧ order ≠ 8 ∧ order ≠ 9 then Tensor.fail .value
      else
        let rs := if order = 6 then kw.rs6 else if order = 8 then kw.rs8 else kw.rs9
        let alpN := if order = 8 then alp + scalar 2 else alp
        match rs with
        | none => Tensor.fail .assertion
        | some rs =>
          let fn := zeroT env rs alpN dist rad
          if onlyDamping then fn else map2 env.sdiv fn (dist.map (· ^ order))
  | .mzero => match kw.alp, kw.bet with
    | some alp, some bet =>
      if order ≠ 6 ∧ order ≠ 8 then Tensor.fail .value
      else
        let rs := if order = 6 then kw.rs6 else kw.rs8
        let alpN := if order = 8 then alp + scalar 2 else alp
        match rs with
        | none => Tensor.fail .assertion
        | some rs => map2 env.sdiv (mzeroT rs alpN bet dist rad) (dist.map (· ^ order))
    | _, _ => Tensor.fail .assertion
  | .op => match kw.a1, kw.a2, kw.bet with
    | some a1, some a2, some bet =>
      if order ≠ 6 ∧ order ≠ 8 then Tensor.fail .value
      else opT a1 a2 bet order dist rad
    | _, _, _ => Tensor.fail .assertion

/-- `functions.py:94-112` `_checked_f`: TypeError if a required keyword is `None`. -/
noncomputable def Damping.checkedFT (env : Env) (d : Damping) (dist rad : Tensor ℝ) (order : ℕ)
    (onlyDamping : Bool) (kw : TKw) : Tensor ℝ :=
  if none ∈ d.requiredT order kw then Tensor.fail .type
  else d.fT env dist rad order onlyDamping kw

/-- `functions.py:116-169` `Damping.__call__` with keywords already bound. -/
noncomputable def Damping.callT (env : Env) (d : Damping) (dist rad : Tensor ℝ) (order : ℕ)
    (onlyDamping : Bool) (kw : TKw) : Tensor ℝ :=
  if order = 6 ∧ kw.s6 = none ∧ kw.rs6 = none then zerosLike dist
  else if order = 8 ∧ kw.s8 = none ∧ kw.rs8 = none then zerosLike dist
  else if order = 9 ∧ kw.s9 = none ∧ kw.rs9 = none then zerosLike dist
  else if order = 10 ∧ kw.s10 = none then zerosLike dist
  else d.checkedFT env dist rad order onlyDamping kw

/-- `damping_function(distances, radii, order, **param)`: TypeError for unknown keys
(`twobody.py:161, 166, 188`). -/
noncomputable def Damping.callParamT (env : Env) (d : Damping) (dist rad : Tensor ℝ) (order : ℕ)
    (p : TParam) : Tensor ℝ :=
  if p.extra ≠ [] then Tensor.fail .type else d.callT env dist rad order false p.kw

/-- `x += y` (`twobody.py:197`): the result is stored in `x`, so the operation raises a RuntimeError
if broadcasting would change the shape. -/
noncomputable def Tensor.iadd (x y : Tensor ℝ) : Tensor ℝ :=
  { x + y with
    err := orErr (x + y).err (if bshape x.shape y.shape = x.shape then none else some .runtime) }

section
variable (env : Env) (T : Tables) (ext : Ext)

/-- `twobody.py:159-168, 186-190`: damped `1/R^n` with cutoff. -/
noncomputable def tDampT (numbers : Tensor ℕ) (positions : Tensor ℝ) (p : TParam)
    (radii : Tensor ℝ) (d : Damping) (cutoff : ℝ) (order : ℕ) : Tensor ℝ :=
  let mask := realPairs numbers
  let dist := pairDistances env numbers positions
  where_ (mask.and (dist.le (scalar cutoff))) (d.callParamT env dist radii order p) (scalar 0)

/-- `twobody.py:89-201` `dispersion2`. -/
noncomputable def dispersion2T (numbers : Tensor ℕ) (positions : Tensor ℝ) (p : TParam)
    (c6 r4r2 : Tensor ℝ) (rvdw : Option (Tensor ℝ) := none) (d : Damping := .rational)
    (cutoff : Option ℝ := none) (asMatrix : Bool := false) : Tensor ℝ :=
  let cutoff := cutoff.getD Defaults.disp2Cutoff
  let dist := pairDistances env numbers positions
  let qq := qqT r4r2
  let c8 := c6 * qq
  let radii := radii2 d r4r2 rvdw
  let t6 := tDampT env numbers positions p radii d cutoff 6
  let t8 := tDampT env numbers positions p radii d cutoff 8
  let e6 := if asMatrix then c6 * t6 else (c6 * t6).sumLast
  let e8 := if asMatrix then c8 * t8 else (c8 * t8).sumLast
  let s6 := p.s6.tensor Defaults.s6
  let s8 := p.s8.tensor Defaults.s8
  let edisp := s6 * e6 + s8 * e8
  let edisp := match p.s10 with
    | .absent => edisp
    | s10 =>
      let c10 := c6 * qq.map (· ^ 2) * scalar 49 / scalar 40
      let t10 := tDampT env numbers positions p radii d cutoff 10
      let e10 := if asMatrix then c10 * t10 else (c10 * t10).sumLast
      edisp.after (c10.after (t10.after (edisp.iadd (s10.tensor Defaults.s10 * e10))))
  let result := if asMatrix then -edisp else scalar (-0.5) * edisp
  dist.after (c8.after (radii.after (t6.after (t8.after result))))

/-- `threebody.py:105-109, 122-126, 133-145`: damping factor. -/
noncomputable def atmDampT (numbers : Tensor ℕ) (positions radii : Tensor ℝ) (d : Damping)
    (alp : Tensor ℝ) : Tensor ℝ :=
  let mask := realTriples numbers
  let r0 := ijT radii * ikT radii * jkT radii
  let d2 := dist2T env numbers positions
  let r2 := ijT d2 * ikT d2 * jkT d2
  let r1 := r2.map Real.sqrt
  let rr := where_ mask r1 (scalar 1)
  mask.after (r0.after (rr.after
    (where_ mask (d.callT env r0 rr 9 true { alp := some (alp / scalar 3) }) (scalar 0))))

/-- `threebody.py:54-163` `get_atm_dispersion`. -/
noncomputable def atmDispersionT (numbers : Tensor ℕ) (positions c9 radii : Tensor ℝ)
    (cutoff : ℝ) (d : Damping := .zero) (s9 : Tensor ℝ := scalar Defaults.s9)
    (alp : Tensor ℝ := scalar Defaults.alp) : Tensor ℝ :=
  let fdamp := atmDampT env numbers positions radii d alp
  let ang := atmAng env numbers positions cutoff
  let energy := ang * fdamp * s9 * c9
  fdamp.after (energy.sumLast.sumLast / scalar 6)

/-- `threebody.py:241-256` `RadiiBJMixin.get_radii` -/
noncomputable def radiiBJT (p : TParam) (r4r2 : Tensor ℝ) : Tensor ℝ :=
  p.a1.tensor Defaults.a1 * (qqT r4r2).map env.ssqrt + p.a2.tensor Defaults.a2

/-- `threebody.py:259-270` `RadiiVDWMixin.get_radii` -/
noncomputable def radiiVDWT (p : TParam) (rvdw : Tensor ℝ) : Tensor ℝ :=
  p.rs9.tensor Defaults.rs9 * rvdw

/-- `get_radii` of the three-body terms (`threebody.py:244-270`). -/
noncomputable def Term.radiiT (t : Term) (p : TParam) (r4r2 rvdw : Tensor ℝ) : Tensor ℝ :=
  match t.cls with
  | .d3ATM => radiiVDWT p rvdw
  | _ => radiiBJT env p r4r2

/-- `calculate` of the terms: `twobody.py:60-86`, `threebody.py:210-235`. -/
noncomputable def Term.calculateT (t : Term) (numbers : Tensor ℕ) (positions : Tensor ℝ)
    (p : TParam) (cn : Tensor ℝ) (model : RefModel) (q : Option (Tensor ℝ)) (r4r2 rvdw : Tensor ℝ)
    (cutoff : Cutoff) : Tensor ℝ :=
  match t.cls with
  | .twoBody =>
    let weights := model.weights env T (some cn) (t.charges q)
    let c6 := model.atomicC6 weights
    dispersion2T env numbers positions p c6 r4r2 (some rvdw) t.damping (some cutoff.disp2)
  | _ =>
    let c9 := t.c9 env T model cn q
    let radii := t.radiiT env p r4r2 rvdw
    match p.s9.arg Defaults.s9, p.alp.arg Defaults.alp with
    | some s9, some alp =>
      c9.after (radii.after
        (atmDispersionT env numbers positions c9 radii cutoff.disp3 t.damping s9 alp))
    | _, _ => c9.after (radii.after (Tensor.fail .type))

/-- `base.py:416-431`: sum of the term energies. -/
noncomputable def sumTermsT (terms : List Term) (numbers : Tensor ℕ) (positions : Tensor ℝ)
    (p : TParam) (cn : Tensor ℝ) (model : RefModel) (q : Option (Tensor ℝ)) (r4r2 rvdw : Tensor ℝ)
    (cutoff : Cutoff) : Tensor ℝ :=
  terms.foldl (fun energy t =>
    energy + t.calculateT env T numbers positions p cn model q r4r2 rvdw cutoff)
    (full numbers.shape 0)

/-- `base.py:285-431` `Disp.calculate`. -/
noncomputable def Disp.calculateT (d : Disp) (numbers : Tensor ℕ) (positions : Tensor ℝ)
    (charge : Tensor ℝ) (p : TParam) (o : CalcOpts := {}) : Except Err (Tensor ℝ) := do
  ensure (numbers.shape = positions.shape.tail) .value
  let cutoff := o.cutoff.getD {}
  let model ← d.getModel env T ext numbers
  ensure (∀ rcov, o.rcov = some rcov → numbers.shape = rcov.shape) .value
  let r4r2 ← (o.r4r2.getD (getR4R2 T numbers)).check
  ensure (numbers.shape = r4r2.shape) .value
  let rvdw ← (o.rvdw.getD (getRvdw T numbers)).check
  ensure (numbers.shape = rvdw.shape.tail) .value
  let cn ← (d.cnFn numbers positions d.counting).check
  let q ← d.charges ext numbers positions charge cutoff o.q
  (sumTermsT env T d.terms numbers positions p cn model q r4r2 rvdw cutoff).check

/-- `disp.py:44-146` `dftd4`. -/
noncomputable def dftd4T (numbers : Tensor ℕ) (positions charge : Tensor ℝ) (p : TParam)
    (o : DftOpts := {}) : Except Err (Tensor ℝ) := do
  let d ← Disp.new ext .base o.model none (some (o.cnFunction.getD ext.cnD4))
    (some (o.counting.getD ext.erfCount))
  let d := d.register ⟨.twoBody, o.damping, true⟩
  let d := d.register ⟨.d4ATMApprox, .zero, false⟩
  d.calculateT env T ext numbers positions charge p o.opts

end

end TadDftd4
