import Verif.Model.ThreeBody

/-!
# Dispersion terms, the `Disp` class and the public API

`/repo/src/tad_dftd4/dispersion/{base,twobody,threebody,d3,d4}.py`, `/repo/src/tad_dftd4/disp.py`,
`/repo/src/tad_dftd4/cutoff.py`
-/

open scoped Classical

namespace TadDftd4

open Tensor

/-- `cutoff.py:36-90` `Cutoff` -/
structure Cutoff where
  disp2 : ℝ := Defaults.disp2Cutoff
  disp3 : ℝ := Defaults.disp3Cutoff
  cn : ℝ := Defaults.cnCutoff
  cnEeq : ℝ := Defaults.cnEeqCutoff

/-- A counting function `f(k, r, r0)` (an argument passed through to the external code) (`disp.py:57`). -/
abbrev CountFn := ℝ → ℝ → ℝ

/-- A coordination number function `cn(numbers, positions, counting_function=...)`; the counting
function is optional (`dispersion/base.py:110`). -/
abbrev CNFunc := Tensor ℕ → Tensor ℝ → Option CountFn → Tensor ℝ

/-- External functions: `tad_mctc.ncoord.{cn_d3, cn_d4, erf_count}`,
`tad_multicharge.get_eeq_charges(numbers, positions, charge, cutoff=...)`, `str.casefold`
(`dispersion/base.py:188-198, 403`). -/
structure Ext where
  cnD3 : CNFunc
  cnD4 : CNFunc
  erfCount : CountFn
  eeq : Tensor ℕ → Tensor ℝ → Tensor ℝ → ℝ → Tensor ℝ
  casefold : String → String

/-- Raise the exception recorded in a tensor (Python semantics: an exception ends the calculation). -/
def Tensor.check {α : Type} (t : Tensor α) : Except Err (Tensor α) :=
  match t.err with
  | some e => .error e
  | none => .ok t

/-- `if not c: raise e` (e.g. `dispersion/base.py:354, 375`). -/
noncomputable def ensure (c : Prop) (e : Err) : Except Err Unit := if c then .ok () else .error e

/-! ## Terms -/

/-- Term classes: `twobody.py:38`, `dispersion/d4.py:44` `D4ATMApprox`, `:67` `D4ATMExact`,
`dispersion/d3.py:44` `D3ATM`. -/
inductive TermClass | twoBody | d4ATMApprox | d4ATMExact | d3ATM
  deriving DecidableEq, Repr

/-- A term object, `dispersion/base.py:38-101`. `__eq__` (`:79-86`) compares class, damping and
`charge_dependent`, i.e. is equality of this structure. -/
structure Term where
  cls : TermClass
  damping : Damping
  chargeDep : Bool
  deriving DecidableEq, Repr

section terms
variable (env : Env) (T : Tables)

/-- `q if self.charge_dependent else None` (`twobody.py:72-74`, `threebody.py:293-295, 313-315`). -/
def Term.charges (t : Term) (q : Option (Tensor ℝ)) : Option (Tensor ℝ) :=
  if t.chargeDep then q else none

/-- `get_c9` of the three-body terms, `threebody.py:276-321`. The methods of the stub models return
`None`, which has no attribute `unsqueeze`. -/
noncomputable def Term.c9 (t : Term) (model : RefModel) (cn : Tensor ℝ) (q : Option (Tensor ℝ)) :
    Tensor ℝ :=
  if model.kind.implemented then
    let weights := model.weights env T (some cn) (t.charges q)
    match t.cls with
    | .d4ATMExact => c9Exact (model.weightedPols env T weights)
    | _ => c9Approx env (model.atomicC6 weights)
  else Tensor.fail .attribute

/-- `get_radii` of the three-body terms (`threebody.py:244-270`). -/
noncomputable def Term.radii (t : Term) (p : Param) (r4r2 rvdw : Tensor ℝ) : Tensor ℝ :=
  match t.cls with
  | .d3ATM => radiiVDW p rvdw
  | _ => radiiBJ env p r4r2


/-- `calculate` of the terms: `twobody.py:60-86`, `threebody.py:210-235`. -/
noncomputable def Term.calculate (t : Term) (numbers : Tensor ℕ) (positions : Tensor ℝ) (p : Param)
    (cn : Tensor ℝ) (model : RefModel) (q : Option (Tensor ℝ)) (r4r2 rvdw : Tensor ℝ)
    (cutoff : Cutoff) : Tensor ℝ :=
  match t.cls with
  | .twoBody =>
    let weights := model.weights env T (some cn) (t.charges q)
    let c6 := model.atomicC6 weights
    dispersion2 env numbers positions p c6 r4r2 (some rvdw) t.damping (some cutoff.disp2)
  | _ =>
    let c9 := t.c9 env T model cn q
    let radii := t.radii env p r4r2 rvdw
    match p.s9.num Defaults.s9, p.alp.num Defaults.alp with
    | some s9, some alp =>
      c9.after (radii.after
        (atmDispersion env numbers positions c9 radii cutoff.disp3 t.damping s9 alp))
    | _, _ => c9.after (radii.after (Tensor.fail .type))

end terms

/-! ## The `Disp` class -/

/-- Model argument: a key or a model object (`dispersion/base.py:142`). -/
inductive ModelSel
  | key (s : String)
  | inst (m : RefModel)

/-- `model_kwargs`, keyword arguments of the model constructor; `extra` are unknown keywords
(`model/base.py:107-117`). -/
structure ModelKw where
  ga : Option ℝ := none
  gc : Option ℝ := none
  wf : Option (Tensor ℝ) := none
  refCharges : Option String := none
  rc6 : Option (Tensor ℝ) := none
  extra : List String := []

/-- State of a `Disp` object, `dispersion/base.py:125-132`. -/
structure Disp where
  terms : List Term
  cnFn : CNFunc
  counting : Option CountFn
  model : ModelSel
  modelKw : ModelKw

/-- The classes `Disp` (`base.py:104`), `DispD4`, `DispD4Exact` (`d4.py:48, 71`), `DispD3BJ`,
`DispD3Zero` (`d3.py:48, 67`). -/
inductive DispClass | base | d4 | d4Exact | d3BJ | d3Zero
  deriving DecidableEq, Repr

/-- `_ALLOWED_MODELS`, `base.py:134`; the subclasses define `ALLOWED_MODELS` (without underscore,
`d3.py:37`, `d4.py:37`), which no code reads. -/
def DispClass.allowedModels (_ : DispClass) : List String := ["d3", "d4", "d4s", "d5"]

/-- The attribute `ALLOWED_MODELS` of the subclasses (`d3.py:37`, `d4.py:37`). -/
def DispClass.declaredModels : DispClass → Option (List String)
  | .base => none
  | .d4 => some ["d4", "d4s"]
  | .d4Exact => none
  | .d3BJ => some ["d3"]
  | .d3Zero => some ["d3"]

/-- `TERMS`, `base.py:137`, `d4.py:51-60, 74-83`, `d3.py:51-60, 70-79`. -/
def DispClass.terms : DispClass → List Term
  | .base => []
  | .d4 => [⟨.twoBody, .rational, true⟩, ⟨.d4ATMApprox, .zero, false⟩]
  | .d4Exact => [⟨.twoBody, .rational, true⟩, ⟨.d4ATMExact, .zero, false⟩]
  | .d3BJ => [⟨.twoBody, .rational, false⟩, ⟨.d3ATM, .zero, false⟩]
  | .d3Zero => [⟨.twoBody, .zero, false⟩, ⟨.d3ATM, .zero, false⟩]

/-- `model.__class__.__name__` (`dispersion/base.py:182`). -/
def ModelKind.className : ModelKind → String
  | .d4 => "D4Model"
  | .d4s => "D4SModel"
  | .d4sDebug => "D4SDebug"
  | .d3 => "D3Model"
  | .d5 => "D5Model"

/-- `"c" in name` for one character (`dispersion/base.py:186, 191, 196`). -/
def hasChar (name : String) (c : Char) : Bool := name.toList.contains c

/-- Default coordination number function, `base.py:180-205`. -/
def defaultCN (ext : Ext) (name : String) : Except Err CNFunc :=
  if hasChar name '3' then .ok ext.cnD3
  else if hasChar name '4' then .ok ext.cnD4
  else if hasChar name '5' then .ok ext.cnD3
  else .error .value

/-- The constructor, `base.py:140-213`. (The RuntimeWarning for ignored `model_kwargs` is not
modelled; the keywords are dropped.) -/
def Disp.new (ext : Ext) (cls : DispClass) (model : ModelSel := .key "d4")
    (modelKw : Option ModelKw := none) (cnFn : Option CNFunc := none)
    (counting : Option CountFn := none) : Except Err Disp := do
  let (sel, kw, name) ← match model with
    | .key s =>
      let key := ext.casefold s
      if key ∈ cls.allowedModels then Except.ok (ModelSel.key key, modelKw.getD {}, key)
      else Except.error Err.value
    | .inst m => Except.ok (ModelSel.inst m, {}, m.kind.className)
  let cn ← match cnFn with
    | some f => Except.ok f
    | none => defaultCN ext name
  return { terms := cls.terms, cnFn := cn, counting := counting, model := sel, modelKw := kw }

/-- `base.py:215-216` -/
def Disp.register (d : Disp) (t : Term) : Disp := { d with terms := d.terms ++ [t] }

/-- `base.py:218-219` `list.remove`: removes the first equal term, ValueError if there is none. -/
def Disp.deregister (d : Disp) (t : Term) : Except Err Disp :=
  if t ∈ d.terms then .ok { d with terms := d.terms.erase t } else .error .value

section calculation
variable (env : Env) (T : Tables) (ext : Ext)

/-- Model constructor call with keyword arguments, e.g. `D4Model(numbers=numbers, **kwargs)`
(`dispersion/base.py:242, 248, 254`). -/
noncomputable def buildModel (kind : ModelKind) (numbers : Tensor ℕ) (kw : ModelKw) :
    Except Err RefModel :=
  if kw.extra ≠ [] then .error .type
  else
    let m := mkModel env T kind numbers (kw.ga.getD gaDefault) (kw.gc.getD gcDefault) kw.wf
      (kw.refCharges.getD "eeq") kw.rc6
    match m.ctorErr with
    | some e => .error e
    | none => .ok m

/-- `base.py:221-259` `get_model` -/
noncomputable def Disp.getModel (d : Disp) (numbers : Tensor ℕ) : Except Err RefModel :=
  match d.model with
  | .inst m => .ok m
  | .key k =>
    if ext.casefold k = "d3" then buildModel env T .d3 numbers d.modelKw
    else if ext.casefold k = "d4" then buildModel env T .d4 numbers d.modelKw
    else if ext.casefold k = "d4s" then buildModel env T .d4s numbers d.modelKw
    else .error .value

/-- `base.py:269-273` -/
noncomputable def getR4R2 (numbers : Tensor ℕ) : Tensor ℝ := gather T.nR4 T.r4r2 numbers

/-- `base.py:275-281` -/
noncomputable def getRvdw (numbers : Tensor ℕ) : Tensor ℝ :=
  gatherPair T.nExt T.vdw (numbers.unsqueeze 0) (numbers.unsqueeze 1)

/-- The optional arguments of `Disp.calculate`, `base.py:291-296`. -/
structure CalcOpts where
  cutoff : Option Cutoff := none
  q : Option (Tensor ℝ) := none
  rcov : Option (Tensor ℝ) := none
  r4r2 : Option (Tensor ℝ) := none
  rvdw : Option (Tensor ℝ) := none

/-- `base.py:416-431`: sum of the term energies. -/
noncomputable def sumTerms (terms : List Term) (numbers : Tensor ℕ) (positions : Tensor ℝ)
    (p : Param) (cn : Tensor ℝ) (model : RefModel) (q : Option (Tensor ℝ)) (r4r2 rvdw : Tensor ℝ)
    (cutoff : Cutoff) : Tensor ℝ :=
  terms.foldl (fun energy t =>
    energy + t.calculate env T numbers positions p cn model q r4r2 rvdw cutoff)
    (full numbers.shape 0)

/-- `base.py:392-414`: partial charges. -/
noncomputable def Disp.charges (d : Disp) (numbers : Tensor ℕ) (positions charge : Tensor ℝ)
    (cutoff : Cutoff) (q : Option (Tensor ℝ)) : Except Err (Option (Tensor ℝ)) :=
  let dep := d.terms.any (·.chargeDep)
  match q, dep with
  | some q, true => if numbers.shape ≠ q.shape then .error .value else .ok (some q)
  | some _, false => .error .runtime
  | none, true => do
    let q ← (ext.eeq numbers positions charge cutoff.cnEeq).check
    if numbers.shape ≠ q.shape then .error .value else .ok (some q)
  | none, false => .ok none

/-- `base.py:285-431` `Disp.calculate`. -/
noncomputable def Disp.calculate (d : Disp) (numbers : Tensor ℕ) (positions : Tensor ℝ)
    (charge : Tensor ℝ) (p : Param) (o : CalcOpts := {}) : Except Err (Tensor ℝ) := do
  ensure (numbers.shape = positions.shape.tail) .value
  let cutoff := o.cutoff.getD {}
  let model ← d.getModel env T ext numbers
  ensure (∀ rcov, o.rcov = some rcov → numbers.shape = rcov.shape) .value
  let r4r2 ← (o.r4r2.getD (getR4R2 T numbers)).check
  ensure (numbers.shape = r4r2.shape) .value
  let rvdw ← (o.rvdw.getD (getRvdw T numbers)).check
  ensure (numbers.shape = rvdw.shape.tail) .value
  let cn ← (d.cnFn numbers positions d.counting).check
  let q ← d.charges ext numbers positions charge cutoff o.q
  (sumTerms env T d.terms numbers positions p cn model q r4r2 rvdw cutoff).check

/-! ## `disp.py` -/

/-- The keyword arguments of `dftd4`, `disp.py:50-58`. -/
structure DftOpts where
  model : ModelSel := .key "d4"
  opts : CalcOpts := {}
  cnFunction : Option CNFunc := none
  counting : Option CountFn := none
  damping : Damping := .rational

/-- `disp.py:44-146` `dftd4`. The defaults `cn_function=cn_d4`, `counting_function=erf_count` are
represented by `none`. -/
noncomputable def dftd4 (numbers : Tensor ℕ) (positions charge : Tensor ℝ) (p : Param)
    (o : DftOpts := {}) : Except Err (Tensor ℝ) := do
  let d ← Disp.new ext .base o.model none (some (o.cnFunction.getD ext.cnD4))
    (some (o.counting.getD ext.erfCount))
  let d := d.register ⟨.twoBody, o.damping, true⟩
  let d := d.register ⟨.d4ATMApprox, .zero, false⟩
  d.calculate env T ext numbers positions charge p o.opts

/-- `disp.py:149-197` `get_properties` -/
noncomputable def getProperties (numbers : Tensor ℕ) (positions : Tensor ℝ)
    (charge : Option (Tensor ℝ) := none) (cutoff : Option Cutoff := none) :
    Except Err (Tensor ℝ × Tensor ℝ × Tensor ℝ × Tensor ℝ) := do
  let cutoff := cutoff.getD {}
  let charge := charge.getD (scalar 0)
  let cn ← (ext.cnD4 numbers positions none).check
  let q ← (ext.eeq numbers positions charge cutoff.cnEeq).check
  let model ← buildModel env T .d4 numbers {}
  let weights ← (model.weights env T (some cn) (some q)).check
  let c6 ← (model.atomicC6 weights).check
  let alpha ← (polarizabilities env T model weights).check
  return (cn, q, c6, alpha)

end calculation

end TadDftd4
