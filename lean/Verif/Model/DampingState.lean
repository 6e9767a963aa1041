import Verif.Model.Disp

/-!
# Damping objects as mutable objects

`Damping.__call__` assigns `self.doi` (`/repo/src/tad_dftd4/damping/functions.py:136`), and damping
instances are shared: they are default arguments (`disp.py:58`, `twobody.py:53`, `threebody.py:172`)
and entries of the class attribute `TERMS`. Here the calculations of `Model/Disp.lean` are repeated
as programs that read and write a heap of damping objects; an exception leaves the heap as it is at
that point. Everything that does not touch a damping object is taken from the other model files.
-/

open scoped Classical

namespace TadDftd4

open Tensor

/-- A damping object: its class and the attribute `doi` (`functions.py:65`). -/
structure DampObj where
  cls : Damping
  doi : Option String := none

/-- All damping objects; an object is identified by its position (`damping/functions.py:62-66`). -/
abbrev Heap := List DampObj

/-- Classes of the objects (`damping/functions.py:241, 308, 381, 437`). -/
def Heap.classes (h : Heap) : List Damping := List.map DampObj.cls h

/-- Programs on the heap (Python semantics: state and exceptions). -/
abbrev PyM := ExceptT Err (StateM Heap)

/-- Run a program (Python semantics). -/
def PyM.exec {α : Type} (m : PyM α) (h : Heap) : Except Err α × Heap := (ExceptT.run m).run h

/-- A computation without access to the heap (Python semantics). -/
def lift {α : Type} (x : Except Err α) : PyM α := ExceptT.mk (pure x)

/-- The class of an object (reading class attributes such as `radius_type`) (`damping/functions.py:62`). -/
def classOf (id : ℕ) : PyM Damping :=
  ExceptT.mk fun (h : Heap) => (match h[id]? with
    | some o => (.ok o.cls, h)
    | none => (.error .attribute, h) : Except Err Damping × Heap)

/-- `self.doi = doi` (`damping/functions.py:136`). -/
def setDoi (id : ℕ) (doi : Option String) : PyM Unit :=
  ExceptT.mk fun (h : Heap) =>
    ((.ok (), h.modify id fun o => { o with doi := doi }) : Except Err Unit × Heap)

/-- Creation of an object, e.g. `ZeroDamping()` (e.g. `disp.py:58`, `dispersion/d4.py`). -/
def newDamping (cls : Damping) : PyM ℕ :=
  ExceptT.mk fun (h : Heap) => ((.ok h.length, h ++ [⟨cls, none⟩]) : Except Err ℕ × Heap)

section
variable (env : Env) (T : Tables) (ext : Ext)

/-- `functions.py:116-169` `Damping.__call__` on an object, including the assignment of `doi`. -/
noncomputable def callP (id : ℕ) (dist rad : Tensor ℝ) (order : ℕ) (onlyDamping : Bool) (kw : Kw)
    (doi : Option String) : PyM (Tensor ℝ) := do
  let d ← classOf id
  setDoi id doi
  lift (d.call env dist rad order onlyDamping kw).check

/-- `damping_function(distances, radii, order, **param)`: for an unknown keyword the TypeError is
raised before the body of `__call__` (`twobody.py:161, 166, 188`). -/
noncomputable def callParamP (id : ℕ) (dist rad : Tensor ℝ) (order : ℕ) (p : Param) :
    PyM (Tensor ℝ) := do
  if p.extra ≠ [] then lift (.error .type)
  else callP env id dist rad order false p.kw p.doi

/-- `twobody.py:159-168, 186-190`, see `tDamp`. -/
noncomputable def tDampP (numbers : Tensor ℕ) (positions : Tensor ℝ) (p : Param)
    (radii : Tensor ℝ) (id : ℕ) (cutoff : ℝ) (order : ℕ) : PyM (Tensor ℝ) := do
  let dist := pairDistances env numbers positions
  let c ← lift ((realPairs numbers).and (dist.le (scalar cutoff))).check
  let v ← callParamP env id dist radii order p
  lift (where_ c v (scalar 0)).check

/-- `twobody.py:89-201` `dispersion2` with a damping object, see `dispersion2`. -/
noncomputable def dispersion2P (numbers : Tensor ℕ) (positions : Tensor ℝ) (p : Param)
    (c6 r4r2 : Tensor ℝ) (rvdw : Option (Tensor ℝ)) (id : ℕ) (cutoff : Option ℝ)
    (asMatrix : Bool) : PyM (Tensor ℝ) := do
  let cutoff := cutoff.getD Defaults.disp2Cutoff
  let _ ← lift (pairDistances env numbers positions).check
  let qq := qqT r4r2
  let c8 ← lift (c6 * qq).check
  let d ← classOf id
  let radii ← lift (radii2 d r4r2 rvdw).check
  let t6 ← tDampP env numbers positions p radii id cutoff 6
  let t8 ← tDampP env numbers positions p radii id cutoff 8
  let e6 := if asMatrix then c6 * t6 else (c6 * t6).sumLast
  let e8 := if asMatrix then c8 * t8 else (c8 * t8).sumLast
  let edisp ← lift (p.s6.tensor Defaults.s6 * e6 + p.s8.tensor Defaults.s8 * e8).check
  let edisp ← (match p.s10 with
    | .absent => lift (.ok edisp)
    | s10 => do
      let c10 ← lift (c6 * qq.map (· ^ 2) * scalar 49 / scalar 40).check
      let t10 ← tDampP env numbers positions p radii id cutoff 10
      let e10 := if asMatrix then c10 * t10 else (c10 * t10).sumLast
      lift (edisp + s10.tensor Defaults.s10 * e10).check : PyM (Tensor ℝ))
  lift (if asMatrix then -edisp else scalar (-0.5) * edisp).check

/-- `threebody.py:54-163` `get_atm_dispersion` with a damping object, see `atmDispersion`. The
damping function is called without `doi`. -/
noncomputable def atmDispersionP (numbers : Tensor ℕ) (positions c9 radii : Tensor ℝ)
    (cutoff : ℝ) (id : ℕ) (s9 alp : ℝ) : PyM (Tensor ℝ) := do
  let mask ← lift (realTriples numbers).check
  let r0 ← lift (ijT radii * ikT radii * jkT radii).check
  let d2 := dist2T env numbers positions
  let r1 := (ijT d2 * ikT d2 * jkT d2).map Real.sqrt
  let rr ← lift (where_ mask r1 (scalar 1)).check
  let v ← callP env id r0 rr 9 true { alp := some (alp / 3) } none
  let fdamp ← lift (where_ mask v (scalar 0)).check
  let ang := atmAng env numbers positions cutoff
  let energy := ang * fdamp * scalar s9 * c9
  lift (energy.sumLast.sumLast / scalar 6).check

/-- A term that refers to a damping object (`dispersion/base.py:55-77`). -/
structure TermRef where
  cls : TermClass
  damping : ℕ
  chargeDep : Bool

/-- The term with the class of its damping object (`dispersion/base.py:55-77`). -/
def TermRef.term (t : TermRef) (d : Damping) : Term := ⟨t.cls, d, t.chargeDep⟩

/-- `calculate` of the terms, see `Term.calculate` (`twobody.py:51-86`, `threebody.py:210-235`). -/
noncomputable def TermRef.calculateP (t : TermRef) (numbers : Tensor ℕ) (positions : Tensor ℝ)
    (p : Param) (cn : Tensor ℝ) (model : RefModel) (q : Option (Tensor ℝ)) (r4r2 rvdw : Tensor ℝ)
    (cutoff : Cutoff) : PyM (Tensor ℝ) :=
  -- the damping class plays no role in what is computed before `dispersion2`, `get_c9`, `get_radii`
  let t' : Term := t.term .rational
  match t.cls with
  | .twoBody =>
    let weights := model.weights env T (some cn) (t'.charges q)
    let c6 := model.atomicC6 weights
    dispersion2P env numbers positions p c6 r4r2 (some rvdw) t.damping (some cutoff.disp2) false
  | _ => do
    let c9 ← lift (t'.c9 env T model cn q).check
    let radii ← lift (t'.radii env p r4r2 rvdw).check
    match p.s9.num Defaults.s9, p.alp.num Defaults.alp with
    | some s9, some alp =>
      atmDispersionP env numbers positions c9 radii cutoff.disp3 t.damping s9 alp
    | _, _ => lift (.error .type)

/-- `base.py:416-431`, see `sumTerms`. -/
noncomputable def sumTermsP (terms : List TermRef) (numbers : Tensor ℕ) (positions : Tensor ℝ)
    (p : Param) (cn : Tensor ℝ) (model : RefModel) (q : Option (Tensor ℝ)) (r4r2 rvdw : Tensor ℝ)
    (cutoff : Cutoff) (energy : Tensor ℝ) : PyM (Tensor ℝ) :=
  match terms with
  | [] => lift (.ok energy)
  | t :: ts => do
    let e ← t.calculateP env T numbers positions p cn model q r4r2 rvdw cutoff
    let energy ← lift (energy + e).check
    sumTermsP ts numbers positions p cn model q r4r2 rvdw cutoff energy

/-- A `Disp` object whose terms refer to damping objects (`dispersion/base.py:104-132`). -/
structure DispRef where
  terms : List TermRef
  cnFn : CNFunc
  counting : Option CountFn
  model : ModelSel
  modelKw : ModelKw

/-- The `Disp` object with given terms (`dispersion/base.py:104-132`). -/
def DispRef.disp (d : DispRef) (terms : List Term) : Disp :=
  ⟨terms, d.cnFn, d.counting, d.model, d.modelKw⟩

/-- `base.py:285-431` `Disp.calculate`, see `Disp.calculate`. -/
noncomputable def DispRef.calculateP (d : DispRef) (numbers : Tensor ℕ) (positions : Tensor ℝ)
    (charge : Tensor ℝ) (p : Param) (o : CalcOpts) : PyM (Tensor ℝ) := do
  lift (ensure (numbers.shape = positions.shape.tail) .value)
  let cutoff := o.cutoff.getD {}
  -- of the terms, model and charges only need `charge_dependent`
  let d' : Disp := d.disp (d.terms.map (·.term .rational))
  let model ← lift (d'.getModel env T ext numbers)
  lift (ensure (∀ rcov, o.rcov = some rcov → numbers.shape = rcov.shape) .value)
  let r4r2 ← lift (o.r4r2.getD (getR4R2 T numbers)).check
  lift (ensure (numbers.shape = r4r2.shape) .value)
  let rvdw ← lift (o.rvdw.getD (getRvdw T numbers)).check
  lift (ensure (numbers.shape = rvdw.shape.tail) .value)
  let cn ← lift (d'.cnFn numbers positions d'.counting).check
  let q ← lift (d'.charges ext numbers positions charge cutoff o.q)
  sumTermsP env T d.terms numbers positions p cn model q r4r2 rvdw cutoff (full numbers.shape 0)

/-- `disp.py:44-146` `dftd4`, see `dftd4`; `id` is the damping object passed as `damping_function`
(the shared default object if it is omitted). A new `ZeroDamping` object is created in each call. -/
noncomputable def dftd4P (numbers : Tensor ℕ) (positions charge : Tensor ℝ) (p : Param)
    (o : DftOpts) (id : ℕ) : PyM (Tensor ℝ) := do
  let d ← lift (Disp.new ext .base o.model none (some (o.cnFunction.getD ext.cnD4))
    (some (o.counting.getD ext.erfCount)))
  let z ← newDamping .zero
  let d' : DispRef := ⟨[⟨.twoBody, id, true⟩, ⟨.d4ATMApprox, z, false⟩], d.cnFn, d.counting, d.model,
    d.modelKw⟩
  d'.calculateP env T ext numbers positions charge p o.opts

/-! ## Histories -/

/-- What a program can do with damping objects between two calculations: create one, assign `doi`,
call one directly, use one in `get_atm_dispersion` or `dispersion2`, run a `Disp` object or
`dftd4`. The results and exceptions are dropped; only the heap continues
(user code; `damping/functions.py:116, 136`, `dispersion/base.py:215-219`). -/
inductive DampOp
  | new (cls : Damping)
  | setDoi (id : ℕ) (doi : Option String)
  | call (id : ℕ) (dist rad : Tensor ℝ) (order : ℕ) (onlyDamping : Bool) (kw : Kw)
      (doi : Option String)
  | dispersion2 (numbers : Tensor ℕ) (positions : Tensor ℝ) (p : Param) (c6 r4r2 : Tensor ℝ)
      (rvdw : Option (Tensor ℝ)) (id : ℕ) (cutoff : Option ℝ) (asMatrix : Bool)
  | atm (numbers : Tensor ℕ) (positions c9 radii : Tensor ℝ) (cutoff : ℝ) (id : ℕ) (s9 alp : ℝ)
  | calculate (d : DispRef) (numbers : Tensor ℕ) (positions charge : Tensor ℝ) (p : Param)
      (o : CalcOpts)
  | dftd4 (numbers : Tensor ℕ) (positions charge : Tensor ℝ) (p : Param) (o : DftOpts) (id : ℕ)

/-- See `DampOp` -/
noncomputable def DampOp.run : DampOp → Heap → Heap
  | .new cls, h => ((newDamping cls).exec h).2
  | .setDoi id doi, h => ((TadDftd4.setDoi id doi).exec h).2
  | .call id dist rad order od kw doi, h => ((callP env id dist rad order od kw doi).exec h).2
  | .dispersion2 numbers positions p c6 r4r2 rvdw id cutoff am, h =>
    ((dispersion2P env numbers positions p c6 r4r2 rvdw id cutoff am).exec h).2
  | .atm numbers positions c9 radii cutoff id s9 alp, h =>
    ((atmDispersionP env numbers positions c9 radii cutoff id s9 alp).exec h).2
  | .calculate d numbers positions charge p o, h =>
    ((d.calculateP env T ext numbers positions charge p o).exec h).2
  | .dftd4 numbers positions charge p o id, h =>
    ((dftd4P env T ext numbers positions charge p o id).exec h).2

/-- A history (user code). -/
noncomputable def runOps (ops : List DampOp) (h : Heap) : Heap :=
  ops.foldl (fun h op => op.run env T ext h) h

end

end TadDftd4
