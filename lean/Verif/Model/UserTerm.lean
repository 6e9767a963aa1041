import Verif.Model.Disp

/-! # User-defined dispersion terms

`dispersion/base.py:50-103`: `DispTerm` is an abstract class. Users derive from it and register instances
with `Disp.register`. -/

namespace TadDftd4

/-- The type of the method `calculate` of a term (`base.py:88-101`): a function of its arguments.
Simplified: methods that change tensors in place or keep state are not modelled. -/
abbrev TermMethod := Tensor ℕ → Tensor ℝ → Param → Tensor ℝ → RefModel → Option (Tensor ℝ) → Tensor ℝ →
  Tensor ℝ → Cutoff → Tensor ℝ

/-- A term: `__class__`, `damping_fn.__class__`, `charge_dependent` (`base.py:50-77`) and its method;
classes are those of the package or user-defined ones with a name. -/
structure TermObj where
  cls : TermClass ⊕ String
  damping : Damping ⊕ String
  chargeDep : Bool
  calculate : TermMethod

/-- `base.py:79-86` `DispTerm.__eq__`, with `Damping.__eq__` (`damping/functions.py:214-236`) comparing
classes. -/
def TermObj.eq (t u : TermObj) : Bool :=
  decide (t.cls = u.cls) && (decide (t.damping = u.damping) && decide (t.chargeDep = u.chargeDep))

/-- A term of the package (`twobody.py:60-86`, `threebody.py:210-235`). -/
noncomputable def Term.obj (env : Env) (T : Tables) (t : Term) : TermObj :=
  ⟨.inl t.cls, .inl t.damping, t.chargeDep, t.calculate env T⟩

/-- `base.py:218-219`: `self.terms.remove(term)` removes the first term that is equal (`==`) to `term`. -/
def deregisterObj (ts : List TermObj) (t : TermObj) : Except Err (List TermObj) :=
  if ts.any (·.eq t) then .ok (ts.eraseP (·.eq t)) else .error .value

section
variable (env : Env) (T : Tables) (ext : Ext)

/-- `base.py:392-414`, where `dep` is `any(t.charge_dependent for t in self.terms)`. -/
noncomputable def chargesWith (dep : Bool) (numbers : Tensor ℕ) (positions charge : Tensor ℝ)
    (cutoff : Cutoff) (q : Option (Tensor ℝ)) : Except Err (Option (Tensor ℝ)) :=
  match q, dep with
  | some q, true => if numbers.shape ≠ q.shape then .error .value else .ok (some q)
  | some _, false => .error .runtime
  | none, true => do
    let q ← (ext.eeq numbers positions charge cutoff.cnEeq).check
    if numbers.shape ≠ q.shape then .error .value else .ok (some q)
  | none, false => .ok none

/-- `base.py:285-431` `Disp.calculate` of an object with the terms `ts` and other attributes of `d`. -/
noncomputable def Disp.calculateWith (d : Disp) (ts : List TermObj) (numbers : Tensor ℕ)
    (positions charge : Tensor ℝ) (p : Param) (o : CalcOpts := {}) : Except Err (Tensor ℝ) := do
  ensure (numbers.shape = positions.shape.tail) .value
  let cutoff := o.cutoff.getD {}
  let model ← d.getModel env T ext numbers
  ensure (∀ rcov, o.rcov = some rcov → numbers.shape = rcov.shape) .value
  let r4r2 ← (o.r4r2.getD (getR4R2 T numbers)).check
  ensure (numbers.shape = r4r2.shape) .value
  let rvdw ← (o.rvdw.getD (getRvdw T numbers)).check
  ensure (numbers.shape = rvdw.shape.tail) .value
  let cn ← (d.cnFn numbers positions d.counting).check
  let q ← chargesWith ext (ts.any (·.chargeDep)) numbers positions charge cutoff o.q
  (ts.foldl (fun energy t => energy + t.calculate numbers positions p cn model q r4r2 rvdw cutoff)
    (Tensor.full numbers.shape 0)).check

end

end TadDftd4
