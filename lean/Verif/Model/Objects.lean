import Verif.Model.Disp

/-!
# `Disp` objects and their lists of terms: `/repo/src/tad_dftd4/dispersion/base.py:140-219`

Every object refers to a list object on a heap; `register` and `deregister` change that list in place.
Term objects are never changed by the code and are modelled as values.
-/

namespace TadDftd4

/-- A `Disp` object: address of its list `self.terms` and the other attributes
(`dispersion/base.py:104-132, 210`). -/
structure Obj where
  addr : ℕ
  cnFn : CNFunc
  counting : Option CountFn
  model : ModelSel
  modelKw : ModelKw

/-- All objects, in the order of their creation, and the heap of term lists (`dispersion/base.py:104-132`). -/
structure World where
  objs : List Obj
  lists : ℕ → List Term
  next : ℕ

/-- No object created yet -/
def World.init : World := ⟨[], fun _ => [], 0⟩

/-- Calls on objects, which are named by their number (`dispersion/base.py:140-219`). -/
inductive Op
  | new (cls : DispClass) (model : ModelSel) (modelKw : Option ModelKw) (cnFn : Option CNFunc)
      (counting : Option CountFn)
  | register (k : ℕ) (t : Term)
  | deregister (k : ℕ) (t : Term)

/-- `base.py:215-216`: `self.terms.append(term)` on a list object. -/
def World.append (w : World) (a : ℕ) (t : Term) : World :=
  { w with lists := fun x => if x = a then w.lists a ++ [t] else w.lists x }

/-- One call. `base.py:208-213`: the constructor creates a new empty list and registers the terms of
the class one by one. `list.remove` (`base.py:218-219`) removes the first equal term. Calls on objects
that do not exist are impossible and change nothing. -/
def World.step (ext : Ext) (w : World) : Op → World × Except Err Unit
  | .new cls model modelKw cnFn counting =>
    match Disp.new ext cls model modelKw cnFn counting with
    | .error e => (w, .error e)
    | .ok d =>
      let w' : World :=
        { objs := w.objs ++ [⟨w.next, d.cnFn, d.counting, d.model, d.modelKw⟩]
          lists := fun x => if x = w.next then [] else w.lists x
          next := w.next + 1 }
      (cls.terms.foldl (fun w' t => w'.append w.next t) w', .ok ())
  | .register k t => match w.objs[k]? with
    | none => (w, .ok ())
    | some o => (w.append o.addr t, .ok ())
  | .deregister k t => match w.objs[k]? with
    | none => (w, .ok ())
    | some o => if t ∈ w.lists o.addr then
        ({ w with lists := fun x => if x = o.addr then (w.lists o.addr).erase t else w.lists x },
          .ok ())
      else (w, .error .value)

/-- A history of calls (user code). -/
def World.run (ext : Ext) (w : World) (ops : List Op) : World :=
  ops.foldl (fun w op => (w.step ext op).1) w

/-- State of object `k` (`dispersion/base.py:104-132`). -/
def World.disp (w : World) (k : ℕ) : Option Disp :=
  (w.objs[k]?).map fun o => ⟨w.lists o.addr, o.cnFn, o.counting, o.model, o.modelKw⟩

end TadDftd4
