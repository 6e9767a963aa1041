import Verif.Model.Disp

/-!
# Dictionaries and model objects handed to a `Disp` object:
`/repo/src/tad_dftd4/dispersion/base.py:140-213`

The constructor does not copy its arguments: `self._model_kwargs = model_kwargs or {}` and
`self.cn_fn_kwargs = cn_fn_kwargs if cn_fn_kwargs is not None else {}` keep references, and so does
`self._model_instance = model`. Dictionaries and model objects live on a heap here; the caller can change
the ones it has created at any time. The dictionary for the coordination number function has at most the
key `counting_function`, as in `Model/Disp.lean`. Lists of terms are values; that objects do not share
them is shown with `Model/Objects.lean`. Changing the attributes of a `Disp` object directly
(`disp.cn_fn_kwargs[...] = ...`) is not modelled.
-/

open scoped Classical

namespace TadDftd4

namespace Alias

/-- `model_kwargs` is falsy (`base.py:164`). -/
def _root_.TadDftd4.ModelKw.isEmpty (kw : ModelKw) : Prop :=
  kw.ga = none ∧ kw.gc = none ∧ kw.wf = none ∧ kw.refCharges = none ∧ kw.rc6 = none ∧ kw.extra = []

/-- The argument `model`: a key or the address of a model object (`base.py:142`). -/
inductive Sel
  | key (s : String)
  | inst (a : ℕ)

/-- A `Disp` object: its attributes hold addresses (`base.py:125-132`). -/
structure AObj where
  terms : List Term
  cnFn : CNFunc
  cnKw : ℕ
  model : Sel
  modelKw : ℕ

/-- Heap: contents of dictionaries of both kinds and of model objects; which addresses belong to the
caller; the next free address; the `Disp` objects in the order of their creation (Python semantics). -/
structure Store where
  kw : ℕ → ModelKw
  cn : ℕ → Option CountFn
  model : ℕ → Option RefModel
  caller : ℕ → Prop
  next : ℕ
  objs : List AObj

/-- Nothing created yet. -/
def Store.init : Store := ⟨fun _ => {}, fun _ => none, fun _ => none, fun _ => False, 0, []⟩

/-- Statements of the caller: create a dictionary or a model object, change one, create a `Disp` object,
call one of its methods (`base.py:140-219`). -/
inductive Stmt
  | dict (kw : ModelKw)
  | cnDict (c : Option CountFn)
  | model (m : RefModel)
  | setDict (a : ℕ) (kw : ModelKw)
  | setCn (a : ℕ) (c : Option CountFn)
  | setModel (a : ℕ) (m : RefModel)
  | new (cls : DispClass) (model : Sel) (modelKw : Option ℕ) (cnFn : Option CNFunc) (cnKw : Option ℕ)
  | register (k : ℕ) (t : Term)
  | deregister (k : ℕ) (t : Term)

/-- The value of the argument `model`; `none` if there is no such object (`base.py:142`). -/
def Store.sel (s : Store) : Sel → Option ModelSel
  | .key k => some (.key k)
  | .inst a => (s.model a).map .inst

/-- `self._model_kwargs = model_kwargs or {}` (`base.py:164`), `self._model_kwargs = {}` for model objects
(`base.py:169`): the address of the caller's dictionary, or of a new one. -/
noncomputable def Store.keepKw (s : Store) (model : Sel) (modelKw : Option ℕ) : ℕ :=
  match model, modelKw with
  | .key _, some a => if (s.kw a).isEmpty then s.next else a
  | _, _ => s.next

/-- `base.py:208`: `cn_fn_kwargs if cn_fn_kwargs is not None else {}` -/
def Store.keepCn (s : Store) (cnKw : Option ℕ) : ℕ := cnKw.getD (s.next + 1)

/-- `self._model_key = key` or `self._model_instance = model` (`base.py:161, 168`). -/
def Sel.keep (ext : Ext) : Sel → Sel
  | .key k => .key (ext.casefold k)
  | .inst a => .inst a

/-- The caller has created what it passes to the constructor (Python semantics). -/
def Store.names (s : Store) (model : Sel) (modelKw cnKw : Option ℕ) : Prop :=
  (∀ a, model = .inst a → s.caller a) ∧ (∀ a, modelKw = some a → s.caller a) ∧
    ∀ a, cnKw = some a → s.caller a

/-- One statement. Statements about objects that do not exist are impossible and change nothing; nor can
the caller name dictionaries that it has not created (`base.py:140-219`). -/
noncomputable def Store.step (ext : Ext) (s : Store) : Stmt → Store
  | .dict kw => { s with kw := Function.update s.kw s.next kw, caller := Function.update s.caller s.next True,
                         next := s.next + 1 }
  | .cnDict c => { s with cn := Function.update s.cn s.next c, caller := Function.update s.caller s.next True,
                          next := s.next + 1 }
  | .model m => { s with model := Function.update s.model s.next (some m),
                         caller := Function.update s.caller s.next True, next := s.next + 1 }
  | .setDict a kw => if s.caller a then { s with kw := Function.update s.kw a kw } else s
  | .setCn a c => if s.caller a then { s with cn := Function.update s.cn a c } else s
  | .setModel a m => if s.caller a then { s with model := Function.update s.model a (some m) } else s
  | .new cls model modelKw cnFn cnKw =>
    if s.names model modelKw cnKw then
      match s.sel model with
      | none => s
      | some sel =>
        match Disp.new ext cls sel (modelKw.map s.kw) cnFn (cnKw.bind s.cn) with
        | .error _ => s
        | .ok d =>
          { s with
            kw := Function.update s.kw s.next {}
            cn := Function.update s.cn (s.next + 1) none
            next := s.next + 2
            objs := s.objs ++ [⟨d.terms, d.cnFn, s.keepCn cnKw, model.keep ext, s.keepKw model modelKw⟩] }
    else s
  | .register k t => { s with objs := s.objs.modify k fun o => { o with terms := o.terms ++ [t] } }
  | .deregister k t => { s with objs := s.objs.modify k fun o => { o with terms := o.terms.erase t } }

/-- A history (user code). -/
noncomputable def Store.run (ext : Ext) (s : Store) (h : List Stmt) : Store := h.foldl (Store.step ext) s

/-- What a call of `calculate` of object `k` sees (`base.py:237-259, 390`). -/
def Store.disp (s : Store) (k : ℕ) : Option Disp := do
  let o ← s.objs[k]?
  let sel ← s.sel o.model
  return ⟨o.terms, o.cnFn, s.cn o.cnKw, sel, s.kw o.modelKw⟩

end Alias

end TadDftd4
