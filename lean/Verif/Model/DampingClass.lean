import Verif.Model.Damping

/-!
# Creation of damping classes

`Damping.__init_subclass__` (`/repo/src/tad_dftd4/damping/functions.py:68-114`) runs for every class
derived from `Damping`: it checks `REQUIRED_BY_ORDER` against the signature of `_f` and replaces `_f`
by a wrapper which checks the keywords of each call. `Model/Damping.lean` has the result for the
classes of the package; here the mechanism itself is modelled, for arbitrary user-defined classes.

Simplifications: single inheritance, the body of a class assigns at most `REQUIRED_BY_ORDER` and
`_f`, and `_f` has the positional parameters `self, distances, radii, order` of the interface
(`:171-175`); its keyword-only parameters are arbitrary.
-/

open scoped Classical

namespace TadDftd4

open Tensor

/-- Default of a keyword-only parameter (`damping/functions.py:268-278`). -/
inductive KwDefault | required | none | value
  deriving DecidableEq, Repr

/-- Arguments of the call of `_f` in `__call__`, `functions.py:153-169`. -/
structure FArgs where
  dist : Tensor ℝ
  rad : Tensor ℝ
  order : ℕ
  onlyDamping : Bool
  kw : Kw

/-- Whether the keyword is passed by `__call__` (`functions.py:157-168`) and, if so, whether its value
is `None`. -/
def FArgs.passed (a : FArgs) (name : String) : Option Bool :=
  if name = "a1" then some a.kw.a1.isNone
  else if name = "a2" then some a.kw.a2.isNone
  else if name = "s6" then some a.kw.s6.isNone
  else if name = "rs6" then some a.kw.rs6.isNone
  else if name = "s8" then some a.kw.s8.isNone
  else if name = "rs8" then some a.kw.rs8.isNone
  else if name = "s9" then some a.kw.s9.isNone
  else if name = "rs9" then some a.kw.rs9.isNone
  else if name = "s10" then some a.kw.s10.isNone
  else if name = "alp" then some a.kw.alp.isNone
  else if name = "bet" then some a.kw.bet.isNone
  else if name = "only_damping" then some false
  else Option.none

/-- Keywords passed by `__call__`, `functions.py:157-168`. -/
def passedNames : List String :=
  ["a1", "a2", "s6", "rs6", "s8", "rs8", "s9", "rs9", "s10", "alp", "bet", "only_damping"]

/-- A function `_f` as written in a class body: keyword-only parameters with their defaults, the name
of a `**` parameter, the decorator `@abstractmethod`, and what the body does
(`damping/functions.py:262-280`). -/
structure FDef where
  kwOnly : List (String × KwDefault)
  varKw : Option String := none
  abstract : Bool := false
  body : FArgs → Tensor ℝ

/-- Positional parameters of `_f` (`damping/functions.py:172-176`). -/
def positionalNames : List String := ["self", "distances", "radii", "order"]

/-- `inspect.signature(_f).parameters` (`damping/functions.py:78`). -/
def FDef.params (f : FDef) : List String :=
  positionalNames ++ f.kwOnly.map Prod.fst ++ f.varKw.toList

/-- The call of `__call__` can be bound to the signature (`sig.bind`): every keyword passed is a
parameter (or there is a `**` parameter), and no required parameter is left
(`damping/functions.py:96, 153-169`). -/
def FDef.Binds (f : FDef) : Prop :=
  (∀ name ∈ passedNames, f.varKw ≠ none ∨ ∃ d, (name, d) ∈ f.kwOnly) ∧
    ∀ name, (name, KwDefault.required) ∈ f.kwOnly → name ∈ passedNames

/-- `REQUIRED_BY_ORDER`: a dictionary from orders to names (`damping/functions.py:71-73`). -/
abbrev ReqMap := List (ℕ × List String)

/-- `req_map.get(order, ())` (`damping/functions.py:100`). -/
def ReqMap.names (m : ReqMap) (order : ℕ) : List String := (m.lookup order).getD []

/-- `bound.arguments.get(name, _MISSING) in (None, _MISSING)` after `apply_defaults`,
`functions.py:95-105`. -/
def FDef.missing (f : FDef) (a : FArgs) (name : String) : Bool :=
  if name ∈ positionalNames then false
  else if f.varKw = some name then false
  else match f.kwOnly.lookup name with
    | none => true
    | some d => (a.passed name).getD (d == .none)

/-- Value of the attribute `_f` of a class: a function from a class body, or the wrapper
`_checked_f` with the captured `req_map` and `original_f` (`functions.py:91-114`). -/
inductive FMethod
  | raw (f : FDef)
  | checked (req : ReqMap) (inner : FMethod)

/-- The function at the end of the chain of `__wrapped__` attributes set by `functools.wraps`; its
signature is that of the wrappers (`inspect.signature`), and `wraps` copies the mark of
`@abstractmethod` (`damping/functions.py:78, 94`). -/
def FMethod.fn : FMethod → FDef
  | raw f => f
  | checked _ inner => inner.fn

/-- A call of `_f`: Python binds the arguments of a plain function, `_checked_f`
(`functions.py:94-112`) binds them to the signature, checks the required names, and calls
`original_f`. -/
noncomputable def FMethod.run : FMethod → FArgs → Tensor ℝ
  | raw f, a => if f.Binds then f.body a else Tensor.fail .type
  | checked req inner, a =>
    if inner.fn.Binds then
      if (req.names a.order).filter (inner.fn.missing a) ≠ [] then Tensor.fail .type
      else inner.run a
    else Tensor.fail .type

/-- Body of a class statement (`damping/functions.py:241-280`). -/
structure ClassBody where
  req : Option ReqMap := none
  f : Option FDef := none

/-- Attributes of a class; `req` is empty if there is no attribute `REQUIRED_BY_ORDER`
(`damping/functions.py:62-114`). -/
structure DampClass where
  req : ReqMap
  f : FMethod

/-- Keyword-only parameters of the interface, `functions.py:178-189`. -/
def interfaceKw : List (String × KwDefault) :=
  [("a1", .none), ("a2", .none), ("s6", .none), ("rs6", .none), ("s8", .none), ("rs8", .none),
    ("s9", .none), ("rs9", .none), ("s10", .none), ("alp", .none), ("bet", .none),
    ("only_damping", .value)]

/-- The class `Damping`, `functions.py:52-235`; the abstract `_f` (`:171-212`) has only a
docstring and returns `None`. -/
noncomputable def DampClass.base : DampClass :=
  ⟨[], .raw { kwOnly := interfaceKw, abstract := true, body := fun _ => Tensor.fail .attribute }⟩

/-- `class C(parent): ...` with `__init_subclass__`, `functions.py:68-114`. -/
noncomputable def DampClass.derive (parent : DampClass) (b : ClassBody) : Except Err DampClass :=
  let req := b.req.getD parent.req
  let f := (b.f.map FMethod.raw).getD parent.f
  if req = [] then .ok ⟨req, f⟩
  else if (req.flatMap Prod.snd).filter (fun name => name ∉ f.fn.params) ≠ [] then .error .type
  else .ok ⟨req, .checked req f⟩

/-- Class statements, the most derived class first (`damping/functions.py:68-114`). -/
noncomputable def buildClass : List ClassBody → Except Err DampClass
  | [] => .ok .base
  | b :: bs => do
    let parent ← buildClass bs
    parent.derive b

/-- `C()`: abstract classes cannot be instantiated (`abc`) (`damping/functions.py:171`). -/
def DampClass.instantiate (c : DampClass) : Except Err Unit :=
  if c.f.fn.abstract then .error .type else .ok ()

/-- `__call__` of an instance, `functions.py:116-169` (inherited by all classes). -/
noncomputable def DampClass.call (c : DampClass) (a : FArgs) : Tensor ℝ :=
  if a.order = 6 ∧ a.kw.s6 = none ∧ a.kw.rs6 = none then zerosLike a.dist
  else if a.order = 8 ∧ a.kw.s8 = none ∧ a.kw.rs8 = none then zerosLike a.dist
  else if a.order = 9 ∧ a.kw.s9 = none ∧ a.kw.rs9 = none then zerosLike a.dist
  else if a.order = 10 ∧ a.kw.s10 = none then zerosLike a.dist
  else c.f.run a

/-! ## The classes of the package -/

/-- Keyword-only parameters of `RationalDamping._f`, `functions.py:268-279`. -/
def rationalKw : List (String × KwDefault) :=
  [("a1", .value), ("a2", .value), ("s6", .none), ("rs6", .none), ("s8", .none), ("rs8", .none),
    ("s9", .none), ("rs9", .none), ("s10", .none), ("alp", .none), ("bet", .none),
    ("only_damping", .value)]

/-- `ZeroDamping._f`, `functions.py:335-346`. -/
def zeroKw : List (String × KwDefault) :=
  [("a1", .none), ("a2", .none), ("s6", .none), ("rs6", .value), ("s8", .none), ("rs8", .value),
    ("s9", .none), ("rs9", .value), ("s10", .none), ("alp", .value), ("bet", .none),
    ("only_damping", .value)]

/-- `MZeroDamping._f`, `functions.py:399-410`. -/
def mzeroKw : List (String × KwDefault) :=
  [("a1", .none), ("a2", .none), ("s6", .none), ("rs6", .value), ("s8", .none), ("rs8", .value),
    ("s9", .none), ("rs9", .none), ("s10", .none), ("alp", .value), ("bet", .value),
    ("only_damping", .value)]

/-- `OptimisedPowerDamping._f`, `functions.py:455-466`. -/
def opKw : List (String × KwDefault) :=
  [("a1", .value), ("a2", .value), ("s6", .none), ("rs6", .none), ("s8", .none), ("rs8", .none),
    ("s9", .none), ("rs9", .none), ("s10", .none), ("alp", .none), ("bet", .value),
    ("only_damping", .value)]

/-- `REQUIRED_BY_ORDER` of the classes, `functions.py:255-259, 322-326, 387-390, 443-446`. -/
def Damping.requiredByOrder : Damping → ReqMap
  | .rational => [(6, ["a1", "a2"]), (8, ["a1", "a2"]), (10, ["a1", "a2"])]
  | .zero => [(6, ["rs6", "alp"]), (8, ["rs8", "alp"]), (9, ["rs9", "alp"])]
  | .mzero => [(6, ["rs6", "alp", "bet"]), (8, ["rs8", "alp", "bet"])]
  | .op => [(6, ["a1", "a2", "bet"]), (8, ["a1", "a2", "bet"])]

/-- Keyword-only parameters of the classes (`damping/functions.py:262-280, 329-347, 393-411, 449-467`). -/
def Damping.kwOnly : Damping → List (String × KwDefault)
  | .rational => rationalKw
  | .zero => zeroKw
  | .mzero => mzeroKw
  | .op => opKw

/-- Class statements of the package: `functions.py:241, 308, 381, 437`. -/
noncomputable def Damping.classBody (env : Env) (d : Damping) : ClassBody where
  req := some d.requiredByOrder
  f := some { kwOnly := d.kwOnly
              body := fun a => d.f env a.dist a.rad a.order a.onlyDamping a.kw }

end TadDftd4
