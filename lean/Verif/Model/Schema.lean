import Verif.Model.Params

/-!
# Parameter classes: `/repo/src/tad_dftd4/damping/parameters/base.py:96-159`

The pydantic classes are declared and exported, but not used by other code of the package. Modelled is
what a user can do with them: `PARAM_MODELS[Variant(variant)](**block)` and `model_dump()` of the result,
used as damping parameters.

pydantic (version 2, default configuration) is modelled from its documentation: keys that are not fields
are ignored, missing fields get their defaults, a missing field without default and a value of the wrong
type raise `ValidationError`, a `ValueError`. Simplification: a string is never accepted as number
(pydantic converts strings like `"1.0"`; there are none in the parameter files).
-/

namespace TadDftd4

/-- Types of fields (`damping/parameters/base.py:109-149`). -/
inductive FieldTy | float | optStr
  deriving DecidableEq, Repr

/-- A field: name, type, default value (`none` if the field is required, `some none` is `None`)
(`damping/parameters/base.py:109-149`). -/
structure Field where
  name : String
  ty : FieldTy := .float
  default : Option (Option PV) := none

/-- Check of a value that is present (pydantic; `damping/parameters/base.py:109`). -/
def FieldTy.check : FieldTy → PV → Except Err PV
  | .float, .num d => .ok (.num d)
  | .optStr, .str s => .ok (.str s)
  | _, _ => .error .value

/-- Value of a field (pydantic; `damping/parameters/base.py:109`). -/
def Field.read (f : Field) (b : Block) : Except Err (String × Option PV) :=
  match b.lookup f.name with
  | some v => (f.ty.check v).map fun v => (f.name, some v)
  | none => match f.default with
    | some d => .ok (f.name, d)
    | none => .error .value

/-- `Cls(**block).model_dump()`: the values of the fields, in the order of their declaration
(pydantic; `damping/parameters/base.py:109-149`). -/
def validate : List Field → Block → Except Err (Dict (Option PV))
  | [], _ => .ok []
  | f :: fs, b => do
    let x ← f.read b
    let l ← validate fs b
    .ok (x :: l)

/-- `base.py:109-115` `BaseParams` -/
def baseParams : List Field :=
  [⟨"s6", .float, some (some (.num ⟨10, 1⟩))⟩, ⟨"s8", .float, some (some (.num ⟨10, 1⟩))⟩,
    ⟨"s10", .float, some (some (.num ⟨0, 1⟩))⟩, ⟨"doi", .optStr, some none⟩]

/-- `base.py:118-122` `RationalParams` -/
def rationalParams : List Field := baseParams ++ [{ name := "a1" }, { name := "a2" }]

/-- `base.py:125-132` `ZeroParams` -/
def zeroParams : List Field :=
  baseParams ++ [{ name := "alp" }, { name := "rs6" }, { name := "rs8" },
    ⟨"rs9", .float, some (some (.num ⟨0, 1⟩))⟩, ⟨"bet", .float, some (some (.num ⟨0, 1⟩))⟩]

/-- `base.py:135-141` `MZeroParams`: `bet` is required -/
def mzeroParams : List Field :=
  baseParams ++ [{ name := "alp" }, { name := "rs6" }, { name := "rs8" },
    ⟨"rs9", .float, some (some (.num ⟨0, 1⟩))⟩, { name := "bet" }]

/-- `base.py:144-149` `OptimisedPowerParams` -/
def opParams : List Field := baseParams ++ [{ name := "a1" }, { name := "a2" }, { name := "bet" }]

/-- `base.py:96-103, 152-159`: `PARAM_MODELS` with the values of `Variant` as keys. -/
def paramModels : Dict (List Field) :=
  [("bj", rationalParams), ("bj-eeq-atm", rationalParams), ("zero", zeroParams), ("mzero", mzeroParams),
    ("optimizedpower", opParams)]

/-- `PARAM_MODELS[Variant(variant)]`: `ValueError` if there is no such variant
(`damping/parameters/base.py:96-103, 152-158`). -/
def paramModel (variant : String) : Except Err (List Field) :=
  match paramModels.lookup variant with
  | some fs => .ok fs
  | none => .error .value

/-- `PARAM_MODELS[Variant(variant)](**block).model_dump()` (`damping/parameters/base.py:152-158`). -/
def validated (variant : String) (b : Block) : Except Err (Dict (Option PV)) := do
  let fs ← paramModel variant
  validate fs b

/-- Value of a key of the dictionary (`damping/parameters/base.py:109-149`). -/
noncomputable def dumpVal (d : Dict (Option PV)) (k : String) : PVal :=
  match d.lookup k with
  | none => .absent
  | some (some (.num x)) => .val x.toReal
  | some _ => .none

/-- The dictionary as parameter argument (`damping/parameters/base.py:48-85`). -/
noncomputable def dumpParam (d : Dict (Option PV)) : Param where
  a1 := dumpVal d "a1"
  a2 := dumpVal d "a2"
  s6 := dumpVal d "s6"
  rs6 := dumpVal d "rs6"
  s8 := dumpVal d "s8"
  rs8 := dumpVal d "rs8"
  s9 := dumpVal d "s9"
  rs9 := dumpVal d "rs9"
  s10 := dumpVal d "s10"
  alp := dumpVal d "alp"
  bet := dumpVal d "bet"
  doi := match d.lookup "doi" with
    | some (some (.str s)) => some s
    | _ => none
  extra := (d.map (·.1)).filter fun k => k ∉ "doi" :: paramKeys

end TadDftd4
