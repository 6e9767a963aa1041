import Verif.Model.Damping

/-!
# Damping parameter files: `/repo/src/tad_dftd4/damping/parameters/{loader,base}.py`

Python dictionaries are association lists (the first entry counts). A parameter file is modelled with
the nesting the loader relies on: `[default]` (lists of variants), `[default.parameter]` (blocks per
method and variant), `[parameter.<functional>]` (blocks per method and variant). Other entries of the
files (`reference`, `citation`) are never accessed and left out. Numbers are exact decimals.
-/

namespace TadDftd4

/-- The decimal number `m / 10^e` (numbers as written in `damping/parameters/d3.toml`, `d4.toml`). -/
structure Dec where
  m : ℤ
  e : ℕ
  deriving DecidableEq, Repr

/-- Its value -/
noncomputable def Dec.toReal (d : Dec) : ℝ := d.m / 10 ^ d.e

/-- Entry of a parameter block: a number or a string (`damping/parameters/d4.toml`). -/
inductive PV
  | num (d : Dec)
  | str (s : String)
  deriving DecidableEq, Repr

/-- Python `dict` with string keys (`damping/parameters/loader.py:49`). -/
abbrev Dict (α : Type) := List (String × α)

/-- A section such as `[parameter.b3lyp.d4.bj-eeq-atm]` of `d4.toml`; `loader.py:127` -/
abbrev Block := Dict PV

/-- A parameter file; `β` is what stands for a block (its content or its address)
(`damping/parameters/d3.toml`, `d4.toml`, `loader.py:58`). -/
structure ParamFile (β : Type) where
  /-- `[default] <method> = [<variants>]` -/
  variants : Dict (List String)
  /-- `[default.parameter] <method>.<variant> = {...}` -/
  defaults : Dict (Dict β)
  /-- `[parameter.<functional>] <method>.<variant> = {...}` -/
  functionals : Dict (Dict (Dict β))

/-- `d[key]` (`loader.py:92, 94, 109`). -/
def getItem {α : Type} (d : Dict α) (k : String) : Except Err α :=
  match d.lookup k with
  | some x => .ok x
  | none => .error .key

/-- `parameters/base.py:88-93` `DispersionMethod`: ValueError for other strings. -/
def dispersionMethods : List String := ["d3", "d4", "d5"]

/-- `loader.py:90-99`: section of the default parameters. -/
def defaultSection {β : Type} (table : ParamFile β) (method : String) (variant : Option String) :
    Except Err (Dict (Dict β)) := do
  let vs ← getItem table.variants method
  match variant with
  | none => Except.error Err.key
  | some v => if v ∈ vs then Except.ok table.defaults else Except.error Err.key

/-- `loader.py:100-112`: section of a functional. `casefold` is `str.casefold`. -/
def functionalSection {β : Type} (casefold : String → String) (table : ParamFile β)
    (method functional : String) : Except Err (Dict (Dict β)) :=
  if (table.functionals.lookup functional).isNone then Except.error Err.key
  else do
    let s ← getItem table.functionals (casefold functional)
    if (s.lookup method).isNone then Except.error Err.key else Except.ok s

/-- `loader.py:116-118`: the variant, by default the first one listed for the method. -/
def chooseVariant {β : Type} (table : ParamFile β) (method : String) (variant : Option String) :
    Except Err String :=
  match variant with
  | some v => Except.ok v
  | none => do
    let vs ← getItem table.variants method
    match vs with
    | [] => Except.error Err.index
    | v :: _ => Except.ok v

/-- `loader.py:91-114` -/
def dispSection {β : Type} (casefold : String → String) (table : ParamFile β) (method : String)
    (functional variant : Option String) : Except Err (Dict (Dict β)) :=
  match functional with
  | none => defaultSection table method variant
  | some f => if f = "default" then defaultSection table method variant
      else functionalSection casefold table method f

/-- `loader.py:88-127`: the block selected in a loaded table. -/
def locate {β : Type} (casefold : String → String) (table : ParamFile β) (method : String)
    (functional variant : Option String) : Except Err β := do
  let disp ← dispSection casefold table method functional variant
  let v ← chooseVariant table method variant
  let variantSection ← getItem disp method
  getItem variantSection v

/-- `loader.py:129-131`: `dict(block)` without `doi` unless it is kept. -/
def dropDoi (keepDoi : Bool) (b : Block) : Block :=
  if keepDoi then b else b.filter (·.1 != "doi")

/-- Arguments of `get_params` (`loader.py:61-67`). -/
structure Req where
  method : String
  functional : Option String
  variant : Option String := none
  keepDoi : Bool := false

/-! ## Objects and the cache -/

/-- Identity of a dictionary object: a block of the cached table of a method, named by its path, or
an object created later (`loader.py:48-58, 127-129`). -/
inductive Addr
  | cached (method : String) (path : List String)
  | fresh (k : ℕ)
  deriving DecidableEq, Repr

/-- Interpreter state: contents of the dictionaries, the `lru_cache` of `_load`, number of objects
created and of file reads, and the objects the caller has received (`loader.py:48-58`). -/
structure PState where
  heap : Addr → Block
  cache : String → Option (ParamFile Addr)
  next : ℕ
  reads : String → ℕ
  held : List Addr

/-- No call of `get_params` yet -/
def PState.init : PState := ⟨fun _ => [], fun _ => none, 0, fun _ => 0, []⟩

/-- Replace the blocks of a dictionary of dictionaries by their addresses (`loader.py:58`). -/
def addrs {β : Type} (method : String) (pre : List String) (d : Dict (Dict β)) :
    Dict (Dict Addr) :=
  d.map fun x => (x.1, x.2.map fun y => (y.1, .cached method (pre ++ [x.1, y.1])))

/-- The table object built by `toml.load`: every block is a new object (`loader.py:58`). -/
def ParamFile.alloc (method : String) (f : ParamFile Block) : ParamFile Addr where
  variants := f.variants
  defaults := addrs method ["default", "parameter"] f.defaults
  functionals := f.functionals.map fun x => (x.1, addrs method ["parameter", x.1] x.2)

/-- Block at a path (`loader.py:120-127`). -/
def ParamFile.at (f : ParamFile Block) : List String → Block
  | ["default", "parameter", m, v] =>
    ((f.defaults.lookup m).bind fun d => d.lookup v).getD []
  | ["parameter", g, m, v] =>
    (((f.functionals.lookup g).bind fun d => d.lookup m).bind fun d => d.lookup v).getD []
  | _ => []

/-- `loader.py:48-58` `_load` with `lru_cache`; `files` is the content of `<method>.toml`. -/
def PState.load (files : String → Option (ParamFile Block)) (s : PState) (method : String) :
    PState × Except Err (ParamFile Addr) :=
  match s.cache method with
  | some t => (s, .ok t)
  | none => match files method with
    | none => (s, .error .fileNotFound)
    | some f =>
      ({ s with
          heap := fun a => match a with
            | .cached m p => if m = method then f.at p else s.heap a
            | a => s.heap a
          cache := fun m => if m = method then some (f.alloc method) else s.cache m
          reads := fun m => if m = method then s.reads m + 1 else s.reads m },
        .ok (f.alloc method))

/-- A new dictionary object with given content (`loader.py:58, 129`). -/
def PState.alloc (s : PState) (b : Block) : PState × Addr :=
  ({ s with heap := fun a => if a = .fresh s.next then b else s.heap a, next := s.next + 1 },
    .fresh s.next)

/-- `loader.py:61-133` `get_params`; returns the address of the new dictionary. -/
def PState.getParams (casefold : String → String) (files : String → Option (ParamFile Block))
    (s : PState) (r : Req) : PState × Except Err Addr :=
  if r.method ∉ dispersionMethods then (s, .error .value)
  else match s.load files r.method with
    | (s, .error e) => (s, .error e)
    | (s, .ok table) => match locate casefold table r.method r.functional r.variant with
      | .error e => (s, .error e)
      | .ok block =>
        -- `out = dict(block)`, `out.pop("doi")`
        let (s, out) := s.alloc (s.heap block)
        let s := { s with heap := fun a => if a = out then dropDoi r.keepDoi (s.heap out)
                                           else s.heap a }
        -- `Param(**out)`
        let (s, res) := s.alloc (s.heap out)
        ({ s with held := res :: s.held }, .ok res)

/-- The caller changes a dictionary it has received in any way (user code). -/
def PState.mutate (s : PState) (a : Addr) (b : Block) : PState :=
  if a ∈ s.held then { s with heap := fun x => if x = a then b else s.heap x } else s

/-- States reachable by any history of `get_params` calls and changes of received dictionaries
(user code and `loader.py:61-133`). -/
inductive PState.Reachable (casefold : String → String)
    (files : String → Option (ParamFile Block)) : PState → Prop
  | init : PState.Reachable casefold files PState.init
  | get {s} (r : Req) : PState.Reachable casefold files s →
      PState.Reachable casefold files (s.getParams casefold files r).1
  | mutate {s} (a : Addr) (b : Block) : PState.Reachable casefold files s →
      PState.Reachable casefold files (s.mutate a b)

/-! ## Use of a parameter block -/

/-- The keywords of `Damping.__call__` besides `doi` (`damping/functions.py:123-133`). -/
def paramKeys : List String :=
  ["a1", "a2", "s6", "rs6", "s8", "rs8", "s9", "rs9", "s10", "alp", "bet"]

/-- Value of a key. A string in place of a number is represented like `None` (both raise TypeError
in arithmetic) (`damping/parameters/base.py:48-85`). -/
noncomputable def Block.pval (b : Block) (k : String) : PVal :=
  match b.lookup k with
  | none => .absent
  | some (.num d) => .val d.toReal
  | some (.str _) => .none

/-- A dictionary returned by `get_params` as parameter argument (`loader.py:133`). -/
noncomputable def Block.param (b : Block) : Param where
  a1 := b.pval "a1"
  a2 := b.pval "a2"
  s6 := b.pval "s6"
  rs6 := b.pval "rs6"
  s8 := b.pval "s8"
  rs8 := b.pval "rs8"
  s9 := b.pval "s9"
  rs9 := b.pval "rs9"
  s10 := b.pval "s10"
  alp := b.pval "alp"
  bet := b.pval "bet"
  doi := match b.lookup "doi" with
    | some (.str s) => some s
    | _ => none
  extra := (b.map (·.1)).filter fun k => k ∉ "doi" :: paramKeys

end TadDftd4
