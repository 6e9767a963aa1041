import Verif.Model.Disp

/-!
# Devices (`torch.device`)

The same code as in the other model files, followed for the devices of the tensors instead of their
values. Shapes, values, data types and other exceptions are in the other files. `D` is the type of
devices, `cpu` one of them.

PyTorch's rules (external, trusted):
* arithmetic, comparison and `torch.pow` need operands on one device, except that Python numbers and
  tensors without dimensions on the CPU go with every device (`mix`);
* `torch.where` and `einsum` need all operands on one device (PyTorch admits CPU tensors without
  dimensions in newer versions of `torch.where`; the code does not rely on it);
* `table[index]` needs the index on the CPU or on the device of the table (`index`);
* `any_to_tensor(x, device=g)` puts a number or tensor on `g`;
* an object of a `TensorLike` class constructed without `device` is on the default device of PyTorch;
* `cn_function` and `get_eeq_charges` need their arguments on one device and return it.
-/

namespace TadDftd4.Device

/-- Python number, tensor without dimensions, tensor with dimensions
(what PyTorch's device rules distinguish; e.g. `3 * r4r2`, `twobody.py:147`). -/
inductive Rank | py | zero | dim
  deriving DecidableEq, Repr

/-- Rank of the result of broadcasting -/
def Rank.max : Rank → Rank → Rank
  | .dim, _ => .dim
  | _, .dim => .dim
  | .zero, _ => .zero
  | _, .zero => .zero
  | .py, .py => .py

/-- An operand; `ok` is false if an exception was raised while it was computed
(of the expressions in `twobody.py:134-201` etc.). -/
structure Opd (D : Type) where
  ok : Prop
  dev : D
  rank : Rank

section
variable {D : Type} (cpu : D)

/-- Goes with every device (device rules of PyTorch). -/
def Opd.free (a : Opd D) : Prop := a.rank = .py ∨ a.rank = .zero ∧ a.dev = cpu

open Classical in
/-- Arithmetic of two operands (every arithmetic operation, e.g. `twobody.py:147-148`). -/
noncomputable def mix (a b : Opd D) : Opd D where
  ok := a.ok ∧ b.ok ∧ (a.free cpu ∨ b.free cpu ∨ a.dev = b.dev)
  dev := if a.rank = .py then b.dev else if b.rank = .py then a.dev
    else if a.free cpu then b.dev else a.dev
  rank := a.rank.max b.rank

/-- `torch.where(mask, a, b)` (e.g. `twobody.py:141, 159`). -/
def where_ (c a b : Opd D) : Opd D where
  ok := c.ok ∧ a.ok ∧ b.ok ∧ a.dev = c.dev ∧ b.dev = c.dev
  dev := c.dev
  rank := .dim

/-- `einsum` of two operands (`tad_mctc.math.einsum`, `utils.py:91`, `model/d4.py:285`). -/
def contract (a b : Opd D) : Opd D where
  ok := a.ok ∧ b.ok ∧ a.dev = b.dev
  dev := a.dev
  rank := .dim

/-- `table[index]` (e.g. `dispersion/base.py:273`, `model/d4.py:154`). -/
def index (table i : Opd D) : Opd D where
  ok := table.ok ∧ i.ok ∧ (i.dev = cpu ∨ i.dev = table.dev)
  dev := table.dev
  rank := .dim

/-- A Python number (e.g. `0.375`, `threebody.py:158`). -/
def py : Opd D := ⟨True, cpu, .py⟩
/-- `torch.tensor(x, device=g)` of a number (e.g. `twobody.py:135`, `threebody.py:102-104`). -/
def scalar (g : D) : Opd D := ⟨True, g, .zero⟩
/-- A tensor with dimensions on `g`, e.g. `table.to(device=g)` (`model/d4.py:154, 159`). -/
def dim (g : D) : Opd D := ⟨True, g, .dim⟩

/-- `any_to_tensor(x, device=g)` (`threebody.py:93-94`, `disp.py:187`, `cutoff.py:82-85`). -/
def anyToTensor (g : D) (x : Opd D) : Opd D := { x with dev := g, rank := x.rank.max .zero }

/-! ## Models -/

/-- Devices of a model object: class, `device`, `numbers`, `wf`, `rc6` (`model/base.py:143-151`). -/
structure MDev (D : Type) where
  kind : ModelKind
  dev : D
  numbers : Opd D
  wf : Opd D
  rc6 : Opd D

/-- `model/base.py:308-335` `_zeta` with the model on `v`. -/
noncomputable def zeta (v : D) (gam qref qmod : Opd D) : Opd D :=
  let eps := scalar v
  let ga := scalar v
  let scale := mix cpu gam (mix cpu (py cpu) (mix cpu qref (mix cpu qmod eps)))
  let mask := mix cpu qmod (py cpu)
  where_ mask (mix cpu ga (mix cpu (py cpu) scale)) ga

/-- `model/base.py:367-418` `_get_alpha` -/
noncomputable def getAlpha (v : D) (numbers : Opd D) : Opd D :=
  let zero := scalar v
  let refsys := index cpu (dim v) numbers
  let refascale := index cpu (dim v) numbers
  let refalpha := index cpu (dim v) numbers
  let refscount := index cpu (dim v) numbers
  let secscale := dim v
  let secalpha := dim v
  let refsq := index cpu (dim v) numbers
  let mask := mix cpu refsys (py cpu)
  let zeff := index cpu (dim v) refsys
  let gam := mix cpu (index cpu (dim v) refsys) (py cpu)
  let z := where_ mask (zeta cpu v gam zeff (mix cpu refsq zeff)) zero
  let aiw := mix cpu (mix cpu (index cpu secscale refsys) (index cpu secalpha refsys)) z
  let h := mix cpu refalpha (mix cpu refscount aiw)
  let alpha := mix cpu refascale h
  where_ (mix cpu alpha (py cpu)) alpha zero

/-- `utils.py:33-94` `trapzd`, `utils.py:97-152`, `utils.py:155-205`: the weights are on the device of
the polarizabilities. -/
noncomputable def trapzd (pol : Opd D) : Opd D :=
  mix cpu (py cpu) (contract (contract (dim pol.dev) pol) pol)
/-- `utils.py:155-205` -/
noncomputable def trapzdAtm (pol : Opd D) : Opd D :=
  mix cpu (py cpu) (contract pol (dim pol.dev))

/-- Constructor, `model/base.py:107-151`, with `_get_wf` of `d4.py:59`, `d4s.py:61`, `d4s.py:326`.
The two classes without implementation are not followed here. -/
noncomputable def mkModel (kind : ModelKind) (v : D) (numbers : Opd D) : MDev D where
  kind := kind
  dev := v
  numbers := numbers
  wf := match kind with
    | .d4s => index cpu (index cpu (dim v) numbers) numbers
    | .d4sDebug => dim v
    | _ => scalar v
  rc6 := trapzd cpu (getAlpha cpu v numbers)

/-- `d4.py:103-233` and `d4s.py:109-249` `weight_references` without derivatives. -/
noncomputable def weights (m : MDev D) (cn q : Option (Opd D)) : Opd D :=
  let v := m.dev
  let cn := cn.getD (dim v)
  let q := q.getD (dim v)
  let refq := index cpu (dim v) m.numbers
  let zero := scalar v
  let zeroDouble := scalar v
  let refc := index cpu (dim v) m.numbers
  let mask := mix cpu refc (py cpu)
  let refcn := index cpu (dim v) m.numbers
  let dcn := mix cpu cn refcn
  let expw := match m.kind with
    | .d4 =>
      let tmp := mix cpu dcn dcn
      let pw := mix cpu tmp (mix cpu (py cpu) m.wf)
      let pow1 := mix cpu (scalar tmp.dev) pw
      let pow3 := mix cpu (mix cpu pow1 pw) pw
      let p1 := where_ (mix cpu refc (py cpu)) pow1 tmp
      where_ mask (where_ (mix cpu refc (py cpu)) pow3 p1) zeroDouble
    | _ =>
      let arg := contract (contract dcn dcn) m.wf
      let tmp := where_ mask arg zeroDouble
      let pow1 := mix cpu zeroDouble tmp
      let pow3 := mix cpu (mix cpu pow1 tmp) tmp
      let p1 := where_ (mix cpu refc (py cpu)) pow1 tmp
      where_ mask (where_ (mix cpu refc (py cpu)) pow3 p1) zeroDouble
  let norm := where_ mask expw (scalar v)
  let gwTemp := mix cpu expw norm
  let maxcn := refcn
  let gw := where_ gwTemp (where_ (mix cpu refcn maxcn) (scalar v) zero) gwTemp
  let zeff := index cpu (dim v) m.numbers
  let gam := mix cpu (index cpu (dim v) m.numbers) (py cpu)
  let z := where_ mask (zeta cpu v gam (mix cpu refq zeff) (mix cpu q zeff)) zero
  mix cpu z gw

/-- `d4.py:268-289`, `d4s.py:268-290` `get_atomic_c6` -/
def atomicC6 (m : MDev D) (gw : Opd D) : Opd D := contract (contract m.rc6 gw) gw

/-- `d4.py:291-307`, `d4s.py:292-316` `get_weighted_pols` -/
noncomputable def weightedPols (m : MDev D) (gw : Opd D) : Opd D :=
  let x := contract gw (getAlpha cpu m.dev m.numbers)
  match m.kind with
  | .d4 => x
  | _ => mix cpu x m.numbers

/-- `model/base.py:287-303` `get_polarizabilities` -/
noncomputable def polarizabilities (m : MDev D) (gw : Opd D) : Opd D :=
  contract gw (getAlpha cpu m.dev m.numbers)

/-! ## Damping and terms -/

/-- Devices of the values of a parameter dictionary, numbers or tensors without dimensions; `none`
if the key is absent (`damping/parameters/base.py:48-85`). -/
structure PDev (D : Type) where
  s6 : Option (Opd D) := none
  s8 : Option (Opd D) := none
  s9 : Option (Opd D) := none
  s10 : Option (Opd D) := none
  a1 : Option (Opd D) := none
  a2 : Option (Opd D) := none
  rs6 : Option (Opd D) := none
  rs8 : Option (Opd D) := none
  rs9 : Option (Opd D) := none
  rs10 : Option (Opd D) := none
  alp : Option (Opd D) := none
  bet : Option (Opd D) := none

/-- `damping/functions.py` `_f` of the four classes: `:282-286`, `:351-377`, `:415-434`, `:470-488`. -/
noncomputable def damp (k : Damping) (distances radii rs a1 a2 alp bet : Opd D) : Opd D :=
  let n : Opd D := py cpu
  match k with
  | .rational => mix cpu n (mix cpu (mix cpu distances n) (mix cpu (mix cpu (mix cpu a1 radii) a2) n))
  | .zero =>
    let t := mix cpu rs (mix cpu distances radii)
    let f := mix cpu n (mix cpu n (mix cpu n (mix cpu t (mix cpu alp n))))
    mix cpu f (mix cpu distances n)
  | .mzero =>
    let t := mix cpu (mix cpu distances (mix cpu rs radii)) (mix cpu bet radii)
    let f := mix cpu n (mix cpu n (mix cpu n (mix cpu t (mix cpu alp n))))
    mix cpu f (mix cpu distances n)
  | .op =>
    let ab := mix cpu (mix cpu (mix cpu a1 radii) a2) bet
    let rb := mix cpu distances bet
    mix cpu rb (mix cpu (mix cpu rb (mix cpu distances n)) (mix cpu ab (mix cpu distances n)))

/-- `twobody.py:89-201` `dispersion2`. -/
noncomputable def dispersion2 (numbers positions : Opd D) (p : PDev D) (c6 r4r2 rvdw : Opd D)
    (k : Damping) (cutoff : Opd D) : Opd D :=
  let g := positions.dev
  let zero := scalar g
  let mask := mix cpu numbers (py cpu)
  let distances := where_ mask positions (scalar g)
  let qq := mix cpu (mix cpu (py cpu) r4r2) r4r2
  let c8 := mix cpu c6 qq
  let radii := match k with
    | .rational | .op => qq
    | .zero | .mzero => rvdw
  let a1 := p.a1.getD (py cpu)
  let a2 := p.a2.getD (py cpu)
  let alp := p.alp.getD (py cpu)
  let bet := p.bet.getD (py cpu)
  let near := mix cpu mask (mix cpu distances cutoff)
  let t (rs : Option (Opd D)) :=
    where_ near (damp cpu k distances radii (rs.getD (py cpu)) a1 a2 alp bet) zero
  let e6 := mix cpu c6 (t p.rs6)
  let e8 := mix cpu c8 (t p.rs8)
  let e68 := mix cpu (mix cpu (p.s6.getD (scalar g)) e6) (mix cpu (p.s8.getD (scalar g)) e8)
  let edisp := match p.s10 with
    | none => e68
    | some s10 => mix cpu e68 (mix cpu s10 (mix cpu (mix cpu c6 (mix cpu qq (py cpu))) (t p.rs10)))
  mix cpu (py cpu) edisp

/-- `threebody.py:54-163` `get_atm_dispersion`. -/
noncomputable def atmDispersion (numbers positions c9 radii : Opd D) (cutoff : Opd D) (k : Damping)
    (s9 alp : Opd D) : Opd D :=
  let g := positions.dev
  let s9 := anyToTensor g s9
  let alp := anyToTensor g alp
  let cutoff2 := mix cpu cutoff cutoff
  let maskPairs := mix cpu numbers (py cpu)
  let mask := mix cpu numbers (py cpu)
  let eps := scalar g
  let zero := scalar g
  let one := scalar g
  let r0 := mix cpu (mix cpu radii radii) radii
  let distances := mix cpu (where_ maskPairs positions eps) (py cpu)
  let r2 := mix cpu (mix cpu distances distances) distances
  let r1 := r2
  let r3 := where_ mask (mix cpu r1 r2) eps
  let r5 := where_ mask (mix cpu r2 r3) eps
  let fdamp := where_ mask (damp cpu k r0 (where_ mask r1 one) (py cpu) (py cpu) (py cpu)
    (mix cpu alp (py cpu)) (py cpu)) zero
  let s := where_ mask (mix cpu (mix cpu r2 r2) r2) zero
  let near := mix cpu mask (mix cpu distances cutoff2)
  let ang := where_ near
    (mix cpu (mix cpu (mix cpu (py cpu) s) r5) (mix cpu (py cpu) r3)) (scalar g)
  mix cpu (mix cpu (mix cpu (mix cpu ang fdamp) s9) c9) (py cpu)

/-- `calculate` of the terms, `twobody.py:60-86`, `threebody.py:210-235`, with radii
`threebody.py:244-270` and C9 `threebody.py:276-321`. The terms are constructed without `device`, so
that `self.device` of a term is the default device `d0`. -/
noncomputable def termEnergy (d0 : D) (tm : Term) (numbers positions : Opd D) (p : PDev D) (cn : Opd D)
    (m : MDev D) (q : Option (Opd D)) (r4r2 rvdw disp2 disp3 : Opd D) : Opd D :=
  let w := weights cpu m (some cn) (if tm.chargeDep then q else none)
  match tm.cls with
  | .twoBody => dispersion2 cpu numbers positions p (atomicC6 m w) r4r2 rvdw tm.damping disp2
  | c =>
    let c9 := match c with
      | .d4ATMExact =>
        let aiw := weightedPols cpu m w
        trapzdAtm cpu (mix cpu (mix cpu aiw aiw) aiw)
      | _ =>
        let c6 := atomicC6 m w
        mix cpu (mix cpu c6 c6) c6
    let radii := match c with
      | .d3ATM => mix cpu (p.rs9.getD (scalar d0)) rvdw
      | _ => mix cpu (mix cpu (p.a1.getD (scalar d0)) (mix cpu (mix cpu (py cpu) r4r2) r4r2))
          (p.a2.getD (scalar d0))
    atmDispersion cpu numbers positions c9 radii disp3 tm.damping (p.s9.getD (scalar d0))
      (p.alp.getD (scalar d0))

/-! ## `Disp` -/

/-- Optional arguments of the caller; the cutoffs are tensors without dimensions (`disp.py:44-59`). -/
structure ODev (D : Type) where
  q : Option (Opd D) := none
  r4r2 : Option (Opd D) := none
  rvdw : Option (Opd D) := none
  disp2 : Option (Opd D) := none
  disp3 : Option (Opd D) := none
  cnEeq : Option (Opd D) := none

/-- External: coordination numbers (`dispersion/base.py:390`). -/
def cnFn (numbers positions : Opd D) : Opd D where
  ok := numbers.ok ∧ positions.ok ∧ numbers.dev = positions.dev
  dev := positions.dev
  rank := .dim

/-- External: charges (`dispersion/base.py:405-407`). -/
def eeqFn (numbers positions charge cutoff : Opd D) : Opd D where
  ok := numbers.ok ∧ positions.ok ∧ charge.ok ∧ cutoff.ok ∧ numbers.dev = positions.dev ∧
    charge.dev = positions.dev ∧ (cutoff.free cpu ∨ cutoff.dev = positions.dev)
  dev := positions.dev
  rank := .dim

/-- An exception elsewhere (sequence of statements, e.g. `dispersion/base.py:350-431`). -/
def Opd.also (a : Opd D) (c : Prop) : Opd D := { a with ok := c ∧ a.ok }

/-- `base.py:285-431` `Disp.calculate`; `u` is the device of the `Disp` object, `m` a model object
if one was given. Radii and charges are computed (and may raise) also if no term uses them. -/
noncomputable def calculate (d0 : D) (terms : List Term) (u : D) (key : ModelKind)
    (m : Option (MDev D)) (numbers positions charge : Opd D) (p : PDev D) (o : ODev D) : Opd D :=
  let g := positions.dev
  let charge := anyToTensor g charge
  let disp2 := o.disp2.getD (scalar g)
  let disp3 := o.disp3.getD (scalar g)
  let cnEeq := o.cnEeq.getD (scalar g)
  let model := m.getD (mkModel cpu key u numbers)
  let r4r2 := o.r4r2.getD (index cpu (dim u) numbers)
  let rvdw := o.rvdw.getD (index cpu (index cpu (dim u) numbers) numbers)
  let cn := cnFn numbers positions
  let q := match o.q with
    | some q => some q
    | none => if terms.any (·.chargeDep) then some (eeqFn cpu numbers positions charge cnEeq)
        else none
  terms.foldl (fun e tm =>
    mix cpu e (termEnergy cpu d0 tm numbers positions p cn model q r4r2 rvdw disp2 disp3))
    ((dim g).also (model.wf.ok ∧ model.rc6.ok ∧ r4r2.ok ∧ rvdw.ok ∧ cn.ok ∧
      ∀ x, q = some x → x.ok))

/-- `disp.py:44-146` `dftd4`: the `Disp` object is on the device of the positions. (The call
`any_to_tensor(charge)` of `disp.py:139` is left out; `calculate` sets the device of the charge.) -/
noncomputable def dftd4 (d0 : D) (k : Damping) (key : ModelKind) (m : Option (MDev D))
    (numbers positions charge : Opd D) (p : PDev D) (o : ODev D) : Opd D :=
  calculate cpu d0 [⟨.twoBody, k, true⟩, ⟨.d4ATMApprox, .zero, false⟩] positions.dev key m numbers
    positions charge p o

/-- `disp.py:149-197` `get_properties`: coordination numbers, charges, C6 coefficients and
polarizabilities. -/
noncomputable def getProperties (numbers positions : Opd D) (charge : Option (Opd D))
    (cnEeq : Option (Opd D)) : Opd D × Opd D × Opd D × Opd D :=
  let g := positions.dev
  let cnEeq := cnEeq.getD (scalar g)
  let charge := (charge.map (anyToTensor g)).getD (scalar g)
  let cn := cnFn numbers positions
  let q := eeqFn cpu numbers positions charge cnEeq
  let m := mkModel cpu .d4 g numbers
  let w := weights cpu m (some cn) (some q)
  (cn, q, atomicC6 m w, polarizabilities cpu m w)

end

end TadDftd4.Device
