import Verif.Lemmas.Device

/-!
# C50: calculations run on the device of their inputs
-/

namespace TadDftd4.Device

section
variable {D : Type} {cpu g u d0 : D}

/-- What the caller passes: tensors with dimensions on `g` (numbers, positions, charges and radii),
parameters and cutoffs that are Python numbers, CPU tensors without dimensions or tensors on `g`;
the total charge can be on any device. -/
structure Spec.InputsOn (cpu g : D) (numbers positions charge : Opd D) (p : PDev D) (o : ODev D) :
    Prop where
  numbers : On g numbers
  positions : On g positions
  charge : charge.ok
  param : p.Fits cpu g
  q : ∀ x, o.q = some x → On g x
  r4r2 : ∀ x, o.r4r2 = some x → On g x
  rvdw : ∀ x, o.rvdw = some x → On g x
  disp2 : ∀ x, o.disp2 = some x → Fits cpu g x
  disp3 : ∀ x, o.disp3 = some x → Fits cpu g x
  cnEeq : ∀ x, o.cnEeq = some x → Fits cpu g x

theorem on_cnFn {numbers positions : Opd D} (hn : On g numbers) (hx : On g positions) :
    On g (cnFn numbers positions) := ⟨⟨hn.ok, hx.ok, hn.dev.trans hx.dev.symm⟩, hx.dev, rfl⟩

theorem on_eeqFn {numbers positions charge cutoff : Opd D} (hn : On g numbers) (hx : On g positions)
    (hc : charge.ok) (hc' : charge.dev = g) (hf : Fits cpu g cutoff) :
    On g (eeqFn cpu numbers positions charge cutoff) :=
  ⟨⟨hn.ok, hx.ok, hc, hf.ok, hn.dev.trans hx.dev.symm, hc'.trans hx.dev.symm,
    hf.dev.imp id (fun h => h.trans hx.dev.symm)⟩, hx.dev, rfl⟩

theorem on_getD {x : Option (Opd D)} {y : Opd D} (h : ∀ z, x = some z → On g z) (hy : On g y) :
    On g (x.getD y) := by
  cases x with
  | none => exact hy
  | some z => exact h z rfl

theorem on_foldl {f : Term → Opd D} {terms : List Term} (hf : ∀ tm ∈ terms, On g (f tm))
    {e : Opd D} (he : On g e) :
    On g (terms.foldl (fun e tm => mix cpu e (f tm)) e) := by
  induction terms generalizing e with
  | nil => exact he
  | cons tm l ih =>
    exact ih (fun t ht => hf t (List.mem_cons_of_mem _ ht))
      (mixl he (hf tm List.mem_cons_self).fits)

theorem foldl_ok {f : Term → Opd D} {terms : List Term} {e : Opd D}
    (h : (terms.foldl (fun e tm => mix cpu e (f tm)) e).ok) : e.ok ∧ ∀ tm ∈ terms, (f tm).ok := by
  induction terms generalizing e with
  | nil => exact ⟨h, by simp⟩
  | cons tm l ih =>
    obtain ⟨h1, h2⟩ := ih h
    refine ⟨h1.1, ?_⟩
    rintro t (_ | ⟨_, ht⟩)
    · exact h1.2.1
    · exact h2 t ht

/-- `Disp.calculate` of any object on the device `g` of the inputs, with any registered terms: no
device mismatch and the energies are on `g`. The model is given by name or an object on `g`. Defaults
of missing three-body parameters are created on the default device of PyTorch `d0`; the full claim,
for every `d0`, is refuted below, as is the one for an object on another device. -/
theorem C50_calculate_partial {terms : List Term} {key : ModelKind} {m : Option (MDev D)}
    {numbers positions charge : Opd D} {p : PDev D} {o : ODev D}
    (h : Spec.InputsOn cpu g numbers positions charge p o)
    (hk : key = .d4 ∨ key = .d4s ∨ key = .d4sDebug) (hm : ∀ x, m = some x → x.OnDev cpu g)
    (hd : ∀ tm ∈ terms, DefaultsFit cpu g d0 p tm) :
    On g (calculate cpu d0 terms g key m numbers positions charge p o) := by
  have hmod : (m.getD (mkModel cpu key g numbers)).OnDev cpu g := by
    cases m with
    | none => exact mkModel_on hk h.numbers
    | some x => exact hm x rfl
  have hi : On g (index cpu (dim g) numbers) := on_index on_dim h.numbers
  have h4 := on_getD h.r4r2 hi
  have hv := on_getD h.rvdw (on_index (cpu := cpu) hi h.numbers)
  have hcn := on_cnFn h.numbers h.positions
  have hq : ∀ x, (match o.q with
      | some q => some q
      | none => if terms.any (·.chargeDep) then some (eeqFn cpu numbers positions
          (anyToTensor g charge) (o.cnEeq.getD (scalar g))) else none) = some x → On g x := by
    intro x hx
    cases hoq : o.q with
    | some q =>
      rw [hoq] at hx
      simp only [Option.some.injEq] at hx
      exact h.q x (hoq.trans (by rw [hx]))
    | none =>
      rw [hoq] at hx
      simp only at hx
      split_ifs at hx
      simp only [Option.some.injEq] at hx
      rw [← hx]
      exact on_eeqFn h.numbers h.positions h.charge rfl (fits_getD h.cnEeq fits_scalar)
  unfold calculate
  simp only [h.positions.dev]
  refine on_foldl (fun tm htm => on_termEnergy h.numbers h.positions h.param (hd tm htm) hcn hmod hq
    h4 hv (fits_getD h.disp2 fits_scalar) (fits_getD h.disp3 fits_scalar)) ?_
  refine ⟨⟨⟨?_, hmod.rc6.ok, h4.ok, hv.ok, hcn.ok, fun x hx => (hq x hx).ok⟩, trivial⟩, rfl, rfl⟩
  rcases hmod.wf with ⟨_, h, _⟩ | ⟨_, h⟩
  · exact h
  · exact h.ok

/-- `dftd4`: the energies are on the device `g` of positions and numbers, if the default device is the
CPU or `g`, or the parameters contain `a1` and `a2`. -/
theorem C50_dftd4_partial {k : Damping} {key : ModelKind} {m : Option (MDev D)}
    {numbers positions charge : Opd D} {p : PDev D} {o : ODev D}
    (h : Spec.InputsOn cpu g numbers positions charge p o)
    (hk : key = .d4 ∨ key = .d4s ∨ key = .d4sDebug) (hm : ∀ x, m = some x → x.OnDev cpu g)
    (hd : (d0 = cpu ∨ d0 = g) ∨ p.a1 ≠ none ∧ p.a2 ≠ none) :
    On g (dftd4 cpu d0 k key m numbers positions charge p o) := by
  unfold dftd4
  rw [h.positions.dev]
  refine C50_calculate_partial h hk hm ?_
  intro tm htm
  simp only [List.mem_cons, List.not_mem_nil, or_false] at htm
  rcases htm with rfl | rfl
  · exact Or.inr (Or.inl rfl)
  · rcases hd with h | h
    · exact Or.inl h
    · exact Or.inr (Or.inr (Or.inr ⟨Or.inl rfl, h⟩))

/-- `get_properties`: coordination numbers, charges, C6 coefficients and polarizabilities are on the
device of positions and numbers, whatever the device of the total charge. -/
theorem C50_properties {numbers positions : Opd D} {charge cnEeq : Option (Opd D)}
    (hn : On g numbers) (hx : On g positions) (hc : ∀ x, charge = some x → x.ok)
    (he : ∀ x, cnEeq = some x → Fits cpu g x) :
    On g (getProperties cpu numbers positions charge cnEeq).1 ∧
    On g (getProperties cpu numbers positions charge cnEeq).2.1 ∧
    On g (getProperties cpu numbers positions charge cnEeq).2.2.1 ∧
    On g (getProperties cpu numbers positions charge cnEeq).2.2.2 := by
  have hcn := on_cnFn hn hx
  have hq : On g (getProperties cpu numbers positions charge cnEeq).2.1 := by
    refine on_eeqFn hn hx ?_ ?_ (fits_getD he (by rw [hx.dev]; exact fits_scalar))
    · cases charge with
      | none => trivial
      | some x => exact hc x rfl
    · cases charge with
      | none => exact hx.dev
      | some x => exact hx.dev
  have hm : (mkModel cpu .d4 positions.dev numbers).OnDev cpu g := by
    rw [hx.dev]; exact mkModel_on (Or.inl rfl) hn
  have hw := on_weights hm (cn := some (cnFn numbers positions))
    (q := some (getProperties cpu numbers positions charge cnEeq).2.1)
    (by rintro x ⟨⟩; exact hcn) (by rintro x ⟨⟩; exact hq)
  exact ⟨hcn, hq, on_atomicC6 hm hw, on_polarizabilities hm hw⟩

/-- A model object constructed on `g` for numbers on `g`: weights, C6 coefficients, polarizabilities
and dynamic polarizabilities for optional coordination numbers and charges on `g` are on `g`. -/
theorem C50_model {kind : ModelKind} {numbers : Opd D} {cn q : Option (Opd D)}
    (hk : kind = .d4 ∨ kind = .d4s ∨ kind = .d4sDebug) (hn : On g numbers)
    (hc : ∀ x, cn = some x → On g x) (hq : ∀ x, q = some x → On g x) :
    let m := mkModel cpu kind g numbers
    let w := weights cpu m cn q
    On g w ∧ On g (atomicC6 m w) ∧ On g (weightedPols cpu m w) ∧ On g (polarizabilities cpu m w) := by
  have hm := mkModel_on (cpu := cpu) hk hn
  have hw := on_weights hm hc hq
  exact ⟨hw, on_atomicC6 hm hw, on_weightedPols hm hw, on_polarizabilities hm hw⟩

/-! ## Where the claim fails -/

theorem where_ok {c a b : Opd D} (h : (where_ c a b).ok) : c.ok ∧ a.ok ∧ b.ok :=
  ⟨h.1, h.2.1, h.2.2.1⟩

/-- With coordination numbers on another device than the model no weights are computed. -/
theorem weights_other {m : MDev D} {cn : Opd D} {q : Option (Opd D)} (hc : cn.rank = .dim)
    (hd : cn.dev ≠ m.dev) : ¬ (weights cpu m (some cn) q).ok := by
  intro h
  have hdcn : ¬ (mix cpu cn (index cpu (dim m.dev) m.numbers)).ok := by
    rintro ⟨-, -, h | h | h⟩
    · simp [Opd.free, hc] at h
    · simp [Opd.free, index] at h
    · exact hd h
  unfold weights at h
  simp only [Option.getD_some] at h
  have hgw := h.2.1
  have ht := hgw.1
  have he := ht.1
  cases hk : m.kind <;> simp only [hk] at he
  · exact hdcn he.2.1.2.1.2.1.1.1
  all_goals exact hdcn he.2.1.2.1.2.1.2.1.1.1

theorem damp_ok {k : Damping} {r r0 rs a1 a2 alp bet : Opd D}
    (h : (damp cpu k r r0 rs a1 a2 alp bet).ok) : r.ok := by
  cases k with
  | rational => exact h.2.1.1.1
  | zero => exact h.2.1.1
  | mzero => exact h.2.1.1
  | op => exact h.1.1

theorem atm_ok {numbers positions c9 radii cutoff s9 alp : Opd D} {k : Damping}
    (h : (atmDispersion cpu numbers positions c9 radii cutoff k s9 alp).ok) : c9.ok ∧ radii.ok :=
  ⟨h.1.2.1, (damp_ok h.1.1.1.2.1.2.1).1.1⟩

/-- No term is computed without weights. -/
theorem term_weights {tm : Term} {numbers positions cn r4r2 rvdw disp2 disp3 : Opd D} {p : PDev D}
    {m : MDev D} {q : Option (Opd D)}
    (h : (termEnergy cpu d0 tm numbers positions p cn m q r4r2 rvdw disp2 disp3).ok) :
    (weights cpu m (some cn) (if tm.chargeDep then q else none)).ok := by
  unfold termEnergy at h
  cases hcls : tm.cls <;> simp only [hcls] at h
  · unfold dispersion2 at h
    simp only at h
    have h2 := h.2.1
    have h68 : ∀ {a b : Opd D} {x : Option (Opd D)} {y : Opd D → Opd D}, (match x with
      | none => a
      | some s => mix cpu a (y s)).ok → a.ok := by
      intro a b x y h
      cases x with
      | none => exact h
      | some s => exact h.1
    have h6 := (h68 (b := py cpu) h2).1.2.1.1
    exact h6.2.1
  all_goals have hc9 := (atm_ok h).1
  · exact hc9.1.1.2.1
  · have h9 := hc9.2.1.1.1.1
    unfold weightedPols at h9
    cases hk : m.kind <;> simp only [hk] at h9
    · exact h9.1
    all_goals exact h9.1.1
  · exact hc9.1.1.2.1

/-- A model object on another device than the inputs does not work, for any class and any inputs. -/
theorem C50_model_elsewhere_false {terms : List Term} {key : ModelKind} {m : MDev D}
    {numbers positions charge : Opd D} {p : PDev D} {o : ODev D} (hx : On g positions)
    (hm : m.dev ≠ g) (ht : terms ≠ []) :
    ¬ (calculate cpu d0 terms u key (some m) numbers positions charge p o).ok := by
  intro h
  obtain ⟨tm, htm⟩ := List.exists_mem_of_ne_nil _ ht
  have h1 := (foldl_ok h).2 tm htm
  exact weights_other rfl (by rw [Option.getD_some]; exact hx.dev ▸ hm.symm) (term_weights h1)

/-- An object of a `Disp` class on another device than the inputs, e.g. one constructed without
`device` used with inputs on a GPU, does not work, with a model given by name, for any class and any
inputs. -/
theorem C50_object_elsewhere_false {terms : List Term} {key : ModelKind}
    {numbers positions charge : Opd D} {p : PDev D} {o : ODev D} (hx : On g positions)
    (hu : u ≠ g) (ht : terms ≠ []) :
    ¬ (calculate cpu d0 terms u key none numbers positions charge p o).ok := by
  intro h
  obtain ⟨tm, htm⟩ := List.exists_mem_of_ne_nil _ ht
  have h1 := (foldl_ok h).2 tm htm
  refine weights_other rfl ?_ (term_weights h1)
  change positions.dev ≠ u
  exact hx.dev ▸ hu.symm

/-- A model constructed on another device than the numbers raises, unless the numbers are on the
CPU. -/
theorem C50_model_construction_false {kind : ModelKind} {numbers : Opd D} (hn : On g numbers)
    (hg : g ≠ cpu) (hu : u ≠ g) : ¬ (mkModel cpu kind u numbers).rc6.ok := by
  intro h
  have ha : (getAlpha cpu u numbers).ok := h.2.1.2.1
  have hi : (index cpu (dim u) numbers).ok := ha.1.1.1
  rcases hi.2.2 with h | h
  · exact hg (hn.dev.symm.trans h)
  · exact hu (hn.dev.symm.trans h).symm

/-- With a default device that is neither the CPU nor the device of the inputs, three-body terms with
Becke–Johnson radii fail if `a1` is missing, those with van der Waals radii if `rs9` is missing,
although all arguments are on one device. -/
theorem C50_default_device_false {terms : List Term} {key : ModelKind} {m : Option (MDev D)}
    {numbers positions charge : Opd D} {p : PDev D} {o : ODev D} {tm : Term} (htm : tm ∈ terms)
    (hc : d0 ≠ cpu) (hg : d0 ≠ g)
    (h4 : ∀ x, o.r4r2 = some x → On g x) (hv : ∀ x, o.rvdw = some x → On g x)
    (hp : tm.cls = .d3ATM ∧ p.rs9 = none ∨
      (tm.cls = .d4ATMApprox ∨ tm.cls = .d4ATMExact) ∧ p.a1 = none) :
    ¬ (calculate cpu d0 terms g key m numbers positions charge p o).ok := by
  intro h
  have h1 := (foldl_ok h).2 tm htm
  have hn0 : ¬ (scalar d0).free cpu := by simp [Opd.free, scalar, hc]
  have no : ∀ x : Opd D, x.rank = .dim → x.dev = g → ¬ (mix cpu (scalar d0) x).ok := by
    rintro x hr hx ⟨-, -, h | h | h⟩
    · exact hn0 h
    · simp [Opd.free, hr] at h
    · exact hg (h.trans hx)
  have hr4 : (o.r4r2.getD (index cpu (dim g) numbers)).rank = .dim ∧
      (o.r4r2.getD (index cpu (dim g) numbers)).dev = g := by
    cases ho : o.r4r2 with
    | none => exact ⟨rfl, rfl⟩
    | some x => exact ⟨(h4 x ho).rank, (h4 x ho).dev⟩
  have hrv : (o.rvdw.getD (index cpu (index cpu (dim g) numbers) numbers)).rank = .dim ∧
      (o.rvdw.getD (index cpu (index cpu (dim g) numbers) numbers)).dev = g := by
    cases ho : o.rvdw with
    | none => exact ⟨rfl, rfl⟩
    | some x => exact ⟨(hv x ho).rank, (hv x ho).dev⟩
  have hqq : ∀ x : Opd D, x.rank = .dim → x.dev = g →
      (mix cpu (mix cpu (py cpu) x) x).rank = .dim ∧ (mix cpu (mix cpu (py cpu) x) x).dev = g := by
    intro x h1 h2
    constructor
    · simp [mix, py, h1, Rank.max]
    · have : (mix cpu (py cpu) x).rank = .dim := by simp [mix, py, h1, Rank.max]
      have h4 : (mix cpu (py cpu) x).dev = g := by simp [mix, py, h2]
      rw [mix]
      simp [h1, h2, this, h4]
  unfold termEnergy at h1
  rcases hp with ⟨hc1, hc2⟩ | ⟨hc1 | hc1, hc2⟩ <;> simp only [hc1, hc2, Option.getD_none] at h1
  all_goals have hrad := (atm_ok h1).2
  · exact no _ hrv.1 hrv.2 hrad
  · exact no _ (hqq _ hr4.1 hr4.2).1 (hqq _ hr4.1 hr4.2).2 hrad.1
  · exact no _ (hqq _ hr4.1 hr4.2).1 (hqq _ hr4.1 hr4.2).2 hrad.1

end

/-! ## Examples: three devices, `0` the CPU, `1` and `2` GPUs -/

/-- Parameters as number, CPU tensor and tensor on the GPU. -/
def demoPar : PDev (Fin 3) :=
  { s6 := some (py 0), s8 := some (py 0), a1 := some (scalar 0), a2 := some (scalar 1) }

theorem demoPar_fits : demoPar.Fits 0 1 := by
  intro x hx y hy
  simp only [demoPar, List.mem_cons, List.not_mem_nil, or_false] at hx
  rcases hx with rfl | rfl | rfl | rfl | rfl | rfl | rfl | rfl | rfl | rfl | rfl | rfl <;> cases hy
  all_goals first | exact fits_py | exact fits_cpu | exact fits_scalar

theorem demoInputs : Spec.InputsOn (0 : Fin 3) 1 (dim 1) (dim 1) (scalar 2) demoPar
    { q := some (dim 1), disp2 := some (scalar 1), disp3 := some (py 0) } where
  numbers := on_dim
  positions := on_dim
  charge := trivial
  param := demoPar_fits
  q := by rintro x ⟨⟩; exact on_dim
  r4r2 := by rintro x ⟨⟩
  rvdw := by rintro x ⟨⟩
  disp2 := by rintro x ⟨⟩; exact fits_scalar
  disp3 := by rintro x ⟨⟩; exact fits_py
  cnEeq := by rintro x ⟨⟩

/-- Inputs on GPU 1, also if the default device is GPU 2. -/
example : On (1 : Fin 3) (dftd4 0 2 .rational .d4s none (dim 1) (dim 1) (scalar 2) demoPar
    { q := some (dim 1), disp2 := some (scalar 1), disp3 := some (py 0) }) :=
  C50_dftd4_partial demoInputs (Or.inr (Or.inl rfl)) (by rintro x ⟨⟩)
    (Or.inr ⟨by simp [demoPar], by simp [demoPar]⟩)

/-- A model object built on the GPU. -/
example : On (1 : Fin 3) (calculate 0 0 [⟨.twoBody, .rational, true⟩, ⟨.d4ATMExact, .zero, false⟩] 1
    .d4 (some (mkModel 0 .d4 1 (dim 1))) (dim 1) (dim 1) (scalar 2) demoPar
    { q := some (dim 1), disp2 := some (scalar 1), disp3 := some (py 0) }) :=
  C50_calculate_partial demoInputs (Or.inl rfl)
    (by rintro x ⟨⟩; exact mkModel_on (Or.inl rfl) on_dim)
    (fun tm _ => Or.inl (Or.inl rfl))

/-- The same inputs with a `DispD4()` constructed without device (CPU). -/
example : ¬ (calculate (0 : Fin 3) 0 [⟨.twoBody, .rational, true⟩, ⟨.d4ATMApprox, .zero, false⟩] 0
    .d4 none (dim 1) (dim 1) (scalar 2) demoPar {}).ok :=
  C50_object_elsewhere_false on_dim (by decide) (by simp)

/-- A CPU calculation with zero damping (no `a1`) while the default device is GPU 2. -/
example : ¬ (dftd4 (0 : Fin 3) 2 .zero .d4 none (dim 0) (dim 0) (py 0)
    { s6 := some (py 0), s8 := some (py 0) } {}).ok :=
  C50_default_device_false (g := (0 : Fin 3)) (tm := ⟨.d4ATMApprox, .zero, false⟩) (by simp)
    (by decide) (by decide) (by rintro x ⟨⟩) (by rintro x ⟨⟩) (Or.inr ⟨Or.inl rfl, rfl⟩)

/-- A model, and properties, on GPU 1. -/
example := C50_model (cpu := (0 : Fin 3)) (g := 1) (kind := .d4s) (numbers := dim 1)
  (cn := some (dim 1)) (q := none) (Or.inr (Or.inl rfl)) on_dim (by rintro x ⟨⟩; exact on_dim)
  (by rintro x ⟨⟩)

example := C50_properties (cpu := (0 : Fin 3)) (g := 1) (numbers := dim 1) (positions := dim 1)
  (charge := none) (cnEeq := none) on_dim on_dim (by rintro x ⟨⟩) (by rintro x ⟨⟩)

end TadDftd4.Device
