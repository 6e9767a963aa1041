import Verif.Model.DType
import Verif.Lemmas.Errors

/-!
# C43: the result has the precision of the positions

`dftd4` and `get_properties` compute in the type of the positions, for every default type of PyTorch
and any mixture of types of the parameters.
-/

set_option linter.unusedSimpArgs false

namespace TadDftd4.DType

/-- A number or a tensor without dimensions, of any type. -/
def Opd.IsScalar (a : Opd) : Prop := a.rank ≠ .dim

/-- All entries of the dictionary are numbers or tensors without dimensions. -/
structure PTy.IsScalar (p : PTy) : Prop where
  s6 : ∀ a ∈ p.s6, a.IsScalar
  s8 : ∀ a ∈ p.s8, a.IsScalar
  s9 : ∀ a ∈ p.s9, a.IsScalar
  s10 : ∀ a ∈ p.s10, a.IsScalar
  a1 : ∀ a ∈ p.a1, a.IsScalar
  a2 : ∀ a ∈ p.a2, a.IsScalar
  rs6 : ∀ a ∈ p.rs6, a.IsScalar
  rs8 : ∀ a ∈ p.rs8, a.IsScalar
  rs9 : ∀ a ∈ p.rs9, a.IsScalar
  alp : ∀ a ∈ p.alp, a.IsScalar
  bet : ∀ a ∈ p.bet, a.IsScalar

section
variable {d t u v : Ty} {a b : Opd}

theorem promote_dim (ht : t.isFloat) (ha : a.IsScalar) : promote (dim t) a = dim t := by
  obtain ⟨ty, r⟩ := a
  unfold Opd.IsScalar at ha
  cases t <;> simp [Ty.isFloat] at ht <;> cases ty <;> cases r <;> first | exact absurd rfl ha | rfl

theorem promote_dim' (ht : t.isFloat) (ha : a.IsScalar) : promote a (dim t) = dim t := by
  obtain ⟨ty, r⟩ := a
  unfold Opd.IsScalar at ha
  cases t <;> simp [Ty.isFloat] at ht <;> cases ty <;> cases r <;> first | exact absurd rfl ha | rfl

theorem promote_dim_dim : promote (dim t) (dim u) = dim (if t.cat < u.cat then u else
    if u.cat < t.cat then t else t.wider u) := by
  cases t <;> cases u <;> rfl

theorem isScalar_promote (ha : a.IsScalar) (hb : b.IsScalar) : (promote a b).IsScalar := by
  obtain ⟨ty, r⟩ := a
  obtain ⟨ty', r'⟩ := b
  unfold Opd.IsScalar at *
  cases r <;> cases r' <;> simp_all [promote, Rank.max, Rank.level]

theorem isScalar_py : (pyFloat d).IsScalar := by simp [Opd.IsScalar, pyFloat]
theorem isScalar_int : pyInt.IsScalar := by simp [Opd.IsScalar, pyInt]
theorem isScalar_scalar : (scalar t).IsScalar := by simp [Opd.IsScalar, scalar]
theorem isScalar_any (ha : a.IsScalar) : (anyToTensor t a).IsScalar := by
  obtain ⟨ty, r⟩ := a
  unfold Opd.IsScalar at *
  cases r <;> simp_all [anyToTensor, Rank.max, Rank.level]

theorem isScalar_getD {o : Option Opd} (h : ∀ a ∈ o, a.IsScalar) (hb : b.IsScalar) :
    (o.getD b).IsScalar := by
  cases o with
  | none => exact hb
  | some a => exact h a rfl

theorem mul_def : a * b = promote a b := rfl
theorem add_def : a + b = promote a b := rfl
theorem sub_def : a - b = promote a b := rfl
theorem div_def : a / b = promote a b := rfl
theorem pow_def : a ^ b = promote a b := rfl
theorem where_dim : where_ (dim t) a = { promote (dim t) a with rank := .dim } := rfl

theorem wider_self (ht : t.isFloat) : (if t.cat < t.cat then t else
    if t.cat < t.cat then t else t.wider t) = t := by
  cases t <;> simp [Ty.isFloat] at ht <;> rfl

theorem promote_self (ht : t.isFloat) : promote (dim t) (dim t) = dim t := by
  rw [promote_dim_dim, wider_self ht]

theorem where_self (ht : t.isFloat) (ha : a.IsScalar) : where_ (dim t) a = dim t := by
  rw [where_dim, promote_dim ht ha]; rfl

/-- Every damping function computes in the type of distances and radii. -/
theorem damp_dim (ht : t.isFloat) {k : Damping} {rs a1 a2 alp bet : Opd} (h1 : rs.IsScalar)
    (h2 : a1.IsScalar) (h3 : a2.IsScalar) (h4 : alp.IsScalar) (h5 : bet.IsScalar) :
    damp d k (dim t) (dim t) rs a1 a2 alp bet = dim t := by
  have hp := isScalar_py (d := d)
  have h6 := isScalar_promote h4 hp
  cases k <;>
    simp only [damp, mul_def, add_def, div_def, pow_def, promote_dim ht, promote_dim' ht,
      promote_self ht, h1, h2, h3, h4, h5, hp, h6, isScalar_int]

/-- Two-body energies have the wider type of C6 coefficients and positions. -/
theorem dispersion2_dim (ht : t.isFloat) {p : PTy} (hp : p.IsScalar) {k : Damping} :
    dispersion2 d t p (dim t) (dim t) (dim t) k = dim t := by
  have h0 := isScalar_py (d := d)
  have hs : ∀ {u}, (scalar u).IsScalar := isScalar_scalar
  have hq : pyInt * dim t * dim t = dim t := by
    simp only [mul_def, promote_dim' ht isScalar_int, promote_self ht]
  have hd : ∀ rs : Opd, rs.IsScalar → where_ (damp d k (dim t) (dim t) rs
      (p.a1.getD (pyFloat d)) (p.a2.getD (pyFloat d)) (p.alp.getD (pyFloat d))
      (p.bet.getD (pyFloat d))) (scalar t) = dim t := by
    intro rs hrs
    rw [damp_dim ht hrs (isScalar_getD hp.a1 h0) (isScalar_getD hp.a2 h0) (isScalar_getD hp.alp h0)
      (isScalar_getD hp.bet h0), where_self ht hs]
  have h6 := isScalar_getD (b := scalar t) hp.s6 hs
  have h8 := isScalar_getD (b := scalar t) hp.s8 hs
  unfold dispersion2
  simp only [where_self ht hs, hq]
  cases k <;>
    simp only [hd _ (isScalar_getD hp.rs6 h0), hd _ (isScalar_getD hp.rs8 h0)] <;>
    simp only [mul_def, add_def, promote_dim ht, promote_dim' ht, promote_self ht, h6, h8, h0]

theorem atm_dim (ht : t.isFloat) {k : Damping} {s9 alp : Opd} (h9 : s9.IsScalar)
    (ha : alp.IsScalar) : atmDispersion d t (dim t) (dim t) k s9 alp = dim t := by
  have h0 := isScalar_py (d := d)
  have hs : ∀ {u}, (scalar u).IsScalar := isScalar_scalar
  have h1 := isScalar_promote (isScalar_any (t := t) ha) h0
  have h2 := isScalar_any (t := t) h9
  unfold atmDispersion
  simp only [mul_def, add_def, sub_def, div_def, pow_def, where_self ht hs, promote_dim ht h0,
    promote_dim' ht h0, promote_self ht, damp_dim ht h0 h0 h0 h1 h0, promote_dim ht h2]

theorem mkModel_ok (hd : d.isFloat) (hv : v.isFloat) (k : ModelKind)
    (hk : k ∈ [ModelKind.d4, .d4s, .d4sDebug]) :
    ∃ m, mkModel d k v = .ok m ∧ m.kind = k ∧ m.ty = v ∧ m.rc6 = dim v ∧
      (m.wf = dim v ∨ m.wf = scalar v) := by
  cases d <;> simp [Ty.isFloat] at hd <;> cases v <;> simp [Ty.isFloat] at hv <;> cases k <;>
    simp at hk <;> exact ⟨_, rfl, rfl, rfl, rfl, by decide⟩

/-- Weights have the wider type of model and charges. -/
theorem weights_dim (hd : d.isFloat) (ht : t.isFloat) {m : MTy} (hv : m.ty.isFloat)
    (hw : m.wf = dim m.ty ∨ m.wf = scalar m.ty) (hu : u.isFloat) :
    weights d m (some (dim t)) (some (dim u)) = dim (m.ty.wider u) ∧
    weights d m (some (dim t)) none = dim m.ty := by
  obtain ⟨k, v, wf, rc6⟩ := m
  simp only at hv hw ⊢
  have h : ∀ x y, weights d ⟨k, v, wf, rc6⟩ x y = weights d ⟨k, v, wf, dim .f32⟩ x y :=
    fun _ _ => rfl
  rw [h, h]
  clear h rc6
  cases d <;> simp [Ty.isFloat] at hd <;> cases v <;> simp [Ty.isFloat] at hv <;>
    cases t <;> simp [Ty.isFloat] at ht <;> cases u <;> simp [Ty.isFloat] at hu <;>
    rcases hw with rfl | rfl <;> cases k <;>
      exact ⟨by decide +kernel, by decide +kernel⟩

theorem contract_same (ht : t.isFloat) : contract (dim t) (dim t) = .ok (dim t) := by
  cases t <;> simp [Ty.isFloat] at ht <;> rfl

theorem atomicC6_eq {m : MTy} (hm : m.rc6 = dim v) (hv : v.isFloat) (hu : u.isFloat) :
    atomicC6 m (dim u) = if u = v then .ok (dim v) else .error .runtime := by
  unfold atomicC6
  rw [hm]
  cases v <;> simp [Ty.isFloat] at hv <;> cases u <;> simp [Ty.isFloat] at hu <;> rfl

theorem getAlpha_eq (hd : d.isFloat) (hv : v.isFloat) : getAlpha d v = dim v := by
  cases d <;> simp [Ty.isFloat] at hd <;> cases v <;> simp [Ty.isFloat] at hv <;> decide +kernel

/-- A term evaluated with everything in the type `t`. -/
theorem termEnergy_dim (hd : d.isFloat) (ht : t.isFloat) {m : MTy} (hm : m.ty = t)
    (hr : m.rc6 = dim t) (hw : m.wf = dim t ∨ m.wf = scalar t) {p : PTy} (hp : p.IsScalar)
    (tm : Term) {q : Option Opd} (hq : ∀ a ∈ q, a = dim t) :
    termEnergy d tm t p (dim t) m q (dim t) (dim t) = .ok (dim t) := by
  have hwt : weights d m (some (dim t)) (if tm.chargeDep then q else none) = dim t := by
    have := weights_dim (m := m) hd ht (by rw [hm]; exact ht) (by rw [hm]; exact hw) ht
    rw [hm] at this
    have h2 : t.wider t = t := by cases t <;> rfl
    split
    · cases q with
      | none => exact this.2
      | some a => rw [hq a rfl, this.1, h2]
    · exact this.2
  have h0 := isScalar_py (d := d)
  have hs : ∀ {u}, (scalar u).IsScalar := isScalar_scalar
  have hrad : ∀ c : TermClass, (match c with
      | .d3ATM => p.rs9.getD (scalar d) * dim t
      | _ => p.a1.getD (scalar d) * (pyFloat d * dim t * dim t) + p.a2.getD (scalar d)) = dim t := by
    intro c
    have h1 := isScalar_getD (b := scalar d) hp.rs9 hs
    have h2 := isScalar_getD (b := scalar d) hp.a1 hs
    have h3 := isScalar_getD (b := scalar d) hp.a2 hs
    cases c <;> simp only [mul_def, add_def, promote_dim ht, promote_dim' ht, promote_self ht, h1,
      h2, h3, h0]
  have h9 := isScalar_getD (b := scalar d) hp.s9 hs
  have ha := isScalar_getD (b := scalar d) hp.alp hs
  have hc6 : atomicC6 m (dim t) = .ok (dim t) := by rw [atomicC6_eq hr ht ht, if_pos rfl]
  have hpol : weightedPols d m (dim t) = .ok (dim t) := by
    unfold weightedPols
    rw [hm, getAlpha_eq hd ht, contract_same ht]
    cases m.kind <;>
      simp only [bind, Except.bind, pure, Except.pure, div_def, promote_dim ht isScalar_int]
  have hmul : dim t * dim t * dim t = dim t := by simp only [mul_def, promote_self ht]
  have hrad' := hrad tm.cls
  obtain ⟨cls, dm, cd⟩ := tm
  unfold termEnergy
  simp only at hwt hrad' ⊢
  rw [hwt]
  cases cls <;> simp only [bind, Except.bind, pure, Except.pure, hc6, hpol, hmul] at hrad' ⊢
  · rw [dispersion2_dim ht hp]
  · rw [hrad', atm_dim ht h9 ha]
  · have : (dim t).ty = t := rfl
    rw [this, contract_same ht]
    simp only []
    rw [hrad', mul_def, promote_dim' ht h0, atm_dim ht h9 ha]
  · rw [hrad', atm_dim ht h9 ha]

theorem foldlM_dim {α : Type} {f : Opd → α → Except Err Opd} {l : List α} {x : Opd}
    (h : ∀ a ∈ l, f x a = .ok x) : l.foldlM f x = .ok x := by
  induction l with
  | nil => rfl
  | cons a l ih =>
    rw [List.foldlM_cons, h a (List.mem_cons_self ..)]
    exact ih fun b hb => h b (List.mem_cons_of_mem _ hb)

theorem getD_dim {o : Option Opd} (h : ∀ a ∈ o, a = dim t) : o.getD (dim t) = dim t := by
  cases o with
  | none => rfl
  | some a => exact h a rfl

/-- Any terms, `Disp` object and optional tensors of the type of the positions: the energy has this
type, and there is no type mismatch. -/
theorem C43_calculate (hd : d.isFloat) (ht : t.isFloat) (terms : List Term) {key : ModelKind}
    (hk : key ∈ [ModelKind.d4, .d4s, .d4sDebug]) {p : PTy} (hp : p.IsScalar) {o : OTy} (hq : ∀ a ∈ o.q, a = dim t)
    (h4 : ∀ a ∈ o.r4r2, a = dim t) (hv : ∀ a ∈ o.rvdw, a = dim t) :
    calculate d terms t key none t p o = .ok (dim t) := by
  obtain ⟨m, h1, -, h2, h3, h5⟩ := mkModel_ok hd ht key hk
  unfold calculate
  simp only [h1, bind, Except.bind]
  rw [getD_dim h4, getD_dim hv]
  refine foldlM_dim fun tm _ => ?_
  rw [termEnergy_dim hd ht h2 h3 h5 hp tm]
  · simp only [pure, Except.pure, add_def, promote_self ht]
  · intro a ha
    cases hoq : o.q with
    | some q => rw [hoq] at ha; exact hq a (by rw [hoq]; exact ha)
    | none =>
      rw [hoq] at ha
      simp only at ha
      split at ha
      · simpa using ha.symm
      · simp at ha

/-- `dftd4` returns energies in the type of the positions: for every default type `d`, damping
function, model key, and any mixture of Python numbers and tensors of any type as parameters. -/
theorem C43_dftd4 (hd : d.isFloat) (ht : t.isFloat) (k : Damping) {key : ModelKind}
    (hk : key ∈ [ModelKind.d4, .d4s, .d4sDebug]) {p : PTy} (hp : p.IsScalar) {o : OTy} (hq : ∀ a ∈ o.q, a = dim t)
    (h4 : ∀ a ∈ o.r4r2, a = dim t) (hv : ∀ a ∈ o.rvdw, a = dim t) :
    dftd4 d k key none t p o = .ok (dim t) :=
  C43_calculate hd ht _ hk hp hq h4 hv

/-- All properties have the type of the positions. -/
theorem C43_properties (hd : d.isFloat) (ht : t.isFloat) :
    getProperties d t = .ok (dim t, dim t, dim t, dim t) := by
  obtain ⟨m, h1, -, h2, h3, h5⟩ := mkModel_ok hd ht .d4 (by simp)
  have hw := (weights_dim (m := m) hd ht (by rw [h2]; exact ht) (by rw [h2]; exact h5) ht).1
  have h6 : t.wider t = t := by cases t <;> rfl
  unfold getProperties
  simp only [h1, bind, Except.bind, pure, Except.pure]
  rw [hw, h2, h6, atomicC6_eq h3 ht ht, if_pos rfl]
  simp only []
  rw [getAlpha_eq hd ht, contract_same ht]

end

/-- Double precision positions, single precision default, parameters partly Python numbers, partly
single precision tensors. -/
example : dftd4 .f32 .rational .d4s none .f64
    { s6 := some (pyFloat .f32), s8 := some (scalar .f32), a1 := some (scalar .f32),
      a2 := some pyInt } {} = .ok (dim .f64) :=
  C43_dftd4 rfl rfl _ (by simp) (by constructor <;> simp [Opd.IsScalar, pyFloat, scalar, pyInt])
    (by simp) (by simp) (by simp)

/-- An object in double precision with custom charges, default type `float32`. -/
example := C43_calculate (d := .f32) (t := .f64) rfl rfl DispClass.d4.terms (key := .d4s) (by simp)
  (p := { s8 := some (pyFloat .f32), a1 := some (scalar .f32), a2 := some pyInt })
  (by constructor <;> simp [Opd.IsScalar, pyFloat, scalar, pyInt])
  (o := { q := some (dim .f64) }) (by simp) (by simp) (by simp)

example := C43_properties (d := .f32) (t := .f64) rfl rfl

end TadDftd4.DType
