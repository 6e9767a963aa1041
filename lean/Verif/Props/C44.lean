import Verif.Props.C43

/-!
# C44: precision of a `Disp` object and precision of the positions

A `Disp` object has a type of its own, `float32` unless given or changed globally. Equal to the type
of the positions all is well. Otherwise the full claim (`DispAnyPrecision`) fails in two ways.
-/

set_option linter.unusedSimpArgs false

namespace TadDftd4.DType

section
variable {d t u v : Ty} {a b : Opd}

/-- Full claim for `Disp` objects: one created with a type `u` of its own (PyTorch's default type if
none is given) can be used with positions of any type. -/
def DispAnyPrecision : Prop :=
  ∀ (d u t : Ty) (p : PTy), d.isFloat → u.isFloat → t.isFloat → p.IsScalar →
    calculate d DispClass.d4.terms u .d4 none t p {} = .ok (dim t)

/-- With `float32` object and `float64` positions: RuntimeError. -/
theorem C44_single_object_double_positions (hd : d.isFloat) {p : PTy} (hp : p.IsScalar) {key : ModelKind}
    (hk : key ∈ [ModelKind.d4, .d4s, .d4sDebug]) :
    calculate d DispClass.d4.terms .f32 key none .f64 p {} = .error .runtime := by
  obtain ⟨m, h1, -, h2, h3, h5⟩ := mkModel_ok (v := .f32) hd rfl key hk
  have hw := (weights_dim (t := .f64) (u := .f64) (m := m) hd rfl (by rw [h2]; rfl)
    (by rw [h2]; exact h5) rfl).1
  rw [h2] at hw
  have hw' : weights d m (some (dim .f64)) (some (dim .f64)) = dim .f64 := hw
  unfold calculate
  simp only [h1, bind, Except.bind, DispClass.terms, List.foldlM_cons, List.any_cons, Bool.true_or,
    if_true]
  have hc : atomicC6 m (dim .f64) = .error .runtime := by
    rw [atomicC6_eq (u := .f64) h3 rfl rfl]; rfl
  unfold termEnergy
  simp only [if_true, hw', bind, Except.bind, hc]

/-! ### `float64` object, `float32` positions -/

theorem promote_up (h : t.isFloat) : promote (dim t) (dim .f64) = dim .f64 := by
  cases t <;> simp [Ty.isFloat] at h <;> rfl

theorem promote_up' (h : t.isFloat) : promote (dim .f64) (dim t) = dim .f64 := by
  cases t <;> simp [Ty.isFloat] at h <;> rfl

theorem damp_up (ht : t.isFloat) {k : Damping} {rs a1 a2 alp bet : Opd} (h1 : rs.IsScalar)
    (h2 : a1.IsScalar) (h3 : a2.IsScalar) (h4 : alp.IsScalar) (h5 : bet.IsScalar) :
    damp d k (dim t) (dim .f64) rs a1 a2 alp bet = dim .f64 := by
  have hp := isScalar_py (d := d)
  have h6 := isScalar_promote h4 hp
  have h : Ty.f64.isFloat := rfl
  cases k <;>
    simp only [damp, mul_def, add_def, div_def, pow_def, promote_dim ht, promote_dim' ht,
      promote_self ht, promote_dim h, promote_dim' h, promote_self h, promote_up ht, promote_up' ht,
      h1, h2, h3, h4, h5, hp, h6, isScalar_int]

theorem damp_up' (ht : t.isFloat) {k : Damping} {rs a1 a2 alp bet : Opd} (h1 : rs.IsScalar)
    (h2 : a1.IsScalar) (h3 : a2.IsScalar) (h4 : alp.IsScalar) (h5 : bet.IsScalar) :
    damp d k (dim .f64) (dim t) rs a1 a2 alp bet = dim .f64 := by
  have hp := isScalar_py (d := d)
  have h6 := isScalar_promote h4 hp
  have h : Ty.f64.isFloat := rfl
  cases k <;>
    simp only [damp, mul_def, add_def, div_def, pow_def, promote_dim ht, promote_dim' ht,
      promote_self ht, promote_dim h, promote_dim' h, promote_self h, promote_up ht, promote_up' ht,
      h1, h2, h3, h4, h5, hp, h6, isScalar_int]

theorem dispersion2_up (ht : t.isFloat) {p : PTy} (hp : p.IsScalar) {k : Damping} :
    dispersion2 d t p (dim .f64) (dim .f64) (dim .f64) k = dim .f64 := by
  have h0 := isScalar_py (d := d)
  have hs : ∀ {u}, (scalar u).IsScalar := isScalar_scalar
  have h : Ty.f64.isFloat := rfl
  have hq : pyInt * dim .f64 * dim .f64 = dim .f64 := by
    simp only [mul_def, promote_dim' h isScalar_int, promote_self h]
  have hd : ∀ rs : Opd, rs.IsScalar → where_ (damp d k (dim t) (dim .f64) rs
      (p.a1.getD (pyFloat d)) (p.a2.getD (pyFloat d)) (p.alp.getD (pyFloat d))
      (p.bet.getD (pyFloat d))) (scalar t) = dim .f64 := by
    intro rs hrs
    rw [damp_up ht hrs (isScalar_getD hp.a1 h0) (isScalar_getD hp.a2 h0) (isScalar_getD hp.alp h0)
      (isScalar_getD hp.bet h0), where_self h hs]
  have h6 := isScalar_getD (b := scalar t) hp.s6 hs
  have h8 := isScalar_getD (b := scalar t) hp.s8 hs
  unfold dispersion2
  simp only [where_self ht hs, hq]
  cases k <;>
    simp only [hd _ (isScalar_getD hp.rs6 h0), hd _ (isScalar_getD hp.rs8 h0)] <;>
    simp only [mul_def, add_def, promote_dim h, promote_dim' h, promote_self h, h6, h8, h0]

theorem atm_up (ht : t.isFloat) {k : Damping} {s9 alp : Opd} (h9 : s9.IsScalar)
    (ha : alp.IsScalar) : atmDispersion d t (dim .f64) (dim .f64) k s9 alp = dim .f64 := by
  have h0 := isScalar_py (d := d)
  have h : Ty.f64.isFloat := rfl
  have hs : ∀ {u}, (scalar u).IsScalar := isScalar_scalar
  have h1 := isScalar_promote (isScalar_any (t := t) ha) h0
  have h2 := isScalar_any (t := t) h9
  unfold atmDispersion
  simp only [mul_def, add_def, sub_def, div_def, pow_def, where_self ht hs, promote_dim ht h0,
    promote_dim' ht h0, promote_self ht, where_self h hs, promote_self h, promote_dim h h0,
    promote_dim' h h0, promote_up ht, promote_up' ht,
    damp_up' ht h0 h0 h0 h1 h0, promote_dim h h2]

/-- With `float64` object and `float32` positions: energies in `float64`, silently. -/
theorem C44_double_object_single_positions (hd : d.isFloat) {p : PTy} (hp : p.IsScalar)
    {key : ModelKind} (hk : key ∈ [ModelKind.d4, .d4s, .d4sDebug]) :
    calculate d DispClass.d4.terms .f64 key none .f32 p {} = .ok (dim .f64) := by
  obtain ⟨m, h1, -, h2, h3, h5⟩ := mkModel_ok (v := .f64) hd rfl key hk
  have h : Ty.f64.isFloat := rfl
  have ht : Ty.f32.isFloat := rfl
  have h0 := isScalar_py (d := d)
  have hs : ∀ {u}, (scalar u).IsScalar := isScalar_scalar
  have hw := weights_dim (t := .f32) (u := .f32) (m := m) hd rfl (by rw [h2]; rfl)
    (by rw [h2]; exact h5) rfl
  rw [h2] at hw
  have hw1 : weights d m (some (dim .f32)) (some (dim .f32)) = dim .f64 := hw.1
  have hw2 : weights d m (some (dim .f32)) none = dim .f64 := hw.2
  have hc : atomicC6 m (dim .f64) = .ok (dim .f64) := by
    rw [atomicC6_eq (u := .f64) h3 rfl rfl]; rfl
  have hr1 := isScalar_getD (b := scalar d) hp.a1 hs
  have hr2 := isScalar_getD (b := scalar d) hp.a2 hs
  have h9 := isScalar_getD (b := scalar d) hp.s9 hs
  have ha := isScalar_getD (b := scalar d) hp.alp hs
  unfold calculate
  simp only [h1, bind, Except.bind, DispClass.terms, List.foldlM_cons, List.any_cons, Bool.true_or,
    if_true, List.foldlM_nil, Option.getD_none]
  unfold termEnergy
  simp only [if_true, if_false, Bool.false_eq_true, hw1, hw2, bind, Except.bind, hc, pure,
    Except.pure, dispersion2_up ht hp, mul_def, add_def, promote_self h, promote_dim h,
    promote_dim' h, promote_up ht, h0, hr1, hr2, atm_up ht h9 ha]

theorem C44_full_false : ¬ DispAnyPrecision := by
  intro h
  have h1 := h .f32 .f32 .f64 {} rfl rfl rfl (by constructor <;> simp)
  rw [C44_single_object_double_positions rfl (by constructor <;> simp) (by simp)] at h1
  cases h1


/-- What does hold: object and positions of the same type. -/
theorem C44_partial (hd : d.isFloat) (ht : t.isFloat) (cls : DispClass) {key : ModelKind}
    (hk : key ∈ [ModelKind.d4, .d4s, .d4sDebug]) {p : PTy} (hp : p.IsScalar) :
    calculate d cls.terms t key none t p {} = .ok (dim t) :=
  C43_calculate hd ht _ hk hp (by simp) (by simp) (by simp)

end

/-- `DispD4()` as in the tests of most projects: default type `float32`, positions in double. -/
example : calculate .f32 DispClass.d4.terms .f32 .d4 none .f64
    { s8 := some (pyFloat .f32), a1 := some (pyFloat .f32), a2 := some (pyFloat .f32) } {} =
    .error .runtime :=
  C44_single_object_double_positions rfl (by constructor <;> simp [Opd.IsScalar, pyFloat]) (by simp)

/-- `DispD4(dtype=torch.float64)`, positions in single and in double precision. -/
example := C44_double_object_single_positions (d := .f32) rfl
  (p := { s8 := some (pyFloat .f32), a1 := some (pyFloat .f32), a2 := some (pyFloat .f32) })
  (by constructor <;> simp [Opd.IsScalar, pyFloat]) (key := .d4) (by simp)

example := C44_partial (d := .f32) (t := .f64) rfl rfl .d4 (key := .d4) (by simp)
  (p := { s8 := some (pyFloat .f32), a1 := some (pyFloat .f32), a2 := some (pyFloat .f32) })
  (by constructor <;> simp [Opd.IsScalar, pyFloat])

end TadDftd4.DType
