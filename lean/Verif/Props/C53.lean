import Verif.Props.C26
import Verif.Props.C12
import Verif.Lemmas.Errors

/-!
# C53: `only_damping`

The documentation of the damping functions says that `only_damping=True` returns "only the damping
function values without division by the distance raised to the power of the order"
(`functions.py:205-207`), and every three-body term takes a damping function which it calls this way
(`threebody.py:54-62, 133-145, 169-176`). Zero damping does what is documented. The other classes
ignore the flag, and no three-body term can be calculated with one of them: the call lacks their
parameters, also if the parameter dictionary has them.
-/

set_option linter.unusedSimpArgs false

open scoped Classical

namespace TadDftd4

open Tensor

/-- `full` is `bare` divided by the distance raised to the power of the order. -/
def Spec.BareFactor (order : ℕ) (distance bare full : ℝ) : Prop :=
  full = bare / distance ^ order

section
variable {env : Env} {d : Damping} {dist rad : Tensor ℝ} {s : Shape} {kw : Kw} {order : ℕ}

/-- Zero damping: both settings of the flag raise the same exception or none, and where the distance
is not zero the results differ by the power of the distance. -/
theorem C53_zero_partial (hd : dist.Ok s) (hr : rad.Ok s) :
    (Damping.call env .zero dist rad order true kw).err =
        (Damping.call env .zero dist rad order false kw).err ∧
      ((Damping.call env .zero dist rad order false kw).err = none → ∀ i, InB s i → dist.get i ≠ 0 →
        Spec.BareFactor order (dist.get i) ((Damping.call env .zero dist rad order true kw).get i)
          ((Damping.call env .zero dist rad order false kw).get i)) := by
  by_cases hoff : kw.Off order
  · obtain ⟨h1, h2⟩ := C26_zeros (d := .zero) (env := env) (rad := rad) (od := true) hd hoff
    obtain ⟨h3, h4⟩ := C26_zeros (d := .zero) (env := env) (rad := rad) (od := false) hd hoff
    refine ⟨by rw [h1.err, h3.err], fun _ i _ _ => ?_⟩
    rw [Spec.BareFactor, h2, h4, zero_div]
  · have ha : kw.Active order := by by_contra h; exact hoff (Kw.off_iff.2 h)
    have ht := damping_call_point (env := env) (d := .zero) hd hr order true kw
    have hf := damping_call_point (env := env) (d := .zero) hd hr order false kw
    rw [ha.point] at ht hf
    by_cases hreq : none ∈ Damping.required .zero order kw
    · rw [if_pos hreq] at ht hf
      exact ⟨ht.trans hf.symm, fun h => by rw [hf] at h; cases h⟩
    · rw [if_neg hreq] at ht hf
      unfold Damping.pointF at ht hf
      cases halp : kw.alp with
      | none =>
        simp only [halp] at ht hf
        exact ⟨ht.trans hf.symm, fun h => by rw [hf] at h; cases h⟩
      | some alp =>
        simp only [halp] at ht hf
        by_cases ho : order ≠ 6 ∧ order ≠ 8 ∧ order ≠ 9
        · simp only [if_pos ho] at ht hf
          exact ⟨ht.trans hf.symm, fun h => by rw [hf] at h; cases h⟩
        · simp only [if_neg ho] at ht hf
          cases hrs : (if order = 6 then kw.rs6 else if order = 8 then kw.rs8 else kw.rs9) with
          | none =>
            simp only [hrs] at ht hf
            exact ⟨ht.trans hf.symm, fun h => by rw [hf] at h; cases h⟩
          | some rs =>
            simp only [hrs, if_true, Bool.false_eq_true, if_false] at ht hf
            refine ⟨by rw [ht.1.err, hf.1.err], fun _ i hi hx => ?_⟩
            rw [Spec.BareFactor, ht.2 i hi, hf.2 i hi]
            have hx' := pow_ne_zero order hx
            simp only [Env.sdiv, if_neg hx']

/-- The other classes ignore the flag. -/
theorem C53_ignored (hd : d ≠ .zero) :
    d.call env dist rad order true kw = d.call env dist rad order false kw := by
  cases d with
  | zero => exact absurd rfl hd
  | _ => rfl

end

/-- Full statement: `only_damping=True` gives the damping function without the power of the
distance, for every damping class. -/
def OnlyDampingDocumented : Prop :=
  ∀ (env : Env) (d : Damping) (order : ℕ) (kw : Kw) (distance radius : ℝ), 0 < distance → 0 < radius →
    (d.call env (scalar distance) (scalar radius) order false kw).err = none →
    Spec.BareFactor order distance
      ((d.call env (scalar distance) (scalar radius) order true kw).get [])
      ((d.call env (scalar distance) (scalar radius) order false kw).get [])

/-- It is false of every class but zero damping: whenever a call returns a non-zero value for a
distance other than 1, the flag does not have the documented effect. -/
theorem C53_only_damping_false : ¬ OnlyDampingDocumented ∧
    ∀ (env : Env) (d : Damping) (order : ℕ) (kw : Kw) (distance radius : ℝ), d ≠ .zero →
      0 < distance → distance ≠ 1 → order ≠ 0 →
      (d.call env (scalar distance) (scalar radius) order false kw).get [] ≠ 0 →
      ¬ Spec.BareFactor order distance
        ((d.call env (scalar distance) (scalar radius) order true kw).get [])
        ((d.call env (scalar distance) (scalar radius) order false kw).get []) := by
  have key : ∀ (env : Env) (d : Damping) (order : ℕ) (kw : Kw) (distance radius : ℝ), d ≠ .zero →
      0 < distance → distance ≠ 1 → order ≠ 0 →
      (d.call env (scalar distance) (scalar radius) order false kw).get [] ≠ 0 →
      ¬ Spec.BareFactor order distance
        ((d.call env (scalar distance) (scalar radius) order true kw).get [])
        ((d.call env (scalar distance) (scalar radius) order false kw).get []) := by
    intro env d order kw distance radius hz hd h1 ho hne h
    rw [C53_ignored hz, Spec.BareFactor] at h
    have hp : distance ^ order ≠ 0 := pow_ne_zero _ hd.ne'
    rw [eq_div_iff hp] at h
    have : distance ^ order = 1 := mul_left_cancel₀ hne (by rw [h, mul_one])
    exact h1 ((pow_eq_one_iff_of_nonneg hd.le ho).1 this)
  refine ⟨fun h => ?_, key⟩
  have hv : (Damping.call Demo.env .rational (scalar 2) (scalar 1) 6 false
      { a1 := some 0, a2 := some 1 }).get [] = 1 / 65 := by
    simp [Damping.call, Damping.checkedF, Damping.required, Damping.f, ratF, map2]
    norm_num
  refine key Demo.env .rational 6 { a1 := some 0, a2 := some 1 } 2 1 (by decide) (by norm_num)
    (by norm_num) (by norm_num) ?_ (h Demo.env .rational 6 { a1 := some 0, a2 := some 1 } 2 1
      (by norm_num) (by norm_num) ?_)
  · rw [hv]; norm_num
  · simp [Damping.call, Damping.checkedF, Damping.required, Damping.f, map2]

/-! ## Three-body terms -/

section
variable {env : Env} {numbers : Tensor ℕ} {positions c9 radii : Tensor ℝ} {n : ℕ} {B : Shape}
  {cut s9 alp : ℝ}

/-- The call made by the three-body term. -/
theorem atm_call_err {d : Damping} (hd : d ≠ .zero) (r0 rr : Tensor ℝ) :
    (d.call env r0 rr 9 true { alp := some (alp / 3) }).err = some .assertion := by
  cases d with
  | zero => exact absurd rfl hd
  | _ => simp [Damping.call, Damping.checkedF, Damping.required, Damping.f, Tensor.fail]

/-- `get_atm_dispersion` works with zero damping and raises AssertionError with all other classes. -/
theorem C53_atm (h : D3Shapes numbers positions c9 radii n B) (d : Damping) :
    (atmDispersion env numbers positions c9 radii cut d s9 alp).err =
      if d = .zero then none else some .assertion := by
  split_ifs with hd
  · subst hd
    exact (atmDispersion_eval h.num h.pos h.radii h.c9 (point9_zero (env := env) alp) cut s9).1.err
  · have hc := atm_call_err (env := env) (alp := alp) hd
    simp [atmDispersion, atmDamp, hc, realTriples, h.num.err, h.num.shape, ijT, ikT, jkT,
      h.radii.err, h.radii.shape, dist2T, realPairs, cdist_err h.pos.shape, cdist_shape h.pos.shape,
      h.pos.err]

/-- No three-body term with a damping function other than zero damping can be calculated, whatever
the parameters: a `Disp` object with such a term never returns an energy. -/
theorem C53_disp {T : Tables} {ext : Ext} {charge : Tensor ℝ} {p : Param} {D : Disp} {o : CalcOpts}
    {t : Term} (ht : t ∈ D.terms) (hc : t.cls ≠ .twoBody) (hd : t.damping ≠ .zero) (e : Tensor ℝ) :
    D.calculate env T ext numbers positions charge p o ≠ .ok e := by
  intro he
  obtain ⟨model, cn, q, -, -, -, -, -, hall⟩ := calculate_ok he
  have h := hall t ht
  have hcall := fun alp => atm_call_err (env := env) (alp := alp) hd
  unfold Term.calculate at h
  split at h
  · next h2 => exact hc h2
  · split at h
    · simp [atmDispersion, atmDamp, hcall, orErr_eq_none] at h
    · simp [orErr_eq_none] at h

end

/-- Carbon-like triangle: zero damping against rational damping. -/
example : (atmDispersion Demo.env Demo.triNum Demo.tri (full [3, 3, 3] 2) (full [3, 3] 1) 40 .rational
    1 16).err = some .assertion := by
  rw [C53_atm Demo.tri_shapes, if_neg (by decide)]

/-- Zero damping of order 8 at distance 2 and radius 3. -/
example : Spec.BareFactor 8 2
    ((Damping.call Demo.env .zero (scalar 2) (scalar 3) 8 true { rs8 := some 1 }).get [])
    ((Damping.call Demo.env .zero (scalar 2) (scalar 3) 8 false { rs8 := some 1 }).get []) := by
  have hs : (8 : ℕ) ∈ Spec.supported .zero := by decide
  refine (C53_zero_partial (env := Demo.env) (s := []) ⟨rfl, rfl⟩ ⟨rfl, rfl⟩).2 ?_ [] InB_nil
    (by simp)
  rw [(C26_outcome (s := []) ⟨rfl, rfl⟩ ⟨rfl, rfl⟩ (by simp [Kw.Off, Spec.scaling, Kw.val])).1 hs]
  simp [Spec.needs, Spec.shape, Spec.radius, Kw.val]

/-- The D4 object with rational damping in its three-body term. -/
example (env : Env) (T : Tables) (ext : Ext) (numbers : Tensor ℕ) (positions charge : Tensor ℝ)
    (p : Param) (o : CalcOpts) (e : Tensor ℝ) :
    Disp.calculate env T ext ⟨[⟨.twoBody, .rational, true⟩, ⟨.d4ATMApprox, .rational, false⟩], ext.cnD4,
      none, .key "d4", {}⟩ numbers positions charge p o ≠ .ok e :=
  C53_disp (t := ⟨.d4ATMApprox, .rational, false⟩) (by simp) (by decide) (by decide) e

/-- The rational damping function ignores the flag. -/
example := C53_ignored (env := Demo.env) (d := .rational) (dist := scalar 2) (rad := scalar 3)
  (order := 6) (kw := { a1 := some 0.4, a2 := some 5 }) (by decide)

end TadDftd4
