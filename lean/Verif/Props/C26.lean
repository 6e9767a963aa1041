import Verif.Props.C25
import Verif.Props.C24

/-!
# C26: damping parameters are validated exactly

`Spec.needs` lists the keywords a damping class documents as required (`REQUIRED_BY_ORDER`),
`Spec.supported` the orders it is defined for. A call with unsupported order raises ValueError only
if no keyword of the class is `None`; otherwise it raises AssertionError (`C26_outcome`), and
rational damping accepts every order, so that "ValueError exactly for unsupported orders"
(`ValueErrorExact`) is false of the code (`C26_value_false`).
-/

set_option linter.unusedSimpArgs false

open scoped Classical

namespace TadDftd4

open Tensor

/-- Keywords of `Damping.__call__`. -/
inductive Key | a1 | a2 | s6 | rs6 | s8 | rs8 | s9 | rs9 | s10 | alp | bet
  deriving DecidableEq, Repr

/-- Value bound to a keyword (`none` for `None`). -/
def Kw.val (kw : Kw) : Key → Option ℝ
  | .a1 => kw.a1 | .a2 => kw.a2 | .s6 => kw.s6 | .rs6 => kw.rs6 | .s8 => kw.s8 | .rs8 => kw.rs8
  | .s9 => kw.s9 | .rs9 => kw.rs9 | .s10 => kw.s10 | .alp => kw.alp | .bet => kw.bet

namespace Spec

/-- Orders for which a damping class is defined. -/
def supported : Damping → List ℕ
  | .rational => [6, 8, 10]
  | .zero => [6, 8, 9]
  | .mzero => [6, 8]
  | .op => [6, 8]

/-- Shape parameters of a class which do not depend on the order. -/
def shape : Damping → List Key
  | .rational => [.a1, .a2]
  | .zero => [.alp]
  | .mzero => [.alp, .bet]
  | .op => [.a1, .a2, .bet]

/-- Scaled radius of an order, used by the classes with van der Waals radii. -/
def radius : ℕ → List Key
  | 6 => [.rs6]
  | 8 => [.rs8]
  | 9 => [.rs9]
  | _ => []

/-- Keywords required by a class for a supported order. -/
def needs (d : Damping) (order : ℕ) : List Key :=
  match d with
  | .zero | .mzero => shape d ++ radius order
  | _ => shape d

/-- Scaling parameters of an order: if all are `None`, the term is switched off. -/
def scaling : ℕ → List Key
  | 6 => [.s6, .rs6]
  | 8 => [.s8, .rs8]
  | 9 => [.s9, .rs9]
  | 10 => [.s10]
  | _ => []

end Spec

/-- The term of the order is switched off: the order has scaling parameters, all `None`. -/
def Kw.Off (kw : Kw) (order : ℕ) : Prop :=
  Spec.scaling order ≠ [] ∧ ∀ k ∈ Spec.scaling order, kw.val k = none

theorem Kw.off_iff {kw : Kw} {order : ℕ} : kw.Off order ↔ ¬ kw.Active order := by
  unfold Kw.Off Kw.Active Spec.scaling
  split
  · simp [Kw.val]
  · simp [Kw.val]
  · simp [Kw.val]
  · simp [Kw.val]
  · next h6 h8 h9 h10 => simp; exact ⟨fun h => (h6 h).elim, fun h => (h8 h).elim, fun h => (h9 h).elim, fun h => (h10 h).elim⟩

section
variable {env : Env} {d : Damping} {dist rad : Tensor ℝ} {s : Shape} {kw : Kw} {order : ℕ}
  {od : Bool}

/-- Switched off terms are zero, no matter which other keywords are missing. -/
theorem C26_zeros (hd : dist.Ok s) (hoff : kw.Off order) :
    (d.call env dist rad order od kw).Ok s ∧ ∀ i, (d.call env dist rad order od kw).get i = 0 := by
  have h := Kw.off_iff.1 hoff
  have : d.call env dist rad order od kw = zerosLike dist := by
    unfold Damping.call
    split_ifs with h6 h8 h9 h10 <;> try rfl
    refine absurd ⟨?_, ?_, ?_, ?_⟩ h
    · intro ho; by_contra hh; push Not at hh; exact h6 ⟨ho, hh⟩
    · intro ho; by_contra hh; push Not at hh; exact h8 ⟨ho, hh⟩
    · intro ho; by_contra hh; push Not at hh; exact h9 ⟨ho, hh⟩
    · intro ho; by_contra hh; exact h10 ⟨ho, hh⟩
  rw [this]
  exact ⟨⟨hd.err, hd.shape⟩, fun _ => rfl⟩

theorem call_err (hd : dist.Ok s) (hr : rad.Ok s) (ha : kw.Active order) :
    (d.call env dist rad order od kw).err =
      match (if none ∈ d.required order kw then .error .type else d.pointF env order od kw) with
      | .error e => some e
      | .ok _ => none := by
  have := damping_call_point (env := env) (d := d) hd hr order od kw
  rw [ha.point] at this
  split at this
  · next h => rw [if_pos h]; exact this
  · next h =>
    rw [if_neg h]
    cases hp : d.pointF env order od kw with
    | error e => rw [hp] at this; exact this
    | ok f => rw [hp] at this; exact this.1.err

/-- Outcome of a call whose term is not switched off. -/
theorem C26_outcome (hd : dist.Ok s) (hr : rad.Ok s) (hon : ¬ kw.Off order) :
    (order ∈ Spec.supported d →
      (d.call env dist rad order od kw).err =
        if ∃ k ∈ Spec.needs d order, kw.val k = none then some .type else none) ∧
    (order ∉ Spec.supported d →
      (d.call env dist rad order od kw).err =
        if ∃ k ∈ Spec.shape d, kw.val k = none then some .assertion
        else if d = .rational then none else some .value) := by
  have ha : kw.Active order := by by_contra h; exact hon (Kw.off_iff.2 h)
  rw [call_err hd hr ha]
  constructor
  · intro hs
    have hcases : order = 6 ∨ order = 8 ∨ order = 9 ∨ order = 10 := by
      cases d <;> simp [Spec.supported] at hs <;> tauto
    cases h1 : kw.a1 <;> cases h2 : kw.a2 <;> cases h3 : kw.alp <;> cases h4 : kw.bet <;>
      cases d <;> simp [Spec.supported] at hs <;> rcases hs with rfl | rfl | rfl <;>
      simp [Damping.required, Damping.pointF, Spec.needs, Spec.shape, Spec.radius, Kw.val, h1, h2,
        h3, h4] <;>
      first
        | (cases h5 : kw.rs6 <;> simp [h5] <;> cases od <;> simp)
        | (cases h5 : kw.rs8 <;> simp [h5] <;> cases od <;> simp)
        | (cases h5 : kw.rs9 <;> simp [h5] <;> cases od <;> simp)
  · intro hs
    have hreq : none ∉ d.required order kw := by
      unfold Damping.required
      split <;> simp [Spec.supported] at hs ⊢
    rw [if_neg hreq]
    cases d <;> simp only [Spec.supported, List.mem_cons, List.not_mem_nil, or_false, not_or] at hs <;>
      cases h1 : kw.a1 <;> cases h2 : kw.a2 <;> cases h3 : kw.alp <;> cases h4 : kw.bet <;>
      simp [Damping.pointF, Spec.shape, Kw.val, h1, h2, h3, h4, hs]

/-- A term that is not switched off is not zero: with the required keywords given (none negative, the
scaled radius positive), the result is positive wherever distance and radius are. -/
theorem C26_nonzero (hd : dist.Ok s) (hr : rad.Ok s) (hon : ¬ kw.Off order)
    (hs : order ∈ Spec.supported d) (hshape : ∀ k ∈ Spec.shape d, ∃ x, kw.val k = some x ∧ 0 ≤ x)
    (hrad : ∀ k ∈ Spec.needs d order, k ∉ Spec.shape d → ∃ x, kw.val k = some x ∧ 0 < x) {i : Idx}
    (hi : InB s i) (h0 : 0 < dist.get i) (h1 : 0 < rad.get i) :
    0 < (d.call env dist rad order od kw).get i := by
  have ha : kw.Active order := by by_contra h; exact hon (Kw.off_iff.2 h)
  have hp := damping_call_point (env := env) (d := d) hd hr order od kw
  have hreq : none ∉ d.required order kw := by
    intro hn
    have he := call_err (env := env) (d := d) (od := od) hd hr ha
    rw [if_pos hn, (C26_outcome hd hr hon).1 hs, if_neg] at he
    · cases he
    · rintro ⟨k, hk, hk'⟩
      by_cases hks : k ∈ Spec.shape d
      · obtain ⟨x, hx, -⟩ := hshape k hks
        rw [hk'] at hx; cases hx
      · obtain ⟨x, hx, -⟩ := hrad k hk hks
        rw [hk'] at hx; cases hx
  rw [ha.point, if_neg hreq] at hp
  have hsd : ∀ {x y : ℝ}, 0 < x → 0 < y → 0 < env.sdiv x y := fun hx hy => by
    unfold Env.sdiv
    split_ifs
    · exact div_pos hx env.eps_pos
    · exact div_pos hx hy
  have hz : ∀ {t : ℝ} (a : ℝ), 0 ≤ t → 0 < 1 / (1 + 6 * t ^ a) := fun a ht =>
    one_div_pos.2 (by have := Real.rpow_nonneg ht a; linarith)
  have hq := Real.sqrt_nonneg (rad.get i)
  cases d with
  | rational =>
    obtain ⟨a1, e1, p1⟩ := hshape .a1 (by simp [Spec.shape])
    obtain ⟨a2, e2, p2⟩ := hshape .a2 (by simp [Spec.shape])
    simp only [Kw.val] at e1 e2
    simp only [Damping.pointF, e1, e2] at hp
    rw [hp.2 i hi]
    exact one_div_pos.2 (add_pos_of_pos_of_nonneg (pow_pos h0 _) (by positivity))
  | zero =>
    obtain ⟨alp, e1, -⟩ := hshape .alp (by simp [Spec.shape])
    simp only [Kw.val] at e1
    simp only [Spec.supported, List.mem_cons, List.not_mem_nil, or_false] at hs
    obtain ⟨rs, e2, p2⟩ : ∃ rs, (if order = 6 then kw.rs6 else if order = 8 then kw.rs8 else kw.rs9) =
        some rs ∧ 0 < rs := by
      rcases hs with rfl | rfl | rfl
      · exact hrad .rs6 (by simp [Spec.needs, Spec.radius]) (by decide)
      · exact hrad .rs8 (by simp [Spec.needs, Spec.radius]) (by decide)
      · exact hrad .rs9 (by simp [Spec.needs, Spec.radius]) (by decide)
    have ho : ¬ (order ≠ 6 ∧ order ≠ 8 ∧ order ≠ 9) := by omega
    have hb : 0 ≤ rs * env.sdiv (dist.get i) (rad.get i) := (mul_pos p2 (hsd h0 h1)).le
    simp only [Damping.pointF, e1, if_neg ho, e2] at hp
    cases od <;> simp only [Bool.false_eq_true, if_false, if_true] at hp <;> rw [hp.2 i hi]
    · exact hsd (hz _ hb) (pow_pos h0 _)
    · exact hz _ hb
  | mzero =>
    obtain ⟨alp, e1, -⟩ := hshape .alp (by simp [Spec.shape])
    obtain ⟨bet, e3, p3⟩ := hshape .bet (by simp [Spec.shape])
    simp only [Kw.val] at e1 e3
    simp only [Spec.supported, List.mem_cons, List.not_mem_nil, or_false] at hs
    obtain ⟨rs, e2, p2⟩ : ∃ rs, (if order = 6 then kw.rs6 else kw.rs8) = some rs ∧ 0 < rs := by
      rcases hs with rfl | rfl
      · exact hrad .rs6 (by simp [Spec.needs, Spec.radius]) (by decide)
      · exact hrad .rs8 (by simp [Spec.needs, Spec.radius]) (by decide)
    have ho : ¬ (order ≠ 6 ∧ order ≠ 8) := by omega
    simp only [Damping.pointF, e1, e3, if_neg ho, e2] at hp
    rw [hp.2 i hi]
    exact hsd (hz _ (add_nonneg (div_nonneg h0.le (mul_pos p2 h1).le) (mul_nonneg p3 h1.le)))
      (pow_pos h0 _)
  | op =>
    obtain ⟨a1, e1, p1⟩ := hshape .a1 (by simp [Spec.shape])
    obtain ⟨a2, e2, p2⟩ := hshape .a2 (by simp [Spec.shape])
    obtain ⟨bet, e3, -⟩ := hshape .bet (by simp [Spec.shape])
    simp only [Kw.val] at e1 e2 e3
    simp only [Spec.supported, List.mem_cons, List.not_mem_nil, or_false] at hs
    have ho : ¬ (order ≠ 6 ∧ order ≠ 8) := by omega
    simp only [Damping.pointF, e1, e2, e3, if_neg ho] at hp
    rw [hp.2 i hi]
    have := Real.rpow_pos_of_pos h0 bet
    have h2 : 0 ≤ (a1 * √(rad.get i) + a2) ^ bet := Real.rpow_nonneg (by positivity) _
    exact div_pos this (by positivity)

/-- Zeros exactly for switched off terms. -/
theorem C26_zeros_iff (hd : dist.Ok s) (hr : rad.Ok s) (hs : order ∈ Spec.supported d)
    (hshape : ∀ k ∈ Spec.shape d, ∃ x, kw.val k = some x ∧ 0 ≤ x)
    (hrad : ¬ kw.Off order → ∀ k ∈ Spec.needs d order, k ∉ Spec.shape d →
      ∃ x, kw.val k = some x ∧ 0 < x)
    (hne : ∃ i, InB s i) (h0 : ∀ i, InB s i → 0 < dist.get i) (h1 : ∀ i, InB s i → 0 < rad.get i) :
    (∀ i, InB s i → (d.call env dist rad order od kw).get i = 0) ↔ kw.Off order := by
  constructor
  · intro h
    by_contra hon
    obtain ⟨i, hi⟩ := hne
    exact absurd (h i hi) (C26_nonzero hd hr hon hs hshape (hrad hon) hi (h0 i hi) (h1 i hi)).ne'
  · exact fun h i _ => (C26_zeros hd h).2 i

/-- TypeError exactly when a keyword required for that (supported) order is `None`. -/
theorem C26_type (hd : dist.Ok s) (hr : rad.Ok s) (hon : ¬ kw.Off order) :
    (d.call env dist rad order od kw).err = some .type ↔
      order ∈ Spec.supported d ∧ ∃ k ∈ Spec.needs d order, kw.val k = none := by
  obtain ⟨h1, h2⟩ := C26_outcome (env := env) (d := d) (od := od) hd hr hon
  by_cases hs : order ∈ Spec.supported d
  · rw [h1 hs]; split <;> simp_all
  · rw [h2 hs]
    split
    · simp [hs]
    · split <;> simp [hs]

/-- ValueError exactly for unsupported orders of the non-rational classes with no keyword of the
class missing. (Full statement below.) -/
theorem C26_value_partial (hd : dist.Ok s) (hr : rad.Ok s) (hon : ¬ kw.Off order) :
    (d.call env dist rad order od kw).err = some .value ↔
      order ∉ Spec.supported d ∧ d ≠ .rational ∧ ∀ k ∈ Spec.shape d, kw.val k ≠ none := by
  obtain ⟨h1, h2⟩ := C26_outcome (env := env) (d := d) (od := od) hd hr hon
  by_cases hs : order ∈ Spec.supported d
  · rw [h1 hs]; split <;> simp [hs]
  · rw [h2 hs]
    split
    · next h => 
      obtain ⟨k, hk, hk'⟩ := h
      simp only [reduceCtorEq, false_iff, not_and, Option.some.injEq]
      intro _ _ hh
      exact hh k hk hk'
    · next h =>
      push Not at h
      split
      · next hr => simp [hr]
      · next hr => simp [hr, hs]; exact h

/-- Keyword dictionaries: unknown keywords raise TypeError for every order. -/
theorem C26_unknown (p : Param) (h : p.extra ≠ []) :
    (d.callParam env dist rad order p).err = some .type := by
  simp [Damping.callParam, h, Tensor.fail]

/-- Dictionary calls: no exception exactly when all keywords are known and the term is either
switched off, or all required keywords are present (for a supported order). -/
theorem C26_param (hd : dist.Ok s) (hr : rad.Ok s) (p : Param) (hs : order ∈ Spec.supported d) :
    (d.callParam env dist rad order p).err =
      if p.extra ≠ [] ∨ ¬ p.kw.Off order ∧ ∃ k ∈ Spec.needs d order, p.kw.val k = none
      then some .type else none := by
  by_cases he : p.extra = []
  · simp only [Damping.callParam, he, ne_eq, not_true_eq_false, if_false, false_or]
    by_cases ho : p.kw.Off order
    · rw [(C26_zeros hd ho).1.err]; simp [ho]
    · rw [(C26_outcome hd hr ho).1 hs]; simp [ho]
  · rw [C26_unknown p he]; simp [he]

end

/-- Full statement: ValueError exactly for unsupported orders. -/
def ValueErrorExact : Prop :=
  ∀ (env : Env) (d : Damping) (order : ℕ) (kw : Kw), ¬ kw.Off order →
    ((d.call env (scalar 1) (scalar 1) order false kw).err = some .value ↔
      order ∉ Spec.supported d)

/-- It is false: modified zero damping of order 9 without `bet` raises AssertionError, and rational
damping of order 7 returns a value. -/
theorem C26_value_false : ¬ ValueErrorExact ∧
    (Damping.call Demo.env .mzero (scalar 1) (scalar 1) 9 false {}).err = some .assertion ∧
    (Damping.call Demo.env .rational (scalar 1) (scalar 1) 7 false
      { a1 := some 1, a2 := some 1 }).err = none := by
  have hm : (Damping.call Demo.env .mzero (scalar 1) (scalar 1) 9 false {}).err = some .assertion := by
    rw [(C26_outcome (s := []) ⟨rfl, rfl⟩ ⟨rfl, rfl⟩ (by simp [Kw.Off, Spec.scaling, Kw.val])).2
      (by decide)]
    simp [Spec.shape, Kw.val]
  refine ⟨fun h => ?_, hm, ?_⟩
  · have := (h Demo.env .mzero 9 {} (by simp [Kw.Off, Spec.scaling, Kw.val])).2 (by decide)
    rw [hm] at this
    cases this
  · rw [(C26_outcome (s := []) ⟨rfl, rfl⟩ ⟨rfl, rfl⟩ (by simp [Kw.Off, Spec.scaling])).2 (by decide)]
    simp [Spec.shape, Kw.val]

/-- Rational damping without `a2`, zero damping of order 8 without `rs8`, and order 8 of the default
keywords (switched off although nothing else is given). -/
example : (Damping.call Demo.env .rational (scalar 1) (scalar 1) 6 false { a1 := some 1 }).err =
    some .type :=
  (C26_type (s := []) ⟨rfl, rfl⟩ ⟨rfl, rfl⟩ (by simp [Kw.Off, Spec.scaling, Kw.val])).2
    ⟨by decide, .a2, by decide, rfl⟩

example : (Damping.call Demo.env .zero (scalar 1) (scalar 1) 8 false { s8 := some 1 }).err =
    some .type :=
  (C26_type (s := []) ⟨rfl, rfl⟩ ⟨rfl, rfl⟩ (by simp [Kw.Off, Spec.scaling, Kw.val])).2
    ⟨by decide, .rs8, by decide, rfl⟩

example : (Damping.call Demo.env .zero (scalar 1) (scalar 1) 8 false {}).get [] = 0 :=
  (C26_zeros (s := []) ⟨rfl, rfl⟩ (by simp [Kw.Off, Spec.scaling, Kw.val])).2 _

/-- Zero damping of order 8 with two distances: `s8` and `rs8` given, and both missing. -/
example : 0 < (Damping.call Demo.env .zero (full [2] 3) (full [2] 6) 8 false
    { s8 := some 1, rs8 := some 1, alp := some 14 }).get [1] :=
  C26_nonzero (s := [2]) ⟨rfl, rfl⟩ ⟨rfl, rfl⟩ (by simp [Kw.Off, Spec.scaling, Kw.val]) (by decide)
    (by simp [Spec.shape, Kw.val]) (by simp [Spec.needs, Spec.shape, Spec.radius, Kw.val])
    (by simp [InB]) (by simp [full]) (by simp [full])

example := (C26_zeros_iff (env := Demo.env) (d := .zero) (dist := full [2] 3) (rad := full [2] 6) (s := [2])
  (order := 8) (od := true) (kw := { alp := some 14 }) ⟨rfl, rfl⟩ ⟨rfl, rfl⟩ (by decide)
  (by simp [Spec.shape, Kw.val]) (fun h => absurd (by simp [Kw.Off, Spec.scaling, Kw.val]) h)
  ⟨[0], by simp [InB]⟩ (by simp [full]) (by simp [full])).2 (by simp [Kw.Off, Spec.scaling, Kw.val])

example := C26_param (env := Demo.env) (d := .zero) (dist := full [2] 3) (rad := full [2] 6) (s := [2])
  (order := 8) ⟨rfl, rfl⟩ ⟨rfl, rfl⟩ { rs6 := .val 1, s8 := .val 1, alp := .val 14 } (by decide)
example : (Damping.callParam Demo.env .rational (full [2] 3) (full [2] 6) 6
    { a1 := .val 1, a2 := .val 1, extra := ["b1"] }).err = some .type :=
  C26_unknown _ (by simp)
example : (Damping.call Demo.env .mzero (full [2] 3) (full [2] 6) 9 false
    { rs6 := some 1, rs8 := some 1, alp := some 14, bet := some 1 }).err = some .value :=
  (C26_value_partial (s := [2]) ⟨rfl, rfl⟩ ⟨rfl, rfl⟩ (by simp [Kw.Off, Spec.scaling, Kw.val])).2
    ⟨by decide, by decide, by simp [Spec.shape, Kw.val]⟩

end TadDftd4
