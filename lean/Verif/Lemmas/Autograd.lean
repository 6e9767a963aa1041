import Verif.Model.Autograd
import Mathlib.Analysis.SpecialFunctions.Pow.Deriv
import Mathlib.Analysis.SpecialFunctions.Sqrt
import Mathlib.Analysis.SpecialFunctions.ExpDeriv
import Mathlib.Analysis.Calculus.Deriv.Inv

/-!
# Backward passes without special values, and equal to the derivative
-/

set_option linter.unusedSimpArgs false

open scoped Classical Topology

namespace TadDftd4

namespace FP

theorem sum_fin {n : ℕ} (f : Fin n → ℝ) :
    FP.sum (List.ofFn fun i => FP.fin (f i)) = .fin (∑ i, f i) := by
  induction n with
  | zero => simp [FP.sum]
  | succ n ih =>
    have h : FP.sum (List.ofFn fun i : Fin (n + 1) => FP.fin (f i)) =
        FP.add (.fin (f 0)) (FP.sum (List.ofFn fun i : Fin n => FP.fin (f i.succ))) := by
      simp [FP.sum, List.ofFn_succ]
    rw [h, ih (fun i => f i.succ), Fin.sum_univ_succ]
    rfl

end FP

namespace Tape

/-- At `x` the value is `c` and the backward pass multiplies by some number. -/
def Tame (e : Tape) (x c : ℝ) : Prop :=
  e.eval x = .fin c ∧ ∃ v, ∀ g, e.back x (.fin g) = .fin (g * v)

/-- Near `x` the value is given by `f`, and the backward pass multiplies by the derivative of `f`. -/
def Fine (e : Tape) (f : ℝ → ℝ) (x : ℝ) : Prop :=
  (∀ᶠ y in 𝓝 x, e.eval y = .fin (f y)) ∧
    ∃ v, HasDerivAt f v x ∧ ∀ g, e.back x (.fin g) = .fin (g * v)

variable {e a b : Tape} {f f' : ℝ → ℝ} {x c c' : ℝ}

theorem Fine.tame (h : Fine e f x) : Tame e x (f x) :=
  ⟨h.1.self_of_nhds, h.2.imp fun _ h => h.2⟩

theorem Fine.congr (h : Fine e f x) (hf : ∀ᶠ y in 𝓝 x, f y = f' y) : Fine e f' x := by
  refine ⟨?_, ?_⟩
  · filter_upwards [h.1, hf] with y h1 h2
    rw [h1, h2]
  · obtain ⟨v, h1, h2⟩ := h.2
    exact ⟨v, h1.congr_of_eventuallyEq (hf.mono fun _ h => h.symm), h2⟩

theorem Fine.congr' (h : Fine e f x) (hf : ∀ y, f y = f' y) : Fine e f' x :=
  h.congr (.of_forall hf)

theorem Tame.congr (h : Tame e x c) (hc : c = c') : Tame e x c' := hc ▸ h

/-- The backward pass yields the derivative. -/
theorem Fine.back (h : Fine e f x) (g : ℝ) : e.back x (.fin g) = .fin (g * deriv f x) := by
  obtain ⟨v, h1, h2⟩ := h.2
  rw [h2, h1.deriv]

theorem Fine.differentiableAt (h : Fine e f x) : DifferentiableAt ℝ f x := by
  obtain ⟨v, h1, -⟩ := h.2
  exact h1.differentiableAt

theorem Fine.continuousAt (h : Fine e f x) : ContinuousAt f x := h.differentiableAt.continuousAt

theorem Fine.eval (h : Fine e f x) : e.eval x = .fin (f x) := h.1.self_of_nhds

/-! ## Nodes -/

theorem Tame.leaf {d d' : ℝ → ℝ} : Tame (leaf f f' d d') x (f x) := ⟨rfl, f' x, fun _ => rfl⟩

theorem Fine.leaf {d d' : ℝ → ℝ} (h : HasDerivAt f (f' x) x) : Fine (Tape.leaf f f' d d') f x :=
  ⟨.of_forall fun _ => rfl, f' x, h, fun _ => rfl⟩

theorem Tame.input {g : Bool} {d : ℝ → ℝ} : Tame (input g f d) x (f x) := by
  cases g
  · exact ⟨rfl, 0, fun _ => by simp [Tape.input, Tape.back]⟩
  · exact ⟨rfl, deriv f x, fun _ => rfl⟩

theorem Fine.frozen {c : ℝ} : Fine (Tape.frozen fun _ => c) (fun _ => c) x :=
  ⟨.of_forall fun _ => rfl, 0, hasDerivAt_const _ _, fun _ => by simp [Tape.back]⟩

theorem Fine.input {g : Bool} {d : ℝ → ℝ} (h : DifferentiableAt ℝ f x) (hg : g = false → ∃ c, f = fun _ => c) :
    Fine (Tape.input g f d) f x := by
  cases g
  · obtain ⟨c, rfl⟩ := hg rfl
    exact Fine.frozen
  · exact Fine.leaf h.hasDerivAt

theorem Tame.const : Tame (const c) x c := ⟨rfl, 0, fun _ => by simp [Tape.back]⟩

theorem Fine.const : Fine (const c) (fun _ => c) x :=
  ⟨.of_forall fun _ => rfl, 0, hasDerivAt_const _ _, fun _ => by simp [Tape.back]⟩

theorem Tame.neg (ha : Tame a x c) : Tame (neg a) x (-c) := by
  obtain ⟨ha, v, hv⟩ := ha
  refine ⟨by simp [Tape.eval, ha, FP.neg], -v, fun g => ?_⟩
  simp [Tape.back, FP.neg, hv]

theorem Fine.neg (ha : Fine a f x) : Fine (Tape.neg a) (fun y => -f y) x := by
  obtain ⟨ha, v, h, hv⟩ := ha
  refine ⟨ha.mono fun y h => by simp [Tape.eval, h, FP.neg], -v, h.neg, fun g => ?_⟩
  simp [Tape.back, FP.neg, hv]

theorem Tame.add (ha : Tame a x c) (hb : Tame b x c') : Tame (add a b) x (c + c') := by
  obtain ⟨ha, v, hv⟩ := ha
  obtain ⟨hb, w, hw⟩ := hb
  refine ⟨by simp [Tape.eval, ha, hb, FP.add], v + w, fun g => ?_⟩
  simp [Tape.back, FP.add, hv, hw]
  ring

theorem Fine.add (ha : Fine a f x) (hb : Fine b f' x) :
    Fine (Tape.add a b) (fun y => f y + f' y) x := by
  obtain ⟨ha, v, h1, hv⟩ := ha
  obtain ⟨hb, w, h2, hw⟩ := hb
  refine ⟨?_, v + w, h1.add h2, fun g => ?_⟩
  · filter_upwards [ha, hb] with y ha hb
    simp [Tape.eval, ha, hb, FP.add]
  · simp [Tape.back, FP.add, hv, hw]
    ring

theorem Tame.sub (ha : Tame a x c) (hb : Tame b x c') : Tame (sub a b) x (c - c') := by
  obtain ⟨ha, v, hv⟩ := ha
  obtain ⟨hb, w, hw⟩ := hb
  refine ⟨by simp [Tape.eval, ha, hb, FP.add, FP.sub, FP.neg, sub_eq_add_neg], v - w, fun g => ?_⟩
  simp [Tape.back, FP.add, FP.neg, hv, hw]
  ring

theorem Fine.sub (ha : Fine a f x) (hb : Fine b f' x) :
    Fine (Tape.sub a b) (fun y => f y - f' y) x := by
  obtain ⟨ha, v, h1, hv⟩ := ha
  obtain ⟨hb, w, h2, hw⟩ := hb
  refine ⟨?_, v - w, h1.sub h2, fun g => ?_⟩
  · filter_upwards [ha, hb] with y ha hb
    simp [Tape.eval, ha, hb, FP.add, FP.sub, FP.neg, sub_eq_add_neg]
  · simp [Tape.back, FP.add, FP.neg, hv, hw]
    ring

theorem Tame.mul (ha : Tame a x c) (hb : Tame b x c') : Tame (mul a b) x (c * c') := by
  obtain ⟨ha, v, hv⟩ := ha
  obtain ⟨hb, w, hw⟩ := hb
  refine ⟨by simp [Tape.eval, ha, hb, FP.mul], v * c' + c * w, fun g => ?_⟩
  simp [Tape.back, FP.add, FP.mul, ha, hb, hv, hw]
  ring

theorem Fine.mul (ha : Fine a f x) (hb : Fine b f' x) :
    Fine (Tape.mul a b) (fun y => f y * f' y) x := by
  have hae := ha.eval
  have hbe := hb.eval
  obtain ⟨ha, v, h1, hv⟩ := ha
  obtain ⟨hb, w, h2, hw⟩ := hb
  refine ⟨?_, v * f' x + f x * w, h1.mul h2, fun g => ?_⟩
  · filter_upwards [ha, hb] with y ha hb
    simp [Tape.eval, ha, hb, FP.mul]
  · simp [Tape.back, FP.add, FP.mul, hae, hbe, hv, hw]
    ring

theorem Tame.div (ha : Tame a x c) (hb : Tame b x c') (h0 : c' ≠ 0) : Tame (div a b) x (c / c') := by
  obtain ⟨ha, v, hv⟩ := ha
  obtain ⟨hb, w, hw⟩ := hb
  refine ⟨by simp [Tape.eval, ha, hb, FP.div, h0], (v * c' - c * w) / c' ^ 2, fun g => ?_⟩
  simp only [Tape.back, FP.add, FP.mul, FP.div, FP.neg, ha, hb, hv, hw, h0, ne_eq, not_false_eq_true,
    if_true]
  congr 1
  field_simp
  ring

theorem Fine.div (ha : Fine a f x) (hb : Fine b f' x) (h0 : f' x ≠ 0) :
    Fine (Tape.div a b) (fun y => f y / f' y) x := by
  have hae := ha.eval
  have hbe := hb.eval
  have hc := hb.continuousAt.eventually_ne h0
  obtain ⟨ha, v, h1, hv⟩ := ha
  obtain ⟨hb, w, h2, hw⟩ := hb
  refine ⟨?_, (v * f' x - f x * w) / f' x ^ 2, h1.div h2 h0, fun g => ?_⟩
  · filter_upwards [ha, hb, hc] with y ha hb hc
    simp [Tape.eval, ha, hb, FP.div, hc]
  · simp only [Tape.back, FP.add, FP.mul, FP.div, FP.neg, hae, hbe, hv, hw, h0, ne_eq,
      not_false_eq_true, if_true]
    congr 1
    field_simp
    ring

theorem Tame.exp {fl : ℝ → ℝ} (ha : Tame a x c) : Tame (exp fl a) x (fl (Real.exp c)) := by
  obtain ⟨ha, v, hv⟩ := ha
  refine ⟨by simp [Tape.eval, ha, FP.flexp], fl (Real.exp c) * v, fun g => ?_⟩
  simp [Tape.back, FP.flexp, FP.mul, ha, hv]
  ring

theorem Fine.exp (ha : Fine a f x) : Fine (Tape.exp id a) (fun y => Real.exp (f y)) x := by
  have hae := ha.eval
  obtain ⟨ha, v, h, hv⟩ := ha
  refine ⟨ha.mono fun y h => by simp [Tape.eval, h, FP.flexp], Real.exp (f x) * v, h.exp, fun g => ?_⟩
  simp [Tape.back, FP.flexp, FP.mul, hae, hv]
  ring

theorem Tame.expo {fmax : ℝ} (ha : Tame a x c) (h : Real.exp c ≤ fmax) :
    Tame (expo fmax a) x (Real.exp c) := by
  obtain ⟨h1, v, hv⟩ := ha
  refine ⟨by simp [Tape.eval, h1, FP.oexp, h], Real.exp c * v, fun g => ?_⟩
  rw [Tape.back, h1]
  simp only [FP.oexp, h, if_true, FP.mul]
  rw [hv, mul_assoc]

theorem Fine.expo {fmax : ℝ} (ha : Fine a f x) (h : Real.exp (f x) ≤ fmax)
    (he : ∀ᶠ y in 𝓝 x, Real.exp (f y) ≤ fmax) :
    Fine (Tape.expo fmax a) (fun y => Real.exp (f y)) x := by
  obtain ⟨h1, v, hv, hb⟩ := ha
  refine ⟨?_, Real.exp (f x) * v, hv.exp, fun g => ?_⟩
  · filter_upwards [h1, he] with y h2 h3
    simp [Tape.eval, h2, FP.oexp, h3]
  · rw [Tape.back, h1.self_of_nhds]
    simp only [FP.oexp, h, if_true, FP.mul]
    rw [hb, mul_assoc]

theorem Tame.pow {fl : ℝ → ℝ} {p : ℝ} (ha : Tame a x c) (h : 0 < c ∨ (0 ≤ c ∧ 1 ≤ p)) :
    Tame (pow fl a p) x (fl (c ^ p)) := by
  obtain ⟨ha, v, hv⟩ := ha
  have key : ∀ p : ℝ, 0 < c ∨ (0 ≤ c ∧ 0 ≤ p) → (FP.fin c).pow fl p = .fin (fl (c ^ p)) := by
    intro p h
    rcases h with h | ⟨h, hp⟩
    · simp [FP.pow, h]
    · rcases h.eq_or_lt with h | h
      · simp [FP.pow, ← h, hp]
      · simp [FP.pow, h]
  refine ⟨?_, p * fl (c ^ (p - 1)) * v, fun g => ?_⟩
  · simp only [Tape.eval, ha]
    exact key p (h.imp id fun h => ⟨h.1, zero_le_one.trans h.2⟩)
  · simp only [Tape.back, ha]
    rw [key (p - 1) (h.imp id fun h => ⟨h.1, sub_nonneg.2 h.2⟩)]
    split_ifs with hp
    · simp [hv, hp]
    · simp only [FP.mul, hv]
      congr 1
      ring

theorem Fine.pow {p : ℝ} (ha : Fine a f x) (h : 0 < f x) :
    Fine (Tape.pow id a p) (fun y => f y ^ p) x := by
  have hae := ha.eval
  have hc := continuousAt_const.eventually_lt ha.continuousAt h
  obtain ⟨ha, v, h1, hv⟩ := ha
  refine ⟨?_, v * p * f x ^ (p - 1), h1.rpow_const (Or.inl h.ne'), fun g => ?_⟩
  · filter_upwards [ha, hc] with y ha hc
    simp [Tape.eval, ha, FP.pow, hc]
  · simp only [Tape.back, hae]
    split_ifs with hp
    · simp [hv, hp]
    · simp only [FP.pow, h, if_true, id, FP.mul, hv]
      congr 1
      ring

theorem Tame.npow {k : ℕ} (ha : Tame a x c) : Tame (npow a k) x (c ^ k) := by
  obtain ⟨ha, v, hv⟩ := ha
  refine ⟨by simp [Tape.eval, ha, FP.npow], k * c ^ (k - 1) * v, fun g => ?_⟩
  simp [Tape.back, FP.npow, FP.mul, ha, hv]
  ring

theorem Fine.npow {k : ℕ} (ha : Fine a f x) : Fine (Tape.npow a k) (fun y => f y ^ k) x := by
  have hae := ha.eval
  obtain ⟨ha, v, h, hv⟩ := ha
  refine ⟨ha.mono fun y h => by simp [Tape.eval, h, FP.npow], k * f x ^ (k - 1) * v, h.pow k,
    fun g => ?_⟩
  simp [Tape.back, FP.npow, FP.mul, hae, hv]
  ring

theorem Tame.sqrt (ha : Tame a x c) (h : 0 < c) : Tame (sqrt a) x (√c) := by
  obtain ⟨ha, v, hv⟩ := ha
  have h2 : √c ≠ 0 := (Real.sqrt_pos.2 h).ne'
  refine ⟨by simp [Tape.eval, ha, FP.sqrt, h.le], v / (2 * √c), fun g => ?_⟩
  simp [Tape.back, FP.sqrt, FP.mul, FP.div, ha, hv, h.le, h2]
  ring

theorem Fine.sqrt (ha : Fine a f x) (h : 0 < f x) : Fine (Tape.sqrt a) (fun y => √(f y)) x := by
  have hae := ha.eval
  have hc := continuousAt_const.eventually_lt ha.continuousAt h
  have h2 : √(f x) ≠ 0 := (Real.sqrt_pos.2 h).ne'
  obtain ⟨ha, v, h1, hv⟩ := ha
  refine ⟨?_, v / (2 * √(f x)), h1.sqrt h.ne', fun g => ?_⟩
  · filter_upwards [ha, hc] with y ha hc
    simp [Tape.eval, ha, FP.sqrt, hc.le]
  · simp [Tape.back, FP.sqrt, FP.mul, FP.div, hae, hv, h.le, h2]
    ring

theorem Tame.abs (ha : Tame a x c) : Tame (abs a) x |c| := by
  obtain ⟨ha, v, hv⟩ := ha
  refine ⟨by simp [Tape.eval, ha, FP.abs], (if 0 < c then 1 else if c < 0 then -1 else 0) * v,
    fun g => ?_⟩
  simp only [Tape.back, FP.sgn, FP.mul, ha, hv]
  congr 1
  ring

theorem Fine.abs (ha : Fine a f x) (h : f x ≠ 0) : Fine (Tape.abs a) (fun y => |f y|) x := by
  have hae := ha.eval
  have hcont := ha.continuousAt
  obtain ⟨ha, v, h1, hv⟩ := ha
  refine ⟨ha.mono fun y h => by simp [Tape.eval, h, FP.abs], ?_⟩
  rcases lt_or_gt_of_ne h with hl | hl
  · refine ⟨-v, h1.neg.congr_of_eventuallyEq ?_, fun g => ?_⟩
    · filter_upwards [hcont.eventually_lt continuousAt_const hl] with y hy
      exact abs_of_neg hy
    · simp [Tape.back, FP.sgn, FP.mul, hae, hv, hl, hl.le, not_lt.2 hl.le]
  · refine ⟨v, h1.congr_of_eventuallyEq ?_, fun g => ?_⟩
    · filter_upwards [continuousAt_const.eventually_lt hcont hl] with y hy
      exact abs_of_pos hy
    · simp [Tape.back, FP.sgn, FP.mul, hae, hv, hl]

theorem Tame.clampMin {m : ℝ} (ha : Tame a x c) : Tame (clampMin a m) x (max c m) := by
  obtain ⟨ha, v, hv⟩ := ha
  refine ⟨by simp [Tape.eval, ha, FP.clampMin], if m ≤ c then v else 0, fun g => ?_⟩
  simp only [Tape.back, ha, FP.ge]
  split_ifs <;> simp [hv]

theorem Fine.clampMin_gt {m : ℝ} (ha : Fine a f x) (h : m < f x) :
    Fine (Tape.clampMin a m) (fun y => max (f y) m) x := by
  have hae := ha.eval
  have hcont := ha.continuousAt
  obtain ⟨ha, v, h1, hv⟩ := ha
  refine ⟨ha.mono fun y h => by simp [Tape.eval, h, FP.clampMin], v, ?_, fun g => ?_⟩
  · refine h1.congr_of_eventuallyEq ?_
    filter_upwards [continuousAt_const.eventually_lt hcont h] with y hy
    exact max_eq_left hy.le
  · simp [Tape.back, hae, FP.ge, h.le, hv]

/-- Below the threshold only the value of the argument matters. -/
theorem Fine.clampMin_lt {m : ℝ} (ha : Tame a x (f x)) (hev : ∀ᶠ y in 𝓝 x, a.eval y = .fin (f y))
    (hc : ContinuousAt f x) (h : f x < m) :
    Fine (Tape.clampMin a m) (fun y => max (f y) m) x := by
  obtain ⟨ha, v, hv⟩ := ha
  refine ⟨hev.mono fun y h => by simp [Tape.eval, h, FP.clampMin], 0, ?_, fun g => ?_⟩
  · refine (hasDerivAt_const x m).congr_of_eventuallyEq ?_
    filter_upwards [hc.eventually_lt continuousAt_const h] with y hy
    exact max_eq_right hy.le
  · simp [Tape.back, ha, FP.ge, not_le.2 h, hv]

theorem Tame.sel {P : ℝ → Prop} [Decidable (P x)] (ha : Tame a x c) (hb : Tame b x c') :
    Tame (sel P a b) x (if P x then c else c') := by
  obtain ⟨ha, v, hv⟩ := ha
  obtain ⟨hb, w, hw⟩ := hb
  by_cases h : P x
  · exact ⟨by simp [Tape.eval, h, ha], v, fun g => by simp [Tape.back, h, hv, hw, FP.add]⟩
  · exact ⟨by simp [Tape.eval, h, hb], w, fun g => by simp [Tape.back, h, hv, hw, FP.add]⟩

theorem Fine.sel_true {P : ℝ → Prop} (ha : Fine a f x) (hb : Tame b x c)
    (hP : ∀ᶠ y in 𝓝 x, P y) : Fine (Tape.sel P a b) f x := by
  obtain ⟨ha, v, h1, hv⟩ := ha
  obtain ⟨hb, w, hw⟩ := hb
  refine ⟨?_, v, h1, fun g => ?_⟩
  · filter_upwards [ha, hP] with y ha hP
    simp [Tape.eval, hP, ha]
  · simp [Tape.back, hP.self_of_nhds, hv, hw, FP.add]

theorem Fine.sel_false {P : ℝ → Prop} (ha : Tame a x c) (hb : Fine b f x)
    (hP : ∀ᶠ y in 𝓝 x, ¬ P y) : Fine (Tape.sel P a b) f x := by
  obtain ⟨ha, v, hv⟩ := ha
  obtain ⟨hb, w, h1, hw⟩ := hb
  refine ⟨?_, w, h1, fun g => ?_⟩
  · filter_upwards [hb, hP] with y hb hP
    simp [Tape.eval, hP, hb]
  · simp [Tape.back, hP.self_of_nhds, hv, hw, FP.add]

/-- Condition independent of the parameter. -/
theorem Fine.sel_const {P : Prop} [Decidable P] (ha : Fine a f x) (hb : Fine b f' x) :
    Fine (Tape.sel (fun _ => P) a b) (fun y => if P then f y else f' y) x := by
  by_cases h : P
  · simpa [h] using Fine.sel_true (P := fun _ => P) ha hb.tame (.of_forall fun _ => h)
  · simpa [h] using Fine.sel_false (P := fun _ => P) ha.tame hb (.of_forall fun _ => h)

theorem Tame.sum {n : ℕ} {a : Fin n → Tape} {c : Fin n → ℝ} (h : ∀ i, Tame (a i) x (c i)) :
    Tame (sum n a) x (∑ i, c i) := by
  choose h1 v hv using h
  refine ⟨?_, ∑ i, v i, fun g => ?_⟩
  · simp only [Tape.eval, h1]
    exact FP.sum_fin _
  · simp only [Tape.back, hv]
    rw [FP.sum_fin, Finset.mul_sum]

theorem Fine.sum {n : ℕ} {a : Fin n → Tape} {f : Fin n → ℝ → ℝ} (h : ∀ i, Fine (a i) (f i) x) :
    Fine (Tape.sum n a) (fun y => ∑ i, f i y) x := by
  choose h1 v h2 hv using h
  refine ⟨?_, ∑ i, v i, ?_, fun g => ?_⟩
  · filter_upwards [Filter.eventually_all.2 h1] with y hy
    simp only [Tape.eval, hy]
    exact FP.sum_fin _
  · exact HasDerivAt.fun_sum fun i _ => h2 i
  · simp only [Tape.back, hv]
    rw [FP.sum_fin, Finset.mul_sum]

theorem Tame.ssqrt {env : Env} (ha : Tame a x c) : Tame (ssqrt env a) x (env.ssqrt c) :=
  Tame.sqrt ha.clampMin (lt_max_of_lt_right env.eps_pos)

theorem Fine.ssqrt {env : Env} (ha : Fine a f x) (h : env.eps < f x) :
    Fine (Tape.ssqrt env a) (fun y => env.ssqrt (f y)) x :=
  Fine.sqrt (ha.clampMin_gt h) (lt_max_of_lt_right env.eps_pos)

theorem Fine.ssqrt_lt {env : Env} (ha : Tame a x (f x)) (hev : ∀ᶠ y in 𝓝 x, a.eval y = .fin (f y))
    (hc : ContinuousAt f x) (h : f x < env.eps) :
    Fine (Tape.ssqrt env a) (fun y => env.ssqrt (f y)) x :=
  Fine.sqrt (Fine.clampMin_lt ha hev hc h) (lt_max_of_lt_right env.eps_pos)

theorem Tame.sdiv {env : Env} (ha : Tame a x c) (hb : Tame b x c') (h : c' ≠ 0) :
    Tame (sdiv env a b) x (c / c') := by
  have hs : Tame (Tape.sel (fun y => (b.eval y).ne0) b (Tape.const env.eps)) x c' := by
    refine (Tame.sel (P := fun y => (b.eval y).ne0) hb (Tame.const (c := env.eps))).congr ?_
    rw [if_pos]
    simp [hb.1, FP.ne0, h]
  exact ha.div hs h

theorem Fine.sdiv {env : Env} (ha : Fine a f x) (hb : Fine b f' x) (h : f' x ≠ 0) :
    Fine (Tape.sdiv env a b) (fun y => f y / f' y) x := by
  have hs : Fine (Tape.sel (fun y => (b.eval y).ne0) b (Tape.const env.eps)) f' x := by
    refine Fine.sel_true hb (Tame.const (c := env.eps)) ?_
    filter_upwards [hb.1, hb.continuousAt.eventually_ne h] with y h1 h2
    simp [h1, FP.ne0, h2]
  exact ha.div hs h

end Tape

end TadDftd4
