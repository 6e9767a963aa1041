import Verif.Lemmas.Broadcast
import Verif.Lemmas.Setup

/-!
# C32: inconsistent shapes are rejected before anything is calculated

Shapes list the last axis first, so that `shape.tail` is `shape[:-1]`.
-/

set_option linter.unusedSimpArgs false

open scoped Classical

namespace TadDftd4

open Tensor

/-- Shapes of the positions and of the given radii agree with the atomic numbers. -/
structure Spec.ShapesAgree (numbers : Tensor ℕ) (positions : Tensor ℝ) (o : CalcOpts) : Prop where
  positions : positions.shape.tail = numbers.shape
  rcov : ∀ x, o.rcov = some x → x.shape = numbers.shape
  r4r2 : ∀ x, o.r4r2 = some x → x.shape = numbers.shape
  rvdw : ∀ x, o.rvdw = some x → x.shape.tail = numbers.shape

/-- Some registered term uses charges. -/
def Disp.UsesCharges (d : Disp) : Prop := ∃ t ∈ d.terms, t.chargeDep = true

/-- Everything besides the shapes is in order: the model can be built for the elements, the tables
contain them, and the external functions raise nothing and return one value per atom. -/
structure Ready (env : Env) (T : Tables) (ext : Ext) (d : Disp) (numbers : Tensor ℕ)
    (positions charge : Tensor ℝ) (o : CalcOpts) (n : ℕ) (B : Shape) (m : RefModel) : Prop where
  num : numbers.Ok (n :: B)
  lt : numbers.AllLt T.nZ
  fits : T.Fits
  model : d.getModel env T ext numbers = .ok m
  r4r2 : ∀ x, o.r4r2 = some x → x.err = none
  rvdw : ∀ x, o.rvdw = some x → x.err = none
  cn : (d.cnFn numbers positions d.counting).err = none
  eeq : d.UsesCharges → o.q = none →
    (ext.eeq numbers positions charge (o.cutoff.getD {}).cnEeq).Ok (n :: B)

section
variable {env : Env} {T : Tables} {ext : Ext} {d : Disp} {numbers : Tensor ℕ}
  {positions charge : Tensor ℝ} {p : Param} {o : CalcOpts} {n : ℕ} {B : Shape} {m : RefModel}

/-- The charges used by the terms: the given ones, or EEQ charges if some term uses charges. -/
noncomputable def Spec.chargesUsed (ext : Ext) (d : Disp) (numbers : Tensor ℕ)
    (positions charge : Tensor ℝ) (o : CalcOpts) : Option (Tensor ℝ) :=
  match o.q with
  | some q => some q
  | none => if d.UsesCharges then some (ext.eeq numbers positions charge (o.cutoff.getD {}).cnEeq)
      else none

/-- Energy of one term. -/
noncomputable def termEnergy (env : Env) (T : Tables) (ext : Ext) (d : Disp) (numbers : Tensor ℕ)
    (positions charge : Tensor ℝ) (p : Param) (o : CalcOpts) (m : RefModel) (t : Term) : Tensor ℝ :=
  t.calculate env T numbers positions p (d.cnFn numbers positions d.counting) m
    (Spec.chargesUsed ext d numbers positions charge o) (o.r4r2.getD (getR4R2 T numbers))
    (o.rvdw.getD (getRvdw T numbers)) (o.cutoff.getD {})

/-- Inconsistent positions are rejected first, whatever else is wrong. -/
theorem C32_positions (h : positions.shape.tail ≠ numbers.shape) :
    d.calculate env T ext numbers positions charge p o = .error .value := by
  unfold Disp.calculate ensure
  rw [if_neg (fun h' => h h'.symm)]
  rfl

theorem ensure_bad {c : Prop} (h : ¬ c) (e : Err) : ensure c e = .error e := by simp [ensure, h]

/-- Outcome up to the evaluation of the terms. -/
theorem C32_outcome (h : Ready env T ext d numbers positions charge o n B m) :
    (¬ Spec.ShapesAgree numbers positions o →
      d.calculate env T ext numbers positions charge p o = .error .value) ∧
    (Spec.ShapesAgree numbers positions o → ¬ d.UsesCharges → o.q.isSome →
      d.calculate env T ext numbers positions charge p o = .error .runtime) ∧
    (Spec.ShapesAgree numbers positions o → d.UsesCharges →
      (∃ q, o.q = some q ∧ q.shape ≠ numbers.shape) →
      d.calculate env T ext numbers positions charge p o = .error .value) ∧
    (Spec.ShapesAgree numbers positions o → (o.q.isSome → d.UsesCharges) →
      (∀ q, o.q = some q → q.shape = numbers.shape) →
      d.calculate env T ext numbers positions charge p o =
        (d.terms.foldl (fun e t => e + termEnergy env T ext d numbers positions charge p o m t)
          (full numbers.shape 0)).check) := by
  have hr4 : ∃ r4, o.r4r2.getD (getR4R2 T numbers) = r4 ∧ r4.err = none ∧
      ((∀ x, o.r4r2 = some x → x.shape = numbers.shape) ↔ numbers.shape = r4.shape) := by
    refine ⟨_, rfl, ?_, ?_⟩
    · cases h' : o.r4r2 with
      | some x => exact h.r4r2 x h'
      | none =>
        have hlt := AllLt.mono h.lt h.fits.r4
        simp [getR4R2, h.num.err, gatherErr, hlt]
    · cases o.r4r2 with
      | some x => simp [eq_comm]
      | none => simp [getR4R2]
  have hrv : ∃ rv, o.rvdw.getD (getRvdw T numbers) = rv ∧ rv.err = none ∧
      ((∀ x, o.rvdw = some x → x.shape.tail = numbers.shape) ↔ numbers.shape = rv.shape.tail) := by
    have hok : (getRvdw T numbers).Ok (n :: n :: B) :=
      getPair_ok h.num (AllLt.mono h.lt h.fits.ext)
    refine ⟨_, rfl, ?_, ?_⟩
    · cases h' : o.rvdw with
      | some x => exact h.rvdw x h'
      | none => exact hok.err
    · cases o.rvdw with
      | some x => simp [eq_comm]
      | none => simp [hok.shape, h.num.shape]
  obtain ⟨r4, hr4, hr4e, hr4s⟩ := hr4
  obtain ⟨rv, hrv, hrve, hrvs⟩ := hrv
  have hsame : ∀ x y : Shape, x = y ↔ y = x := fun x y => eq_comm
  have hshape : Spec.ShapesAgree numbers positions o ↔ numbers.shape = positions.shape.tail ∧
      (∀ rcov, o.rcov = some rcov → numbers.shape = rcov.shape) ∧ numbers.shape = r4.shape ∧
      numbers.shape = rv.shape.tail := by
    rw [← hr4s, ← hrvs]
    exact ⟨fun h => ⟨h.1.symm, fun x hx => (h.2 x hx).symm, h.3, h.4⟩,
      fun h => ⟨h.1.symm, fun x hx => (h.2.1 x hx).symm, h.2.2.1, h.2.2.2⟩⟩
  have hany : d.terms.any (·.chargeDep) = true ↔ d.UsesCharges := by
    simp [Disp.UsesCharges]
  have hcalc : Spec.ShapesAgree numbers positions o →
      d.calculate env T ext numbers positions charge p o =
        (d.charges ext numbers positions charge (o.cutoff.getD {}) o.q).bind fun q =>
          (sumTerms env T d.terms numbers positions p (d.cnFn numbers positions d.counting) m q r4 rv
            (o.cutoff.getD {})).check := by
    intro hs
    obtain ⟨h1, h2, h3, h4⟩ := hshape.1 hs
    unfold Disp.calculate
    rw [ensure_ok h1]
    simp only [bind, Except.bind, h.model, hr4, hrv]
    rw [ensure_ok h2]
    simp only [check_ok hr4e, check_ok hrve]
    rw [ensure_ok h3]
    simp only []
    rw [ensure_ok h4]
    simp only [check_ok h.cn]
  refine ⟨fun hs => ?_, fun hs hd hq => ?_, fun hs hd hq => ?_, fun hs hd hq => ?_⟩
  · rw [hshape] at hs
    unfold Disp.calculate
    by_cases h1 : numbers.shape = positions.shape.tail
    · rw [ensure_ok h1]
      simp only [bind, Except.bind, h.model, hr4, hrv]
      by_cases h2 : ∀ rcov, o.rcov = some rcov → numbers.shape = rcov.shape
      · rw [ensure_ok h2]
        simp only [check_ok hr4e, check_ok hrve]
        by_cases h3 : numbers.shape = r4.shape
        · rw [ensure_ok h3]
          simp only []
          rw [ensure_bad (fun h4 => hs ⟨h1, h2, h3, h4⟩)]
        · rw [ensure_bad h3]
      · rw [ensure_bad h2]
    · rw [ensure_bad h1]; rfl
  · rw [hcalc hs]
    have hd' : d.terms.any (·.chargeDep) = false := by
      rw [Bool.eq_false_iff]; exact fun h => hd (hany.1 h)
    obtain ⟨q, hq⟩ := Option.isSome_iff_exists.1 hq
    simp [Disp.charges, hq, hd', Except.bind]
  · rw [hcalc hs]
    obtain ⟨q, hq, hqs⟩ := hq
    simp only [Disp.charges, hq, hany.2 hd]
    rw [if_pos (fun h => hqs h.symm)]
    rfl
  · rw [hcalc hs]
    have hch : d.charges ext numbers positions charge (o.cutoff.getD {}) o.q =
        .ok (Spec.chargesUsed ext d numbers positions charge o) := by
      unfold Disp.charges Spec.chargesUsed
      by_cases hu : d.UsesCharges
      · rw [hany.2 hu]
        cases hoq : o.q with
        | some q => simp [hq q hoq]
        | none =>
          have := h.eeq hu hoq
          simp [check_ok this.err, this.shape, h.num.shape, hu, bind, Except.bind]
      · have hd' : d.terms.any (·.chargeDep) = false := by
          rw [Bool.eq_false_iff]; exact fun h => hu (hany.1 h)
        rw [hd']
        cases hoq : o.q with
        | some q => exact absurd (hd (by simp [hoq])) hu
        | none => simp [hu]
    rw [hch]
    subst hr4 hrv
    rfl

/-- If no term raises an exception: ValueError exactly for inconsistent shapes, RuntimeError exactly
for unused charges, otherwise the sum of the term energies. -/
theorem C32_sum (h : Ready env T ext d numbers positions charge o n B m)
    (ht : Spec.ShapesAgree numbers positions o → (∀ q, o.q = some q → q.shape = numbers.shape) →
      ∀ t ∈ d.terms, (termEnergy env T ext d numbers positions charge p o m t).Ok (n :: B)) :
    (d.calculate env T ext numbers positions charge p o = .error .value ↔
      ¬ Spec.ShapesAgree numbers positions o ∨
        d.UsesCharges ∧ ∃ q, o.q = some q ∧ q.shape ≠ numbers.shape) ∧
    (d.calculate env T ext numbers positions charge p o = .error .runtime ↔
      Spec.ShapesAgree numbers positions o ∧ ¬ d.UsesCharges ∧ o.q.isSome) ∧
    (Spec.ShapesAgree numbers positions o → (o.q.isSome → d.UsesCharges) →
      (∀ q, o.q = some q → q.shape = numbers.shape) →
      ∃ e, d.calculate env T ext numbers positions charge p o = .ok e ∧ e.Ok (n :: B) ∧
        ∀ i, InB (n :: B) i → e.get i =
          (d.terms.map fun t => (termEnergy env T ext d numbers positions charge p o m t).get i).sum) := by
  obtain ⟨h1, h2, h3, h4⟩ := C32_outcome (p := p) h
  have hok : Spec.ShapesAgree numbers positions o → (o.q.isSome → d.UsesCharges) →
      (∀ q, o.q = some q → q.shape = numbers.shape) →
      ∃ e, d.calculate env T ext numbers positions charge p o = .ok e ∧ e.Ok (n :: B) ∧
        ∀ i, InB (n :: B) i → e.get i =
          (d.terms.map fun t => (termEnergy env T ext d numbers positions charge p o m t).get i).sum := by
    intro hs hu hq
    obtain ⟨k1, k2⟩ := foldl_sum (ht hs hq) (x := full numbers.shape 0)
      ⟨rfl, h.num.shape⟩
    refine ⟨_, by rw [h4 hs hu hq, check_ok k1.err], k1, fun i hi => ?_⟩
    rw [k2 i hi]
    simp [full]
  by_cases hs : Spec.ShapesAgree numbers positions o
  · by_cases hu : d.UsesCharges
    · by_cases hq : ∃ q, o.q = some q ∧ q.shape ≠ numbers.shape
      · have := h3 hs hu hq
        refine ⟨?_, ?_, hok⟩ <;> simp [this, hs, hu, hq]
      · push Not at hq
        obtain ⟨e, he, -⟩ := hok hs (fun _ => hu) hq
        refine ⟨?_, ?_, hok⟩
        · simp only [he, hs, hu, true_and, not_true, false_or]
          constructor
          · intro h; cases h
          · rintro ⟨q, h1, h2⟩; exact absurd (hq q h1) h2
        · simp [he, hu]
    · by_cases hq : o.q.isSome
      · have := h2 hs hu hq
        refine ⟨?_, ?_, hok⟩ <;> simp [this, hs, hu, hq]
      · obtain ⟨e, he, -⟩ := hok hs (fun h => absurd h hq) (fun q h => absurd (by simp [h]) hq)
        refine ⟨?_, ?_, hok⟩ <;> simp [he, hs, hu, hq]
  · have := h1 hs
    refine ⟨?_, ?_, hok⟩ <;> simp [this, hs]

/-- An exception of a term is an exception of the calculation. -/
theorem C32_term_error (h : Ready env T ext d numbers positions charge o n B m) {t : Term}
    (ht : t ∈ d.terms) (he : (termEnergy env T ext d numbers positions charge p o m t).err ≠ none)
    (e : Tensor ℝ) : d.calculate env T ext numbers positions charge p o ≠ .ok e := by
  intro hc
  obtain ⟨h1, h2, h3, h4⟩ := C32_outcome (p := p) h
  by_cases hs : Spec.ShapesAgree numbers positions o
  · by_cases hu : o.q.isSome → d.UsesCharges
    · by_cases hq : ∀ q, o.q = some q → q.shape = numbers.shape
      · rw [h4 hs hu hq, check_eq_ok] at hc
        exact foldl_err_of_mem (f := termEnergy env T ext d numbers positions charge p o m) ht he _ hc.1
      · push Not at hq
        obtain ⟨q, hq1, hq2⟩ := hq
        rw [h3 hs (hu (by simp [hq1])) ⟨q, hq1, hq2⟩] at hc
        cases hc
    · push Not at hu
      rw [h2 hs hu.2 hu.1] at hc
      cases hc
  · rw [h1 hs] at hc
    cases hc

end

/-! ## A concrete case -/

namespace Demo

/-- `DispD4` with default options. -/
noncomputable def dispD4 : Disp :=
  { terms := DispClass.d4.terms, cnFn := ext.cnD4, counting := none, model := .key "d4", modelKw := {} }

theorem dispD4_new : Disp.new ext .d4 = .ok dispD4 := by
  have hk := keys "d4" (by simp)
  simp [Disp.new, hk, DispClass.allowedModels, bind, Except.bind, defaultCN, dispD4,
    show hasChar "d4" '3' = false by decide +kernel, show hasChar "d4" '4' = true by decide +kernel]
  rfl

theorem ready (o : CalcOpts) (h4 : ∀ x, o.r4r2 = some x → x.err = none)
    (hv : ∀ x, o.rvdw = some x → x.err = none) :
    ∃ m, Ready env T ext dispD4 numbers positions charge o 3 [2] m := by
  have hm := buildModel_d4 (env := env) (T := T) (numbers := numbers) (n := 3) (B := [2])
    ⟨rfl, rfl⟩ (fun i _ => numbers_lt i) fits
  refine ⟨mkModel env T .d4 numbers, ⟨rfl, rfl⟩, fun i _ => numbers_lt i, fits, ?_, h4, hv, ?_, fun _ _ => ?_⟩
  · have hk := keys "d4" (by simp)
    have h3 : ext.casefold "d4" ≠ "d3" := by rw [hk]; decide
    simp only [Disp.getModel, dispD4, if_neg h3, if_pos hk, hm]
  · exact (CNFunc.ofSpec_perSystem cn none 104 3 [2] numbers positions ⟨rfl, rfl⟩
      (fun i _ => numbers_lt i) ⟨rfl, rfl⟩).1.err
  · exact (eeqOfSpec_perSystem (ext := ext) eeq rfl 104 3 [2] numbers positions charge _ ⟨rfl, rfl⟩
      (fun i _ => numbers_lt i) ⟨rfl, rfl⟩ ⟨rfl, rfl⟩).1

/-- Given `r4r2` values for two atoms instead of three are rejected. -/
example : dispD4.calculate env T ext numbers positions charge param
    { r4r2 := some (full [2, 2] 1) } = .error .value := by
  obtain ⟨m, hm⟩ := ready { r4r2 := some (full [2, 2] 1) } (by rintro x ⟨⟩; rfl) (by simp)
  refine (C32_outcome hm).1 fun h => ?_
  have := h.r4r2 _ rfl
  simp [numbers, full] at this

end Demo

example : Demo.dispD4.calculate Demo.env Demo.T Demo.ext Demo.numbers (full [3, 4, 2] 0) Demo.charge
    Demo.param {} = .error .value :=
  C32_positions (by simp [full, Demo.numbers])

end TadDftd4
