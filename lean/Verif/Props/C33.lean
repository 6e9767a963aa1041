import Verif.Props.C32

/-!
# C33: charges enter only the charge-dependent terms
-/

set_option linter.unusedSimpArgs false

open scoped Classical

namespace TadDftd4

open Tensor

section
variable {env : Env} {T : Tables} {ext : Ext} {numbers : Tensor ℕ} {positions charge : Tensor ℝ}
  {p : Param} {d : Disp} {n : ℕ} {B : Shape} {R : RefCfg} {cn : Spec.CN} {eeq : Spec.EEQ}
  {P : Spec.D4Par}

theorem calculate_congr {o : CalcOpts} {charge' : Tensor ℝ}
    {eeq' : Tensor ℕ → Tensor ℝ → Tensor ℝ → ℝ → Tensor ℝ}
    (hc : d.charges ext numbers positions charge (o.cutoff.getD {}) o.q =
      d.charges { ext with eeq := eeq' } numbers positions charge' (o.cutoff.getD {}) o.q) :
    d.calculate env T ext numbers positions charge p o =
      d.calculate env T { ext with eeq := eeq' } numbers positions charge' p o := by
  have hm : d.getModel env T { ext with eeq := eeq' } numbers = d.getModel env T ext numbers := rfl
  unfold Disp.calculate
  simp only [hc, hm]

/-- With given charges the total charge and the charge model have no effect at all, on results and
exceptions of any `Disp` object. -/
theorem C33_given {o : CalcOpts} {q : Tensor ℝ} (hq : o.q = some q) (charge' : Tensor ℝ)
    (eeq' : Tensor ℕ → Tensor ℝ → Tensor ℝ → ℝ → Tensor ℝ) :
    d.calculate env T ext numbers positions charge p o =
      d.calculate env T { ext with eeq := eeq' } numbers positions charge' p o := by
  refine calculate_congr ?_
  unfold Disp.charges
  rw [hq]
  cases d.terms.any (·.chargeDep) <;> rfl

/-- The same for `dftd4`. -/
theorem C33_given_dftd4 {o : DftOpts} {q : Tensor ℝ} (hq : o.opts.q = some q) (charge' : Tensor ℝ)
    (eeq' : Tensor ℕ → Tensor ℝ → Tensor ℝ → ℝ → Tensor ℝ) :
    dftd4 env T ext numbers positions charge p o =
      dftd4 env T { ext with eeq := eeq' } numbers positions charge' p o := by
  unfold dftd4
  have hn : ∀ m mk c k, Disp.new { ext with eeq := eeq' } .base m mk c k =
      Disp.new ext .base m mk c k := by
    intro m mk c k; rfl
  rw [hn]
  cases Disp.new ext .base o.model none (some (o.cnFunction.getD ext.cnD4))
    (some (o.counting.getD ext.erfCount)) with
  | error e => rfl
  | ok d => exact C33_given hq charge' eeq'

/-- Without charge-dependent terms and without given charges, neither the total charge nor the charge
model (which might even raise) has an effect. -/
theorem C33_unused (h : ¬ d.UsesCharges) (o : CalcOpts) (charge' : Tensor ℝ)
    (eeq' : Tensor ℕ → Tensor ℝ → Tensor ℝ → ℝ → Tensor ℝ) :
    d.calculate env T ext numbers positions charge p o =
      d.calculate env T { ext with eeq := eeq' } numbers positions charge' p o := by
  have hd' : d.terms.any (·.chargeDep) = false := by
    rw [Bool.eq_false_iff]
    intro h'
    exact h (by simpa [Disp.UsesCharges] using h')
  refine calculate_congr ?_
  unfold Disp.charges
  rw [hd']
  cases o.q <;> rfl

/-- The classes `DispD3BJ` and `DispD3Zero` never evaluate EEQ charges. -/
theorem C33_d3 {cls : DispClass} (hcls : cls = .d3BJ ∨ cls = .d3Zero) {sel : ModelSel}
    {mk : Option ModelKw} {cf : Option CNFunc} {ct : Option CountFn}
    (hd : Disp.new ext cls sel mk cf ct = .ok d) (o : CalcOpts) (charge' : Tensor ℝ)
    (eeq' : Tensor ℕ → Tensor ℝ → Tensor ℝ → ℝ → Tensor ℝ) :
    d.calculate env T ext numbers positions charge p o =
      d.calculate env T { ext with eeq := eeq' } numbers positions charge' p o := by
  refine C33_unused ?_ o charge' eeq'
  have ht : d.terms = cls.terms := (new_ok hd).1
  rintro ⟨t, h1, h2⟩
  rw [ht] at h1
  rcases hcls with rfl | rfl <;> simp [DispClass.terms] at h1 <;> rcases h1 with rfl | rfl <;> cases h2

/-- Passing the EEQ charges explicitly changes nothing. -/
theorem C33_explicit {o : CalcOpts} (h : d.UsesCharges) (hq : o.q = none)
    (he : (ext.eeq numbers positions charge (o.cutoff.getD {}).cnEeq).err = none) (charge' : Tensor ℝ) :
    d.calculate env T ext numbers positions charge' p
        { o with q := some (ext.eeq numbers positions charge (o.cutoff.getD {}).cnEeq) } =
      d.calculate env T ext numbers positions charge p o := by
  have hany : d.terms.any (·.chargeDep) = true := by simpa [Disp.UsesCharges] using h
  have hc : d.charges ext numbers positions charge' (o.cutoff.getD {})
      (some (ext.eeq numbers positions charge (o.cutoff.getD {}).cnEeq)) =
      d.charges ext numbers positions charge (o.cutoff.getD {}) none := by
    unfold Disp.charges
    simp only [hany, check_ok he, bind, Except.bind]
  unfold Disp.calculate
  simp only [hc, hq]

/-- The same for `dftd4`. -/
theorem C33_explicit_dftd4 {o : DftOpts} (hq : o.opts.q = none)
    (he : (ext.eeq numbers positions charge (o.opts.cutoff.getD {}).cnEeq).err = none)
    (charge' : Tensor ℝ) :
    dftd4 env T ext numbers positions charge' p { o with opts := { o.opts with
        q := some (ext.eeq numbers positions charge (o.opts.cutoff.getD {}).cnEeq) } } =
      dftd4 env T ext numbers positions charge p o := by
  unfold dftd4
  dsimp only
  cases Disp.new ext .base o.model none (some (o.cnFunction.getD ext.cnD4))
    (some (o.counting.getD ext.erfCount)) with
  | error e => rfl
  | ok d =>
    refine C33_explicit ?_ hq he charge'
    exact ⟨⟨.twoBody, o.damping, true⟩, by simp [Disp.register], rfl⟩

/-- The part of the `dftd4` energy that stems from the three-body term (the difference to `s9 = 0`)
does not depend on the charges, whether given or computed from the total charge. -/
theorem C33_threebody {o : DftOpts} {charge' : Tensor ℝ} {q' : Option (Tensor ℝ)}
    (h : Call env T ext numbers positions charge p o n B R cn eeq P)
    (h' : Call env T ext numbers positions charge' p { o with opts := { o.opts with q := q' } }
      n B R cn eeq P) :
    ∃ e e0 e' e0', dftd4 env T ext numbers positions charge p o = .ok e ∧
      dftd4 env T ext numbers positions charge { p with s9 := .val 0 } o = .ok e0 ∧
      dftd4 env T ext numbers positions charge' p { o with opts := { o.opts with q := q' } } = .ok e' ∧
      dftd4 env T ext numbers positions charge' { p with s9 := .val 0 }
        { o with opts := { o.opts with q := q' } } = .ok e0' ∧
      ∀ b, InB B b → ∀ i < n,
        e.get (i :: b) - e0.get (i :: b) = e'.get (i :: b) - e0'.get (i :: b) := by
  have h0 : Call env T ext numbers positions charge { p with s9 := .val 0 } o n B R cn eeq
      { P with s9 := 0 } := { h with par := { h.par with s9 := Or.inl rfl } }
  have h0' : Call env T ext numbers positions charge' { p with s9 := .val 0 }
      { o with opts := { o.opts with q := q' } } n B R cn eeq { P with s9 := 0 } :=
    { h' with par := { h'.par with s9 := Or.inl rfl } }
  obtain ⟨e, he, -, hv⟩ := h.eval
  obtain ⟨e0, he0, -, hv0⟩ := h0.eval
  obtain ⟨e', he', -, hv'⟩ := h'.eval
  obtain ⟨e0', he0', -, hv0'⟩ := h0'.eval
  refine ⟨e, e0, e', e0', he, he0, he', he0', fun b hb i hi => ?_⟩
  rw [hv b hb ⟨i, hi⟩, hv0 b hb ⟨i, hi⟩, hv' b hb ⟨i, hi⟩, hv0' b hb ⟨i, hi⟩]
  have key : ∀ (M : Spec.Mol n) (c : Cutoff), Spec.energy (d4Computed env T R P c) M ⟨i, hi⟩ -
      Spec.energy (d4Computed env T R { P with s9 := 0 } c) M ⟨i, hi⟩ =
      Spec.e3 (d4Computed env T R P c) M (Spec.c9 (d4Computed env T R P c) M.neutral)
        (Spec.R0 (d4Computed env T R P c) M) ⟨i, hi⟩ := by
    intro M c
    have hz : ∀ C Rd, Spec.e3 (d4Computed env T R { P with s9 := 0 } c) M C Rd ⟨i, hi⟩ = 0 := by
      intro C Rd
      unfold Spec.e3 Spec.tripleTerm
      simp [d4Computed, Spec.d4Settings]
    have h2 : Spec.e2 (d4Computed env T R { P with s9 := 0 } c) M M.atom ⟨i, hi⟩ =
        Spec.e2 (d4Computed env T R P c) M M.atom ⟨i, hi⟩ := rfl
    unfold Spec.energy
    rw [hz, h2]
    ring
  rw [key, key]
  rfl

end

/-- Given and computed charges of water and hydrogen fluoride. -/
example := C33_threebody (charge' := full [2] (-1)) (q' := some (full [3, 2] 0.1)) Demo.call
  { Demo.call with
    args := { Demo.validArgs with
      charge := ⟨rfl, rfl⟩
      q := by rintro x ⟨⟩; exact ⟨rfl, rfl⟩ }
    model := Demo.call.model, cn := Demo.call.cn, eeq := Demo.call.eeq, damping := rfl
    cut3 := Demo.call.cut3 }

/-- The EEQ charges of the same systems are computed without exception. -/
example := C33_explicit_dftd4 (env := Demo.env) (T := Demo.T) (p := Demo.param) (o := {})
  (charge := Demo.charge) (charge' := Demo.charge) (ext := Demo.ext) (numbers := Demo.numbers)
  (positions := Demo.positions) rfl
  (eeqOfSpec_perSystem (ext := Demo.ext) Demo.eeq rfl 104 3 [2] Demo.numbers Demo.positions Demo.charge
    _ ⟨rfl, rfl⟩ (fun i _ => Demo.numbers_lt i) ⟨rfl, rfl⟩ ⟨rfl, rfl⟩).1.err

/-- `DispD3BJ` objects can be constructed. -/
example : ∃ d, Disp.new Demo.ext .d3BJ = .ok d ∧ ¬ d.UsesCharges := by
  have hk := Demo.keys "d4" (by simp)
  refine ⟨_, by
    simp only [Disp.new, hk, DispClass.allowedModels, bind, Except.bind, defaultCN,
      show hasChar "d4" '3' = false by decide +kernel, show hasChar "d4" '4' = true by decide +kernel]
    rfl, ?_⟩
  rintro ⟨t, h1, h2⟩
  simp [DispClass.terms] at h1
  rcases h1 with rfl | rfl <;> cases h2

/-- Charges given explicitly: total charge and EEQ model are not used. -/
example (eeq' : Tensor ℕ → Tensor ℝ → Tensor ℝ → ℝ → Tensor ℝ) :=
  C33_given (env := Demo.env) (T := Demo.T) (ext := Demo.ext) (d := Demo.dispD4)
    (numbers := Demo.numbers) (positions := Demo.positions) (charge := Demo.charge) (p := Demo.param)
    (o := { q := some (full [3, 2] 0.1) }) rfl (full [2] (-1)) eeq'

example (eeq' : Tensor ℕ → Tensor ℝ → Tensor ℝ → ℝ → Tensor ℝ) :=
  C33_given_dftd4 (env := Demo.env) (T := Demo.T) (ext := Demo.ext)
    (numbers := Demo.numbers) (positions := Demo.positions) (charge := Demo.charge) (p := Demo.param)
    (o := { opts := { q := some (full [3, 2] 0.1) } }) rfl (full [2] (-1)) eeq'

/-- The EEQ charges given explicitly. -/
example := C33_explicit (env := Demo.env) (T := Demo.T) (ext := Demo.ext) (d := Demo.dispD4)
  (numbers := Demo.numbers) (positions := Demo.positions) (charge := Demo.charge) (p := Demo.param)
  (o := {}) ⟨⟨.twoBody, .rational, true⟩, by simp [Demo.dispD4, DispClass.terms], rfl⟩ rfl
  (eeqOfSpec_perSystem (ext := Demo.ext) Demo.eeq rfl 104 3 [2] Demo.numbers Demo.positions Demo.charge
    _ ⟨rfl, rfl⟩ (fun i _ => Demo.numbers_lt i) ⟨rfl, rfl⟩ ⟨rfl, rfl⟩).1.err (full [2] (-1))

/-- The three-body term alone uses no charges. -/
example (eeq' : Tensor ℕ → Tensor ℝ → Tensor ℝ → ℝ → Tensor ℝ) :=
  C33_unused (env := Demo.env) (T := Demo.T) (ext := Demo.ext)
    (d := { Demo.dispD4 with terms := [⟨.d4ATMApprox, .zero, false⟩] })
    (numbers := Demo.numbers) (positions := Demo.positions) (charge := Demo.charge) (p := Demo.param)
    (by simp [Disp.UsesCharges]) {} (full [2] (-1)) eeq'

example (eeq' : Tensor ℕ → Tensor ℝ → Tensor ℝ → ℝ → Tensor ℝ) : ∃ d, Disp.new Demo.ext .d3BJ =
    .ok d ∧ ∀ o, d.calculate Demo.env Demo.T Demo.ext Demo.numbers Demo.positions Demo.charge
      Demo.param o = d.calculate Demo.env Demo.T { Demo.ext with eeq := eeq' } Demo.numbers
        Demo.positions (full [2] (-1)) Demo.param o := by
  have hk := Demo.keys "d4" (by simp)
  have h : ∃ d, Disp.new Demo.ext .d3BJ = .ok d := by
    simp only [Disp.new, hk, DispClass.allowedModels, bind, Except.bind, defaultCN,
      show hasChar "d4" '3' = false by decide +kernel, show hasChar "d4" '4' = true by decide +kernel]
    exact ⟨_, rfl⟩
  obtain ⟨d, hd⟩ := h
  exact ⟨d, hd, fun o => C33_d3 (Or.inl rfl) hd o _ _⟩

end TadDftd4
