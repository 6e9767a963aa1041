import Verif.Lemmas.Setup

/-!
# C06: valid input never raises and gives an energy per atom
-/

open scoped Classical

namespace TadDftd4

open Tensor

/-- A parameter dictionary with numeric `a1`, `a2`, any other known keys with numeric values, and no
unknown key. -/
structure Param.Numeric (p : Param) : Prop where
  extra : p.extra = []
  a1 : ∃ x, p.a1 = .val x
  a2 : ∃ x, p.a2 = .val x
  s6 : p.s6 ≠ .none
  s8 : p.s8 ≠ .none
  s9 : p.s9 ≠ .none
  s10 : p.s10 ≠ .none
  alp : p.alp ≠ .none

/-- Value of a dictionary entry or default. -/
def PVal.valueOr (d : ℝ) : PVal → ℝ
  | .val x => x
  | _ => d

theorem PVal.is_valueOr {v : PVal} (h : v ≠ .none) (d : ℝ) : v.Is d (v.valueOr d) := by
  cases v with
  | absent => exact Or.inr ⟨rfl, rfl⟩
  | none => exact absurd rfl h
  | val x => exact Or.inl rfl

section
variable {env : Env} {T : Tables} {ext : Ext} {numbers : Tensor ℕ}
  {positions charge : Tensor ℝ} {p : Param} {o : DftOpts} {n : ℕ} {B : Shape}
  {R : RefCfg} {cn : Spec.CN} {eeq : Spec.EEQ}

theorem Param.Numeric.settings (hp : p.Numeric) {cutoff : Cutoff} (hc : 0 ≤ cutoff.disp3) :
    ∃ S, DftPar env T R p cutoff .rational S := by
  obtain ⟨a1, ha1⟩ := hp.a1
  obtain ⟨a2, ha2⟩ := hp.a2
  have k1 : p.kw.a1 = some a1 := by simp [Param.kw, PVal.kw, ha1]
  have k2 : p.kw.a2 = some a2 := by simp [Param.kw, PVal.kw, ha2]
  have h6 : Damping.point env .rational 6 false p.kw = .ok (ratF a1 a2 6) := by
    have : p.kw.s6 ≠ none := by
      have := hp.s6
      unfold Param.kw PVal.kw
      cases h : p.s6 <;> simp_all
    simp [Damping.point, this, Damping.required, Damping.pointF, k1, k2]
  obtain ⟨f8, h8⟩ : ∃ f8, Damping.point env .rational 8 false p.kw = .ok f8 := by
    unfold Damping.point
    by_cases h : p.kw.s8 = none ∧ p.kw.rs8 = none
    · exact ⟨_, by simp [h]; rfl⟩
    · exact ⟨_, by simp [h, Damping.required, Damping.pointF, k1, k2]; rfl⟩
  have h10 : ∀ x, p.s10 = .val x → Damping.point env .rational 10 false p.kw =
      .ok (ratF a1 a2 10) := by
    intro x hx
    simp [Damping.point, Damping.required, Damping.pointF, Param.kw, PVal.kw, ha1, ha2, hx]
  refine ⟨{ ε := env.eps, c6 := c6At env T R, c9x := fun _ _ _ => 0, f6 := ratF a1 a2 6, f8 := f8,
            f10 := ratF a1 a2 10, f9 := zeroF env 1 (p.alp.valueOr Defaults.alp / 3),
            radius := .r4r2, s6 := p.s6.valueOr Defaults.s6, s8 := p.s8.valueOr Defaults.s8,
            s10 := p.s10.valueOr 0, s9 := p.s9.valueOr Defaults.s9, a1 := a1, a2 := a2, rs9 := 1,
            cut2 := cutoff.disp2, cut3 := cutoff.disp3 },
    rfl, rfl, ⟨hp.extra, h6, h8, PVal.is_valueOr hp.s6 _, PVal.is_valueOr hp.s8 _, ?_, rfl⟩, rfl, rfl,
    hc, PVal.is_valueOr hp.s9 _, Or.inl ha1, Or.inl ha2, _, PVal.is_valueOr hp.alp _, rfl⟩
  have := hp.s10
  cases h : p.s10 with
  | absent => exact Or.inl ⟨h, rfl⟩
  | none => exact absurd h this
  | val x => exact Or.inr ⟨h, h10 x h⟩

/-- `dftd4` raises nothing and returns one energy per atom of every system: consistent shapes,
covered atomic numbers, numeric parameters, any model with usable settings. -/
theorem C06_no_exception (hk : ext.CasefoldKeys)
    (hv : ValidArgs T numbers positions charge o.opts n B)
    (hs : o.model.Gives env T ext numbers R n B)
    (hcn : CNFunc.PerSystem (o.cnFunction.getD ext.cnD4) (some (o.counting.getD ext.erfCount)) T.nZ
      cn)
    (heeq : ext.EEQPerSystem T.nZ eeq) (hd : o.damping = .rational) (hp : p.Numeric)
    (hc : 0 ≤ (o.opts.cutoff.getD {}).disp3) :
    ∃ e, dftd4 env T ext numbers positions charge p o = .ok e ∧ e.err = none ∧
      e.shape = numbers.shape := by
  obtain ⟨S, hS⟩ := hp.settings (env := env) (T := T) (R := R) hc
  obtain ⟨e, h1, h2, -⟩ := dftd4_eval hk hv hs hcn heeq (by rw [hd]; exact hS)
  exact ⟨e, h1, h2.err, by rw [h2.shape, hv.num.shape]⟩

/-- With the shipped tables, model key "d4" or "d4s" (in any capitalisation that `casefold` maps to
them), a shape `(..., n)` and atomic numbers up to 103. -/
theorem C06_no_exception_shipped {nExt : ℕ} {gam zeff : ℕ → ℝ} {vdw : ℕ → ℕ → ℝ} {key : String}
    (hext : ExtTables nExt gam zeff) (hk : ext.CasefoldKeys)
    (hkey : ext.casefold key = "d4" ∨ ext.casefold key = "d4s")
    (hn : numbers.err = none) (hns : numbers.shape = n :: B)
    (hZ : ∀ i, InB numbers.shape i → numbers.get i ≤ 103)
    (hp : positions.err = none) (hps : positions.shape = 3 :: numbers.shape)
    (hch : charge.err = none) (hchs : charge.shape = B)
    (hcn : CNFunc.PerSystem ext.cnD4 (some ext.erfCount) 104 cn) (heeq : ext.EEQPerSystem 104 eeq)
    (hpar : p.Numeric) :
    ∃ e, dftd4 env (shipped nExt gam zeff vdw) ext numbers positions charge p
        { model := .key key } = .ok e ∧ e.err = none ∧ e.shape = numbers.shape := by
  have hv : ValidArgs (shipped nExt gam zeff vdw) numbers positions charge {} n B :=
    { num := ⟨hn, hns⟩
      pos := ⟨hp, by rw [hps, hns]⟩
      lt := fun i hi => Nat.lt_succ_of_le (hZ i hi)
      fits := shipped_fits hext
      charge := ⟨hch, hchs⟩
      q := fun _ h => by simp at h
      rcov := fun _ h => by simp at h
      r4r2 := fun _ h => by simp at h
      rvdw := fun _ h => by simp at h }
  rcases hkey with hkey | hkey
  · exact C06_no_exception hk hv (Or.inl ⟨key, rfl, hkey, rfl⟩) hcn heeq rfl hpar
      (by norm_num [Defaults.disp3Cutoff])
  · exact C06_no_exception hk hv (Or.inr (Or.inl ⟨key, rfl, hkey, rfl⟩)) hcn heeq rfl hpar
      (by norm_num [Defaults.disp3Cutoff])

end

/-- "D4S" (upper case) for the batch of water and hydrogen fluoride, parameters without `s8`. -/
example : ∃ e, dftd4 Demo.env Demo.T Demo.ext Demo.numbers Demo.positions Demo.charge
    { a1 := .val 0.4, a2 := .val 5, s10 := .val 1 } { model := .key "D4S" } = .ok e ∧
    e.err = none ∧ e.shape = [3, 2] :=
  C06_no_exception_shipped (n := 3) (B := [2]) Demo.extTables Demo.keys (Or.inr rfl) rfl rfl
    (fun i _ => Nat.le_of_lt_succ (Demo.numbers_lt i)) rfl rfl rfl rfl
    (CNFunc.ofSpec_perSystem _ _ _) (eeqOfSpec_perSystem Demo.eeq rfl _)
    ⟨rfl, ⟨_, rfl⟩, ⟨_, rfl⟩, by simp, by simp, by simp, by simp, by simp⟩

example := C06_no_exception (env := Demo.env) (o := {}) (p := Demo.param) Demo.keys Demo.call.args
  Demo.call.model Demo.call.cn Demo.call.eeq rfl
  ⟨rfl, ⟨_, rfl⟩, ⟨_, rfl⟩, by simp [Demo.param], by simp [Demo.param], by simp [Demo.param],
    by simp [Demo.param], by simp [Demo.param]⟩ Demo.call.cut3

end TadDftd4
