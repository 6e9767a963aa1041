import Verif.Lemmas.Setup

/-!
# C01: `dftd4` returns the documented DFT-D4 energy

Specification: `Spec/Energy.lean` (`energy`), `Spec/C6.lean` (`c6`), `Spec/D4.lean` (`d4Settings`).
The three-body cutoff is the one the code applies (two of the three sides, see C10).
-/

open scoped Classical

namespace TadDftd4

open Tensor

variable {env : Env} {T : Tables} {ext : Ext} {numbers : Tensor ℕ} {positions charge : Tensor ℝ}
  {p : Param} {o : DftOpts} {n : ℕ} {B : Shape} {R : RefCfg} {cn : Spec.CN} {eeq : Spec.EEQ}
  {P : Spec.D4Par}

/-- For every batch of systems and every atom, `dftd4` returns the specified energy. -/
theorem C01_dftd4_energy (h : Call env T ext numbers positions charge p o n B R cn eeq P)
    (hfl : env.fl = id) (hT : T.Physical R.rq) (hgc : 0 < R.gc) :
    ∃ e, dftd4 env T ext numbers positions charge p o = .ok e ∧ e.Ok (n :: B) ∧
      ∀ b, InB B b → ∀ i : Fin n, e.get (i.1 :: b) =
        Spec.energy (Spec.d4Settings (R.spec T env.eps) env.eps P (o.opts.cutoff.getD {}).disp2
          (o.opts.cutoff.getD {}).disp3) (system T cn eeq numbers positions charge o.opts n b) i := by
  obtain ⟨e, h1, h2, h3⟩ := h.eval
  refine ⟨e, h1, h2, fun b hb i => ?_⟩
  rw [h3 b hb i]
  exact energy_d4Settings hfl hT hgc (h.args.Z_lt hb) i

/-- With default options and the shipped tables: the settings written out. -/
theorem C01_dftd4_energy_default {nExt : ℕ} {gam zeff : ℕ → ℝ} {vdw : ℕ → ℕ → ℝ}
    (hext : ExtTables nExt gam zeff)
    (h : Call env (shipped nExt gam zeff vdw) ext numbers positions charge p {} n B .d4 cn eeq P)
    (hfl : env.fl = id) :
    ∃ e, dftd4 env (shipped nExt gam zeff vdw) ext numbers positions charge p = .ok e ∧
      e.Ok (n :: B) ∧ ∀ b, InB B b → ∀ i : Fin n, e.get (i.1 :: b) =
        Spec.energy (Spec.d4Settings
          { T := shipped nExt gam zeff vdw
            qref := fun Z r => at2 Data.eeqQ Z r / 10 ^ 14
            qsec := fun Z r => at2 Data.eeqH Z r / 10 ^ 14
            ga := 3
            gc := 2
            wf := fun _ _ => 6
            quad := fun w => trapzWeights.getD w 0
            ε := env.eps } env.eps P 60 40)
          { Z := elements numbers n b
            pos := coords positions n b
            cn := cn n (elements numbers n b) (coords positions n b)
            q := eeq n 25 (elements numbers n b) (coords positions n b) (charge.get b)
            Q := fun i => (shipped nExt gam zeff vdw).r4r2 (elements numbers n b i)
            rvdw := fun i j => vdw (elements numbers n b i) (elements numbers n b j) } i := by
  obtain ⟨e, h1, h2, h3⟩ := C01_dftd4_energy h hfl (shipped_physical hext (Or.inl rfl))
    (by norm_num [RefCfg.d4])
  refine ⟨e, h1, h2, fun b hb i => ?_⟩
  rw [h3 b hb i]
  simp only [RefCfg.spec, RefCfg.d4, Option.getD_none, Defaults.disp2Cutoff, Defaults.disp3Cutoff,
    system, Defaults.cnEeqCutoff]
  rfl

/-- If no distance, radius or C9 coefficient is below the regularisation threshold, the energy is the
textbook one: Euclidean distances and plain square roots. -/
theorem C01_dftd4_textbook (h : Call env T ext numbers positions charge p o n B R cn eeq P)
    (hfl : env.fl = id) (hT : T.Physical R.rq) (hgc : 0 < R.gc) :
    ∃ e, dftd4 env T ext numbers positions charge p o = .ok e ∧
      ∀ b, InB B b → Spec.Regular (Spec.d4Settings (R.spec T env.eps) env.eps P
          (o.opts.cutoff.getD {}).disp2 (o.opts.cutoff.getD {}).disp3)
          (system T cn eeq numbers positions charge o.opts n b) →
        ∀ i : Fin n, e.get (i.1 :: b) =
          Spec.energy (Spec.d4Settings (R.spec T env.eps) 0 P (o.opts.cutoff.getD {}).disp2
            (o.opts.cutoff.getD {}).disp3)
            (system T cn eeq numbers positions charge o.opts n b) i := by
  obtain ⟨e, h1, -, h3⟩ := C01_dftd4_energy h hfl hT hgc
  refine ⟨e, h1, fun b hb hr i => ?_⟩
  rw [h3 b hb i, Spec.energy_textbook hr]
  rfl

/-- Water and hydrogen fluoride in one batch, D4 and D4S. -/
example : ∃ e, dftd4 Demo.env Demo.T Demo.ext Demo.numbers Demo.positions Demo.charge Demo.param =
    .ok e ∧ e.Ok [3, 2] := by
  obtain ⟨e, h1, h2, -⟩ := C01_dftd4_energy_default Demo.extTables Demo.call rfl
  exact ⟨e, h1, h2⟩

example : ∃ e, dftd4 Demo.env Demo.T Demo.ext Demo.numbers Demo.positions Demo.charge Demo.param
    { model := .key "d4s" } = .ok e ∧ e.Ok [3, 2] := by
  obtain ⟨e, h1, h2, -⟩ := C01_dftd4_energy Demo.callS rfl Demo.physical
    (by norm_num [RefCfg.d4s])
  exact ⟨e, h1, h2⟩

example := C01_dftd4_textbook Demo.call rfl Demo.physical (by norm_num [RefCfg.d4])

end TadDftd4
