import Verif.Lemmas.Runs
import Verif.Lemmas.Setup
import Verif.Props.AnyDisp

/-!
# C99: radii given as arguments

`dftd4` and `Disp.calculate` have the arguments `rcov`, `r4r2` and `rvdw` (`disp.py:51-53`, `dispersion/base.py:294-296`).
-/

open scoped Classical

namespace TadDftd4

open Tensor

namespace Spec

/-- The tables with other values of r4/r2 and other van der Waals radii. -/
def withRadii (T : Tables) (r : ℕ → ℝ) (v : ℕ → ℕ → ℝ) : Tables := { T with r4r2 := r, vdw := v }

/-- The given values are those of the elements. -/
structure FromTables (r : ℕ → ℝ) (v : ℕ → ℕ → ℝ) (numbers : Tensor ℕ) (x y : Tensor ℝ) (n : ℕ) (B : Shape) : Prop where
  r4r2 : ∀ b, InB B b → ∀ i < n, x.get (i :: b) = r (numbers.get (i :: b))
  rvdw : ∀ b, InB B b → ∀ i < n, ∀ j < n, y.get (j :: i :: b) = v (numbers.get (i :: b)) (numbers.get (j :: b))

end Spec

section
variable {env : Env} {T : Tables} {ext : Ext}

/-- A term whose damping does not use van der Waals radii. -/
def Term.NoVdw (t : Term) : Prop :=
  (t.cls = .twoBody → t.damping = .rational ∨ t.damping = .op) ∧ t.cls ≠ .d3ATM

/-- **C99**: covalent radii of the right shape have no effect, whatever they are. -/
theorem C99_rcov (d : Disp) {numbers : Tensor ℕ} (positions charge : Tensor ℝ) (p : Param) (o : CalcOpts) {x : Tensor ℝ}
    (hx : x.shape = numbers.shape) :
    d.calculate env T ext numbers positions charge p { o with rcov := some x } =
      d.calculate env T ext numbers positions charge p { o with rcov := none } := by
  unfold Disp.calculate
  simp [hx]

theorem C99_rcov_dftd4 {numbers : Tensor ℕ} (positions charge : Tensor ℝ) (p : Param) (o : DftOpts) {x : Tensor ℝ}
    (hx : x.shape = numbers.shape) :
    dftd4 env T ext numbers positions charge p { o with opts := { o.opts with rcov := some x } } =
      dftd4 env T ext numbers positions charge p { o with opts := { o.opts with rcov := none } } := by
  unfold dftd4
  simp only [C99_rcov _ positions charge p o.opts hx]

/-- Claim: for some system the energies depend on the covalent radii that are passed. -/
def Spec.RcovUsed : Prop :=
  ∃ (env : Env) (T : Tables) (ext : Ext) (numbers : Tensor ℕ) (positions charge x x' : Tensor ℝ) (p : Param) (o : DftOpts),
    x.shape = numbers.shape ∧ x'.shape = numbers.shape ∧
    dftd4 env T ext numbers positions charge p { o with opts := { o.opts with rcov := some x } } ≠
      dftd4 env T ext numbers positions charge p { o with opts := { o.opts with rcov := some x' } }

/-- **C99**, the claim that covalent radii given as argument are used is false. -/
theorem C99_rcov_false : ¬ Spec.RcovUsed := by
  rintro ⟨env, T, ext, numbers, positions, charge, x, x', p, o, hx, hx', h⟩
  exact h ((C99_rcov_dftd4 positions charge p o hx).trans (C99_rcov_dftd4 positions charge p o hx').symm)

/-- **C99**: van der Waals radii have no effect on objects none of whose terms uses them. -/
theorem C99_rvdw_ignored (d : Disp) (hd : ∀ t ∈ d.terms, t.NoVdw) {numbers : Tensor ℕ} (positions charge : Tensor ℝ)
    (p : Param) (o : CalcOpts) {x x' : Tensor ℝ} (hx : x.err = none) (hs : x.shape.tail = numbers.shape)
    (hx' : x'.err = none) (hs' : x'.shape.tail = numbers.shape) :
    d.calculate env T ext numbers positions charge p { o with rvdw := some x } =
      d.calculate env T ext numbers positions charge p { o with rvdw := some x' } := by
  have ht : ∀ t ∈ d.terms, ∀ cnT m q r4 cut, t.calculate env T numbers positions p cnT m q r4 x cut =
      t.calculate env T numbers positions p cnT m q r4 x' cut := by
    intro t ht cnT m q r4 cut
    obtain ⟨h2, h3⟩ := hd t ht
    unfold Term.calculate
    cases hc : t.cls with
    | twoBody =>
      have hr : ∀ y, radii2 t.damping r4 (some y) = qqT r4 := by
        intro y
        rcases h2 hc with h | h <;> rw [h] <;> rfl
      simp only [dispersion2, hr]
    | d3ATM => exact absurd hc h3
    | _ => simp only [Term.radii, hc]
  have hsum : ∀ cnT m q r4 cut, sumTerms env T d.terms numbers positions p cnT m q r4 x cut =
      sumTerms env T d.terms numbers positions p cnT m q r4 x' cut := by
    intro cnT m q r4 cut
    unfold sumTerms
    generalize full numbers.shape (0 : ℝ) = z
    revert ht z
    generalize d.terms = l
    intro ht
    clear hd
    induction l with
    | nil => intro z; rfl
    | cons t l ih =>
      intro z
      rw [List.foldl_cons, List.foldl_cons, ht t List.mem_cons_self]
      exact ih (fun s hs => ht s (List.mem_cons_of_mem _ hs)) _
  unfold Disp.calculate
  simp only [Option.getD_some, check_ok hx, check_ok hx', hs, hs', hsum, bind, Except.bind]

/-- **C99**: `dftd4` with rational or optimised-power damping ignores van der Waals radii, also if they have the wrong
number of columns. -/
theorem C99_rvdw_dftd4 {numbers : Tensor ℕ} (positions charge : Tensor ℝ) (p : Param) (o : DftOpts)
    (hd : o.damping = .rational ∨ o.damping = .op) {x x' : Tensor ℝ} (hx : x.err = none)
    (hs : x.shape.tail = numbers.shape) (hx' : x'.err = none) (hs' : x'.shape.tail = numbers.shape) :
    dftd4 env T ext numbers positions charge p { o with opts := { o.opts with rvdw := some x } } =
      dftd4 env T ext numbers positions charge p { o with opts := { o.opts with rvdw := some x' } } := by
  unfold dftd4
  cases hn : Disp.new ext .base o.model none (some (o.cnFunction.getD ext.cnD4)) (some (o.counting.getD ext.erfCount)) with
  | error e => simp [bind, Except.bind, hn]
  | ok d =>
    simp only [bind, Except.bind, hn]
    refine C99_rvdw_ignored _ ?_ positions charge p o.opts hx hs hx' hs'
    have ht : d.terms = [] := (new_ok hn).1
    intro t h
    simp only [Disp.register, ht, List.nil_append, List.cons_append, List.mem_cons, List.not_mem_nil, or_false] at h
    rcases h with rfl | rfl
    · exact ⟨fun _ => hd, by simp⟩
    · exact ⟨by simp, by simp⟩

/-- **C99**: given values of r4/r2 and van der Waals radii act as if the tables contained them. -/
theorem C99_radii {d : Disp} {numbers : Tensor ℕ} {positions charge : Tensor ℝ} {p : Param} {o : CalcOpts} {n : ℕ}
    {B : Shape} {R : RefCfg} {cn : Spec.CN} {eeq : Spec.EEQ} {x y : Tensor ℝ} {r : ℕ → ℝ} {v : ℕ → ℕ → ℝ}
    (h : d.Runs env T ext numbers positions charge p { o with r4r2 := some x, rvdw := some y } n B R cn eeq)
    (hx : Spec.FromTables r v numbers x y n B) :
    ∃ e e', d.calculate env T ext numbers positions charge p { o with r4r2 := some x, rvdw := some y } = .ok e ∧
      d.calculate env (Spec.withRadii T r v) ext numbers positions charge p { o with r4r2 := none, rvdw := none } = .ok e' ∧
      e.shape = e'.shape ∧ ∀ b, InB B b → ∀ i < n, e.get (i :: b) = e'.get (i :: b) := by
  obtain ⟨S, hS⟩ := h.settings
  have h' : d.Runs env (Spec.withRadii T r v) ext numbers positions charge p { o with r4r2 := none, rvdw := none } n B R
      cn eeq := by
    obtain ⟨m, hm, hf⟩ := h.model
    have fits : (Spec.withRadii T r v).Fits := { h.args.fits with }
    refine ⟨{ h.args with
      fits := fits
      r4r2 := fun _ h => by simp at h
      rvdw := fun _ h => by simp at h }, ⟨m, hm, { hf with good := { hf.good with fits := fits } }⟩, h.cn, h.eeq, h.q, h.par⟩
  obtain ⟨e, h1, h2, h3⟩ := h.eval hS
  obtain ⟨e', h1', h2', h3'⟩ := h'.eval (S := S) (fun t ht => { hS t ht with })
  refine ⟨e, e', h1, h1', h2.shape.trans h2'.shape.symm, fun b hb i hi => ?_⟩
  have hM : system T cn eeq numbers positions charge { o with r4r2 := some x, rvdw := some y } n b =
      system (Spec.withRadii T r v) cn eeq numbers positions charge { o with r4r2 := none, rvdw := none } n b := by
    unfold system
    simp only [Spec.Mol.mk.injEq, true_and]
    refine ⟨?_, ?_⟩
    · funext i; exact hx.r4r2 b hb i i.2
    · funext i j; exact hx.rvdw b hb i i.2 j j.2
  rw [h3 b hb ⟨i, hi⟩, h3' b hb ⟨i, hi⟩, hM]

end

/-! ## Examples -/

namespace Demo

/-- Covalent radii one for all atoms, or all negative. -/
example := C99_rcov_dftd4 (env := env) (T := T) (ext := ext) (numbers := numbers) positions charge param {}
  (x := full [3, 2] 1) rfl

example := C99_rcov (env := env) (T := T) (ext := ext) (numbers := numbers) (dispOf .d4) positions charge paramAll {}
  (x := full [3, 2] (-1)) rfl

/-- Van der Waals radii for three and for seven partners. -/
example := C99_rvdw_dftd4 (env := env) (T := T) (ext := ext) (numbers := numbers) positions charge param {} (Or.inl rfl)
  (x := full [3, 3, 2] 4) (x' := full [7, 3, 2] 5) rfl rfl rfl rfl

example := C99_rvdw_ignored (env := env) (T := T) (ext := ext) (numbers := numbers) (dispOf .d4)
  (by intro t ht
      have ht' : t ∈ DispClass.d4.terms := ht
      simp only [DispClass.terms, List.mem_cons, List.not_mem_nil, or_false] at ht'
      rcases ht' with rfl | rfl
      · exact ⟨fun _ => Or.inl rfl, by simp⟩
      · exact ⟨by simp, by simp⟩)
  positions charge paramAll {} (x := full [3, 3, 2] 4) (x' := full [3, 3, 2] 5) rfl rfl rfl rfl

/-- Every class of dispersion objects, with other values of r4/r2 (twice the atomic number) and van der Waals radii (4). -/
example (cls : DispClass) := C99_radii (env := env) (T := T) (ext := ext) (d := dispOf cls) (numbers := numbers)
  (positions := positions) (charge := charge) (p := paramAll) (o := {}) (x := numbers.map fun Z : ℕ => 2 * (Z : ℝ))
  (y := full [3, 3, 2] 4) (r := fun Z => 2 * Z) (v := fun _ _ => 4)
  { dispOf_runs cls validArgs with
    args := { validArgs with
      r4r2 := fun x h => by
        obtain rfl := Option.some.inj h
        exact ⟨rfl, rfl⟩
      rvdw := fun x h => by
        obtain rfl := Option.some.inj h
        exact ⟨rfl, rfl⟩ } }
  ⟨fun _ _ _ _ => rfl, fun _ _ _ _ _ _ => rfl⟩

end Demo

end TadDftd4
