import Verif.Lemmas.ParamTensor
import Verif.Props.AnyDisp
import Verif.Props.C16Pos

/-!
# C88: damping parameters given as tensors

The entries of a parameter dictionary may be tensors. Given with trailing dimensions of size one they
hold one value per system of a batch, and every system gets the energies of a calculation with its own
parameters as numbers. A flat tensor does not mean one value per system.
-/

set_option linter.unusedSimpArgs false

open scoped Classical

namespace TadDftd4

open Tensor

/-! ## Specification -/

/-- The parameters of system `b` as numbers: the entry of every tensor for the system, the dimensions
of size one following those of the batch. -/
def TParam.system (p : TParam) (b : Idx) : Param :=
  p.at (0 :: b) (0 :: 0 :: b) (0 :: 0 :: 0 :: b)

/-- The same parameters but for the scaling factors of pair energies, which are those of atom `i`. -/
def TParam.atom (p : TParam) (i : ℕ) (b : Idx) : Param :=
  p.at (i :: b) (0 :: 0 :: b) (0 :: 0 :: 0 :: b)

/-- A number as entry of a dictionary of tensors. -/
def PVal.toT : PVal → TVal
  | .absent => .absent
  | .none => .none
  | .val x => .val (scalar x)

/-- A dictionary of numbers. -/
def Param.toT (p : Param) : TParam where
  a1 := p.a1.toT
  a2 := p.a2.toT
  s6 := p.s6.toT
  rs6 := p.rs6.toT
  s8 := p.s8.toT
  rs8 := p.rs8.toT
  s9 := p.s9.toT
  rs9 := p.rs9.toT
  s10 := p.s10.toT
  alp := p.alp.toT
  bet := p.bet.toT
  doi := p.doi
  extra := p.extra

/-- Every entry has one value per system of a batch with shape `B`: the entries used for pairs of
atoms with two dimensions of size one behind those of the batch, the scaling factors of pair energies
with one, those of the three-body term with three; or a single value. -/
structure TParam.PerSystem (p : TParam) (B : Shape) : Prop where
  s6 : p.s6.PerSystem 1 B
  s8 : p.s8.PerSystem 1 B
  s10 : p.s10.PerSystem 1 B
  a1 : p.a1.PerSystem 2 B
  a2 : p.a2.PerSystem 2 B
  rs6 : p.rs6.PerSystem 2 B
  rs8 : p.rs8.PerSystem 2 B
  rs9 : p.rs9.PerSystem 2 B
  bet : p.bet.PerSystem 2 B
  s9 : p.s9.PerSystem 3 B
  alp : p.alp.PerSystem 3 B

section
variable {env : Env} {T : Tables} {ext : Ext} {d : Disp} {numbers numbers' : Tensor ℕ}
  {positions positions' charge charge' : Tensor ℝ} {p : TParam} {n : ℕ} {B : Shape} {R : RefCfg}
  {cn : Spec.CN} {eeq : Spec.EEQ}

/-- Shapes of the terms from those of the dictionary. Two-body terms with a zero-type damping function
use `alp` for pairs of atoms, the three-body terms for triples, so only a single value fits both. -/
theorem TParam.PerSystem.shapes (h : p.PerSystem B)
    (hz : ∀ t ∈ d.terms, t.cls = .twoBody → t.damping = .zero ∨ t.damping = .mzero →
      p.alp.PerSystem 2 []) (n : ℕ) : ∀ t ∈ d.terms, t.Shapes p n B := fun t ht => {
  s6 := fun _ => h.s6.into (ds := [n]) rfl
  s8 := fun _ => h.s8.into (ds := [n]) rfl
  s10 := fun _ => h.s10.into (ds := [n]) rfl
  damping := fun h2 => ⟨fun _ => h.a1, fun _ => h.a2, fun _ => h.rs6, fun _ => h.rs8, fun _ => h.rs9,
    hz t ht h2, fun _ => h.bet⟩
  s9 := fun _ => h.s9
  alp := fun _ => h.alp
  a1 := fun _ => h.a1
  a2 := fun _ => h.a2
  rs9 := fun _ => h.rs9 }

theorem TParam.PerSystem.atom_eq (h : p.PerSystem B) (i : ℕ) (b : Idx) : p.atom i b = p.system b := by
  have e : ∀ {v : TVal}, v.PerSystem 1 B → v.rd (i :: b) = v.rd (0 :: b) := fun h =>
    h.rd (i := [i]) (j := [0]) rfl rfl b
  simp only [TParam.atom, TParam.system, TParam.at, e h.s6, e h.s8, e h.s10]

/-! ## Theorems -/

/-- One value per system (every class of dispersion object): every system of the batch has the
energies of the calculation with its own parameters as numbers. -/
theorem C88_systems {o : CalcOpts} {b₀ : Idx} (h : d.Runs env T ext numbers positions charge (p.system b₀) o n B R cn eeq)
    (hp : p.PerSystem B) (hz : ∀ t ∈ d.terms, t.cls = .twoBody → t.damping = .zero ∨ t.damping = .mzero →
      p.alp.PerSystem 2 []) :
    ∃ e, d.calculateT env T ext numbers positions charge p o = .ok e ∧ e.err = none ∧
      e.shape = numbers.shape ∧
      ∀ b, InB B b → ∃ e', d.calculate env T ext numbers positions charge (p.system b) o = .ok e' ∧
        ∀ i < n, e.get (i :: b) = e'.get (i :: b) := by
  obtain ⟨e, h1, h2, h3⟩ := calculateT_eq h (hp.shapes hz n)
  refine ⟨e, h1, h2.err, by rw [h2.shape, h.args.num.shape], fun b hb => ?_⟩
  have hu : d.Runs env T ext numbers positions charge (p.system b) o n B R cn eeq :=
    { h with par := fun t ht => (h.par t ht).at _ _ _ }
  obtain ⟨S, hS⟩ := hu.settings
  obtain ⟨e', h4, -⟩ := hu.eval hS
  refine ⟨e', h4, fun i hi => ?_⟩
  obtain ⟨e'', h5, h6⟩ := h3 b i hb hi
  have : p.at (i :: b) (0 :: 0 :: b) (0 :: 0 :: 0 :: b) = p.system b := hp.atom_eq i b
  rw [this, h4] at h5
  rw [h6, Except.ok.inj h5]

/-- The same system alone, or in any other batch, with its own parameters as numbers. -/
theorem C88_alone {o o' : CalcOpts} {B' : Shape} {b₀ b : Idx} (hb : InB B b)
    (h : d.Runs env T ext numbers positions charge (p.system b₀) o n B R cn eeq)
    (h' : d.Runs env T ext numbers' positions' charge' (p.system b) o' n B' R cn eeq)
    (hcut : o.cutoff = o'.cutoff) (hp : p.PerSystem B)
    (hz : ∀ t ∈ d.terms, t.cls = .twoBody → t.damping = .zero ∨ t.damping = .mzero →
      p.alp.PerSystem 2 []) :
    ∃ e e', d.calculateT env T ext numbers positions charge p o = .ok e ∧
      d.calculate env T ext numbers' positions' charge' (p.system b) o' = .ok e' ∧
      ∀ b', InB B' b' → SameEntry n b b' numbers numbers' positions positions' charge charge' o o' →
        ∀ i < n, e.get (i :: b) = e'.get (i :: b') := by
  obtain ⟨e, h1, -, -, h2⟩ := C88_systems h hp hz
  obtain ⟨e1, h3, h4⟩ := h2 b hb
  have hu : d.Runs env T ext numbers positions charge (p.system b) o n B R cn eeq :=
    { h with par := fun t ht => (h.par t ht).at _ _ _ }
  obtain ⟨e2, e', h5, h6, h7⟩ := C05_any_disp hu h' hcut
  rw [h3] at h5
  rw [← Except.ok.inj h5] at h7
  exact ⟨e, e', h1, h6, fun b' hb' hs i hi => (h4 i hi).trans (h7 b b' hb hb' hs i hi)⟩

/-- Scaling factors of pair energies of any shape that fits the energies: every atom has the energy of
the calculation with its own entry as number. -/
theorem C88_atoms {o : CalcOpts} {b₀ : Idx} (h : d.Runs env T ext numbers positions charge (p.system b₀) o n B R cn eeq)
    (hs : ∀ t ∈ d.terms, t.Shapes p n B) :
    ∃ e, d.calculateT env T ext numbers positions charge p o = .ok e ∧ e.err = none ∧
      e.shape = numbers.shape ∧
      ∀ b i, InB B b → i < n →
        ∃ e', d.calculate env T ext numbers positions charge (p.atom i b) o = .ok e' ∧
          e.get (i :: b) = e'.get (i :: b) := by
  obtain ⟨e, h1, h2, h3⟩ := calculateT_eq h hs
  exact ⟨e, h1, h2.err, by rw [h2.shape, h.args.num.shape], h3⟩

theorem PVal.toT_rd (v : PVal) (i : Idx) : v.toT.rd i = v := by cases v <;> rfl

theorem PVal.toT_perSystem (v : PVal) (k : ℕ) (B : Shape) : v.toT.PerSystem k B := by
  intro x hx
  cases v with
  | absent => simp [PVal.toT] at hx
  | none => simp [PVal.toT] at hx
  | val y =>
    simp only [PVal.toT, TVal.val.injEq] at hx
    rw [← hx]
    exact ⟨rfl, Or.inl ⟨0, Nat.zero_le _, rfl⟩⟩

theorem Param.toT_at (q : Param) (i1 i2 i3 : Idx) : q.toT.at i1 i2 i3 = q := by
  simp only [Param.toT, TParam.at, PVal.toT_rd]

/-- Numbers and 0-dimensional tensors are interchangeable. -/
theorem C88_numbers {o : CalcOpts} {q : Param}
    (h : d.Runs env T ext numbers positions charge q o n B R cn eeq) :
    ∃ e e', d.calculateT env T ext numbers positions charge q.toT o = .ok e ∧
      d.calculate env T ext numbers positions charge q o = .ok e' ∧ e.err = none ∧
      e.shape = numbers.shape ∧ ∀ b i, InB B b → i < n → e.get (i :: b) = e'.get (i :: b) := by
  have hp : q.toT.PerSystem B := ⟨q.s6.toT_perSystem _ _, q.s8.toT_perSystem _ _,
    q.s10.toT_perSystem _ _, q.a1.toT_perSystem _ _, q.a2.toT_perSystem _ _, q.rs6.toT_perSystem _ _,
    q.rs8.toT_perSystem _ _, q.rs9.toT_perSystem _ _, q.bet.toT_perSystem _ _,
    q.s9.toT_perSystem _ _, q.alp.toT_perSystem _ _⟩
  have e0 : ∀ b, q.toT.system b = q := fun b => q.toT_at _ _ _
  obtain ⟨e, h1, h2, h3, h4⟩ := C88_systems (b₀ := []) (by rw [e0]; exact h) hp
    fun _ _ _ _ => q.alp.toT_perSystem _ _
  obtain ⟨S, hS⟩ := h.settings
  obtain ⟨e', h5, -⟩ := h.eval hS
  refine ⟨e, e', h1, h5, h2, h3, fun b i hb hi => ?_⟩
  obtain ⟨e'', h6, h7⟩ := h4 b hb
  rw [e0, h5] at h6
  rw [h7 i hi, Except.ok.inj h6]

/-- `dftd4` is `calculate` of an object with the two terms of DFT-D4. -/
theorem dftd4_object {o : DftOpts} {q : Param} {P : Spec.D4Par}
    (h : Call env T ext numbers positions charge q o n B R cn eeq P) :
    ∃ d : Disp, d.terms = [⟨.twoBody, .rational, true⟩, ⟨.d4ATMApprox, .zero, false⟩] ∧
      d.Runs env T ext numbers positions charge q o.opts n B R cn eeq ∧
      (∀ q, dftd4 env T ext numbers positions charge q o =
        d.calculate env T ext numbers positions charge q o.opts) ∧
      ∀ p, dftd4T env T ext numbers positions charge p o =
        d.calculateT env T ext numbers positions charge p o.opts := by
  obtain ⟨d, m, hnew, hts, hf, hct, hm, hgm⟩ := new_getModel (cls := .base) (sel := o.model)
    (f := o.cnFunction.getD ext.cnD4) (counting := some (o.counting.getD ext.erfCount))
    h.keys h.model h.args.num h.args.lt h.args.fits
  have ne : ∀ {v : PVal} {x c y : ℝ}, v = .val x ∨ v = .absent ∧ c = y → v ≠ .none := by
    rintro v x c y (rfl | ⟨rfl, -⟩) <;> simp
  obtain ⟨h6, h8, h10⟩ := h.par.point (env := env)
  refine ⟨{ d with terms := [⟨.twoBody, o.damping, true⟩, ⟨.d4ATMApprox, .zero, false⟩] },
    by simp [h.damping], ⟨h.args, ⟨m, hgm _, hm⟩, ?_, fun _ => h.eeq,
      Or.inr ⟨⟨.twoBody, o.damping, true⟩, by simp, rfl⟩, ?_⟩, fun q => ?_, fun p => ?_⟩
  · rw [hf, hct]; exact h.cn
  · intro t ht
    simp only [List.mem_cons, List.not_mem_nil, or_false] at ht
    rcases ht with rfl | rfl
    · refine ⟨fun _ => ?_, by simp, by simp, by simp, by simp, by simp, by simp, by simp, by simp⟩
      rw [h.damping]
      refine ⟨h.par.extra, ne h.par.s6, by rw [h.par.s8]; simp, ne h.par.s10, ⟨_, h6⟩, ⟨_, h8⟩,
        fun hx => ?_⟩
      rcases h.par.s10 with h' | ⟨h', -⟩
      · exact ⟨_, h10 h'⟩
      · exact absurd h' hx
    · exact ⟨by simp, fun _ => rfl, fun _ => ne h.par.s9, fun _ => ne h.par.alp, fun _ => h.cut3,
        fun _ => by rw [h.par.a1]; simp, fun _ => by rw [h.par.a2]; simp, by simp, by simp⟩
  · unfold dftd4
    rw [hnew]
    simp only [bind, Except.bind, Disp.register, hts, DispClass.terms, List.nil_append,
      List.cons_append]
  · unfold dftd4T
    rw [hnew]
    simp only [bind, Except.bind, Disp.register, hts, DispClass.terms, List.nil_append,
      List.cons_append]

/-- `dftd4` with one set of parameters per system. -/
theorem C88_dftd4 {o : DftOpts} {P : Spec.D4Par} {b₀ : Idx}
    (h : Call env T ext numbers positions charge (p.system b₀) o n B R cn eeq P)
    (hp : p.PerSystem B) :
    ∃ e, dftd4T env T ext numbers positions charge p o = .ok e ∧ e.err = none ∧
      e.shape = numbers.shape ∧
      ∀ b, InB B b → ∃ e', dftd4 env T ext numbers positions charge (p.system b) o = .ok e' ∧
        ∀ i < n, e.get (i :: b) = e'.get (i :: b) := by
  obtain ⟨d, ht, hr, h1, h2⟩ := dftd4_object h
  simp only [h1, h2]
  refine C88_systems hr hp fun t hmem htwo hz => ?_
  rw [ht] at hmem
  simp only [List.mem_cons, List.not_mem_nil, or_false] at hmem
  rcases hmem with rfl | rfl <;> simp at hz htwo

/-- `dftd4` with a tensor of shape `(..., nat)` or `(nat)` as scaling factor: one value per atom. -/
theorem C88_dftd4_atoms {o : DftOpts} {P : Spec.D4Par} {b₀ : Idx}
    (h : Call env T ext numbers positions charge (p.system b₀) o n B R cn eeq P)
    (h6 : p.s6.Into (n :: B)) (h8 : p.s8.Into (n :: B)) (h10 : p.s10.Into (n :: B))
    (ha1 : p.a1.PerSystem 2 B) (ha2 : p.a2.PerSystem 2 B) (h9 : p.s9.PerSystem 3 B)
    (halp : p.alp.PerSystem 3 B) :
    ∃ e, dftd4T env T ext numbers positions charge p o = .ok e ∧ e.err = none ∧
      e.shape = numbers.shape ∧
      ∀ b i, InB B b → i < n →
        ∃ e', dftd4 env T ext numbers positions charge (p.atom i b) o = .ok e' ∧
          e.get (i :: b) = e'.get (i :: b) := by
  obtain ⟨d, ht, hr, h1, h2⟩ := dftd4_object h
  simp only [h1, h2]
  refine C88_atoms hr fun t hmem => ?_
  rw [ht] at hmem
  simp only [List.mem_cons, List.not_mem_nil, or_false] at hmem
  rcases hmem with rfl | rfl
  · exact ⟨fun _ => h6, fun _ => h8, fun _ => h10, fun _ => ⟨fun _ => ha1, fun _ => ha2, by simp,
      by simp, by simp, by simp, by simp⟩, by simp, by simp, by simp, by simp, by simp⟩
  · exact ⟨by simp, by simp, by simp, by simp, fun _ => h9, fun _ => halp, fun _ => ha1, fun _ => ha2,
      by simp⟩

/-- The two-body energy with a scaling factor whose shape does not fit. -/
theorem dispersion2T_raises {c6 r4r2 rvdw x : Tensor ℝ} {d : Damping}
    (h : D2Shapes numbers positions c6 r4r2 rvdw n 3 B)
    (hu : ∀ i1 i2 i3, d.Usable env (p.at i1 i2 i3)) (hd : d.Shapes p B) (h6 : p.s6 = .val x)
    (hx : x.err = none) (hn : ¬ bcompat x.shape (n :: B)) (cutoff : Option ℝ) :
    (dispersion2T env numbers positions p c6 r4r2 (some rvdw) d cutoff).err = some .runtime := by
  choose f6 hf6 using fun i => (hu i i i).f6
  choose f8 hf8 using fun i => (hu i i i).f8
  set cut := cutoff.getD Defaults.disp2Cutoff with hcut
  have hdist := pairDistances_ok (env := env) h.num h.pos
  have hrad := radii2_ok (d := d) h
  have hqq := qqT_ok h.r4r2
  obtain ⟨t6ok, -⟩ := tDampT_pw h (hu [] [] []).extra (hd.into n) hf6 cut
  obtain ⟨t8ok, -⟩ := tDampT_pw h (hu [] [] []).extra (hd.into n) hf8 cut
  have hc8 := h.c6.pw.map2 hqq.pw (· * ·)
  have he6 := (h.c6.pw.map2 t6ok.pw (· * ·)).sumLast
  have h2 : (c6 * qqT r4r2).err = none := hc8.ok.err
  set e6 := (c6 * tDampT env numbers positions p (radii2 d r4r2 (some rvdw)) d cut 6).sumLast with he6'
  set y := p.s8.tensor Defaults.s8 * (c6 * qqT r4r2 *
    tDampT env numbers positions p (radii2 d r4r2 (some rvdw)) d cut 8).sumLast with hy
  have e6s : e6.shape = n :: B := he6.ok.shape
  have e6e : e6.err = none := he6.ok.err
  have hs : (x * e6).err = some .runtime := by
    rw [mul_err, hx, e6e, e6s, bErr, if_neg hn]
    rfl
  have hsum : (x * e6 + y).err = some .runtime := by
    rw [add_err, hs]
    rfl
  have ht : p.s6.tensor Defaults.s6 = x := by rw [h6]; rfl
  cases h10 : p.s10 with
  | absent =>
    have e : dispersion2T env numbers positions p c6 r4r2 (some rvdw) d cutoff =
        (pairDistances env numbers positions).after ((c6 * qqT r4r2).after
          ((radii2 d r4r2 (some rvdw)).after
          ((tDampT env numbers positions p (radii2 d r4r2 (some rvdw)) d cut 6).after
          ((tDampT env numbers positions p (radii2 d r4r2 (some rvdw)) d cut 8).after
          (scalar (-0.5) * (x * e6 + y)))))) := by
      simp [dispersion2T, h10, ht, ← hcut, he6', hy]
    rw [e]
    simp only [after_err, hdist.err, h2, hrad.err, t6ok.err, t8ok.err, orErr_none_left, mul_err,
      scalar_err, hsum]
    rfl
  | none =>
    simp only [dispersion2T, h10, ht, ← hcut, Bool.false_eq_true, if_false, ← he6', ← hy]
    simp only [after_err, hdist.err, h2, hrad.err, t6ok.err, t8ok.err, orErr_none_left, mul_err,
      scalar_err, hsum]
    rfl
  | val z =>
    simp only [dispersion2T, h10, ht, ← hcut, Bool.false_eq_true, if_false, ← he6', ← hy]
    simp only [after_err, hdist.err, h2, hrad.err, t6ok.err, t8ok.err, orErr_none_left, mul_err,
      scalar_err, hsum]
    rfl

/-- `dftd4` with a flat tensor of another length than the number of atoms as `s6`, for example one
value per system of a batch: a RuntimeError. -/
theorem C88_flat_raises {o : DftOpts} {P : Spec.D4Par} {b₀ : Idx} {m : ℕ} {x : Tensor ℝ}
    (h : Call env T ext numbers positions charge (p.system b₀) o n B R cn eeq P)
    (h6 : p.s6 = .val x) (hx : x.Ok [m]) (hm : m ≠ n ∧ m ≠ 1 ∧ n ≠ 1)
    (ha1 : p.a1.PerSystem 2 B) (ha2 : p.a2.PerSystem 2 B) :
    dftd4T env T ext numbers positions charge p o = .error .runtime := by
  obtain ⟨d, ht, hr, -, h2⟩ := dftd4_object h
  obtain ⟨M, qo, c, q, cnT, r4r2, rvdw, hin, hc, hq, -, h3⟩ := calculate_terms hr
  rw [h2, h3, ht]
  set t : Term := ⟨.twoBody, .rational, true⟩
  obtain ⟨c6ok, -⟩ := model_c6_eval hin.model hc (termCharges_optIs (t := t) hq)
  have hsh : D2Shapes numbers positions (M.atomicC6 (M.weights env T (some cnT) (t.charges qo)))
      r4r2 rvdw n 3 B := ⟨hin.num, hin.pos, c6ok, hin.r4r2, hin.rvdw⟩
  have hu := hr.par t (by rw [ht]; exact List.mem_cons_self)
  have herr : (t.calculateT env T numbers positions p cnT M qo r4r2 rvdw
      (o.opts.cutoff.getD {})).err = some .runtime :=
    dispersion2T_raises hsh (fun i1 i2 i3 => (hu.two rfl).at i1 i2 i3)
      ⟨fun _ => ha1, fun _ => ha2, by simp [t], by simp [t], by simp [t], by simp [t], by simp [t]⟩
      h6 hx.err (by
        rw [hx.shape]
        simp [bcompat, dimOk]
        omega) _
  have hs : (sumTermsT env T [t, ⟨.d4ATMApprox, .zero, false⟩] numbers positions p cnT M qo r4r2 rvdw
      (o.opts.cutoff.getD {})).err = some .runtime := by
    simp only [sumTermsT, List.foldl_cons, List.foldl_nil, add_err, herr]
    rfl
  unfold Tensor.check
  rw [hs]

end

/-! ## A flat tensor does not hold one value per system -/

/-- Claim: a flat tensor as `s6` of a batch holds one value per system (if nothing is raised). -/
def FlatIsPerSystem (env : Env) (T : Tables) (ext : Ext) : Prop :=
  ∀ (numbers : Tensor ℕ) (positions charge : Tensor ℝ) (p : Param) (n m : ℕ) (x e : Tensor ℝ),
    numbers.shape = [n, m] → x.Ok [m] →
    dftd4T env T ext numbers positions charge { p.toT with s6 := .val x } = .ok e →
    ∀ b < m, ∃ e', dftd4 env T ext numbers positions charge { p with s6 := .val (x.get [b]) } = .ok e' ∧
      ∀ i < n, e.get [i, b] = e'.get [i, b]

namespace Demo

/-- Two hydrogen molecules. -/
def twoH2 : Tensor ℕ := full [2, 2] 1

noncomputable def twoH2Pos : Tensor ℝ where
  err := none
  shape := [3, 2, 2]
  get
    | [0, 1, _] => 1.4
    | _ => 0

theorem twoH2_args : ValidArgs T twoH2 twoH2Pos charge {} 2 [2] where
  num := ⟨rfl, rfl⟩
  pos := ⟨rfl, rfl⟩
  lt i _ := show 1 < 104 by norm_num
  fits := fits
  charge := ⟨rfl, rfl⟩
  q _ h := by simp at h
  rcov _ h := by simp at h
  r4r2 _ h := by simp at h
  rvdw _ h := by simp at h

/-- Only the `C6` term, with scaling factor `s`. -/
noncomputable def onlyS6 (s : ℝ) : Param where
  a1 := .val 0.4
  a2 := .val 5
  s6 := .val s
  s8 := .val 0
  s9 := .val 0

theorem twoH2_call (s : ℝ) : Call env T ext twoH2 twoH2Pos charge (onlyS6 s) {} 2 [2] .d4 cn eeq
    ⟨s, 0, 0, 0, 0.4, 5, 16⟩ where
  keys := keys
  args := twoH2_args
  model := Or.inl ⟨"d4", rfl, keys "d4" (by simp), rfl⟩
  cn := CNFunc.ofSpec_perSystem _ _ _
  eeq := eeqOfSpec_perSystem eeq rfl _
  damping := rfl
  par := ⟨rfl, rfl, rfl, rfl, Or.inl rfl, Or.inr ⟨rfl, rfl⟩, Or.inl rfl, Or.inr ⟨rfl, rfl⟩⟩
  cut3 := by norm_num [Defaults.disp3Cutoff]

/-- The scaling factors 1 and 0. -/
noncomputable def oneZero : Tensor ℝ where
  err := none
  shape := [2]
  get
    | [0] => 1
    | _ => 0

end Demo

/-- The claim is false: with two systems of two atoms, the first value is used for the first atom of
both systems. -/
theorem C88_flat_false : ¬ FlatIsPerSystem Demo.env Demo.T Demo.ext := by
  intro H
  set p : TParam := { (Demo.onlyS6 0).toT with s6 := .val Demo.oneZero } with hp
  have hsys : p.system [] = Demo.onlyS6 1 := by
    simp [hp, TParam.system, TParam.at, Param.toT, PVal.toT, Demo.onlyS6, TVal.rd, Tensor.rd,
      Demo.oneZero, pick]
  have hatom : p.atom 0 [1] = Demo.onlyS6 1 := by
    simp [hp, TParam.atom, TParam.at, Param.toT, PVal.toT, Demo.onlyS6, TVal.rd, Tensor.rd,
      Demo.oneZero, pick]
  obtain ⟨e, he, -, -, hat⟩ := C88_dftd4_atoms (p := p) (b₀ := []) (by rw [hsys]; exact Demo.twoH2_call 1)
    (by intro x hx; cases hx; exact ⟨rfl, Or.inr rfl, trivial⟩)
    ((PVal.toT_perSystem (.val 0) 1 _).into (ds := [2]) rfl)
    ((PVal.toT_perSystem .absent 1 _).into (ds := [2]) rfl)
    (PVal.toT_perSystem (.val 0.4) _ _) (PVal.toT_perSystem (.val 5) _ _)
    (PVal.toT_perSystem (.val 0) _ _) (PVal.toT_perSystem .absent _ _)
  obtain ⟨e1, h1, h2⟩ := hat [1] 0 (by simp [InB]) (by norm_num)
  rw [hatom] at h1
  obtain ⟨e2, h3, h4⟩ := H Demo.twoH2 Demo.twoH2Pos Demo.charge (Demo.onlyS6 0) 2 2 Demo.oneZero e rfl
    ⟨rfl, rfl⟩ he 1 (by norm_num)
  have e0 : ({ Demo.onlyS6 0 with s6 := .val (Demo.oneZero.get [1]) } : Param) = Demo.onlyS6 0 := rfl
  rw [e0] at h3
  obtain ⟨e3, h5, -, h6⟩ := (Demo.twoH2_call 0).eval
  rw [h3] at h5
  cases h5
  have z : e2.get [0, 1] = 0 := by
    have := h6 [1] (by simp [InB]) 0
    refine this.trans ?_
    simp [Spec.energy, Spec.e2, Spec.e3, Spec.pairTerm, Spec.tripleTerm, d4Computed, Spec.d4Settings]
  obtain ⟨e4, h7, h8⟩ := C08_dftd4 (Demo.twoH2_call 1) rfl (by norm_num) (by norm_num) (by norm_num) (by
    intro b _ i
    exact (shipped_r4r2_pos (nExt := 119) (gam := Demo.gam) (zeff := Demo.zeff)
      (vdw := fun _ _ => 3) (Z := 1) one_pos (by norm_num)).le)
  rw [h1] at h7
  cases h7
  have neg := (h8 [1] (by simp [InB]) 0).2 rfl Demo.physical (by norm_num [RefCfg.d4]) (by norm_num) 1
    (by decide) (by simp [Demo.twoH2]) (by simp [Demo.twoH2])
    (shipped_polarizable (by simp [Demo.twoH2]) (by simp [Demo.twoH2]) (by simp [Demo.twoH2]))
    (shipped_polarizable (by simp [Demo.twoH2]) (by simp [Demo.twoH2]) (by simp [Demo.twoH2]))
    (by
      have h1 : dist (coords Demo.twoH2Pos 2 [1] 0) (coords Demo.twoH2Pos 2 [1] 1) ≤ 60 := by
        rw [EuclideanSpace.dist_eq, Real.sqrt_le_left (by norm_num)]
        simp [coords, Demo.twoH2Pos, Fin.sum_univ_three, Real.dist_eq]
        norm_num
      show √(max _ _) ≤ (60 : ℝ)
      rw [Real.sqrt_le_left (by norm_num)]
      refine max_le (pow_le_pow_left₀ dist_nonneg h1 2) ?_
      norm_num [Demo.env])
  have h9 := h4 0 (by norm_num)
  rw [z] at h9
  rw [h9] at h2
  have : e1.get (0 :: [1]) < 0 := neg
  rw [← h2] at this
  exact lt_irrefl _ this

/-! ## Concrete cases -/

namespace Demo

/-- Different parameters for water and hydrogen fluoride: `a1` 0.4 and 0.5, `s8` 1.2 and 0.9,
`s9` 1 and 0. -/
noncomputable def paramBatch : TParam where
  a1 := .val ⟨none, [1, 1, 2], fun i => if i = [0, 0, 0] then 0.4 else 0.5⟩
  a2 := .val (scalar 5)
  s8 := .val ⟨none, [1, 2], fun i => if i = [0, 0] then 1.2 else 0.9⟩
  s9 := .val ⟨none, [1, 1, 1, 2], fun i => if i = [0, 0, 0, 0] then 1 else 0⟩

theorem paramBatch_perSystem : paramBatch.PerSystem [2] := by
  constructor <;> intro x hx <;> simp only [paramBatch, TVal.val.injEq, reduceCtorEq] at hx
  · rw [← hx]; exact ⟨rfl, Or.inr rfl⟩
  · rw [← hx]; exact ⟨rfl, Or.inr rfl⟩
  · rw [← hx]; exact ⟨rfl, Or.inl ⟨0, by norm_num, rfl⟩⟩
  · rw [← hx]; exact ⟨rfl, Or.inr rfl⟩

/-- The parameters of water. -/
theorem paramBatch_system : paramBatch.system [0] = { param with s9 := .val 1 } := by
  simp [paramBatch, TParam.system, TParam.at, param, TVal.rd, Tensor.rd, pick, scalar]

/-- Those of hydrogen fluoride. -/
example : paramBatch.system [1] = { param with a1 := .val 0.5, s8 := .val 0.9, s9 := .val 0 } := by
  simp [paramBatch, TParam.system, TParam.at, param, TVal.rd, Tensor.rd, pick, scalar]

theorem callBatch : Call env T ext numbers positions charge (paramBatch.system [0]) {} 3 [2] .d4 cn eeq
    par := by
  rw [paramBatch_system]
  exact { call with par := { reads with s9 := Or.inl rfl } }

theorem paramBatch_runs : ∃ d : Disp, (∀ t ∈ d.terms, t.cls = .twoBody →
    t.damping = .zero ∨ t.damping = .mzero → paramBatch.alp.PerSystem 2 []) ∧ ∀ b,
    d.Runs env T ext numbers positions charge (paramBatch.system b) {} 3 [2] .d4 cn eeq := by
  obtain ⟨d, ht, hr, -⟩ := dftd4_object callBatch
  refine ⟨d, fun t hm h2 hz => ?_, fun b => { hr with par := fun t ht => (hr.par t ht).at _ _ _ }⟩
  rw [ht] at hm
  simp only [List.mem_cons, List.not_mem_nil, or_false] at hm
  rcases hm with rfl | rfl <;> simp at hz h2

/-- Another scaling factor for every atom. -/
noncomputable def paramAtoms : TParam :=
  { param.toT with s6 := .val ⟨none, [3], fun i => if i = [0] then 1 else 0.5⟩ }

theorem callAtoms : Call env T ext numbers positions charge (paramAtoms.system []) {} 3 [2] .d4 cn eeq
    par := by
  have : paramAtoms.system [] = { param with s6 := .val 1 } := by
    simp [paramAtoms, TParam.system, TParam.at, param, Param.toT, PVal.toT, TVal.rd, Tensor.rd, pick,
      scalar]
  rw [this]
  exact { call with par := { reads with s6 := Or.inl rfl } }

/-- One scaling factor for each of the two systems of three atoms, as flat tensor. -/
noncomputable def paramFlat : TParam := { param.toT with s6 := .val Demo.oneZero }

end Demo

example := C88_dftd4 Demo.callBatch Demo.paramBatch_perSystem

example := C88_systems (Demo.paramBatch_runs.choose_spec.2 []) Demo.paramBatch_perSystem
  Demo.paramBatch_runs.choose_spec.1

example := C88_alone (b := [1]) (by simp [InB]) (Demo.paramBatch_runs.choose_spec.2 [])
  (Demo.paramBatch_runs.choose_spec.2 [1]) rfl Demo.paramBatch_perSystem
  Demo.paramBatch_runs.choose_spec.1

example (cls : DispClass) := C88_numbers (Demo.dispOf_runs cls Demo.validArgs)

example := C88_dftd4_atoms Demo.callAtoms
  (by intro x hx; cases hx; exact ⟨rfl, Or.inr rfl, trivial⟩)
  ((PVal.toT_perSystem (.val 1.2) 1 _).into (ds := [3]) rfl)
  ((PVal.toT_perSystem .absent 1 _).into (ds := [3]) rfl)
  (PVal.toT_perSystem (.val 0.4) _ _) (PVal.toT_perSystem (.val 5) _ _)
  (PVal.toT_perSystem .absent _ _) (PVal.toT_perSystem .absent _ _)

example := C88_atoms (Demo.paramBatch_runs.choose_spec.2 [])
  (Demo.paramBatch_perSystem.shapes Demo.paramBatch_runs.choose_spec.1 3)

example : dftd4T Demo.env Demo.T Demo.ext Demo.numbers Demo.positions Demo.charge Demo.paramFlat =
    .error .runtime := by
  refine C88_flat_raises (b₀ := []) (m := 2) (x := Demo.oneZero) (n := 3) (B := [2]) (P := Demo.par)
    (R := .d4) (cn := Demo.cn) (eeq := Demo.eeq) ?_ rfl ⟨rfl, rfl⟩ (by norm_num)
    (PVal.toT_perSystem (.val 0.4) _ _) (PVal.toT_perSystem (.val 5) _ _)
  have : Demo.paramFlat.system [] = { Demo.param with s6 := .val 1 } := by
    simp [Demo.paramFlat, TParam.system, TParam.at, Demo.param, Param.toT, PVal.toT, TVal.rd, Tensor.rd,
      pick, scalar, Demo.oneZero]
  rw [this]
  exact { Demo.call with par := { Demo.reads with s6 := Or.inl rfl } }

end TadDftd4
