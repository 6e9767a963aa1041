import Verif.Lemmas.CutoffTensor
import Verif.Props.C88

/-!
# C90: cutoffs given as tensors

`Cutoff` accepts tensors. With trailing dimensions of size one they hold one cutoff per system of a
batch, and every system gets the energies of a calculation with its own cutoffs as numbers. A flat
tensor does not mean one cutoff per system, and the cutoffs of pairs and of triples need different
shapes.
-/

set_option linter.unusedSimpArgs false

open scoped Classical

namespace TadDftd4

open Tensor

/-! ## Specification -/

/-- The optional arguments with numbers as cutoffs. -/
def CalcOpts.cut (o : CalcOpts) (c : Cutoff) : CalcOpts := { o with cutoff := some c }

/-- The keyword arguments of `dftd4` with numbers as cutoffs. -/
def DftOpts.cut (o : DftOpts) (c : Cutoff) : DftOpts := { o with opts := o.opts.cut c }

/-- Numbers as cutoffs are stored as 0-dimensional tensors. -/
def Cutoff.toT (c : Cutoff) : TCutoff := ⟨scalar c.disp2, scalar c.disp3, c.cn, c.cnEeq⟩

section
variable {env : Env} {T : Tables} {ext : Ext} {d : Disp} {numbers numbers' : Tensor ℕ}
  {positions positions' charge charge' : Tensor ℝ} {p : TParam} {n : ℕ} {B : Shape} {R : RefCfg}
  {cn : Spec.CN} {eeq : Spec.EEQ} {c : TCutoff}

/-- A run with other parameters of the same dictionary and other cutoffs. -/
theorem runs_cut {o : CalcOpts} {b₀ b : Idx} {c₀ c1 : Cutoff}
    (h : d.Runs env T ext numbers positions charge (p.system b₀) (o.cut c₀) n B R cn eeq)
    (h3 : 0 ≤ c1.disp3) :
    d.Runs env T ext numbers positions charge (p.system b) (o.cut c1) n B R cn eeq :=
  ⟨⟨h.args.num, h.args.pos, h.args.lt, h.args.fits, h.args.charge, h.args.q, h.args.rcov, h.args.r4r2,
    h.args.rvdw⟩, h.model, h.cn, h.eeq, h.q,
    fun t ht => ((h.par t ht).at _ _ _).cut fun _ => h3⟩

/-! ## Theorems -/

/-- One set of cutoffs (and of damping parameters) per system: every system of the batch has the
energies of the calculation with its own cutoffs (and parameters) as numbers. -/
theorem C90_systems {o : CalcOpts} {b₀ : Idx}
    (h : d.Runs env T ext numbers positions charge (p.system b₀) (o.cut (c.system b₀)) n B R cn eeq)
    (hp : p.PerSystem B) (hz : ∀ t ∈ d.terms, t.cls = .twoBody →
      t.damping = .zero ∨ t.damping = .mzero → p.alp.PerSystem 2 [])
    (hc : c.PerSystem B) (h3 : ∀ b, InB B b → 0 ≤ (c.system b).disp3) :
    ∃ e, d.calculateC env T ext numbers positions charge p c o = .ok e ∧ e.err = none ∧
      e.shape = numbers.shape ∧
      ∀ b, InB B b → ∃ e', d.calculate env T ext numbers positions charge (p.system b)
          (o.cut (c.system b)) = .ok e' ∧ ∀ i < n, e.get (i :: b) = e'.get (i :: b) := by
  obtain ⟨e, h1, h2, hget⟩ := calculateC_eq h rfl (hp.shapes hz n)
    (hc.disp2.into (ds := [n, n]) rfl) hc.disp3
  refine ⟨e, h1, h2.err, by rw [h2.shape, h.args.num.shape], fun b hb => ?_⟩
  have hu := runs_cut (b := b) h (h3 b hb)
  obtain ⟨S, hS⟩ := hu.settings
  obtain ⟨e', h4, -⟩ := hu.eval hS
  refine ⟨e', h4, fun i hi => ?_⟩
  obtain ⟨e'', h5, h6⟩ := hget b i (c.system b).disp2 hb hi (h3 b hb) fun j _ _ =>
    hc.disp2.rd (i := [j, i]) (j := [0, 0]) rfl rfl b
  have : p.at (i :: b) (0 :: 0 :: b) (0 :: 0 :: 0 :: b) = p.system b := hp.atom_eq i b
  rw [this] at h5
  have h5 : d.calculate env T ext numbers positions charge (p.system b) (o.cut (c.system b)) =
    .ok e'' := h5
  rw [h4] at h5
  rw [h6, Except.ok.inj h5]

/-- The same system alone, or in any other batch, with its own cutoffs as numbers. -/
theorem C90_alone {o o' : CalcOpts} {B' : Shape} {b₀ b : Idx} (hb : InB B b)
    (h : d.Runs env T ext numbers positions charge (p.system b₀) (o.cut (c.system b₀)) n B R cn eeq)
    (h' : d.Runs env T ext numbers' positions' charge' (p.system b) (o'.cut (c.system b)) n B' R cn eeq)
    (hp : p.PerSystem B) (hz : ∀ t ∈ d.terms, t.cls = .twoBody →
      t.damping = .zero ∨ t.damping = .mzero → p.alp.PerSystem 2 [])
    (hc : c.PerSystem B) (h3 : ∀ b, InB B b → 0 ≤ (c.system b).disp3) :
    ∃ e e', d.calculateC env T ext numbers positions charge p c o = .ok e ∧
      d.calculate env T ext numbers' positions' charge' (p.system b) (o'.cut (c.system b)) = .ok e' ∧
      ∀ b', InB B' b' → SameEntry n b b' numbers numbers' positions positions' charge charge'
          (o.cut (c.system b)) (o'.cut (c.system b)) →
        ∀ i < n, e.get (i :: b) = e'.get (i :: b') := by
  obtain ⟨e, h1, -, -, h2⟩ := C90_systems h hp hz hc h3
  obtain ⟨e1, h4, h5⟩ := h2 b hb
  obtain ⟨e2, e', h6, h7, h8⟩ := C05_any_disp (runs_cut (b := b) h (h3 b hb)) h' rfl
  rw [h4] at h6
  rw [← Except.ok.inj h6] at h8
  exact ⟨e, e', h1, h7, fun b' hb' hs i hi => (h5 i hi).trans (h8 b b' hb hb' hs i hi)⟩

/-- A two-body cutoff of any shape that fits the pairs of atoms, for example `(..., nat, 1)` for one
cutoff per atom: an atom whose pairs all use the same value has the energy of the calculation with
that value as number. -/
theorem C90_atoms {o : CalcOpts} {b₀ : Idx} {c₀ : Cutoff}
    (h : d.Runs env T ext numbers positions charge (p.system b₀) (o.cut c₀) n B R cn eeq)
    (he : c.cnEeq = c₀.cnEeq) (hp : p.PerSystem B) (hz : ∀ t ∈ d.terms, t.cls = .twoBody →
      t.damping = .zero ∨ t.damping = .mzero → p.alp.PerSystem 2 [])
    (h2 : c.disp2.Into (n :: n :: B)) (h3 : c.disp3.PerSystem 3 B) :
    ∃ e, d.calculateC env T ext numbers positions charge p c o = .ok e ∧ e.err = none ∧
      e.shape = numbers.shape ∧
      ∀ b i (x : ℝ), InB B b → i < n → 0 ≤ (c.system b).disp3 →
        (∀ j < n, j ≠ i → numbers.get (i :: b) ≠ 0 → numbers.get (j :: b) ≠ 0 →
          c.disp2.rd (j :: i :: b) = x) →
        ∃ e', d.calculate env T ext numbers positions charge (p.system b)
            (o.cut { c.system b with disp2 := x }) = .ok e' ∧ e.get (i :: b) = e'.get (i :: b) := by
  obtain ⟨e, h1, hok, hget⟩ := calculateC_eq h he (hp.shapes hz n) h2 h3
  refine ⟨e, h1, hok.err, by rw [hok.shape, h.args.num.shape], fun b i x hb hi hpos hj => ?_⟩
  obtain ⟨e', h5, h6⟩ := hget b i x hb hi hpos fun j hjn hm => hj j hjn
    (by rintro rfl; simp [pairMask] at hm) (by simp [pairMask] at hm; tauto)
    (by simp [pairMask] at hm; tauto)
  have : p.at (i :: b) (0 :: 0 :: b) (0 :: 0 :: 0 :: b) = p.system b := hp.atom_eq i b
  rw [this] at h5
  exact ⟨e', h5, h6⟩

theorem toT_perSystem_scalar (x : ℝ) (k : ℕ) (B : Shape) : (scalar x).PerSystem k B :=
  ⟨rfl, Or.inl ⟨0, Nat.zero_le _, rfl⟩⟩

/-- Numbers and 0-dimensional tensors are interchangeable. -/
theorem C90_numbers {o : CalcOpts} {q : Param} {c₀ : Cutoff}
    (h : d.Runs env T ext numbers positions charge q (o.cut c₀) n B R cn eeq) (h3 : 0 ≤ c₀.disp3) :
    ∃ e e', d.calculateC env T ext numbers positions charge q.toT c₀.toT o = .ok e ∧
      d.calculate env T ext numbers positions charge q (o.cut c₀) = .ok e' ∧ e.err = none ∧
      e.shape = numbers.shape ∧ ∀ b i, InB B b → i < n → e.get (i :: b) = e'.get (i :: b) := by
  have hp : q.toT.PerSystem B := ⟨q.s6.toT_perSystem _ _, q.s8.toT_perSystem _ _,
    q.s10.toT_perSystem _ _, q.a1.toT_perSystem _ _, q.a2.toT_perSystem _ _, q.rs6.toT_perSystem _ _,
    q.rs8.toT_perSystem _ _, q.rs9.toT_perSystem _ _, q.bet.toT_perSystem _ _,
    q.s9.toT_perSystem _ _, q.alp.toT_perSystem _ _⟩
  have e0 : ∀ b, q.toT.system b = q := fun b => q.toT_at _ _ _
  have e1 : ∀ b, c₀.toT.system b = c₀ := fun b => rfl
  obtain ⟨e, h1, h2, h4, h5⟩ := C90_systems (c := c₀.toT) (b₀ := []) (by rw [e0]; exact h) hp
    (fun _ _ _ _ => q.alp.toT_perSystem _ _) ⟨toT_perSystem_scalar _ _ _, toT_perSystem_scalar _ _ _⟩
    fun _ _ => h3
  obtain ⟨S, hS⟩ := h.settings
  obtain ⟨e', h6, -⟩ := h.eval hS
  refine ⟨e, e', h1, h6, h2, h4, fun b i hb hi => ?_⟩
  obtain ⟨e'', h7, h8⟩ := h5 b hb
  rw [e0, e1, h6] at h7
  rw [h8 i hi, Except.ok.inj h7]

/-- `dftd4` is `calculate` of one object, whatever the parameters and cutoffs. -/
theorem dftd4_objectC {o : DftOpts} {q : Param} {P : Spec.D4Par} {c₀ : Cutoff}
    (h : Call env T ext numbers positions charge q (o.cut c₀) n B R cn eeq P) :
    ∃ d : Disp, d.terms = [⟨.twoBody, .rational, true⟩, ⟨.d4ATMApprox, .zero, false⟩] ∧
      d.Runs env T ext numbers positions charge q (o.opts.cut c₀) n B R cn eeq ∧
      (∀ q c1, dftd4 env T ext numbers positions charge q (o.cut c1) =
        d.calculate env T ext numbers positions charge q (o.opts.cut c1)) ∧
      ∀ p c1, dftd4C env T ext numbers positions charge p c1 o =
        d.calculateC env T ext numbers positions charge p c1 o.opts := by
  obtain ⟨d, m, hnew, hts, hf, hct, hm, hgm⟩ := new_getModel (cls := .base) (sel := o.model)
    (f := o.cnFunction.getD ext.cnD4) (counting := some (o.counting.getD ext.erfCount))
    h.keys h.model h.args.num h.args.lt h.args.fits
  have ne : ∀ {v : PVal} {x c y : ℝ}, v = .val x ∨ v = .absent ∧ c = y → v ≠ .none := by
    rintro v x c y (rfl | ⟨rfl, -⟩) <;> simp
  obtain ⟨h6, h8, h10⟩ := h.par.point (env := env)
  have hdamp : o.damping = .rational := h.damping
  refine ⟨{ d with terms := [⟨.twoBody, o.damping, true⟩, ⟨.d4ATMApprox, .zero, false⟩] },
    by simp [hdamp], ⟨h.args, ⟨m, hgm _, hm⟩, ?_, fun _ => h.eeq,
      Or.inr ⟨⟨.twoBody, o.damping, true⟩, by simp, rfl⟩, ?_⟩, fun q c1 => ?_, fun p c1 => ?_⟩
  · rw [hf, hct]; exact h.cn
  · intro t ht
    simp only [List.mem_cons, List.not_mem_nil, or_false] at ht
    rcases ht with rfl | rfl
    · refine ⟨fun _ => ?_, by simp, by simp, by simp, by simp, by simp, by simp, by simp, by simp⟩
      rw [hdamp]
      refine ⟨h.par.extra, ne h.par.s6, by rw [h.par.s8]; simp, ne h.par.s10, ⟨_, h6⟩, ⟨_, h8⟩,
        fun hx => ?_⟩
      rcases h.par.s10 with h' | ⟨h', -⟩
      · exact ⟨_, h10 h'⟩
      · exact absurd h' hx
    · exact ⟨by simp, fun _ => rfl, fun _ => ne h.par.s9, fun _ => ne h.par.alp, fun _ => h.cut3,
        fun _ => by rw [h.par.a1]; simp, fun _ => by rw [h.par.a2]; simp, by simp, by simp⟩
  · unfold dftd4 DftOpts.cut
    simp only []
    rw [hnew]
    simp only [bind, Except.bind, Disp.register, hts, DispClass.terms, List.nil_append,
      List.cons_append]
  · unfold dftd4C
    rw [hnew]
    simp only [bind, Except.bind, Disp.register, hts, DispClass.terms, List.nil_append,
      List.cons_append]

/-- `dftd4` with one set of cutoffs per system. -/
theorem C90_dftd4 {o : DftOpts} {P : Spec.D4Par} {b₀ : Idx}
    (h : Call env T ext numbers positions charge (p.system b₀) (o.cut (c.system b₀)) n B R cn eeq P)
    (hp : p.PerSystem B) (hc : c.PerSystem B) (h3 : ∀ b, InB B b → 0 ≤ (c.system b).disp3) :
    ∃ e, dftd4C env T ext numbers positions charge p c o = .ok e ∧ e.err = none ∧
      e.shape = numbers.shape ∧
      ∀ b, InB B b → ∃ e', dftd4 env T ext numbers positions charge (p.system b)
          (o.cut (c.system b)) = .ok e' ∧ ∀ i < n, e.get (i :: b) = e'.get (i :: b) := by
  obtain ⟨d, ht, hr, h1, h2⟩ := dftd4_objectC h
  simp only [h1, h2]
  refine C90_systems hr hp (fun t hmem htwo hz => ?_) hc h3
  rw [ht] at hmem
  simp only [List.mem_cons, List.not_mem_nil, or_false] at hmem
  rcases hmem with rfl | rfl <;> simp at hz htwo

/-- `dftd4` with a flat tensor of another length than the number of atoms as two-body cutoff, for
example one value per system of a batch: a RuntimeError. -/
theorem C90_flat_raises {o : DftOpts} {P : Spec.D4Par} {q : Param} {m : ℕ}
    (h : Call env T ext numbers positions charge q (o.cut { cnEeq := c.cnEeq }) n B R cn eeq P)
    (p : TParam) (hx : c.disp2.Ok [m]) (hm : m ≠ n ∧ m ≠ 1 ∧ n ≠ 1) :
    dftd4C env T ext numbers positions charge p c o = .error .runtime := by
  obtain ⟨d, ht, hr, -, h2⟩ := dftd4_objectC h
  obtain ⟨M, qo, _, _, cnT, r4r2, rvdw, hin, hc, hq, -, h3⟩ := calculate_termsC hr
  rw [h2, h3 p c rfl, ht]
  set t : Term := ⟨.twoBody, .rational, true⟩
  obtain ⟨c6ok, -⟩ := model_c6_eval hin.model hc (termCharges_optIs (t := t) hq)
  set c6 := M.atomicC6 (M.weights env T (some cnT) (t.charges qo)) with hc6
  have hsh : D2Shapes numbers positions c6 r4r2 rvdw n 3 B :=
    ⟨hin.num, hin.pos, c6ok, hin.r4r2, hin.rvdw⟩
  have hdist := pairDistances_ok (env := env) hsh.num hsh.pos
  have hrad := radii2_ok (d := .rational) hsh
  have hqq := qqT_ok hsh.r4r2
  have hc8 : (c6 * qqT r4r2).err = none := (hsh.c6.pw.map2 hqq.pw (· * ·)).ok.err
  have hn : ¬ bcompat (n :: n :: B) [m] := by
    simp [bcompat, dimOk]
    omega
  have h6 : (tDampC env numbers positions p (radii2 .rational r4r2 (some rvdw)) .rational c.disp2
      6).err = some .runtime := by
    simp only [tDampC, where_err, and_err, realPairs_err hin.num.shape, hin.num.err, orErr_none_left,
      le_err, hdist.err, hx.err, hdist.shape, hx.shape, bErr, if_neg hn]
    rfl
  have herr : (t.calculateC env T numbers positions p cnT M qo r4r2 rvdw c).err = some .runtime := by
    simp only [Term.calculateC, t, dispersion2C, after_err, hdist.err, orErr_none_left]
    rw [show M.atomicC6 (M.weights env T (some cnT) (Term.charges ⟨.twoBody, .rational, true⟩ qo)) = c6
      from rfl, hc8, orErr_none_left, hrad.err, orErr_none_left, h6]
    rfl
  have hs : (sumTermsC env T [t, ⟨.d4ATMApprox, .zero, false⟩] numbers positions p cnT M qo r4r2 rvdw
      c).err = some .runtime := by
    simp only [sumTermsC, List.foldl_cons, List.foldl_nil, add_err, herr]
    rfl
  unfold Tensor.check
  rw [hs]

/-- `dftd4` with a tensor of shape `(nbatch, 1, 1)`, the one needed for the cutoff of pairs, as cutoff
of triples: a RuntimeError unless the number of systems is that of the atoms (or one of them is 1). -/
theorem C90_disp3_raises {o : DftOpts} {P : Spec.D4Par} {b₀ : Idx} {m : ℕ} {c₀ : Cutoff}
    (h : Call env T ext numbers positions charge (p.system b₀) (o.cut c₀) n B R cn eeq P)
    (he : c.cnEeq = c₀.cnEeq) (hp : p.PerSystem B) (h2 : c.disp2.PerSystem 2 B)
    (hx : c.disp3.Ok [1, 1, m]) (hm : m ≠ n ∧ m ≠ 1 ∧ n ≠ 1) :
    dftd4C env T ext numbers positions charge p c o = .error .runtime := by
  obtain ⟨d, ht, hr, -, hobj⟩ := dftd4_objectC h
  obtain ⟨M, qo, _, _, cnT, r4r2, rvdw, hin, hc, hq, -, hcalc⟩ := calculate_termsC hr
  have hshape := hp.shapes (d := d) (fun t hmem htwo hz => by
    rw [ht] at hmem
    simp only [List.mem_cons, List.not_mem_nil, or_false] at hmem
    rcases hmem with rfl | rfl <;> simp at hz htwo) n
  have hmem2 : (⟨.twoBody, .rational, true⟩ : Term) ∈ d.terms := by rw [ht]; simp
  have hmem3 : (⟨.d4ATMApprox, .zero, false⟩ : Term) ∈ d.terms := by rw [ht]; simp
  have hs2 := hshape _ hmem2
  have hs3 := hshape _ hmem3
  have hu3 := fun i1 i2 i3 => (hr.par _ hmem3).at i1 i2 i3
  have hu2 := fun i1 i2 i3 => ((hr.par _ hmem2).two rfl).at i1 i2 i3
  rw [hobj, hcalc p c he, ht]
  set t : Term := ⟨.twoBody, .rational, true⟩
  set t3 : Term := ⟨.d4ATMApprox, .zero, false⟩
  obtain ⟨c6ok, -⟩ := model_c6_eval hin.model hc (termCharges_optIs (t := t) hq)
  have hsh : D2Shapes numbers positions (M.atomicC6 (M.weights env T (some cnT) (t.charges qo)))
      r4r2 rvdw n 3 B := ⟨hin.num, hin.pos, c6ok, hin.r4r2, hin.rvdw⟩
  have ok2 : (t.calculateC env T numbers positions p cnT M qo r4r2 rvdw c).Ok (n :: B) :=
    (dispersion2C_eq hsh hu2 (hs2.damping rfl) (hs2.s6 rfl) (hs2.s8 rfl) (hs2.s10 rfl)
      (h2.into (ds := [n, n]) rfl)).1
  have ht3 : t3.cls ≠ .twoBody := by simp [t3]
  obtain ⟨S, hS⟩ := (hu3 [] [] []).settings (T := T)
  obtain ⟨c9ok, -⟩ := c9_eval (positions := positions) (r4r2 := r4r2) (rvdw := rvdw) hin.model
    ht3 hc hq hS
  have rok := t_radii_ok hin hs3 ht3 (hu3 [] [] [])
  obtain ⟨s9, hs9, is9, -⟩ := TVal.arg_into ((hs3.s9 ht3).into (ds := [n, n, n]) rfl)
    ((hu3 [] [] []).s9 ht3) Defaults.s9
  obtain ⟨alp, halp, ialp, -⟩ := TVal.arg_into ((hs3.alp ht3).into (ds := [n, n, n]) rfl)
    ((hu3 [] [] []).alp ht3) Defaults.alp
  obtain ⟨fok, -⟩ := atmDampT_pw hin.num hin.pos rok ialp (fun i => point9_zero (alp.rd i)) (env := env)
  have hn : ¬ bcompat (1 :: n :: n :: B) [1, 1, m] := by
    simp [bcompat, dimOk]
    omega
  have hd2 := dist2T_ok (env := env) hin.num hin.pos
  obtain ⟨ij1, ij2⟩ := ijT_ok hd2
  have hang : (atmAngC env numbers positions c.disp3).err = some .runtime := by
    simp only [atmAngC, where_err, and_err, realTriples_err hin.num.shape, hin.num.err,
      orErr_none_left, le_err, mul_err, mul_shape, ij1, ij2, hx.err, hx.shape, bErr_self, bshape_self]
    rw [show bErr (1 :: n :: n :: B) [1, 1, m] = some .runtime from if_neg hn]
    rfl
  have herr : (t3.calculateC env T numbers positions p cnT M qo r4r2 rvdw c).err = some .runtime := by
    have e : t3.calculateC env T numbers positions p cnT M qo r4r2 rvdw c =
        (t3.c9 env T M cnT qo).after ((t3.radiiT env p r4r2 rvdw).after (atmDispersionC env numbers
          positions (t3.c9 env T M cnT qo) (t3.radiiT env p r4r2 rvdw) c.disp3 .zero s9 alp)) := by
      unfold Term.calculateC
      split
      · contradiction
      · simp only [hs9, halp]; rfl
    rw [e]
    simp only [after_err, c9ok.err, rok.err, orErr_none_left, atmDispersionC, fok.err, div_err,
      sumLast_err, mul_err, hang]
    rfl
  have hs : (sumTermsC env T [t, t3] numbers positions p cnT M qo r4r2 rvdw c).err =
      some .runtime := by
    simp only [sumTermsC, List.foldl_cons, List.foldl_nil, add_err, add_shape, herr, ok2.err, ok2.shape,
      full_err, full_shape, hin.num.shape, bErr_self, orErr_none_left]
    rfl
  unfold Tensor.check
  rw [hs]

end

/-! ## A flat tensor does not hold one cutoff per system -/

/-- Claim: a flat tensor as two-body cutoff of a batch holds one cutoff per system (if nothing is
raised). -/
def FlatCutoffIsPerSystem (env : Env) (T : Tables) (ext : Ext) : Prop :=
  ∀ (numbers : Tensor ℕ) (positions charge : Tensor ℝ) (p : Param) (n m : ℕ) (x e : Tensor ℝ),
    numbers.shape = [n, m] → x.Ok [m] →
    dftd4C env T ext numbers positions charge p.toT { disp2 := x } = .ok e →
    ∀ b < m, ∃ e', dftd4 env T ext numbers positions charge p
        (DftOpts.cut {} { disp2 := x.get [b] }) = .ok e' ∧
      ∀ i < n, e.get [i, b] = e'.get [i, b]

theorem Param.toT_perSystem (q : Param) (B : Shape) : q.toT.PerSystem B :=
  ⟨q.s6.toT_perSystem _ _, q.s8.toT_perSystem _ _,
    q.s10.toT_perSystem _ _, q.a1.toT_perSystem _ _, q.a2.toT_perSystem _ _, q.rs6.toT_perSystem _ _,
    q.rs8.toT_perSystem _ _, q.rs9.toT_perSystem _ _, q.bet.toT_perSystem _ _,
    q.s9.toT_perSystem _ _, q.alp.toT_perSystem _ _⟩

namespace Demo

theorem twoH2_cut (s : ℝ) {c : Cutoff} (hc : 0 ≤ c.disp3) :
    Call env T ext twoH2 twoH2Pos charge (onlyS6 s) (DftOpts.cut {} c) 2 [2] .d4 cn eeq
      ⟨s, 0, 0, 0, 0.4, 5, 16⟩ :=
  ⟨keys, ⟨twoH2_args.num, twoH2_args.pos, twoH2_args.lt, twoH2_args.fits, twoH2_args.charge,
    twoH2_args.q, twoH2_args.rcov, twoH2_args.r4r2, twoH2_args.rvdw⟩, (twoH2_call s).model,
    (twoH2_call s).cn, (twoH2_call s).eeq, rfl, (twoH2_call s).par, hc⟩

/-- The cutoffs 60 and 0. -/
noncomputable def cutFlat : Tensor ℝ where
  err := none
  shape := [2]
  get
    | [0] => 60
    | _ => 0

theorem disp3_nonneg : (0 : ℝ) ≤ Defaults.disp3Cutoff := by norm_num [Defaults.disp3Cutoff]

end Demo

/-- The claim is false: with two systems of two atoms, the second value is used for pairs with the
second atom as partner, in both systems. -/
theorem C90_flat_false : ¬ FlatCutoffIsPerSystem Demo.env Demo.T Demo.ext := by
  intro H
  have hsys : ∀ b, (Demo.onlyS6 1).toT.system b = Demo.onlyS6 1 := fun b => Param.toT_at _ _ _ _
  obtain ⟨d, ht, hr, hobj, hobjC⟩ := dftd4_objectC (o := {}) (Demo.twoH2_cut 1 (c := {}) Demo.disp3_nonneg)
  obtain ⟨e, he, -, -, hat⟩ := C90_atoms (p := (Demo.onlyS6 1).toT) (b₀ := [])
    (c := { disp2 := Demo.cutFlat }) (by rw [hsys]; exact hr) rfl (Param.toT_perSystem _ _)
    (fun _ _ _ _ => (Demo.onlyS6 1).alp.toT_perSystem _ _) ⟨rfl, Or.inr rfl, trivial⟩ (toT_perSystem_scalar _ _ _)
  rw [← hobjC] at he
  obtain ⟨e1, h1, h2⟩ := hat [0] 0 0 (by simp [InB]) (by norm_num) Demo.disp3_nonneg (by
    intro j hj hne _ _
    have : j = 1 := by omega
    subst this
    rfl)
  rw [hsys, ← hobj] at h1
  obtain ⟨e2, h3, h4⟩ := H Demo.twoH2 Demo.twoH2Pos Demo.charge (Demo.onlyS6 1) 2 2 Demo.cutFlat e rfl
    ⟨rfl, rfl⟩ he 0 (by norm_num)
  obtain ⟨e3, h5, -, h6⟩ := (Demo.twoH2_cut 1 (c := { disp2 := 0 }) Demo.disp3_nonneg).eval
  have h1 : dftd4 Demo.env Demo.T Demo.ext Demo.twoH2 Demo.twoH2Pos Demo.charge (Demo.onlyS6 1)
    (DftOpts.cut {} { disp2 := 0 }) = .ok e1 := h1
  rw [h1] at h5
  cases h5
  have z : e1.get [0, 0] = 0 := by
    refine (h6 [0] (by simp [InB]) 0).trans ?_
    have hneg : ∀ (M : Spec.Mol 2) (j : Fin 2), ¬ M.r Demo.env.eps 0 j ≤ 0 := by
      intro M j
      rw [not_le]
      exact Real.sqrt_pos.2 (lt_max_of_lt_right Demo.env.eps_pos)
    simp [Spec.energy, Spec.e2, Spec.e3, Spec.tripleTerm, d4Computed, Spec.d4Settings, DftOpts.cut,
      CalcOpts.cut, hneg]
  obtain ⟨e4, h7, h8⟩ := C08_dftd4 (Demo.twoH2_cut 1 (c := { disp2 := 60 }) Demo.disp3_nonneg) rfl
    (by norm_num) (by norm_num) (by norm_num) (by
    intro b _ i
    exact (shipped_r4r2_pos (nExt := 119) (gam := Demo.gam) (zeff := Demo.zeff)
      (vdw := fun _ _ => 3) (Z := 1) one_pos (by norm_num)).le)
  have h3 : dftd4 Demo.env Demo.T Demo.ext Demo.twoH2 Demo.twoH2Pos Demo.charge (Demo.onlyS6 1)
    (DftOpts.cut {} { disp2 := 60 }) = .ok e2 := h3
  rw [h3] at h7
  cases h7
  have neg := (h8 [0] (by simp [InB]) 0).2 rfl Demo.physical (by norm_num [RefCfg.d4]) (by norm_num) 1
    (by decide) (by simp [Demo.twoH2]) (by simp [Demo.twoH2])
    (shipped_polarizable (by simp [Demo.twoH2]) (by simp [Demo.twoH2]) (by simp [Demo.twoH2]))
    (shipped_polarizable (by simp [Demo.twoH2]) (by simp [Demo.twoH2]) (by simp [Demo.twoH2]))
    (by
      have h1 : dist (coords Demo.twoH2Pos 2 [0] 0) (coords Demo.twoH2Pos 2 [0] 1) ≤ 60 := by
        rw [EuclideanSpace.dist_eq, Real.sqrt_le_left (by norm_num)]
        simp [coords, Demo.twoH2Pos, Fin.sum_univ_three, Real.dist_eq]
        norm_num
      show √(max _ _) ≤ (60 : ℝ)
      rw [Real.sqrt_le_left (by norm_num)]
      refine max_le (pow_le_pow_left₀ dist_nonneg h1 2) ?_
      norm_num [Demo.env])
  have h9 := h4 0 (by norm_num)
  have h2' : e.get [0, 0] = e1.get [0, 0] := h2
  rw [z] at h2'
  rw [h2'] at h9
  have : e2.get (0 :: [0]) < 0 := neg
  rw [← h9] at this
  exact lt_irrefl _ this

/-! ## Concrete cases -/

namespace Demo

/-- Cutoffs 60 and 5 of pairs, 40 and 4 of triples, for water and hydrogen fluoride. -/
noncomputable def cutBatch : TCutoff where
  disp2 := ⟨none, [1, 1, 2], fun i => if i = [0, 0, 0] then 60 else 5⟩
  disp3 := ⟨none, [1, 1, 1, 2], fun i => if i = [0, 0, 0, 0] then 40 else 4⟩

theorem cutBatch_perSystem : cutBatch.PerSystem [2] := ⟨⟨rfl, Or.inr rfl⟩, ⟨rfl, Or.inr rfl⟩⟩

theorem cutBatch_system : cutBatch.system [0] = { disp2 := 60, disp3 := 40 } := by
  simp [cutBatch, TCutoff.system, Tensor.rd, pick]

example : cutBatch.system [1] = { disp2 := 5, disp3 := 4 } := by
  simp [cutBatch, TCutoff.system, Tensor.rd, pick]

theorem cutBatch_nonneg (b : Idx) : 0 ≤ (cutBatch.system b).disp3 := by
  simp only [cutBatch, TCutoff.system, Tensor.rd]
  split_ifs <;> norm_num

theorem call_cut {o : DftOpts} {q : Param} {m : ℕ} {B : Shape} {N : Tensor ℕ} {X : Tensor ℝ}
    {P : Spec.D4Par} (h : Call env T ext N X charge q o m B .d4 cn eeq P)
    {c : Cutoff} (hc : 0 ≤ c.disp3) : Call env T ext N X charge q (o.cut c) m B .d4 cn eeq P :=
  ⟨h.keys, ⟨h.args.num, h.args.pos, h.args.lt, h.args.fits, h.args.charge, h.args.q, h.args.rcov,
    h.args.r4r2, h.args.rvdw⟩, h.model, h.cn, h.eeq, h.damping, h.par, hc⟩

theorem cutBatch_runs : ∃ d : Disp, (∀ t ∈ d.terms, t.cls = .twoBody →
    t.damping = .zero ∨ t.damping = .mzero → paramBatch.alp.PerSystem 2 []) ∧ ∀ b,
    d.Runs env T ext numbers positions charge (paramBatch.system b)
      (CalcOpts.cut {} (cutBatch.system b)) 3 [2] .d4 cn eeq := by
  obtain ⟨d, ht, hr, -⟩ := dftd4_objectC (o := {}) (call_cut callBatch (cutBatch_nonneg []))
  refine ⟨d, fun t hm h2 hz => ?_, fun b => runs_cut hr (cutBatch_nonneg b)⟩
  rw [ht] at hm
  simp only [List.mem_cons, List.not_mem_nil, or_false] at hm
  rcases hm with rfl | rfl <;> simp at hz h2

/-- Cutoff 60 for the first atom, 5 for the others. -/
noncomputable def cutAtoms : TCutoff where
  disp2 := ⟨none, [1, 3], fun i => if i = [0, 0] then 60 else 5⟩

end Demo

example := C90_dftd4 (o := {}) (Demo.call_cut Demo.callBatch (Demo.cutBatch_nonneg [0]))
  Demo.paramBatch_perSystem Demo.cutBatch_perSystem fun b _ => Demo.cutBatch_nonneg b

example := C90_systems (Demo.cutBatch_runs.choose_spec.2 []) Demo.paramBatch_perSystem
  Demo.cutBatch_runs.choose_spec.1 Demo.cutBatch_perSystem fun b _ => Demo.cutBatch_nonneg b

example := C90_alone (b := [1]) (by simp [InB]) (Demo.cutBatch_runs.choose_spec.2 [])
  (Demo.cutBatch_runs.choose_spec.2 [1]) Demo.paramBatch_perSystem
  Demo.cutBatch_runs.choose_spec.1 Demo.cutBatch_perSystem fun b _ => Demo.cutBatch_nonneg b

example := C90_atoms (c := Demo.cutAtoms) (Demo.cutBatch_runs.choose_spec.2 []) rfl
  Demo.paramBatch_perSystem Demo.cutBatch_runs.choose_spec.1
  ⟨rfl, Or.inl rfl, Or.inr rfl, trivial⟩ (toT_perSystem_scalar _ _ _)

/-- The pairs of the first atom use 60, those of the second 5. -/
example (b : Idx) (j : ℕ) : Demo.cutAtoms.disp2.rd (j :: 0 :: b) = 60 ∧
    Demo.cutAtoms.disp2.rd (j :: 1 :: b) = 5 := by
  simp [Demo.cutAtoms, Tensor.rd, pick]

example := C90_numbers (Demo.cutBatch_runs.choose_spec.2 [1]) (Demo.cutBatch_nonneg [1])

example : dftd4C Demo.env Demo.T Demo.ext Demo.numbers Demo.positions Demo.charge Demo.param.toT
    { disp2 := Demo.cutFlat } = .error .runtime :=
  C90_flat_raises (c := { disp2 := Demo.cutFlat }) (o := {}) (m := 2)
    (Demo.call_cut Demo.call Demo.disp3_nonneg) _ ⟨rfl, rfl⟩ (by norm_num)

example : dftd4C Demo.env Demo.T Demo.ext Demo.numbers Demo.positions Demo.charge Demo.paramBatch
    { Demo.cutBatch with disp3 := Demo.cutBatch.disp2 } = .error .runtime :=
  C90_disp3_raises (c := { Demo.cutBatch with disp3 := Demo.cutBatch.disp2 }) (o := {}) (m := 2)
    (c₀ := {}) (Demo.call_cut Demo.callBatch Demo.disp3_nonneg) rfl Demo.paramBatch_perSystem
    Demo.cutBatch_perSystem.disp2 ⟨rfl, rfl⟩ (by norm_num)

end TadDftd4
