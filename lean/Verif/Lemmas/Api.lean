import Verif.Lemmas.Calc
import Verif.Spec.External

/-!
# Evaluation of `Disp.calculate` and `dftd4`
-/

set_option linter.unusedSimpArgs false

open scoped Classical

namespace TadDftd4

open Tensor

/-- Elements of system `b` of a batch. -/
def elements (numbers : Tensor ℕ) (n : ℕ) (b : Idx) : Fin n → ℕ := fun i => numbers.get (i.1 :: b)

/-- Positions of system `b` of a batch. -/
noncomputable def coords (positions : Tensor ℝ) (n : ℕ) (b : Idx) : Fin n → Spec.E3 :=
  fun i => WithLp.toLp 2 fun k => positions.get (k.1 :: i.1 :: b)

/-- Contract of a coordination number function: for atomic numbers below `N` it raises nothing and
acts on each system of a batch separately as the function `g`. -/
def CNFunc.PerSystem (f : CNFunc) (counting : Option CountFn) (N : ℕ) (g : Spec.CN) : Prop :=
  ∀ n B (numbers : Tensor ℕ) (positions : Tensor ℝ), numbers.Ok (n :: B) → numbers.AllLt N →
    positions.Ok (3 :: n :: B) → (f numbers positions counting).Ok (n :: B) ∧
    ∀ b, InB B b → ∀ i : Fin n, (f numbers positions counting).get (i.1 :: b) =
      g n (elements numbers n b) (coords positions n b) i

/-- Contract of the charge model: as above, with one total charge per system. -/
def Ext.EEQPerSystem (ext : Ext) (N : ℕ) (g : Spec.EEQ) : Prop :=
  ∀ n B (numbers : Tensor ℕ) (positions charge : Tensor ℝ) (c : ℝ), numbers.Ok (n :: B) →
    numbers.AllLt N → positions.Ok (3 :: n :: B) → charge.Ok B →
    (ext.eeq numbers positions charge c).Ok (n :: B) ∧
    ∀ b, InB B b → ∀ i : Fin n, (ext.eeq numbers positions charge c).get (i.1 :: b) =
      g n c (elements numbers n b) (coords positions n b) (charge.get b) i

/-- System `b` of the input of a calculation. -/
noncomputable def system (T : Tables) (cn : Spec.CN) (eeq : Spec.EEQ) (numbers : Tensor ℕ)
    (positions charge : Tensor ℝ) (o : CalcOpts) (n : ℕ) (b : Idx) : Spec.Mol n where
  Z := elements numbers n b
  pos := coords positions n b
  cn := cn n (elements numbers n b) (coords positions n b)
  q i := match o.q with
    | some q => q.get (i.1 :: b)
    | none => eeq n (o.cutoff.getD {}).cnEeq (elements numbers n b) (coords positions n b)
        (charge.get b) i
  Q i := match o.r4r2 with
    | some x => x.get (i.1 :: b)
    | none => T.r4r2 (elements numbers n b i)
  rvdw i j := match o.rvdw with
    | some x => x.get (j.1 :: i.1 :: b)
    | none => T.vdw (elements numbers n b i) (elements numbers n b j)

/-- Shapes of the arguments of a calculation are consistent. -/
structure ValidArgs (T : Tables) (numbers : Tensor ℕ) (positions charge : Tensor ℝ) (o : CalcOpts)
    (n : ℕ) (B : Shape) : Prop where
  num : numbers.Ok (n :: B)
  pos : positions.Ok (3 :: n :: B)
  lt : numbers.AllLt T.nZ
  fits : T.Fits
  charge : charge.Ok B
  q : ∀ x, o.q = some x → x.Ok (n :: B)
  rcov : ∀ x, o.rcov = some x → x.Ok (n :: B)
  r4r2 : ∀ x, o.r4r2 = some x → x.Ok (n :: B)
  rvdw : ∀ x, o.rvdw = some x → x.Ok (n :: n :: B)

section
variable {env : Env} {T : Tables} {ext : Ext} {m : RefModel} {numbers : Tensor ℕ}
  {positions charge : Tensor ℝ} {o : CalcOpts} {R : RefCfg} {n : ℕ} {B : Shape}
  {cn : Spec.CN} {eeq : Spec.EEQ}

theorem check_ok {α : Type} {t : Tensor α} (h : t.err = none) : t.check = .ok t := by
  simp [Tensor.check, h]

theorem ensure_ok {c : Prop} (h : c) (e : Err) : ensure c e = .ok () := by simp [ensure, h]

theorem getR4R2_ok (h : ValidArgs T numbers positions charge o n B) :
    (getR4R2 T numbers).Ok (n :: B) := by
  have := gather_err_none h.num.err h.lt h.fits.r4
  constructor <;> simp [getR4R2, this, h.num.shape]

theorem allLt_unsqueeze0 {N : ℕ} (h : numbers.AllLt N) : (numbers.unsqueeze 0).AllLt N := by
  intro i hi
  obtain ⟨r, j, rfl, hr, hj⟩ := InB_cases (d := 1) (s := numbers.shape) (by simpa using hi)
  simpa using h j hj

theorem allLt_unsqueeze1 {N : ℕ} (hs : numbers.shape = n :: B) (h : numbers.AllLt N) :
    (numbers.unsqueeze 1).AllLt N := by
  intro i hi
  obtain ⟨r, j, rfl, hr, hj⟩ := InB_cases (d := n) (s := 1 :: B) (by simpa [hs] using hi)
  obtain ⟨x, k, rfl, hx, hk⟩ := InB_cases hj
  have hin : InB numbers.shape (r :: k) := by rw [hs]; exact ⟨hr, hk⟩
  simpa using h (r :: k) hin

theorem getPair_ok {N : ℕ} {f : ℕ → ℕ → ℝ} (hn : numbers.Ok (n :: B)) (hlt : numbers.AllLt N) :
    (gatherPair N f (numbers.unsqueeze 0) (numbers.unsqueeze 1)).Ok (n :: n :: B) := by
  have e1 : gatherErr N (numbers.unsqueeze 0) = none :=
    gatherErr_eq_none (by simp [hn.err]) (allLt_unsqueeze0 hlt)
  have e2 : gatherErr N (numbers.unsqueeze 1) = none :=
    gatherErr_eq_none (by simp [hn.err, hn.shape]) (allLt_unsqueeze1 hn.shape hlt)
  constructor <;> simp [e1, e2, hn.shape]

theorem getPair_get {N : ℕ} {f : ℕ → ℕ → ℝ} (hn : numbers.Ok (n :: B)) {b : Idx} {i j : ℕ}
    (hb : InB B b) (hi : i < n) (hj : j < n) :
    (gatherPair N f (numbers.unsqueeze 0) (numbers.unsqueeze 1)).get (j :: i :: b) =
      f (numbers.get (i :: b)) (numbers.get (j :: b)) := by
  simp [hn.shape, pick_cons_lt hi, pick_cons_lt hj, pick_of_InB hb]

theorem AllLt.mono {N M : ℕ} (h : numbers.AllLt N) (hNM : N ≤ M) : numbers.AllLt M :=
  fun i hi => lt_of_lt_of_le (h i hi) hNM

/-- Energies of a term do not depend on charges it does not use. -/
theorem Term.energy_congr {t : Term} {S : Spec.Settings} {M M' : Spec.Mol n} (hZ : M.Z = M'.Z)
    (hp : M.pos = M'.pos) (hc : M.cn = M'.cn) (hQ : M.Q = M'.Q) (hr : M.rvdw = M'.rvdw)
    (hq : t.chargeDep = true → M.q = M'.q) (i : Fin n) : t.energy S M i = t.energy S M' i := by
  obtain ⟨Z, pos, c, q, Q, rv⟩ := M
  obtain ⟨Z', pos', c', q', Q', rv'⟩ := M'
  simp only at hZ hp hc hQ hr hq
  subst hZ hp hc hQ hr
  by_cases h : t.chargeDep = true
  · rw [hq h]
  · have hf : t.chargeDep = false := by simpa using h
    have : ∀ q : Fin n → ℝ, (Spec.Mol.data ⟨Z, pos, c, q, Q, rv⟩ t.chargeDep) =
        (Spec.Mol.neutral ⟨Z, pos, c, q, Q, rv⟩) := by
      intro q; funext j; simp [Spec.Mol.data, hf]
    unfold Term.energy
    rw [this, this]
    cases t.cls <;> rfl

/-- `Disp.calculate`: no exception, one energy per atom, sum of the specified energies. -/
theorem calculate_eval {d : Disp} {p : Param} {S : Term → Spec.Settings}
    (hv : ValidArgs T numbers positions charge o n B)
    (hgm : d.getModel env T ext numbers = .ok m) (hm : m.IsFor env T numbers R n B)
    (hcn : CNFunc.PerSystem d.cnFn d.counting T.nZ cn)
    (heeq : (∃ t ∈ d.terms, t.chargeDep = true) → ext.EEQPerSystem T.nZ eeq)
    (hq : o.q = none ∨ ∃ t ∈ d.terms, t.chargeDep = true)
    (hp : ∀ t ∈ d.terms, TermPar env T R p (o.cutoff.getD {}) t (S t)) :
    ∃ e, d.calculate env T ext numbers positions charge p o = .ok e ∧ e.Ok (n :: B) ∧
      ∀ b, InB B b → ∀ i : Fin n, e.get (i.1 :: b) = (d.terms.map fun t =>
        t.energy (S t) (system T cn eeq numbers positions charge o n b) i).sum := by
  set r4 := o.r4r2.getD (getR4R2 T numbers) with hr4
  set rv := o.rvdw.getD (getRvdw T numbers) with hrv
  have hr4ok : r4.Ok (n :: B) := by
    rw [hr4]
    cases h : o.r4r2 with
    | none => exact getR4R2_ok hv
    | some x => exact hv.r4r2 x h
  have hrvok : rv.Ok (n :: n :: B) := by
    rw [hrv]
    cases h : o.rvdw with
    | none => exact getPair_ok hv.num (AllLt.mono hv.lt hv.fits.ext)
    | some x => exact hv.rvdw x h
  obtain ⟨cok, cget⟩ := hcn n B numbers positions hv.num hv.lt hv.pos
  have hany : d.terms.any (·.chargeDep) = true ↔ ∃ t ∈ d.terms, t.chargeDep = true := by simp
  obtain ⟨qo, qg, hqo, hqis, hqv⟩ : ∃ (qo : Option (Tensor ℝ)) (qg : Idx → ℝ),
      d.charges ext numbers positions charge (o.cutoff.getD {}) o.q = .ok qo ∧ D4.OptIs qo n B qg ∧
      ((∃ t ∈ d.terms, t.chargeDep = true) → ∀ b, InB B b → ∀ i : Fin n, qg (i.1 :: b) =
        (system T cn eeq numbers positions charge o n b).q i) := by
    by_cases hdep : ∃ t ∈ d.terms, t.chargeDep = true
    · have hd := hany.2 hdep
      cases hoq : o.q with
      | some x =>
        have hx := hv.q x hoq
        refine ⟨some x, x.get, ?_, Or.inr ⟨x, rfl, hx, rfl⟩, fun _ b hb i => ?_⟩
        · simp [Disp.charges, hd, hx.shape, hv.num.shape]
        · simp [system, hoq]
      | none =>
        obtain ⟨h1, h2⟩ := heeq hdep n B numbers positions charge (o.cutoff.getD {}).cnEeq hv.num
          hv.lt hv.pos hv.charge
        refine ⟨some _, _, ?_, Or.inr ⟨_, rfl, h1, rfl⟩, fun _ b hb i => ?_⟩
        · simp [Disp.charges, hd, check_ok h1.err, h1.shape, hv.num.shape, bind, Except.bind]
        · rw [h2 b hb i]; simp [system, hoq]
    · have hd : d.terms.any (·.chargeDep) = false := by
        rw [Bool.eq_false_iff]; exact fun h => hdep (hany.1 h)
      rcases hq with hq | hq
      · refine ⟨none, fun _ => 0, ?_, Or.inl ⟨rfl, rfl⟩, fun h => absurd h hdep⟩
        simp [Disp.charges, hd, hq]
      · exact absurd hq hdep
  obtain ⟨sok, sget⟩ := sumTerms_eval (ts := d.terms) (cnT := d.cnFn numbers positions d.counting)
    ⟨hv.num, hv.pos, hm, hr4ok, hrvok⟩ (Or.inr ⟨_, rfl, cok, rfl⟩) hqis hp
  refine ⟨_, ?_, sok, fun b hb i => ?_⟩
  · unfold Disp.calculate
    rw [ensure_ok (by rw [hv.num.shape, hv.pos.shape]; rfl)]
    simp only [bind, Except.bind, hgm]
    rw [ensure_ok (by intro x hx; rw [(hv.rcov x hx).shape, hv.num.shape])]
    simp only [← hr4, ← hrv, check_ok hr4ok.err, check_ok hrvok.err]
    rw [ensure_ok (by rw [hr4ok.shape, hv.num.shape])]
    simp only []
    rw [ensure_ok (by rw [hrvok.shape, hv.num.shape]; rfl)]
    simp only [check_ok cok.err, hqo]
    exact check_ok sok.err
  · rw [sget b hb i]
    congr 1
    refine List.map_congr_left fun t ht => ?_
    refine Term.energy_congr ?_ ?_ ?_ ?_ ?_ ?_ i
    · rfl
    · rfl
    · funext j; exact cget b hb j
    · funext j
      simp only [molOf, system, hr4]
      cases o.r4r2 with
      | some x => rfl
      | none => simp [getR4R2, elements]
    · funext j k
      simp only [molOf, system, hrv]
      cases o.rvdw with
      | some x => rfl
      | none => exact getPair_get hv.num hb j.2 k.2
    · intro hdep
      funext j
      exact hqv ⟨t, ht, hdep⟩ b hb j

/-! ## Model selection -/

/-- Default settings of `D4Model` and `D4SModel`. -/
noncomputable def RefCfg.d4 : RefCfg := ⟨.d4, 3, 2, "eeq", fun _ _ => 6⟩
noncomputable def RefCfg.d4s (T : Tables) : RefCfg := ⟨.d4s, 3, 2, "eeq", T.wfpair⟩

/-- The model argument selects a usable model with settings `R`. -/
def ModelSel.Gives (env : Env) (T : Tables) (ext : Ext) (sel : ModelSel) (numbers : Tensor ℕ)
    (R : RefCfg) (n : ℕ) (B : Shape) : Prop :=
  (∃ k, sel = .key k ∧ ext.casefold k = "d4" ∧ R = .d4) ∨
  (∃ k, sel = .key k ∧ ext.casefold k = "d4s" ∧ R = .d4s T) ∨
  (∃ m, sel = .inst m ∧ m.IsFor env T numbers R n B)

/-- `str.casefold` leaves the model keys unchanged. -/
def Ext.CasefoldKeys (ext : Ext) : Prop := ∀ k ∈ ["d3", "d4", "d4s", "d5"], ext.casefold k = k

theorem mkModel_isFor_d4 (hn : numbers.Ok (n :: B)) (hlt : numbers.AllLt T.nZ) (hT : T.Fits) :
    (mkModel env T .d4 numbers).IsFor env T numbers .d4 n B where
  num := rfl
  good := ⟨hn, hT, Or.inl rfl, by simpa [mkModel, Tables.limit] using hlt⟩
  kind := rfl
  ga := rfl
  gc := rfl
  rq := rfl
  rc6 := rfl
  wf := Or.inl ⟨rfl, 6, rfl, fun _ _ => rfl⟩

theorem mkModel_isFor_d4s (hn : numbers.Ok (n :: B)) (hlt : numbers.AllLt T.nZ) (hT : T.Fits) :
    (mkModel env T .d4s numbers).IsFor env T numbers (.d4s T) n B where
  num := rfl
  good := ⟨hn, hT, Or.inl rfl, by simpa [mkModel, Tables.limit] using hlt⟩
  kind := rfl
  ga := rfl
  gc := rfl
  rq := rfl
  rc6 := rfl
  wf := Or.inr ⟨Or.inl rfl, getPair_ok hn (AllLt.mono hlt hT.pair),
    fun b i k hb hi hk => getPair_get hn hb hi hk⟩

theorem RefModel.IsFor.ctorErr (h : m.IsFor env T numbers R n B) : m.ctorErr = none := by
  have hg := h.good
  have e1 : m.rc6.err = none := by
    rw [h.rc6, ← h.num]; exact (getRefC6_ok hg.num hg.fits hg.known hg.lim).err
  have e2 : m.wf.err = none := by
    rcases h.wf with ⟨_, w, hw, _⟩ | ⟨_, hw, _⟩
    · rw [hw]; rfl
    · exact hw.err
  simp [RefModel.ctorErr, e1, e2]

theorem buildModel_d4 (hn : numbers.Ok (n :: B)) (hlt : numbers.AllLt T.nZ) (hT : T.Fits) :
    buildModel env T .d4 numbers {} = .ok (mkModel env T .d4 numbers) := by
  have := (mkModel_isFor_d4 (env := env) hn hlt hT).ctorErr
  simp [buildModel, this]

theorem buildModel_d4s (hn : numbers.Ok (n :: B)) (hlt : numbers.AllLt T.nZ) (hT : T.Fits) :
    buildModel env T .d4s numbers {} = .ok (mkModel env T .d4s numbers) := by
  have := (mkModel_isFor_d4s (env := env) hn hlt hT).ctorErr
  simp [buildModel, this]

/-- The constructor accepts the model argument and `get_model` returns a model with settings `R`. -/
theorem new_getModel {cls : DispClass} {sel : ModelSel} {f : CNFunc} {counting : Option CountFn}
    (hk : ext.CasefoldKeys) (hs : sel.Gives env T ext numbers R n B) (hn : numbers.Ok (n :: B))
    (hlt : numbers.AllLt T.nZ) (hT : T.Fits) :
    ∃ d m, Disp.new ext cls sel none (some f) counting = .ok d ∧ d.terms = cls.terms ∧
      d.cnFn = f ∧ d.counting = counting ∧ m.IsFor env T numbers R n B ∧
      ∀ ts, ({ d with terms := ts } : Disp).getModel env T ext numbers = .ok m := by
  rcases hs with ⟨k, rfl, hc, rfl⟩ | ⟨k, rfl, hc, rfl⟩ | ⟨m, rfl, hm⟩
  · refine ⟨⟨cls.terms, f, counting, .key "d4", {}⟩, _, ?_, rfl, rfl, rfl,
      mkModel_isFor_d4 hn hlt hT, fun ts => ?_⟩
    · simp [Disp.new, hc, DispClass.allowedModels, bind, Except.bind, pure, Except.pure]
    · simp [Disp.getModel, hk "d4" (by simp), buildModel_d4 hn hlt hT]
  · refine ⟨⟨cls.terms, f, counting, .key "d4s", {}⟩, _, ?_, rfl, rfl, rfl,
      mkModel_isFor_d4s hn hlt hT, fun ts => ?_⟩
    · simp [Disp.new, hc, DispClass.allowedModels, bind, Except.bind, pure, Except.pure]
    · simp [Disp.getModel, hk "d4s" (by simp), buildModel_d4s hn hlt hT]
  · refine ⟨⟨cls.terms, f, counting, .inst m, {}⟩, m, ?_, rfl, rfl, rfl, hm, fun ts => ?_⟩
    · simp [Disp.new, bind, Except.bind, pure, Except.pure]
    · simp [Disp.getModel]

/-! ## `dftd4` -/

/-- Settings used by `dftd4` for given parameters, damping function and cutoffs. -/
structure DftPar (env : Env) (T : Tables) (R : RefCfg) (p : Param) (cutoff : Cutoff) (d : Damping)
    (S : Spec.Settings) : Prop where
  ε : S.ε = env.eps
  c6 : S.c6 = c6At env T R
  two : TwoBodyPar env p d S
  cut2 : S.cut2 = cutoff.disp2
  cut3 : S.cut3 = cutoff.disp3
  cut3_nonneg : 0 ≤ S.cut3
  s9 : p.s9.Is Defaults.s9 S.s9
  a1 : p.a1.Is Defaults.a1 S.a1
  a2 : p.a2.Is Defaults.a2 S.a2
  alp : ∃ alp, p.alp.Is Defaults.alp alp ∧ S.f9 = zeroF env 1 (alp / 3)

theorem point9_zero (alp : ℝ) :
    Damping.point env .zero 9 true { alp := some (alp / 3) } = .ok (zeroF env 1 (alp / 3)) := by
  simp [Damping.point, Damping.required, Damping.pointF, Defaults.rs9]

/-- `dftd4`: no exception, one energy per atom, and the energies are the specified ones. -/
theorem dftd4_eval {p : Param} {o : DftOpts} {S : Spec.Settings} (hk : ext.CasefoldKeys)
    (hv : ValidArgs T numbers positions charge o.opts n B)
    (hs : o.model.Gives env T ext numbers R n B)
    (hcn : CNFunc.PerSystem (o.cnFunction.getD ext.cnD4) (some (o.counting.getD ext.erfCount)) T.nZ
      cn)
    (heeq : ext.EEQPerSystem T.nZ eeq)
    (hp : DftPar env T R p (o.opts.cutoff.getD {}) o.damping S) :
    ∃ e, dftd4 env T ext numbers positions charge p o = .ok e ∧ e.Ok (n :: B) ∧
      ∀ b, InB B b → ∀ i : Fin n, e.get (i.1 :: b) =
        Spec.energy S (system T cn eeq numbers positions charge o.opts n b) i := by
  obtain ⟨d, m, hnew, hts, hf, hct, hm, hgm⟩ := new_getModel (cls := .base) (sel := o.model)
    (f := o.cnFunction.getD ext.cnD4) (counting := some (o.counting.getD ext.erfCount))
    hk hs hv.num hv.lt hv.fits
  set d' : Disp := { d with terms := [⟨.twoBody, o.damping, true⟩, ⟨.d4ATMApprox, .zero, false⟩] }
    with hd'
  obtain ⟨e, h1, h2, h3⟩ := calculate_eval (d := d') (p := p) (S := fun _ => S) (eeq := eeq)
    (cn := cn) (ext := ext) (env := env) hv (hgm _) hm (by rw [hd', hf, hct]; exact hcn)
    (fun _ => heeq) (Or.inr ⟨⟨.twoBody, o.damping, true⟩, by simp [hd'], rfl⟩) (by
      intro t ht
      simp only [hd', List.mem_cons, List.not_mem_nil, or_false] at ht
      obtain ⟨alp, ha1, ha2⟩ := hp.alp
      rcases ht with rfl | rfl
      · exact ⟨hp.ε, hp.c6, fun _ => ⟨hp.two, hp.cut2⟩, by simp, by simp, by simp, by simp⟩
      · exact ⟨hp.ε, hp.c6, by simp, fun _ => ⟨⟨hp.s9, alp, ha1, by rw [ha2]; exact point9_zero alp⟩,
          hp.cut3, hp.cut3_nonneg⟩, fun _ => ⟨hp.a1, hp.a2⟩, by simp, by simp⟩)
  refine ⟨e, ?_, h2, fun b hb i => ?_⟩
  · unfold dftd4
    rw [hnew]
    simp only [bind, Except.bind, Disp.register, hts, DispClass.terms, List.nil_append,
      List.cons_append]
    exact h1
  · rw [h3 b hb i]
    have e1 : ∀ M : Spec.Mol n, M.data true = M.atom := fun M => by funext j; simp [Spec.Mol.data]
    have e2 : ∀ M : Spec.Mol n, M.data false = M.neutral := fun M => by
      funext j; simp [Spec.Mol.data]
    simp only [hd', List.map_cons, List.map_nil, List.sum_cons, List.sum_nil, add_zero, Term.energy,
      e1, e2, Spec.energy]

end
end TadDftd4
