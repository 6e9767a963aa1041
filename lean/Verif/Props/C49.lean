import Verif.Props.C35

/-!
# C49: keyword arguments of the dispersion model
-/

set_option linter.unusedSimpArgs false

open scoped Classical

namespace TadDftd4

open Tensor

/-- What a user asks for with `model_kwargs` for the D4 or D4S model: the given charge scaling, the
given reference charges (which must cover the elements), the given weighting factor; documented
defaults (3, 2, `"eeq"`, 6 or the table of pairs) for what is left out. -/
structure Spec.Asks (T : Tables) (kw : ModelKw) (numbers : Tensor ℕ) (R : RefCfg) (n : ℕ)
    (B : Shape) : Prop where
  ga : R.ga = kw.ga.getD 3
  gc : R.gc = kw.gc.getD 2
  charges : R.rq = kw.refCharges.getD "eeq"
  eeq : R.rq = "eeq" ∨ R.rq = "gfn2" ∧ numbers.AllLt T.nG
  wf : R.kind = .d4 ∧ (kw.wf = none ∧ (∀ Z Z', R.wf Z Z' = 6) ∨
      ∃ w, kw.wf = some (scalar w) ∧ ∀ Z Z', R.wf Z Z' = w) ∨
    R.kind = .d4s ∧ (kw.wf = none ∧ R.wf = T.wfpair ∨
      ∃ w, kw.wf = some w ∧ w.Ok (n :: n :: B) ∧ ∀ b i k, InB B b → i < n → k < n →
        w.get (k :: i :: b) = R.wf (numbers.get (i :: b)) (numbers.get (k :: b)))
  noTable : kw.rc6 = none
  known : kw.extra = []

section
variable {env : Env} {T : Tables} {ext : Ext} {numbers : Tensor ℕ} {positions charge : Tensor ℝ}
  {p : Param} {o : CalcOpts} {cls : DispClass} {mk : Option ModelKw} {cf : Option CNFunc}
  {ct : Option CountFn} {n : ℕ} {B : Shape} {kw : ModelKw} {R : RefCfg} {cn : Spec.CN}
  {eeq : Spec.EEQ} {P : Spec.D4Par} {s : String} {d : Disp}

/-- The constructor call with keywords. -/
theorem Spec.Asks.build (h : Spec.Asks T kw numbers R n B) (hn : numbers.Ok (n :: B))
    (hlt : numbers.AllLt T.nZ) (hT : T.Fits) :
    ∃ m, buildModel env T R.kind numbers kw = .ok m ∧ m.IsFor env T numbers R n B := by
  have hknown : knownCharges R.rq := by
    rcases h.eeq with hq | ⟨hq, -⟩
    · exact Or.inl hq
    · exact Or.inr hq
  have hlim : numbers.AllLt (T.limit R.rq) := by
    rcases h.eeq with hq | ⟨hq, hl⟩
    · simpa [Tables.limit, hq] using hlt
    · simpa [Tables.limit, hq] using hl
  have hm : (mkModel env T R.kind numbers (kw.ga.getD gaDefault) (kw.gc.getD gcDefault) kw.wf
      (kw.refCharges.getD "eeq") kw.rc6).IsFor env T numbers R n B := by
    refine ⟨rfl, ⟨hn, hT, ?_, ?_⟩, rfl, h.ga.symm, h.gc.symm, h.charges.symm, ?_, ?_⟩
    · simpa [mkModel, ← h.charges] using hknown
    · simpa [mkModel, ← h.charges] using hlim
    · simp [mkModel, h.noTable]
    · rcases h.wf with ⟨hk, ⟨hw, hr⟩ | ⟨w, hw, hr⟩⟩ | ⟨hk, ⟨hw, hr⟩ | ⟨w, hw, hok, hr⟩⟩
      · exact Or.inl ⟨hk, 6, by simp [mkModel, hw, hk, getWf, wfDefault], hr⟩
      · exact Or.inl ⟨hk, w, by simp [mkModel, hw], hr⟩
      · refine Or.inr ⟨Or.inl hk, ?_, ?_⟩
        · simp only [mkModel, hw, hk, getWf, Option.getD_none]
          exact getPair_ok hn (AllLt.mono hlt hT.pair)
        · intro b i k hb hi hk'
          simp only [mkModel, hw, hk, getWf, Option.getD_none, hr]
          exact getPair_get hn hb hi hk'
      · refine Or.inr ⟨Or.inl hk, ?_, ?_⟩
        · simpa [mkModel, hw] using hok
        · simpa [mkModel, hw] using hr
  exact ⟨_, by simp [buildModel, h.known, hm.ctorErr], hm⟩

/-- The keywords given to the constructor of any class reach the model built for every system. -/
theorem C49_keywords_reach_partial (hk : ext.CasefoldKeys)
    (hs : ext.casefold s = "d4" ∧ R.kind = .d4 ∨ ext.casefold s = "d4s" ∧ R.kind = .d4s)
    (hnew : Disp.new ext cls (.key s) (some kw) cf ct = .ok d)
    (h : Spec.Asks T kw numbers R n B) (hn : numbers.Ok (n :: B)) (hlt : numbers.AllLt T.nZ)
    (hT : T.Fits) :
    ∃ m, d.getModel env T ext numbers = .ok m ∧ m.IsFor env T numbers R n B := by
  obtain ⟨-, -, -, -, hm, hkw, -⟩ := new_ok hnew
  obtain ⟨m, hb, hi⟩ := h.build (env := env) hn hlt hT
  refine ⟨m, ?_, hi⟩
  rcases hs with ⟨hs, hR⟩ | ⟨hs, hR⟩ <;> rw [hR] at hb
  · simp [Disp.getModel, hm, hs, hk "d4" (by simp), hkw, hb]
  · simp [Disp.getModel, hm, hs, hk "d4s" (by simp), hkw, hb]

/-- `DispD4` with model keywords: the energies are those of the method with exactly the settings
that were asked for. -/
theorem C49_energy_partial (hk : ext.CasefoldKeys)
    (hs : ext.casefold s = "d4" ∧ R.kind = .d4 ∨ ext.casefold s = "d4s" ∧ R.kind = .d4s)
    (hnew : Disp.new ext .d4 (.key s) (some kw) cf ct = .ok d)
    (h : Spec.Asks T kw numbers R n B) (hv : ValidArgs T numbers positions charge o n B)
    (hcn : CNFunc.PerSystem d.cnFn d.counting T.nZ cn) (heeq : ext.EEQPerSystem T.nZ eeq)
    (hp : p.Reads P) (hc : 0 ≤ (o.cutoff.getD {}).disp3) (hfl : env.fl = id)
    (hT : T.Physical R.rq) (hgc : 0 < R.gc) :
    ∃ e, d.calculate env T ext numbers positions charge p o = .ok e ∧ e.Ok (n :: B) ∧
      ∀ b, InB B b → ∀ i : Fin n, e.get (i.1 :: b) =
        Spec.energy (Spec.d4Settings (R.spec T env.eps) env.eps P (o.cutoff.getD {}).disp2
          (o.cutoff.getD {}).disp3) (system T cn eeq numbers positions charge o n b) i := by
  obtain ⟨m, hgm, hm⟩ := C49_keywords_reach_partial (env := env) hk hs hnew h hv.num hv.lt hv.fits
  obtain ⟨hts, -⟩ := new_ok hnew
  have hd := hp.dftPar (env := env) (T := T) (R := R) hc
  set S : Spec.Settings := { d4Computed env T R P (o.cutoff.getD {}) with
    f9 := zeroF env 1 (P.alp / 3) } with hS
  obtain ⟨e, h1, h2, h3⟩ := calculate_eval (d := d) (p := p) (S := fun _ => S) (eeq := eeq)
    (cn := cn) (ext := ext) (env := env) hv hgm hm hcn (fun _ => heeq)
    (Or.inr ⟨⟨.twoBody, .rational, true⟩, by simp [hts, DispClass.terms], rfl⟩) (by
      intro t ht
      simp only [hts, DispClass.terms, List.mem_cons, List.not_mem_nil, or_false] at ht
      obtain ⟨alp, ha1, ha2⟩ := hd.alp
      rcases ht with rfl | rfl
      · exact ⟨hd.ε, hd.c6, fun _ => ⟨hd.two, hd.cut2⟩, by simp, by simp, by simp, by simp⟩
      · exact ⟨hd.ε, hd.c6, by simp, fun _ => ⟨⟨hd.s9, alp, ha1, by rw [ha2]; exact point9_zero alp⟩,
          hd.cut3, hd.cut3_nonneg⟩, fun _ => ⟨hd.a1, hd.a2⟩, by simp, by simp⟩)
  refine ⟨e, h1, h2, fun b hb i => ?_⟩
  have e1 : ∀ M : Spec.Mol n, M.data true = M.atom := fun M => by funext j; simp [Spec.Mol.data]
  have e2 : ∀ M : Spec.Mol n, M.data false = M.neutral := fun M => by
    funext j; simp [Spec.Mol.data]
  have e3 : e.get (i.1 :: b) = Spec.energy S (system T cn eeq numbers positions charge o n b) i := by
    rw [h3 b hb i]
    simp only [hts, DispClass.terms, List.map_cons, List.map_nil, List.sum_cons, List.sum_nil,
      add_zero, Term.energy, e1, e2, Spec.energy]
  rw [e3, ← energy_d4Settings hfl hT hgc (fun j => hv.Z_lt hb j) i]
  refine Spec.energy_congr ?_ ?_ i
  · exact env.eps_pos
  · constructor
    case f9 => intro R r hr; exact zeroF_pos hr
    all_goals intros; rfl

/-- Two sets of keywords that differ only in spelling out defaults. -/
def Spec.SameKeywords (kw kw' : ModelKw) : Prop :=
  kw.ga.getD 3 = kw'.ga.getD 3 ∧ kw.gc.getD 2 = kw'.gc.getD 2 ∧
  kw.refCharges.getD "eeq" = kw'.refCharges.getD "eeq" ∧ kw.rc6 = kw'.rc6 ∧
  kw.extra = kw'.extra ∧ kw.wf = kw'.wf

/-- Spelling out a default, giving no keywords, and giving an empty dictionary are the same, for
every key, class, system and parameter, also as to the exceptions raised. -/
theorem C49_defaults {mk' : Option ModelKw} {d' : Disp}
    (hsame : Spec.SameKeywords (mk.getD {}) (mk'.getD {}))
    (hnew : Disp.new ext cls (.key s) mk cf ct = .ok d)
    (hnew' : Disp.new ext cls (.key s) mk' cf ct = .ok d') :
    d.calculate env T ext numbers positions charge p o =
      d'.calculate env T ext numbers positions charge p o := by
  obtain ⟨ht, hct, hcf, -, hm, hkw, hcn⟩ := new_ok hnew
  obtain ⟨ht', hct', hcf', -, hm', hkw', hcn'⟩ := new_ok hnew'
  have hf : d.cnFn = d'.cnFn := by
    cases cf with
    | some f => rw [hcf f rfl, hcf' f rfl]
    | none => exact Except.ok.inj ((hcn rfl).symm.trans (hcn' rfl))
  have hb : ∀ kind, buildModel env T kind numbers d.modelKw =
      buildModel env T kind numbers d'.modelKw := by
    intro kind
    obtain ⟨h1, h2, h3, h4, h5, h6⟩ := hsame
    unfold buildModel
    rw [hkw, hkw', h5, h6, h4, h3, show gaDefault = 3 from rfl, show gcDefault = 2 from rfl, h1, h2]
  have hg : d.getModel env T ext numbers = d'.getModel env T ext numbers := by
    simp only [Disp.getModel, hm, hm', hb]
  have hq : ∀ c q, d.charges ext numbers positions charge c q =
      d'.charges ext numbers positions charge c q := by
    intro c q
    simp only [Disp.charges, ht, ht']
  simp only [Disp.calculate, hg, hf, hct, hct', hq, ht, ht']

/-- With a model object the keywords are without effect, even unknown ones: the model is the given one, and
energies are those of an object created without keywords. -/
theorem C49_instance_ignores {m : RefModel} (hnew : Disp.new ext cls (.inst m) mk cf ct = .ok d) :
    d.getModel env T ext numbers = .ok m ∧
    ∃ d', Disp.new ext cls (.inst m) none cf ct = .ok d' ∧
      d.calculate env T ext numbers positions charge p o =
        d'.calculate env T ext numbers positions charge p o :=
  ⟨C35_instance hnew numbers, d, hnew, rfl⟩

/-- Once the shapes of the arguments agree, an exception of `get_model` is one of `calculate`. -/
theorem calculate_model_error {x : Err} (hg : d.getModel env T ext numbers = .error x)
    (hpos : positions.shape.tail = numbers.shape) :
    d.calculate env T ext numbers positions charge p o = .error x := by
  unfold Disp.calculate
  rw [ensure_ok hpos.symm, hg]
  rfl

/-- Unknown keywords are accepted by the constructor, but every calculation raises TypeError. -/
theorem C49_unknown_keyword (hk : ext.CasefoldKeys)
    (hs : ext.casefold s = "d3" ∨ ext.casefold s = "d4" ∨ ext.casefold s = "d4s")
    (hx : kw.extra ≠ []) :
    (∃ d, Disp.new ext cls (.key s) (some kw) cf ct = .ok d) ∧
    ∀ d, Disp.new ext cls (.key s) (some kw) cf ct = .ok d →
      d.getModel env T ext numbers = .error .type ∧
      (positions.shape.tail = numbers.shape →
        d.calculate env T ext numbers positions charge p o = .error .type) := by
  refine ⟨(C35_accept s).1.2 (by tauto), fun d hnew => ?_⟩
  obtain ⟨-, -, -, -, hm, hkw, -⟩ := new_ok hnew
  have hg : d.getModel env T ext numbers = .error .type := by
    rcases hs with hs | hs | hs
    · simp [Disp.getModel, hm, hs, hk "d3" (by simp), hkw, buildModel, hx]
    · simp [Disp.getModel, hm, hs, hk "d4" (by simp), hkw, buildModel, hx]
    · simp [Disp.getModel, hm, hs, hk "d4s" (by simp), hkw, buildModel, hx]
  exact ⟨hg, calculate_model_error hg⟩

/-- An exception while the reference charges are looked up is one of the model constructor. -/
theorem refsq_error {x : Err} {rq : String} {ga gc : ℝ} (hn : numbers.Ok (n :: B))
    (hlt : numbers.AllLt T.nZ) (hT : T.Fits) (he : (refsqT T rq numbers).err = some x) :
    (getRefC6 env T numbers ga gc rq).err = some x := by
  have e1 := gather_err_none hn.err hlt (le_refl T.nZ)
  have e2 := gather1_sys_err hT hn.err hlt hT.sysSec
  have e3 := gather1_sys_err hT hn.err hlt hT.sysExt
  have ha : (getAlpha env T numbers ga gc rq).err = some x := by
    simp [getAlpha, zetaT, e1, e2, e3, hn.shape, he]
  simp [getRefC6, trapzd, einsum, ha, wTensor]

theorem build_refsq_error {x : Err} {kind : ModelKind} (hx : kw.extra = []) (hr : kw.rc6 = none)
    (hw : kw.wf = none) (hn : numbers.Ok (n :: B)) (hlt : numbers.AllLt T.nZ) (hT : T.Fits)
    (hk : kind = .d4 ∨ kind = .d4s)
    (he : (refsqT T (kw.refCharges.getD "eeq") numbers).err = some x) :
    buildModel env T kind numbers kw = .error x := by
  have h1 := refsq_error (env := env) (ga := kw.ga.getD gaDefault) (gc := kw.gc.getD gcDefault) hn
    hlt hT he
  have h2 : (getWf T kind numbers).err = none := by
    rcases hk with rfl | rfl
    · rfl
    · exact (getPair_ok hn (AllLt.mono hlt hT.pair)).err
  simp [buildModel, hx, RefModel.ctorErr, mkModel, hr, hw, h1, h2]

theorem calculate_refsq_error {x : Err} (hk : ext.CasefoldKeys)
    (hs : ext.casefold s = "d4" ∨ ext.casefold s = "d4s") (hx : kw.extra = [])
    (hr : kw.rc6 = none) (hw : kw.wf = none) (hn : numbers.Ok (n :: B)) (hlt : numbers.AllLt T.nZ)
    (hT : T.Fits) (hnew : Disp.new ext cls (.key s) (some kw) cf ct = .ok d)
    (hpos : positions.shape.tail = numbers.shape)
    (he : (refsqT T (kw.refCharges.getD "eeq") numbers).err = some x) :
    d.calculate env T ext numbers positions charge p o = .error x := by
  obtain ⟨-, -, -, -, hm, hkw, -⟩ := new_ok hnew
  refine calculate_model_error ?_ hpos
  rcases hs with hs | hs
  · simp [Disp.getModel, hm, hs, hk "d4" (by simp), hkw,
      build_refsq_error hx hr hw hn hlt hT (Or.inl rfl) he]
  · simp [Disp.getModel, hm, hs, hk "d4s" (by simp), hkw,
      build_refsq_error hx hr hw hn hlt hT (Or.inr rfl) he]

/-- Unknown reference charges raise ValueError at the first calculation. -/
theorem C49_unknown_charges (hk : ext.CasefoldKeys)
    (hs : ext.casefold s = "d4" ∨ ext.casefold s = "d4s") (hx : kw.extra = [])
    (hr : kw.rc6 = none) (hw : kw.wf = none) {rq : String} (hq : kw.refCharges = some rq)
    (hq1 : rq ≠ "eeq") (hq2 : rq ≠ "gfn2") (hn : numbers.Ok (n :: B)) (hlt : numbers.AllLt T.nZ)
    (hT : T.Fits) (hnew : Disp.new ext cls (.key s) (some kw) cf ct = .ok d)
    (hpos : positions.shape.tail = numbers.shape) :
    d.calculate env T ext numbers positions charge p o = .error .value :=
  calculate_refsq_error hk hs hx hr hw hn hlt hT hnew hpos (by simp [refsqT, hq, hq1, hq2])

/-- The reference charges `"gfn2"` cover fewer elements than `"eeq"`: IndexError for a system with
an element beyond them, although the default reference charges work for it. -/
theorem C49_gfn2_heavy (hk : ext.CasefoldKeys)
    (hs : ext.casefold s = "d4" ∨ ext.casefold s = "d4s") (hx : kw.extra = [])
    (hr : kw.rc6 = none) (hw : kw.wf = none) (hq : kw.refCharges = some "gfn2")
    (hn : numbers.Ok (n :: B)) (hlt : numbers.AllLt T.nZ) (hheavy : ¬ numbers.AllLt T.nG)
    (hT : T.Fits) (hnew : Disp.new ext cls (.key s) (some kw) cf ct = .ok d)
    (hpos : positions.shape.tail = numbers.shape) :
    d.calculate env T ext numbers positions charge p o = .error .index :=
  calculate_refsq_error hk hs hx hr hw hn hlt hT hnew hpos
    (by simp [refsqT, hq, gatherErr, hn.err, hheavy])

/-- A number as weighting factor, as documented (`wf : float`): the claim that it works for both
models. -/
def NumberAsWeightingFactor (env : Env) (T : Tables) (ext : Ext) : Prop :=
  ∀ (s : String) (w : ℝ) (d : Disp), ext.casefold s = "d4" ∨ ext.casefold s = "d4s" →
    Disp.new ext .d4 (.key s) (some { wf := some (scalar w) }) = .ok d →
    ∀ (numbers : Tensor ℕ) (n : ℕ), numbers.Ok [n] → numbers.AllLt T.nZ →
      ∃ m, d.getModel env T ext numbers = .ok m ∧
        ∀ cn q : Tensor ℝ, cn.Ok [n] → q.Ok [n] → (m.weights env T (some cn) (some q)).err = none

/-- A number is not a matrix of weighting factors: an operand of the wrong rank. -/
theorem weights_scalar_wf {m : RefModel} {w : ℝ} (hm : m.kind = .d4s) (hw : m.wf = scalar w)
    (c q : Option (Tensor ℝ)) : (m.weights env T c q).err ≠ none := by
  have h1 : ∀ c, (D4S.arg T m c).err ≠ none := by
    intro c h
    simp only [D4S.arg, einsum, List.foldr_cons, List.foldr_nil, orErr_eq_none] at h
    have h2 := h.2.2.2
    split_ifs at h2 with h3
    have := h3.1 ⟨[Lbl.m, Lbl.n], true, m.wf⟩ (by simp)
    simp [Operand.rankOk, hw] at this
  intro h
  simp only [RefModel.weights, hm, D4S.weights, mul_err, orErr_eq_none] at h
  have h2 := h.1.2
  simp only [D4S.gw, D4S.gwTemp, D4S.expw, D4S.tmp, map_err, where_err, map2_err,
    orErr_eq_none] at h2
  exact h1 _ (by tauto)

/-- It works for D4; for D4S the constructors accept the number, and then evaluating the weights
raises an exception, for every system. -/
theorem C49_wf_number_false (hk : ext.CasefoldKeys) (hT : T.Fits) (hpos : 0 < T.nZ) :
    ¬ NumberAsWeightingFactor env T ext ∧
    (∀ (w : ℝ) (d : Disp), Disp.new ext cls (.key "d4") (some { wf := some (scalar w) }) = .ok d →
      ∀ (numbers : Tensor ℕ) (n : ℕ) (B : Shape) (cn q : Tensor ℝ), numbers.Ok (n :: B) →
        numbers.AllLt T.nZ → cn.Ok (n :: B) → q.Ok (n :: B) →
        ∃ m, d.getModel env T ext numbers = .ok m ∧
          (m.weights env T (some cn) (some q)).err = none) ∧
    ∀ (w : ℝ) (d : Disp), Disp.new ext cls (.key "d4s") (some { wf := some (scalar w) }) = .ok d →
      ∀ (numbers : Tensor ℕ) (n : ℕ) (B : Shape) (cn q : Tensor ℝ), numbers.Ok (n :: B) →
        numbers.AllLt T.nZ →
        ∃ m, d.getModel env T ext numbers = .ok m ∧
          (m.weights env T (some cn) (some q)).err ≠ none := by
  have key : ∀ (cls : DispClass) (w : ℝ) (d : Disp),
      Disp.new ext cls (.key "d4s") (some { wf := some (scalar w) }) = .ok d →
      ∀ (numbers : Tensor ℕ) (n : ℕ) (B : Shape) (cn q : Tensor ℝ), numbers.Ok (n :: B) →
        numbers.AllLt T.nZ →
        ∃ m, d.getModel env T ext numbers = .ok m ∧
          (m.weights env T (some cn) (some q)).err ≠ none := by
    intro cls w d hd numbers n B cn q hn hlt
    obtain ⟨-, -, -, -, hm, hkw, -⟩ := new_ok hd
    have hc : (mkModel env T .d4s numbers gaDefault gcDefault (some (scalar w)) "eeq"
        none).ctorErr = none := by
      have h1 : (getRefC6 env T numbers gaDefault gcDefault "eeq").err = none :=
        (getRefC6_ok hn hT (Or.inl rfl) (by simpa [Tables.limit] using hlt)).err
      simp [RefModel.ctorErr, mkModel, h1]
    refine ⟨mkModel env T .d4s numbers gaDefault gcDefault (some (scalar w)) "eeq" none, ?_,
      weights_scalar_wf rfl rfl _ _⟩
    simp [Disp.getModel, hm, hkw, hk "d4s" (by simp), buildModel, hc]
  refine ⟨fun h => ?_, ?_, key cls⟩
  · obtain ⟨d, hd⟩ := (C35_accept (ext := ext) (cls := .d4)
      (mk := some { wf := some (scalar 6) }) (cf := none) (ct := none) "d4s").1.2
      (Or.inr (Or.inr (Or.inl (hk "d4s" (by simp)))))
    have hn : (full [1] 0 : Tensor ℕ).Ok [1] := ⟨rfl, rfl⟩
    have hz : (full [1] 0 : Tensor ℝ).Ok [1] := ⟨rfl, rfl⟩
    have hlt : (full [1] 0 : Tensor ℕ).AllLt T.nZ := fun _ _ => hpos
    obtain ⟨m, h1, h2⟩ := h "d4s" 6 d (Or.inr (hk "d4s" (by simp))) hd _ 1 hn hlt
    obtain ⟨m', h1', h2'⟩ := key .d4 6 d hd _ 1 [] (full [1] 0) (full [1] 0) hn hlt
    rw [h1] at h1'
    cases h1'
    exact h2' (h2 _ _ hz hz)
  · intro w d hd numbers n B cn q hn hlt hc hq
    obtain ⟨m, h1, h2⟩ := C49_keywords_reach_partial (env := env) (R := ⟨.d4, 3, 2, "eeq", fun _ _ => w⟩) hk
      (Or.inl ⟨hk "d4" (by simp), rfl⟩) hd
      ⟨rfl, rfl, rfl, Or.inl rfl, Or.inl ⟨rfl, Or.inr ⟨w, rfl, fun _ _ => rfl⟩⟩, rfl, rfl⟩ hn hlt hT
    refine ⟨m, h1, ?_⟩
    have h3 := (model_c6_eval h2 (Or.inr ⟨cn, rfl, hc, rfl⟩) (Or.inr ⟨q, rfl, hq, rfl⟩)).1.err
    have hk : m.kind = .d4 := h2.kind
    simp only [RefModel.atomicC6, hk, D4.atomicC6, einsum, List.foldr_cons, List.foldr_nil,
      orErr_eq_none] at h3
    exact h3.2.1

end

namespace Demo

/-- `model_kwargs = {"ga": 2.5, "wf": 4, "ref_charges": "gfn2"}`. -/
noncomputable def keywords : ModelKw :=
  { ga := some 2.5, wf := some (scalar 4), refCharges := some "gfn2" }

noncomputable def askedCfg : RefCfg := ⟨.d4, 2.5, 2, "gfn2", fun _ _ => 4⟩

theorem asks : Spec.Asks T keywords numbers askedCfg 3 [2] where
  ga := rfl
  gc := rfl
  charges := rfl
  eeq := Or.inr ⟨rfl, fun i _ => by
    show numbers.get i < 87
    unfold numbers
    dsimp only
    split <;> norm_num⟩
  wf := Or.inl ⟨rfl, Or.inr ⟨4, rfl, fun _ _ => rfl⟩⟩
  noTable := rfl
  known := rfl

noncomputable def dispKeywords : Disp :=
  { terms := DispClass.d4.terms, cnFn := ext.cnD4, counting := none, model := .key "d4",
    modelKw := keywords }

theorem dispKeywords_new :
    Disp.new ext .d4 (.key "d4") (some keywords) (some ext.cnD4) = .ok dispKeywords := by
  have hk := keys "d4" (by simp)
  simp [Disp.new, hk, DispClass.allowedModels, bind, Except.bind, pure, Except.pure, dispKeywords]

/-- Radium. -/
def numbersRa : Tensor ℕ := full [1] 88

end Demo

/-- Water and hydrogen fluoride with these keywords. -/
example : ∃ e, Demo.dispKeywords.calculate Demo.env Demo.T Demo.ext Demo.numbers Demo.positions
    Demo.charge Demo.param {} = .ok e ∧ e.Ok [3, 2] := by
  obtain ⟨e, h1, h2, -⟩ := C49_energy_partial (env := Demo.env) (cn := Demo.cn) (eeq := Demo.eeq)
    Demo.keys (Or.inl ⟨Demo.keys "d4" (by simp), rfl⟩) Demo.dispKeywords_new Demo.asks Demo.validArgs
    (CNFunc.ofSpec_perSystem _ _ _) (eeqOfSpec_perSystem Demo.eeq rfl _) Demo.reads
    (by norm_num [Defaults.disp3Cutoff]) rfl (shipped_physical Demo.extTables (Or.inr rfl))
    (by norm_num [Demo.askedCfg])
  exact ⟨e, h1, h2⟩

example : Spec.SameKeywords { ga := some 3, refCharges := some "eeq" } {} :=
  ⟨rfl, rfl, rfl, rfl, rfl, rfl⟩

/-- `DispD4(model_kwargs={"gamma": 2})`. -/
example : ∃ d, Disp.new Demo.ext .d4 (.key "d4") (some { extra := ["gamma"] }) = .ok d ∧
    d.calculate Demo.env Demo.T Demo.ext Demo.numbers Demo.positions Demo.charge Demo.param {} =
      .error .type := by
  obtain ⟨⟨d, hd⟩, h⟩ := C49_unknown_keyword (env := Demo.env) (T := Demo.T) (ext := Demo.ext)
    (cls := .d4) (cf := none) (ct := none) (numbers := Demo.numbers) (positions := Demo.positions)
    (charge := Demo.charge) (p := Demo.param) (o := {}) (kw := { extra := ["gamma"] }) (s := "d4")
    Demo.keys (Or.inr (Or.inl (Demo.keys "d4" (by simp)))) (by simp)
  exact ⟨d, hd, (h d hd).2 rfl⟩

/-- The hypotheses of `C49_gfn2_heavy`: the table of EEQ charges contains radium, that of GFN2
charges does not. -/
example : Demo.numbersRa.Ok [1] ∧ Demo.numbersRa.AllLt Demo.T.nZ ∧
    ¬ Demo.numbersRa.AllLt Demo.T.nG := by
  refine ⟨⟨rfl, rfl⟩, fun _ _ => ?_, fun h => ?_⟩
  · show 88 < 104
    norm_num
  · have : (88 : ℕ) < 87 := h [0] (by simp [Demo.numbersRa, InB])
    omega

example : ¬ NumberAsWeightingFactor Demo.env Demo.T Demo.ext :=
  (C49_wf_number_false (cls := .d4) Demo.keys Demo.fits (by show 0 < 104; norm_num)).1

/-- `ga` and `ref_charges` set to their defaults. -/
example : ∃ d d', Disp.new Demo.ext .d4 (.key "d4") (some { ga := some 3, refCharges := some "eeq" })
      (some Demo.ext.cnD4) = .ok d ∧ Disp.new Demo.ext .d4 (.key "d4") none (some Demo.ext.cnD4) = .ok d' ∧
    d.calculate Demo.env Demo.T Demo.ext Demo.numbers Demo.positions Demo.charge Demo.param {} =
      d'.calculate Demo.env Demo.T Demo.ext Demo.numbers Demo.positions Demo.charge Demo.param {} := by
  have hk := Demo.keys "d4" (by simp)
  obtain ⟨d, hd⟩ := (C35_accept (ext := Demo.ext) (cls := .d4)
    (mk := some { ga := some 3, refCharges := some "eeq" }) (cf := some Demo.ext.cnD4) (ct := none)
    "d4").1.2 (Or.inr (Or.inl hk))
  obtain ⟨d', hd'⟩ := (C35_accept (ext := Demo.ext) (cls := .d4) (mk := none)
    (cf := some Demo.ext.cnD4) (ct := none) "d4").1.2 (Or.inr (Or.inl hk))
  exact ⟨d, d', hd, hd', C49_defaults
    (mk := some { ga := some 3, refCharges := some "eeq" }) (mk' := none)
    ⟨rfl, rfl, rfl, rfl, rfl, rfl⟩ hd hd'⟩

/-- The keywords of `Demo.keywords` reach the model. -/
example := C49_keywords_reach_partial (env := Demo.env) Demo.keys
  (Or.inl ⟨Demo.keys "d4" (by simp), rfl⟩) Demo.dispKeywords_new Demo.asks ⟨rfl, rfl⟩
  (fun i _ => Demo.numbers_lt i) Demo.fits

/-- Radium with GFN2 reference charges. -/
example (p : Param) : ∃ d, Disp.new Demo.ext .d4 (.key "d4") (some { refCharges := some "gfn2" }) =
      .ok d ∧ d.calculate Demo.env Demo.T Demo.ext Demo.numbersRa (full [3, 1] 0) (scalar 0) p {} =
        .error .index := by
  have hk := Demo.keys "d4" (by simp)
  obtain ⟨d, hd⟩ := (C35_accept (ext := Demo.ext) (cls := .d4)
    (mk := some { refCharges := some "gfn2" }) (cf := none) (ct := none) "d4").1.2 (Or.inr (Or.inl hk))
  refine ⟨d, hd, C49_gfn2_heavy (n := 1) (B := []) Demo.keys (Or.inl hk) rfl rfl rfl rfl ⟨rfl, rfl⟩
    (fun _ _ => ?_) (fun h => ?_) Demo.fits hd rfl⟩
  · show 88 < 104
    norm_num
  · have : (88 : ℕ) < 87 := h [0] (by simp [Demo.numbersRa, InB])
    omega

/-- Reference charges of GFN1. -/
example (p : Param) : ∃ d, Disp.new Demo.ext .d4 (.key "d4") (some { refCharges := some "gfn1" }) =
      .ok d ∧ d.calculate Demo.env Demo.T Demo.ext Demo.numbers Demo.positions Demo.charge p {} =
        .error .value := by
  have hk := Demo.keys "d4" (by simp)
  obtain ⟨d, hd⟩ := (C35_accept (ext := Demo.ext) (cls := .d4)
    (mk := some { refCharges := some "gfn1" }) (cf := none) (ct := none) "d4").1.2 (Or.inr (Or.inl hk))
  exact ⟨d, hd, C49_unknown_charges (rq := "gfn1") (n := 3) (B := [2]) Demo.keys (Or.inl hk) rfl rfl rfl
    rfl (by decide) (by decide) ⟨rfl, rfl⟩ (fun i _ => Demo.numbers_lt i) Demo.fits hd rfl⟩

example := C49_instance_ignores (env := Demo.env) (T := Demo.T) (ext := Demo.ext) (cls := .d4)
  (cf := some Demo.ext.cnD4) (ct := none) (m := mkModel Demo.env Demo.T .d4 Demo.numbers)
  (mk := some { Demo.keywords with extra := ["gamma"] }) (numbers := Demo.numbers)
  (positions := Demo.positions) (charge := Demo.charge) (p := Demo.param) (o := {}) rfl

end TadDftd4
