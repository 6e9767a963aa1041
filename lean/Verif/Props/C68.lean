import Verif.Props.C06
import Verif.Props.C46

/-!
# C68: atomic numbers without data are rejected
-/

set_option linter.unusedSimpArgs false

open scoped Classical

namespace TadDftd4

open Tensor

/-- Some entry of `numbers` is an atomic number for which the tables of the method have no row. -/
def Spec.NoData (N : ℕ) (numbers : Tensor ℕ) : Prop := ∃ i, InB numbers.shape i ∧ N ≤ numbers.get i

/-- The settings of a model leave the reference C6 coefficients to the constructor, which is called with
known keywords only. -/
structure ModelKw.Plain (kw : ModelKw) : Prop where
  extra : kw.extra = []
  wf : ∀ w, kw.wf = some w → w.err = none
  rc6 : kw.rc6 = none

section
variable {env : Env} {T : Tables} {ext : Ext} {numbers : Tensor ℕ} {positions charge : Tensor ℝ}
  {p : Param} {N : ℕ}

theorem gatherErr_noData (he : numbers.err = none) (h : Spec.NoData N numbers) :
    gatherErr N numbers = some .index := by
  obtain ⟨i, hi, hN⟩ := h
  have : ¬ numbers.AllLt N := fun hlt => absurd (hlt i hi) (not_lt.2 hN)
  simp [gatherErr, he, this]

theorem orErr_index {a b : Option Err} (ha : a = none ∨ a = some .index)
    (hb : b = none ∨ b = some .index) : orErr a b = none ∨ orErr a b = some .index := by
  rcases ha with rfl | rfl
  · simpa using hb
  · exact Or.inr rfl

theorem ite_index (c : Prop) [Decidable c] :
    (if c then none else some Err.index) = none ∨ (if c then none else some Err.index) = some .index := by
  by_cases h : c <;> simp [h]

theorem getWf_err (kind : ModelKind) (he : numbers.err = none) :
    (getWf T kind numbers).err = none ∨ (getWf T kind numbers).err = some .index := by
  cases kind with
  | d4 => exact Or.inl rfl
  | d3 => exact Or.inl rfl
  | d5 => exact Or.inl rfl
  | d4s =>
    have hu : ∀ k, (numbers.unsqueeze k).err = none ∨ (numbers.unsqueeze k).err = some .index := by
      intro k
      rw [unsqueeze_err, he]
      exact ite_index _
    have hg : ∀ k, gatherErr T.nPair (numbers.unsqueeze k) = none ∨
        gatherErr T.nPair (numbers.unsqueeze k) = some .index :=
      fun k => orErr_index (hu k) (ite_index _)
    exact orErr_index (orErr_index (hg 0) (hg 1)) (ite_index _)
  | d4sDebug =>
    unfold getWf
    cases numbers.shape.getLast? with
    | none => exact Or.inr rfl
    | some s => exact Or.inl rfl

theorem getRefC6_noData {ga gc : ℝ} {rq : String} (he : numbers.err = none)
    (h : Spec.NoData T.nZ numbers) : (getRefC6 env T numbers ga gc rq).err = some .index := by
  have hg := gatherErr_noData he h
  simp [getRefC6, getAlpha, trapzd, einsum, wTensor, hg, orErr]

/-- No model, of whichever kind and with whichever settings, can be constructed for such atoms. -/
theorem C68_model (kind : ModelKind) {ga gc : ℝ} {wf : Option (Tensor ℝ)} {rq : String}
    (he : numbers.err = none) (hw : ∀ w, wf = some w → w.err = none) (h : Spec.NoData T.nZ numbers) :
    (mkModel env T kind numbers ga gc wf rq).ctorErr = some .index := by
  have h1 : (wf.getD (getWf T kind numbers)).err = none ∨
      (wf.getD (getWf T kind numbers)).err = some .index := by
    cases hwf : wf with
    | some w => exact Or.inl (hw w hwf)
    | none => exact getWf_err kind he
  unfold RefModel.ctorErr mkModel
  show orErr (wf.getD (getWf T kind numbers)).err (getRefC6 env T numbers ga gc rq).err = _
  rw [getRefC6_noData he h]
  rcases h1 with h1 | h1 <;> rw [h1] <;> rfl

theorem buildModel_noData (kind : ModelKind) {kw : ModelKw} (hkw : kw.Plain) (he : numbers.err = none)
    (h : Spec.NoData T.nZ numbers) : buildModel env T kind numbers kw = .error .index := by
  have hc := C68_model (env := env) (ga := kw.ga.getD gaDefault) (gc := kw.gc.getD gcDefault)
    (rq := kw.refCharges.getD "eeq") kind he hkw.wf h
  unfold buildModel
  rw [if_neg (by simp [hkw.extra]), hkw.rc6]
  simp only [hc]

/-- `calculate` of any dispersion object that selects its model by name raises IndexError: whatever its
terms, parameters, cutoffs and external functions. -/
theorem C68_calculate {d : Disp} {k : String} {o : CalcOpts} (hd : d.model = .key k)
    (hk : ext.casefold k ∈ ["d3", "d4", "d4s"]) (hkw : d.modelKw.Plain) (he : numbers.err = none)
    (hs : positions.shape.tail = numbers.shape) (h : Spec.NoData T.nZ numbers) :
    d.calculate env T ext numbers positions charge p o = .error .index := by
  have hm : d.getModel env T ext numbers = .error .index := by
    simp only [Disp.getModel, hd, buildModel_noData _ hkw he h]
    simp only [List.mem_cons, List.not_mem_nil, or_false] at hk
    rcases hk with hk | hk | hk <;> simp [hk]
  unfold Disp.calculate
  rw [ensure_ok hs.symm]
  simp only [bind, Except.bind, hm]

/-- So does `dftd4`. -/
theorem C68_dftd4 {o : DftOpts} {k : String} (hkeys : ext.CasefoldKeys) (ho : o.model = .key k)
    (hk : ext.casefold k ∈ ["d3", "d4", "d4s"]) (he : numbers.err = none)
    (hs : positions.shape.tail = numbers.shape) (h : Spec.NoData T.nZ numbers) :
    dftd4 env T ext numbers positions charge p o = .error .index := by
  have hall : ext.casefold k ∈ DispClass.base.allowedModels := by
    simp only [List.mem_cons, List.not_mem_nil, or_false, DispClass.allowedModels] at hk ⊢
    tauto
  unfold dftd4
  simp only [Disp.new, ho, hall, if_true, bind, Except.bind, pure, Except.pure]
  refine C68_calculate (k := ext.casefold k) rfl ?_ ⟨rfl, fun w hw => by simp [Disp.register] at hw, rfl⟩
    he hs h
  simp only [List.mem_cons, List.not_mem_nil, or_false] at hk ⊢
  rcases hk with hk | hk | hk <;> rw [hk, hkeys _ (by simp)] <;> simp

/-- `get_properties` returns nothing for such atoms, whatever the external functions do; if these raise
nothing, the exception is an IndexError. -/
theorem C68_properties {ch : Option (Tensor ℝ)} {cutoff : Option Cutoff} (he : numbers.err = none)
    (h : Spec.NoData T.nZ numbers) :
    (∀ r, getProperties env T ext numbers positions ch cutoff ≠ .ok r) ∧
    ((ext.cnD4 numbers positions none).err = none →
      (ext.eeq numbers positions (ch.getD (scalar 0)) (cutoff.getD {}).cnEeq).err = none →
      getProperties env T ext numbers positions ch cutoff = .error .index) := by
  have hb : buildModel env T .d4 numbers {} = .error .index :=
    buildModel_noData .d4 ⟨rfl, fun w hw => by simp at hw, rfl⟩ he h
  constructor
  · intro r hr
    unfold getProperties at hr
    simp only [bind, Except.bind] at hr
    split at hr
    · simp at hr
    · split at hr
      · simp at hr
      · rw [hb] at hr
        simp at hr
  · intro h1 h2
    unfold getProperties
    simp only [bind, Except.bind, check_ok h1, check_ok h2, hb]

/-- Of calls of `dftd4` that are correct otherwise, exactly those are accepted whose atoms are elements up
to lawrencium (or padding). -/
theorem C68_accepted {nExt : ℕ} {gam zeff : ℕ → ℝ} {vdw : ℕ → ℕ → ℝ} {key : String} {n : ℕ} {B : Shape}
    {cn : Spec.CN} {eeq : Spec.EEQ} (hext : ExtTables nExt gam zeff) (hk : ext.CasefoldKeys)
    (hkey : ext.casefold key = "d4" ∨ ext.casefold key = "d4s")
    (hn : numbers.err = none) (hns : numbers.shape = n :: B)
    (hp : positions.err = none) (hps : positions.shape = 3 :: numbers.shape)
    (hch : charge.err = none) (hchs : charge.shape = B)
    (hcn : CNFunc.PerSystem ext.cnD4 (some ext.erfCount) 104 cn) (heeq : ext.EEQPerSystem 104 eeq)
    (hpar : p.Numeric) :
    (∃ e, dftd4 env (shipped nExt gam zeff vdw) ext numbers positions charge p
        { model := .key key } = .ok e) ↔ ∀ i, InB numbers.shape i → numbers.get i ≤ 103 := by
  constructor
  · rintro ⟨e, he⟩ i hi
    by_contra hlt
    have := C68_dftd4 (env := env) (T := shipped nExt gam zeff vdw) (positions := positions)
      (charge := charge) (p := p) (o := { model := .key key }) hk rfl
      (by rcases hkey with h | h <;> simp [h]) hn (by rw [hps]; rfl)
      ⟨i, hi, show 104 ≤ _ by omega⟩
    rw [this] at he
    simp at he
  · intro hZ
    obtain ⟨e, h1, -⟩ := C06_no_exception_shipped (env := env) (vdw := vdw) hext hk hkey hn hns hZ hp hps
      hch hchs hcn heeq hpar
    exact ⟨e, h1⟩

end

/-! ## Concrete cases -/

namespace Demo

/-- Water with an atom of rutherfordium (`Z = 104`) instead of oxygen, and hydrogen fluoride. -/
def heavy : Tensor ℕ := numbers.map fun Z => if Z = 8 then 104 else Z

theorem heavy_noData : Spec.NoData T.nZ heavy := by
  refine ⟨[0, 0], ?_, ?_⟩
  · show InB [3, 2] [0, 0]
    simp [InB]
  · show 104 ≤ heavy.get [0, 0]
    simp [heavy, numbers]

end Demo

example : dftd4 Demo.env Demo.T Demo.ext Demo.heavy Demo.positions Demo.charge Demo.param {} =
    .error .index :=
  C68_dftd4 Demo.keys rfl (by simp [Demo.ext]) rfl rfl Demo.heavy_noData

example : ¬ ∃ e, dftd4 Demo.env Demo.T Demo.ext Demo.heavy Demo.positions Demo.charge Demo.param
    { model := .key "D4S" } = .ok e := by
  intro h
  have := (C68_accepted (n := 3) (B := [2]) Demo.extTables Demo.keys (Or.inr rfl) rfl rfl rfl rfl rfl rfl
    (CNFunc.ofSpec_perSystem _ _ _) (eeqOfSpec_perSystem Demo.eeq rfl _)
    ⟨rfl, ⟨_, rfl⟩, ⟨_, rfl⟩, by simp [Demo.param], by simp [Demo.param], by simp [Demo.param],
    by simp [Demo.param], by simp [Demo.param]⟩).1 h [0, 0] (by show InB [3, 2] [0, 0]; simp [InB])
  simp [Demo.heavy, Demo.numbers] at this

example := C68_model (env := Demo.env) (ga := 3) (gc := 2) (wf := none) (rq := "eeq") .d4s rfl (by simp)
  Demo.heavy_noData

example := C68_calculate (env := Demo.env) (ext := Demo.ext) (charge := Demo.charge) (p := Demo.param)
  (o := {}) (positions := Demo.positions)
  (d := ⟨[], Demo.ext.cnD4, none, .key "d4", { ga := some 2 }⟩) rfl (by simp [Demo.ext])
  ⟨rfl, by simp, rfl⟩ rfl rfl Demo.heavy_noData

example := (C68_properties (env := Demo.env) (ext := Demo.ext) (positions := Demo.positions) (ch := none)
  (cutoff := none) rfl Demo.heavy_noData).2 rfl rfl

end TadDftd4
