import Verif.Props.C34

/-!
# C35: model selection
-/

set_option linter.unusedSimpArgs false

open scoped Classical

namespace TadDftd4

open Tensor

section
variable {env : Env} {T : Tables} {ext : Ext} {numbers : Tensor ℕ} {positions charge : Tensor ℝ}
  {p : Param} {o : CalcOpts} {cls : DispClass} {mk : Option ModelKw} {cf : Option CNFunc}
  {ct : Option CountFn} {n : ℕ} {B : Shape}

/-- The constructor of every class accepts exactly the keys `d3`, `d4`, `d4s` and `d5`, regardless of
case, and raises ValueError for every other string. -/
theorem C35_accept (s : String) :
    ((∃ d, Disp.new ext cls (.key s) mk cf ct = .ok d) ↔
      ext.casefold s = "d3" ∨ ext.casefold s = "d4" ∨ ext.casefold s = "d4s" ∨
        ext.casefold s = "d5") ∧
    (¬ (∃ d, Disp.new ext cls (.key s) mk cf ct = .ok d) →
      Disp.new ext cls (.key s) mk cf ct = .error .value) := by
  by_cases h : ext.casefold s ∈ cls.allowedModels
  · have hok : ∃ d, Disp.new ext cls (.key s) mk cf ct = .ok d := by
      cases cf with
      | some f => simp [Disp.new, h, bind, Except.bind, pure, Except.pure]
      | none =>
        have : ∃ f, defaultCN ext (ext.casefold s) = .ok f := by
          simp only [DispClass.allowedModels, List.mem_cons, List.not_mem_nil, or_false] at h
          rcases h with h | h | h | h <;> rw [h]
          · exact ⟨ext.cnD3, rfl⟩
          · exact ⟨ext.cnD4, rfl⟩
          · exact ⟨ext.cnD4, rfl⟩
          · exact ⟨ext.cnD3, rfl⟩
        obtain ⟨f, hf⟩ := this
        simp [Disp.new, h, hf, bind, Except.bind, pure, Except.pure]
    refine ⟨⟨fun _ => by simpa [DispClass.allowedModels] using h, fun _ => hok⟩, fun hno => absurd hok hno⟩
  · have herr : Disp.new ext cls (.key s) mk cf ct = .error .value := by
      simp [Disp.new, h, bind, Except.bind]
    refine ⟨⟨?_, fun hk => absurd (by simpa [DispClass.allowedModels] using hk) h⟩, fun _ => herr⟩
    rintro ⟨d, hd⟩
    rw [herr] at hd
    cases hd

/-- The default coordination number function follows the model: D4 for `d4` and `d4s`, D3 for `d3`. -/
theorem C35_default_cn {s : String} {d : Disp}
    (h : Disp.new ext cls (.key s) mk none ct = .ok d) :
    ((ext.casefold s = "d4" ∨ ext.casefold s = "d4s") → d.cnFn = ext.cnD4) ∧
    (ext.casefold s = "d3" → d.cnFn = ext.cnD3) := by
  obtain ⟨-, -, -, -, -, -, hc⟩ := new_ok h
  have hc := hc rfl
  constructor
  · rintro (hs | hs) <;> rw [hs] at hc
    · exact (Except.ok.inj hc).symm
    · exact (Except.ok.inj hc).symm
  · intro hs
    rw [hs] at hc
    exact (Except.ok.inj hc).symm

/-- A model object is used as it is by every class, for every system it is later applied to. -/
theorem C35_instance {m : RefModel} {d : Disp}
    (h : Disp.new ext cls (.inst m) mk cf ct = .ok d) (numbers : Tensor ℕ) :
    d.getModel env T ext numbers = .ok m := by
  obtain ⟨-, -, -, hm, -⟩ := new_ok h
  simp only [Disp.getModel, hm]

/-- The keys `d4` and `d4s` give, in every class, for every system a model of that kind for exactly
this system, whose C6 coefficients can be evaluated for all coordination numbers and charges. -/
theorem C35_usable_partial (hk : ext.CasefoldKeys) {s : String} {kind : ModelKind}
    (hs : ext.casefold s = "d4" ∧ kind = .d4 ∨ ext.casefold s = "d4s" ∧ kind = .d4s) {d : Disp}
    (hnew : Disp.new ext cls (.key s) none cf ct = .ok d) (hT : T.Fits) (hn : numbers.Ok (n :: B))
    (hlt : numbers.AllLt T.nZ) :
    ∃ m, d.getModel env T ext numbers = .ok m ∧ m.kind = kind ∧ m.numbers = numbers ∧
      ∀ cn q : Tensor ℝ, cn.Ok (n :: B) → q.Ok (n :: B) →
        (m.atomicC6 (m.weights env T (some cn) (some q))).Ok (n :: n :: B) ∧
        (m.atomicC6 (m.weights env T (some cn) none)).Ok (n :: n :: B) := by
  obtain ⟨-, -, -, -, hm, hkw, -⟩ := new_ok hnew
  have key : ∀ R (m : RefModel), m.IsFor env T numbers R n B → ∀ cn q : Tensor ℝ, cn.Ok (n :: B) → q.Ok (n :: B) →
        (m.atomicC6 (m.weights env T (some cn) (some q))).Ok (n :: n :: B) ∧
        (m.atomicC6 (m.weights env T (some cn) none)).Ok (n :: n :: B) := by
    intro R m h cn q hc hq
    exact ⟨(model_c6_eval h (Or.inr ⟨cn, rfl, hc, rfl⟩) (Or.inr ⟨q, rfl, hq, rfl⟩)).1,
      (model_c6_eval h (Or.inr ⟨cn, rfl, hc, rfl⟩) (Or.inl ⟨rfl, rfl⟩)).1⟩
  rcases hs with ⟨hs, rfl⟩ | ⟨hs, rfl⟩
  · refine ⟨_, ?_, rfl, rfl, key _ _ (mkModel_isFor_d4 hn hlt hT)⟩
    simp [Disp.getModel, hm, hs, hk "d4" (by simp), hkw, buildModel_d4 hn hlt hT]
  · refine ⟨_, ?_, rfl, rfl, key _ _ (mkModel_isFor_d4s hn hlt hT)⟩
    simp [Disp.getModel, hm, hs, hk "d4s" (by simp), hkw, buildModel_d4s hn hlt hT]

/-! ## What is not true -/

/-- The key `d5` is accepted, but no calculation succeeds: the model cannot be obtained. -/
theorem C35_d5_never (hk : ext.CasefoldKeys) {s : String} (hs : ext.casefold s = "d5") {d : Disp}
    (hnew : Disp.new ext cls (.key s) mk cf ct = .ok d) :
    d.getModel env T ext numbers = .error .value ∧
    ∀ e, d.calculate env T ext numbers positions charge p o ≠ .ok e := by
  obtain ⟨-, -, -, -, hm, -⟩ := new_ok hnew
  have h : d.getModel env T ext numbers = .error .value := by
    simp [Disp.getModel, hm, hs, hk "d5" (by simp)]
  refine ⟨h, fun e he => ?_⟩
  obtain ⟨m, -, -, hg, -⟩ := calculate_ok he
  rw [h] at hg
  cases hg

/-- A term with a stub model never succeeds. -/
theorem stub_term_err {m : RefModel} (hm : m.kind.implemented = false) {t : Term} {cn r4r2 rvdw : Tensor ℝ}
    {q : Option (Tensor ℝ)} {c : Cutoff} :
    (t.calculate env T numbers positions p cn m q r4r2 rvdw c).err ≠ none := by
  have hc6 : ∀ w, (m.atomicC6 w).err ≠ none := by
    intro w
    cases hmk : m.kind <;> simp [hmk, ModelKind.implemented] at hm <;>
      simp [RefModel.atomicC6, hmk]
  have hc9 : (t.c9 env T m cn q).err ≠ none := by simp [Term.c9, hm]
  intro h
  cases hcls : t.cls with
  | twoBody =>
    simp only [Term.calculate, hcls, dispersion2, Tensor.after_err, orErr_eq_none] at h
    have := h.2.1
    simp only [mul_err, orErr_eq_none] at this
    exact hc6 _ this.1.1
  | _ =>
    simp only [Term.calculate, hcls] at h
    split at h <;> simp only [Tensor.after_err, orErr_eq_none] at h <;> exact hc9 h.1

/-- The key `d3` is accepted by every class, but no calculation with at least one term succeeds. -/
theorem C35_d3_never (hk : ext.CasefoldKeys) {s : String} (hs : ext.casefold s = "d3") {d : Disp}
    (hnew : Disp.new ext cls (.key s) mk cf ct = .ok d) {ts : List Term} (hts : ts ≠ []) :
    ∀ e, { d with terms := ts }.calculate env T ext numbers positions charge p o ≠ .ok e := by
  obtain ⟨-, -, -, -, hm, -⟩ := new_ok hnew
  intro e he
  obtain ⟨m, c, q, hg, -, -, -, -, hall⟩ := calculate_ok he
  obtain ⟨t, ht⟩ := List.exists_mem_of_ne_nil ts hts
  refine stub_term_err ?_ (hall t ht)
  simp only [Disp.getModel, hm, hs, hk "d3" (by simp), if_true, buildModel] at hg
  split at hg
  · cases hg
  · split at hg
    · cases hg
    · cases hg
      rfl

/-- The claim about the classes: a class with `ALLOWED_MODELS` accepts only those keys. -/
def ClassesRestrictModels (ext : Ext) : Prop :=
  ∀ (cls : DispClass) (keys : List String), cls.declaredModels = some keys →
    ∀ s, (∃ d, Disp.new ext cls (.key s) = .ok d) ↔ ext.casefold s ∈ keys

/-- The claim is false: `DispD4(model="d3")`, `DispD3BJ(model="d4")` and the default
`DispD3BJ()` (a D4 model) are accepted. -/
theorem C35_restrict_false (hk : ext.CasefoldKeys) : ¬ ClassesRestrictModels ext ∧
    (∃ d, Disp.new ext .d4 (.key "d3") = .ok d) ∧ (∃ d, Disp.new ext .d3BJ (.key "d4") = .ok d) ∧
    (∃ d, Disp.new ext .d3BJ = .ok d ∧ d.model = .key "d4") := by
  have h1 : ∃ d, Disp.new ext .d4 (.key "d3") = .ok d :=
    (C35_accept "d3").1.2 (Or.inl (hk "d3" (by simp)))
  have h2 : ∃ d, Disp.new ext .d3BJ (.key "d4") = .ok d :=
    (C35_accept "d4").1.2 (Or.inr (Or.inl (hk "d4" (by simp))))
  refine ⟨fun h => ?_, h1, h2, ?_⟩
  · have := (h .d4 ["d4", "d4s"] rfl "d3").1 h1
    rw [hk "d3" (by simp)] at this
    simp at this
  · obtain ⟨d, hd⟩ := h2
    obtain ⟨-, -, -, -, hm, -⟩ := new_ok hd
    exact ⟨d, hd, by rw [hm, hk "d4" (by simp)]⟩

/-- The claim about accepted keys: a model can be obtained. -/
def AcceptedKeysUsable (env : Env) (T : Tables) (ext : Ext) : Prop :=
  ∀ cls s d, Disp.new ext cls (.key s) = .ok d →
    ∀ numbers : Tensor ℕ, numbers.err = none → numbers.AllLt T.nZ →
      ∃ m, d.getModel env T ext numbers = .ok m

theorem C35_usable_false (hk : ext.CasefoldKeys) (hpos : 0 < T.nZ) :
    ¬ AcceptedKeysUsable env T ext := by
  intro h
  obtain ⟨d, hd⟩ := (C35_accept (ext := ext) (cls := .base) (mk := none) (cf := none) (ct := none)
    "d5").1.2 (Or.inr (Or.inr (Or.inr (hk "d5" (by simp)))))
  obtain ⟨m, hm⟩ := h .base "d5" d hd (full [1] 0) rfl (fun _ _ => hpos)
  rw [(C35_d5_never (env := env) (T := T) (numbers := full [1] 0) (positions := full [3, 1] 0)
    (charge := scalar 0) (p := {}) (o := {}) hk (hk "d5" (by simp)) hd).1] at hm
  cases hm

end

/-- The demo tables, `DispD4Exact("D4S")`-like selection on a batch of two systems. -/
example : ∃ d m, Disp.new Demo.ext .d4Exact (.key "d4s") = .ok d ∧
    d.getModel Demo.env Demo.T Demo.ext Demo.numbers = .ok m ∧ m.kind = .d4s := by
  obtain ⟨d, hd⟩ := (C35_accept (ext := Demo.ext) (cls := .d4Exact) (mk := none) (cf := none)
    (ct := none) "d4s").1.2 (Or.inr (Or.inr (Or.inl (Demo.keys "d4s" (by simp)))))
  obtain ⟨m, h1, h2, -⟩ := C35_usable_partial (env := Demo.env) Demo.keys
    (Or.inr ⟨Demo.keys "d4s" (by simp), rfl⟩) hd Demo.fits Demo.validArgs.num Demo.validArgs.lt
  exact ⟨d, m, hd, h1, h2⟩

example : ¬ ClassesRestrictModels Demo.ext := (C35_restrict_false Demo.keys).1

/-- Objects for the models `d3`, `d5` and `D4S`, and for a model object. -/
example (p : Param) : ∃ d, Disp.new Demo.ext .d4 (.key "d3") = .ok d ∧
    ∀ e, Disp.calculate Demo.env Demo.T Demo.ext { d with terms := DispClass.d4.terms } Demo.numbers
      Demo.positions Demo.charge p {} ≠ .ok e := by
  obtain ⟨d, hd⟩ := (C35_accept (ext := Demo.ext) (cls := .d4) (mk := none) (cf := none)
    (ct := none) "d3").1.2 (Or.inl (Demo.keys "d3" (by simp)))
  exact ⟨d, hd, C35_d3_never Demo.keys (Demo.keys "d3" (by simp)) hd (by simp [DispClass.terms])⟩

example (p : Param) : ∃ d, Disp.new Demo.ext .d4 (.key "d5") (cnFn := some Demo.ext.cnD4) =
    .ok d ∧ ∀ e, d.calculate Demo.env Demo.T Demo.ext Demo.numbers Demo.positions Demo.charge p {} ≠
      .ok e := by
  obtain ⟨d, hd⟩ := (C35_accept (ext := Demo.ext) (cls := .d4) (mk := none)
    (cf := some Demo.ext.cnD4) (ct := none) "d5").1.2
    (Or.inr (Or.inr (Or.inr (Demo.keys "d5" (by simp)))))
  exact ⟨d, hd, (C35_d5_never Demo.keys (Demo.keys "d5" (by simp)) hd).2⟩

example : ∃ d, Disp.new Demo.ext .d3BJ (.key "D4S") = .ok d ∧ d.cnFn = Demo.ext.cnD4 := by
  have hk : Demo.ext.casefold "D4S" = "d4s" := by decide +kernel
  obtain ⟨d, hd⟩ := (C35_accept (ext := Demo.ext) (cls := .d3BJ) (mk := none) (cf := none)
    (ct := none) "D4S").1.2 (Or.inr (Or.inr (Or.inl hk)))
  exact ⟨d, hd, (C35_default_cn hd).1 (Or.inr hk)⟩

example (m : RefModel) : ∃ d, Disp.new Demo.ext .d4 (.inst m) (cnFn := some Demo.ext.cnD4) = .ok d ∧
    d.getModel Demo.env Demo.T Demo.ext Demo.numbers = .ok m :=
  ⟨_, rfl, C35_instance (ext := Demo.ext) (cls := .d4) (mk := none) (cf := some Demo.ext.cnD4)
    (ct := none) rfl _⟩

end TadDftd4
