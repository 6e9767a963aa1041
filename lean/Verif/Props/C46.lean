import Verif.Lemmas.Runs
import Verif.Props.AnyDisp
import Verif.Props.C36

/-!
# C46: the function and the class interfaces agree
-/

set_option linter.unusedSimpArgs false

open scoped Classical

namespace TadDftd4

open Tensor

/-- `cn_d4` uses `erf_count` when no counting function is passed (its default argument). -/
def Ext.DefaultErf (ext : Ext) : Prop :=
  ∀ numbers positions, ext.cnD4 numbers positions none =
    ext.cnD4 numbers positions (some ext.erfCount)

/-- A D4 or D4S model, as key or as object. -/
def ModelSel.IsD4 (ext : Ext) : ModelSel → Prop
  | .key s => ext.casefold s = "d4" ∨ ext.casefold s = "d4s"
  | .inst m => m.kind = .d4 ∨ m.kind = .d4s ∨ m.kind = .d4sDebug

section
variable {env : Env} {T : Tables} {ext : Ext} {numbers : Tensor ℕ}
  {positions charge : Tensor ℝ} {p : Param} {o : CalcOpts} {n : ℕ}
  {B : Shape} {R : RefCfg} {cn : Spec.CN} {eeq : Spec.EEQ}

/-- `DispD4(model).calculate(...)` and `dftd4(..., model=model)` return the same energies or raise the
same exception, for all arguments whatsoever. -/
theorem C46_dftd4 (he : ext.DefaultErf) {sel : ModelSel} (hs : sel.IsD4 ext) :
    ∃ d, Disp.new ext .d4 sel = .ok d ∧
      ∀ (numbers : Tensor ℕ) (positions charge : Tensor ℝ) (p : Param) (o : CalcOpts),
        d.calculate env T ext numbers positions charge p o =
          dftd4 env T ext numbers positions charge p { model := sel, opts := o } := by
  cases sel with
  | key s =>
    rcases hs with hs | hs
    · refine ⟨⟨DispClass.d4.terms, ext.cnD4, none, .key "d4", {}⟩, ?_, fun numbers positions charge p
        o => ?_⟩
      · simp [Disp.new, hs, DispClass.allowedModels, bind, Except.bind, defaultCN,
          show hasChar "d4" '3' = false by decide +kernel,
          show hasChar "d4" '4' = true by decide +kernel]
        rfl
      · simp only [dftd4, Disp.new, hs, DispClass.allowedModels, bind, Except.bind, pure, Except.pure,
          Option.getD_none, List.mem_cons, true_or, or_true, if_true]
        simp only [Disp.calculate, he numbers positions]
        rfl
    · refine ⟨⟨DispClass.d4.terms, ext.cnD4, none, .key "d4s", {}⟩, ?_, fun numbers positions charge p
        o => ?_⟩
      · simp [Disp.new, hs, DispClass.allowedModels, bind, Except.bind, defaultCN,
          show hasChar "d4s" '3' = false by decide +kernel,
          show hasChar "d4s" '4' = true by decide +kernel]
        rfl
      · simp only [dftd4, Disp.new, hs, DispClass.allowedModels, bind, Except.bind, pure, Except.pure,
          Option.getD_none, List.mem_cons, true_or, or_true, if_true]
        simp only [Disp.calculate, he numbers positions]
        rfl
  | inst m =>
    refine ⟨⟨DispClass.d4.terms, ext.cnD4, none, .inst m, {}⟩, ?_, fun numbers positions charge p
        o => ?_⟩
    · have : defaultCN ext m.kind.className = .ok ext.cnD4 := by
        rcases hs with hs | hs | hs <;> rw [hs] <;> unfold defaultCN
        · rw [if_neg (by decide +kernel), if_pos (by decide +kernel)]
        · rw [if_neg (by decide +kernel), if_pos (by decide +kernel)]
        · rw [if_neg (by decide +kernel), if_pos (by decide +kernel)]
      simp [Disp.new, bind, Except.bind, this]
      rfl
    · simp only [dftd4, Disp.new, bind, Except.bind, pure, Except.pure, Option.getD_none]
      simp only [Disp.calculate, he numbers positions]
      rfl

/-- With `s9 = 0` every object gives the energies of its two-body terms alone. -/
theorem C46_no_threebody {d : Disp} (hs9 : p.s9 = .val 0)
    (h : d.Runs env T ext numbers positions charge p o n B R cn eeq)
    (h' : Disp.Runs env T ext { d with terms := d.terms.filter (·.cls = .twoBody) } numbers positions
      charge p o n B R cn eeq) :
    ∃ e e', d.calculate env T ext numbers positions charge p o = .ok e ∧
      Disp.calculate env T ext { d with terms := d.terms.filter (·.cls = .twoBody) } numbers positions
        charge p o = .ok e' ∧ ∀ b, InB B b → ∀ i < n, e.get (i :: b) = e'.get (i :: b) := by
  obtain ⟨S, hS⟩ := h.settings
  obtain ⟨e, h1, -, h3⟩ := h.eval hS
  obtain ⟨e', h1', -, h3'⟩ := h'.eval (S := S) fun t ht => hS t (List.mem_filter.1 ht).1
  refine ⟨e, e', h1, h1', fun b hb i hi => ?_⟩
  rw [h3 b hb ⟨i, hi⟩, h3' b hb ⟨i, hi⟩]
  have hz : ∀ t ∈ d.terms, t.cls ≠ .twoBody →
      t.energy (S t) (system T cn eeq numbers positions charge o n b) ⟨i, hi⟩ = 0 := by
    intro t ht hc
    have h9 : (S t).s9 = 0 := by
      rcases ((hS t ht).three hc).1.s9 with h | ⟨h, -⟩
      · rw [hs9] at h; injection h with h; exact h.symm
      · rw [hs9] at h; simp at h
    have h3 : ∀ C Rr, Spec.e3 (S t) (system T cn eeq numbers positions charge o n b) C Rr ⟨i, hi⟩ =
        0 := by
      intro C Rr
      unfold Spec.e3 Spec.tripleTerm
      simp [h9]
    unfold Term.energy
    cases hcl : t.cls with
    | twoBody => exact absurd hcl hc
    | _ => exact h3 _ _
  have key : ∀ ts : List Term, (∀ t ∈ ts, t ∈ d.terms) →
      (ts.map fun t => t.energy (S t) (system T cn eeq numbers positions charge o n b)
        ⟨i, hi⟩).sum = ((ts.filter (·.cls = .twoBody)).map fun t => t.energy (S t)
          (system T cn eeq numbers positions charge o n b) ⟨i, hi⟩).sum := by
    intro ts
    induction ts with
    | nil => intro _; rfl
    | cons t ts ih =>
      intro hts
      have ih' := ih fun t ht => hts t (by simp [ht])
      by_cases hc : t.cls = .twoBody
      · simp [List.filter_cons, hc, ih']
      · simp [List.filter_cons, hc, ih', hz t (hts t (by simp)) hc]
  exact key d.terms fun t ht => ht

end

/-- The external functions of the demonstration ignore the counting function. -/
theorem Demo.defaultErf : Demo.ext.DefaultErf := fun _ _ => rfl

/-- Default options. -/
example : ∃ d, Disp.new Demo.ext .d4 (.key "d4") = .ok d ∧
    ∃ e, d.calculate Demo.env Demo.T Demo.ext Demo.numbers Demo.positions Demo.charge Demo.param {} =
      .ok e ∧ dftd4 Demo.env Demo.T Demo.ext Demo.numbers Demo.positions Demo.charge Demo.param {} =
      .ok e := by
  obtain ⟨d, h1, h2⟩ := C46_dftd4 (env := Demo.env) (T := Demo.T) Demo.defaultErf
    (sel := .key "d4") (Or.inl (Demo.keys "d4" (by simp)))
  obtain ⟨e, h3, -⟩ := Demo.call.eval
  exact ⟨d, h1, e, by rw [h2]; exact h3, h3⟩

/-- The D4 object with (some of) its terms and `s9 = 0`. -/
theorem Demo.dispD4_runs {ts : List Term} (h : ∀ t ∈ ts, t ∈ DispClass.d4.terms) :
    Disp.Runs Demo.env Demo.T Demo.ext { Demo.dispOf .d4 with terms := ts } Demo.numbers Demo.positions
      Demo.charge { Demo.paramAll with s9 := .val 0 } {} 3 [2] .d4 Demo.cn Demo.eeq where
  args := Demo.validArgs
  model := (Demo.dispOf_runs .d4 Demo.validArgs).model
  cn := CNFunc.ofSpec_perSystem _ _ _
  eeq _ := eeqOfSpec_perSystem Demo.eeq rfl _
  q := Or.inl rfl
  par t ht := by
    have hr : Damping.Usable Demo.env .rational { Demo.paramAll with s9 := .val 0 } := by
      constructor <;> simp [Damping.point, Damping.required, Damping.pointF, Param.kw, PVal.kw,
        Demo.paramAll]
    have u := (Demo.dispOf_runs .d4 Demo.validArgs).par t (h t ht)
    exact { u with
      two := fun h2 => by
        have := h t ht
        simp only [DispClass.terms, List.mem_cons, List.not_mem_nil, or_false] at this
        rcases this with rfl | rfl
        · exact hr
        · cases h2
      s9 := fun _ => by simp }

example := C46_no_threebody (d := Demo.dispOf .d4) rfl
  (Demo.dispD4_runs (ts := DispClass.d4.terms) fun _ h => h)
  (Demo.dispD4_runs fun _ h => (List.mem_filter.1 h).1)

/-- Objects of all classes give no energy for two hydrogen atoms 100 Bohr apart (`C36_isolated`). -/
example (cls : DispClass) : ∃ e, (Demo.dispOf cls).calculate Demo.env Demo.T Demo.ext Demo.dimer
    (Demo.h2 100) (scalar 0) Demo.paramAll {} = .ok e ∧ e.get [0] = 0 := by
  have h := Demo.dispOf_runs cls (numbers := Demo.dimer) (positions := Demo.h2 100) (charge := scalar 0)
    (n := 2) (B := []) ⟨⟨rfl, rfl⟩, ⟨rfl, rfl⟩, (Demo.h2_valid 100).lt, Demo.fits, ⟨rfl, rfl⟩, by simp,
      by simp, by simp, by simp⟩
  obtain ⟨m, h1, h2⟩ := h.model
  have : Nonempty Spec.Settings := ⟨d4Computed Demo.env Demo.T .d4 Demo.par {}⟩
  choose! S hS using fun t ht => (h.par t ht).settings (T := Demo.T)
  have hd : ∀ j : Fin 2, j ≠ 0 → (60 : ℝ) <
      dist (coords (Demo.h2 100) 2 [] 0) (coords (Demo.h2 100) 2 [] j) := fun j hj => by
    have : j = 1 := by omega
    subst this
    rw [Demo.h2_dist (by norm_num)]
    norm_num
  exact C36_isolated (i := (0 : Fin 2)) (S := S) h.args h1 h2 h.cn h.eeq h.q hS InB_nil
    (fun _ j hj _ => hd j hj) (fun _ j hj _ => lt_trans (by norm_num [Defaults.disp3Cutoff]) (hd j hj))

end TadDftd4
