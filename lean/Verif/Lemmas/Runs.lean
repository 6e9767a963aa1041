import Verif.Lemmas.Setup
import Verif.Props.C07
import Verif.Props.C32

/-!
# `Disp` objects of any class with any terms

`Disp.Runs` collects what an evaluation of a `Disp` object needs; `Disp.Runs.eval` gives the energies
as sum of the specified energies of the terms.
-/

set_option linter.unusedSimpArgs false

open scoped Classical

namespace TadDftd4

open Tensor

/-- A term can be evaluated with the parameters: a two-body term if its damping function can, a
three-body term with zero damping (the only one that can be called for it) if the entries it reads are
numbers. The exact three-body term is only considered with D4 models (see C17, C39 for D4S). -/
structure Term.Usable (env : Env) (R : RefCfg) (p : Param) (cutoff : Cutoff) (t : Term) : Prop where
  two : t.cls = .twoBody → t.damping.Usable env p
  zero : t.cls ≠ .twoBody → t.damping = .zero
  s9 : t.cls ≠ .twoBody → p.s9 ≠ .none
  alp : t.cls ≠ .twoBody → p.alp ≠ .none
  cut3 : t.cls ≠ .twoBody → 0 ≤ cutoff.disp3
  a1 : t.cls = .d4ATMApprox ∨ t.cls = .d4ATMExact → p.a1 ≠ .none
  a2 : t.cls = .d4ATMApprox ∨ t.cls = .d4ATMExact → p.a2 ≠ .none
  rs9 : t.cls = .d3ATM → p.rs9 ≠ .none
  exact : t.cls = .d4ATMExact → R.kind = .d4

/-- Everything needed by `d.calculate` is in order: consistent shapes and covered elements, a model
for the system, coordination number and charge functions acting on each system separately, charges
only if a term uses them, and terms that can be evaluated with the parameters. -/
structure Disp.Runs (env : Env) (T : Tables) (ext : Ext) (d : Disp) (numbers : Tensor ℕ)
    (positions charge : Tensor ℝ) (p : Param) (o : CalcOpts) (n : ℕ) (B : Shape) (R : RefCfg)
    (cn : Spec.CN) (eeq : Spec.EEQ) : Prop where
  args : ValidArgs T numbers positions charge o n B
  model : ∃ m, d.getModel env T ext numbers = .ok m ∧ m.IsFor env T numbers R n B
  cn : CNFunc.PerSystem d.cnFn d.counting T.nZ cn
  eeq : d.UsesCharges → ext.EEQPerSystem T.nZ eeq
  q : o.q = none ∨ d.UsesCharges
  par : ∀ t ∈ d.terms, t.Usable env R p (o.cutoff.getD {})

section
variable {env : Env} {T : Tables} {ext : Ext} {d : Disp} {numbers : Tensor ℕ}
  {positions charge : Tensor ℝ} {p : Param} {o : CalcOpts} {n m : ℕ} {B : Shape} {R : RefCfg}
  {cn : Spec.CN} {eeq : Spec.EEQ}

theorem PVal.exists_is {v : PVal} (h : v ≠ .none) (x : ℝ) : ∃ y, v.Is x y := by
  cases v with
  | absent => exact ⟨x, Or.inr ⟨rfl, rfl⟩⟩
  | none => exact absurd rfl h
  | val y => exact ⟨y, Or.inl rfl⟩

/-- The settings of a usable term. -/
theorem Term.Usable.settings {t : Term} {c : Cutoff} (h : t.Usable env R p c) :
    ∃ S, TermPar env T R p c t S := by
  by_cases ht : t.cls = .twoBody
  · obtain ⟨f6, f8, f10, s6, s8, s10, h6, h8, hs6, hs8, hs10⟩ := (h.two ht).values
    refine ⟨{
      ε := env.eps, c6 := c6At env T R, c9x := c9At env T R, f6 := f6, f8 := f8,
      f10 := f10, f9 := fun _ _ => 0, radius := t.damping.specRadius, s6 := s6, s8 := s8,
      s10 := s10, s9 := 0, a1 := 0, a2 := 0, rs9 := 0, cut2 := c.disp2, cut3 := c.disp3 },
      rfl, rfl, fun _ => ⟨⟨(h.two ht).extra, h6, h8, hs6, hs8, hs10, rfl⟩, rfl⟩,
      fun hc => absurd ht hc, ?_, ?_, ?_⟩ <;> intro hc <;> rw [ht] at hc <;> simp at hc
  · obtain ⟨s9, hs9⟩ := PVal.exists_is (h.s9 ht) Defaults.s9
    obtain ⟨alp, halp⟩ := PVal.exists_is (h.alp ht) Defaults.alp
    have ha : ∃ a1 a2, t.cls = .d4ATMApprox ∨ t.cls = .d4ATMExact →
        p.a1.Is Defaults.a1 a1 ∧ p.a2.Is Defaults.a2 a2 := by
      by_cases hb : t.cls = .d4ATMApprox ∨ t.cls = .d4ATMExact
      · obtain ⟨a1, h1⟩ := PVal.exists_is (h.a1 hb) Defaults.a1
        obtain ⟨a2, h2⟩ := PVal.exists_is (h.a2 hb) Defaults.a2
        exact ⟨a1, a2, fun _ => ⟨h1, h2⟩⟩
      · exact ⟨0, 0, fun hc => absurd hc hb⟩
    have hr : ∃ rs9, t.cls = .d3ATM → p.rs9.Is Defaults.rs9 rs9 := by
      by_cases hb : t.cls = .d3ATM
      · obtain ⟨a1, h1⟩ := PVal.exists_is (h.rs9 hb) Defaults.rs9
        exact ⟨a1, fun _ => h1⟩
      · exact ⟨0, fun hc => absurd hc hb⟩
    obtain ⟨a1, a2, ha⟩ := ha
    obtain ⟨rs9, hr⟩ := hr
    refine ⟨{
      ε := env.eps, c6 := c6At env T R, c9x := c9At env T R, f6 := fun _ _ => 0,
      f8 := fun _ _ => 0, f10 := fun _ _ => 0, f9 := zeroF env 1 (alp / 3),
      radius := .r4r2, s6 := 0, s8 := 0, s10 := 0, s9 := s9, a1 := a1, a2 := a2, rs9 := rs9,
      cut2 := c.disp2, cut3 := c.disp3 },
      rfl, rfl, fun hc => absurd hc ht, fun _ => ⟨⟨hs9, alp, halp, ?_⟩, rfl, h.cut3 ht⟩, ha,
      fun hx => ⟨h.exact hx, rfl⟩, hr⟩
    rw [h.zero ht]
    exact point9_zero alp

/-- Settings of all terms. They depend on the parameters only. -/
theorem Disp.Runs.settings
    (h : d.Runs env T ext numbers positions charge p o n B R cn eeq) :
    ∃ S : Term → Spec.Settings, ∀ t ∈ d.terms, TermPar env T R p (o.cutoff.getD {}) t (S t) := by
  have h1 : ∀ t : Term, ∃ S, t ∈ d.terms → TermPar env T R p (o.cutoff.getD {}) t S := by
    intro t
    by_cases ht : t ∈ d.terms
    · obtain ⟨S, hS⟩ := (h.par t ht).settings (T := T)
      exact ⟨S, fun _ => hS⟩
    · exact ⟨⟨0, fun _ _ => 0, fun _ _ _ => 0, fun _ _ => 0, fun _ _ => 0, fun _ _ => 0,
        fun _ _ => 0, .r4r2, 0, 0, 0, 0, 0, 0, 0, 0, 0⟩, fun hc => absurd hc ht⟩
  choose S hS using h1
  exact ⟨S, hS⟩

theorem Disp.Runs.eval (h : d.Runs env T ext numbers positions charge p o n B R cn eeq)
    {S : Term → Spec.Settings}
    (hS : ∀ t ∈ d.terms, TermPar env T R p (o.cutoff.getD {}) t (S t)) :
    ∃ e, d.calculate env T ext numbers positions charge p o = .ok e ∧ e.Ok (n :: B) ∧
      ∀ b, InB B b → ∀ i : Fin n, e.get (i.1 :: b) = (d.terms.map fun t =>
        t.energy (S t) (system T cn eeq numbers positions charge o n b) i).sum := by
  obtain ⟨m, hgm, hm⟩ := h.model
  exact calculate_eval h.args hgm hm h.cn h.eeq h.q hS

/-- Part of the atoms, the others being padding or beyond the cutoff of the term. -/
theorem Term.energy_comap {t : Term} {S : Spec.Settings} {M : Spec.Mol n} {f : Fin m → Fin n}
    (hf : Function.Injective f)
    (h : ∀ j, j ∉ Set.range f → M.Z j = 0 ∨ ∀ i, M.Z (f i) ≠ 0 →
      (t.cls = .twoBody → S.cut2 < M.r S.ε (f i) j) ∧
      (t.cls ≠ .twoBody → S.cut3 < M.r S.ε (f i) j)) (i : Fin m) :
    t.energy S (M.comap f) i = t.energy S M (f i) := by
  have hd : (M.comap f).data t.chargeDep = M.data t.chargeDep ∘ f := by
    funext j; unfold Spec.Mol.data; split <;> rfl
  have h3 : t.cls ≠ .twoBody → ∀ j, j ∉ Set.range f →
      M.Z j = 0 ∨ ∀ i, M.Z (f i) ≠ 0 → S.cut3 < M.r S.ε (f i) j :=
    fun hc j hj => (h j hj).imp id fun h' i hi => (h' i hi).2 hc
  unfold Term.energy
  rw [hd]
  cases hc : t.cls with
  | twoBody => exact Spec.e2_comap hf _ (fun j hj => (h j hj).imp id fun h' i hi => (h' i hi).1 hc) i
  | d4ATMApprox =>
    exact Spec.e3_comap hf (Spec.c9 S (M.data t.chargeDep)) (Spec.R0 S M) (h3 (by simp [hc])) i
  | d4ATMExact =>
    exact Spec.e3_comap hf (fun i j k => S.c9x (M.data t.chargeDep i) (M.data t.chargeDep j)
      (M.data t.chargeDep k)) (Spec.R0 S M) (h3 (by simp [hc])) i
  | d3ATM =>
    exact Spec.e3_comap hf (Spec.c9 S (M.data t.chargeDep)) (Spec.R0vdw S M) (h3 (by simp [hc])) i

theorem Term.energy_pad {t : Term} {S : Spec.Settings} {M : Spec.Mol n} {i : Fin n}
    (h : M.Z i = 0) : t.energy S M i = 0 := by
  unfold Term.energy
  cases t.cls with
  | twoBody => exact Spec.e2_pad h
  | _ => exact Spec.e3_pad h

/-- The energies depend on the positions only through the distances. -/
theorem Term.energy_congr_pos {t : Term} {S : Spec.Settings} {M M' : Spec.Mol n} (hZ : M.Z = M'.Z)
    (hc : M.cn = M'.cn) (hq : M.q = M'.q) (hQ : M.Q = M'.Q) (hv : M.rvdw = M'.rvdw)
    (hd : ∀ i j, dist (M.pos i) (M.pos j) = dist (M'.pos i) (M'.pos j)) (i : Fin n) :
    t.energy S M i = t.energy S M' i := by
  obtain ⟨Z, pos, c, q, Q, rv⟩ := M
  obtain ⟨Z', pos', c', q', Q', rv'⟩ := M'
  simp only at hZ hc hq hQ hv hd
  subst hZ hc hq hQ hv
  have hr : ∀ i j, Spec.Mol.r ⟨Z, pos, c, q, Q, rv⟩ S.ε i j =
      Spec.Mol.r ⟨Z, pos', c, q, Q, rv⟩ S.ε i j := by
    intro i j; simp only [Spec.Mol.r, hd]
  have hdat : Spec.Mol.data ⟨Z, pos, c, q, Q, rv⟩ t.chargeDep =
      Spec.Mol.data ⟨Z, pos', c, q, Q, rv⟩ t.chargeDep := by
    funext j; unfold Spec.Mol.data; split <;> rfl
  unfold Term.energy
  rw [hdat]
  unfold Spec.e2 Spec.e3 Spec.pairTerm Spec.tripleTerm Spec.withinCut3 Spec.rad Spec.R0 Spec.R0vdw
  simp only [hr]

end
end TadDftd4
