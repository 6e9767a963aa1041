import Verif.Lemmas.Terms
import Verif.Lemmas.Pols

/-!
# Evaluation of `Disp.calculate` for arbitrary term lists
-/

set_option linter.unusedSimpArgs false

open scoped Classical

namespace TadDftd4

open Tensor

/-- Energy of an atom specified for a term. -/
noncomputable def Term.energy {n : ℕ} (t : Term) (S : Spec.Settings) (M : Spec.Mol n) (i : Fin n) :
    ℝ :=
  match t.cls with
  | .twoBody => Spec.e2 S M (M.data t.chargeDep) i
  | .d4ATMApprox => Spec.e3 S M (Spec.c9 S (M.data t.chargeDep)) (Spec.R0 S M) i
  | .d4ATMExact => Spec.e3 S M (fun i j k => S.c9x (M.data t.chargeDep i) (M.data t.chargeDep j)
      (M.data t.chargeDep k)) (Spec.R0 S M) i
  | .d3ATM => Spec.e3 S M (Spec.c9 S (M.data t.chargeDep)) (Spec.R0vdw S M) i

/-- The settings `S` are the ones the term `t` uses for the given parameters and cutoffs. -/
structure TermPar (env : Env) (T : Tables) (R : RefCfg) (p : Param) (cutoff : Cutoff) (t : Term)
    (S : Spec.Settings) : Prop where
  ε : S.ε = env.eps
  c6 : S.c6 = c6At env T R
  two : t.cls = .twoBody → TwoBodyPar env p t.damping S ∧ S.cut2 = cutoff.disp2
  three : t.cls ≠ .twoBody → ThreeBodyPar env p t.damping S ∧ S.cut3 = cutoff.disp3 ∧ 0 ≤ S.cut3
  bj : t.cls = .d4ATMApprox ∨ t.cls = .d4ATMExact →
    p.a1.Is Defaults.a1 S.a1 ∧ p.a2.Is Defaults.a2 S.a2
  exact : t.cls = .d4ATMExact → R.kind = .d4 ∧ S.c9x = c9At env T R
  vdw : t.cls = .d3ATM → p.rs9.Is Defaults.rs9 S.rs9

section
variable {env : Env} {T : Tables} {m : RefModel} {numbers : Tensor ℕ} {positions : Tensor ℝ}
  {R : RefCfg} {n : ℕ} {B : Shape} {cn q : Idx → ℝ} {r4r2 rvdw : Tensor ℝ} {b : Idx}

theorem e3_congr {S : Spec.Settings} {M : Spec.Mol n} {C C' : Fin n → Fin n → Fin n → ℝ}
    {Rr Rr' : Fin n → Fin n → ℝ} (hC : ∀ i j k, C i j k = C' i j k) (hR : ∀ i j, Rr i j = Rr' i j)
    (i : Fin n) : Spec.e3 S M C Rr i = Spec.e3 S M C' Rr' i := by
  have : C = C' := by funext i j k; exact hC i j k
  have h2 : Rr = Rr' := by funext i j; exact hR i j
  rw [this, h2]

/-- C9 coefficients of the three-body terms. -/
theorem c9_eval {t : Term} {p : Param} {qo : Option (Tensor ℝ)} {cnT : Tensor ℝ}
    {S : Spec.Settings} {cutoff : Cutoff} (hm : m.IsFor env T numbers R n B)
    (ht : t.cls ≠ .twoBody) (hc : D4.OptIs (some cnT) n B cn) (hq : D4.OptIs qo n B q)
    (hp : TermPar env T R p cutoff t S) :
    (t.c9 env T m cnT qo).Ok (n :: n :: n :: B) ∧
    ∀ b, InB B b → ∀ i j k : Fin n,
      (t.c9 env T m cnT qo).get (k.1 :: j.1 :: i.1 :: b) =
        if t.cls = .d4ATMExact then
          S.c9x ((molOf n numbers positions cn q r4r2 rvdw b).data t.chargeDep i)
            ((molOf n numbers positions cn q r4r2 rvdw b).data t.chargeDep j)
            ((molOf n numbers positions cn q r4r2 rvdw b).data t.chargeDep k)
        else Spec.c9 S ((molOf n numbers positions cn q r4r2 rvdw b).data t.chargeDep) i j k := by
  have hq' := termCharges_optIs (t := t) hq
  by_cases hx : t.cls = .d4ATMExact
  · obtain ⟨hk, hc9⟩ := hp.exact hx
    obtain ⟨h1, h2⟩ := model_c9x_eval hm hk hc hq'
    have e : t.c9 env T m cnT qo =
        c9Exact (m.weightedPols env T (m.weights env T (some cnT) (t.charges qo))) := by
      simp [Term.c9, hm.implemented, hx]
    rw [e]
    refine ⟨h1, fun b hb i j k => ?_⟩
    rw [h2 b i j k hb i.2 j.2 k.2, if_pos hx, hc9, molOf_data, molOf_data, molOf_data]
  · obtain ⟨c6ok, c6get⟩ := model_c6_eval hm hc hq'
    have e : t.c9 env T m cnT qo =
        c9Approx env (m.atomicC6 (m.weights env T (some cnT) (t.charges qo))) := by
      simp only [Term.c9, hm.implemented, if_true]
    rw [e]
    refine ⟨c9Approx_ok c6ok, fun b hb i j k => ?_⟩
    rw [c9Approx_get c6ok hb i.2 j.2 k.2, if_neg hx, Spec.c9, hp.c6, c6get b i j hb i.2 j.2,
      c6get b i k hb i.2 k.2, c6get b j k hb j.2 k.2, molOf_data, molOf_data, molOf_data, hp.ε]
    rfl

/-- Every term computes its specified energy. -/
theorem term_eval {t : Term} {p : Param} {qo : Option (Tensor ℝ)} {cnT : Tensor ℝ}
    {S : Spec.Settings} {cutoff : Cutoff} (hin : TermInput env T numbers positions m R r4r2 rvdw n B)
    (hc : D4.OptIs (some cnT) n B cn) (hq : D4.OptIs qo n B q)
    (hp : TermPar env T R p cutoff t S) :
    (t.calculate env T numbers positions p cnT m qo r4r2 rvdw cutoff).Ok (n :: B) ∧
    ∀ b, InB B b → ∀ i : Fin n,
      (t.calculate env T numbers positions p cnT m qo r4r2 rvdw cutoff).get (i.1 :: b) =
        t.energy S (molOf n numbers positions cn q r4r2 rvdw b) i := by
  by_cases ht : t.cls = .twoBody
  · obtain ⟨h1, h2⟩ := hp.two ht
    have := twoBody_eval hin ht hc hq h1 hp.ε hp.c6 h2
    simpa only [Term.energy, ht] using this
  obtain ⟨h3, hcut, hcut0⟩ := hp.three ht
  obtain ⟨c9ok, c9get⟩ := c9_eval (positions := positions) (r4r2 := r4r2) (rvdw := rvdw) hin.model
    ht hc hq hp
  obtain ⟨alp, halp, hf9⟩ := h3.alp
  have hrad : (t.radii env p r4r2 rvdw).Ok (n :: n :: B) ∧ ∀ b, InB B b → ∀ i j : Fin n,
      (t.radii env p r4r2 rvdw).get (j.1 :: i.1 :: b) = if t.cls = .d3ATM then
        Spec.R0vdw S (molOf n numbers positions cn q r4r2 rvdw b) i j
        else Spec.R0 S (molOf n numbers positions cn q r4r2 rvdw b) i j := by
    by_cases hx : t.cls = .d3ATM
    · obtain ⟨h1, h2⟩ := radiiVDW_ok hin.rvdw (hp.vdw hx).tensor
      simp only [Term.radii, hx, if_true]
      exact ⟨h1, fun b hb i j => h2 b i j hb i.2 j.2⟩
    · have hbj : t.cls = .d4ATMApprox ∨ t.cls = .d4ATMExact := by
        cases h : t.cls <;> simp_all
      obtain ⟨ha1, ha2⟩ := hp.bj hbj
      obtain ⟨h1, h2⟩ := radiiBJ_ok (env := env) hin.r4r2 ha1.tensor ha2.tensor
      have e : t.radii env p r4r2 rvdw = radiiBJ env p r4r2 := by
        rcases hbj with h | h <;> simp [Term.radii, h]
      rw [e]
      refine ⟨h1, fun b hb i j => ?_⟩
      rw [h2 b i j hb i.2 j.2, if_neg hx]
      simp only [Spec.R0, hp.ε]
      rfl
  obtain ⟨rok, rget⟩ := hrad
  obtain ⟨hok, hget⟩ := atm_spec (cn := cn) (q := q) (r4r2 := r4r2) (rvdw := rvdw) hin.num hin.pos
    rok c9ok hf9 hp.ε hcut hcut0
  have e : t.calculate env T numbers positions p cnT m qo r4r2 rvdw cutoff =
      (t.c9 env T m cnT qo).after ((t.radii env p r4r2 rvdw).after (atmDispersion env numbers
        positions (t.c9 env T m cnT qo) (t.radii env p r4r2 rvdw) cutoff.disp3 t.damping S.s9
          alp)) := by
    have : t.cls ≠ .twoBody := ht
    unfold Term.calculate
    split
    · contradiction
    · simp only [h3.s9.num, halp.num]
  rw [e]
  refine ⟨⟨by simp [c9ok.err, rok.err, hok.err], by simp [hok.shape]⟩, fun b hb i => ?_⟩
  simp only [after_get]
  rw [hget b hb i]
  cases h : t.cls with
  | twoBody => exact absurd h ht
  | _ =>
    simp only [Term.energy, h]
    refine e3_congr (fun i j k => ?_) (fun i j => ?_) i
    · rw [c9get b hb i j k, h]; simp
    · rw [rget b hb i j, h]; simp

/-- Sum of the terms. -/
theorem sumTerms_eval {ts : List Term} {p : Param} {qo : Option (Tensor ℝ)} {cnT : Tensor ℝ}
    {S : Term → Spec.Settings} {cutoff : Cutoff}
    (hin : TermInput env T numbers positions m R r4r2 rvdw n B)
    (hc : D4.OptIs (some cnT) n B cn) (hq : D4.OptIs qo n B q)
    (hp : ∀ t ∈ ts, TermPar env T R p cutoff t (S t)) :
    (sumTerms env T ts numbers positions p cnT m qo r4r2 rvdw cutoff).Ok (n :: B) ∧
    ∀ b, InB B b → ∀ i : Fin n,
      (sumTerms env T ts numbers positions p cnT m qo r4r2 rvdw cutoff).get (i.1 :: b) =
        (ts.map fun t => t.energy (S t) (molOf n numbers positions cn q r4r2 rvdw b) i).sum := by
  unfold sumTerms
  have key : ∀ (ts : List Term) (e0 : Tensor ℝ), e0.Ok (n :: B) →
      (∀ t ∈ ts, TermPar env T R p cutoff t (S t)) →
      (ts.foldl (fun energy t => energy + t.calculate env T numbers positions p cnT m qo r4r2 rvdw
        cutoff) e0).Ok (n :: B) ∧ ∀ b, InB B b → ∀ i : Fin n,
      (ts.foldl (fun energy t => energy + t.calculate env T numbers positions p cnT m qo r4r2 rvdw
        cutoff) e0).get (i.1 :: b) = e0.get (i.1 :: b) +
        (ts.map fun t => t.energy (S t) (molOf n numbers positions cn q r4r2 rvdw b) i).sum := by
    intro ts
    induction ts with
    | nil => intro e0 h0 _; exact ⟨h0, fun b _ i => by simp⟩
    | cons t ts ih =>
      intro e0 h0 hp
      obtain ⟨h1, h2⟩ := term_eval hin hc hq (hp t (by simp))
      have hok : (e0 + t.calculate env T numbers positions p cnT m qo r4r2 rvdw cutoff).Ok
          (n :: B) := by
        constructor <;> simp [h0.err, h0.shape, h1.err, h1.shape]
      obtain ⟨h3, h4⟩ := ih _ hok fun t ht => hp t (by simp [ht])
      refine ⟨h3, fun b hb i => ?_⟩
      have hbi : InB (n :: B) (i.1 :: b) := ⟨i.2, hb⟩
      simp only [List.foldl_cons, List.map_cons, List.sum_cons]
      rw [h4 b hb i]
      simp only [add_get, h0.shape, h1.shape, pick_of_InB hbi, h2 b hb i, bshape_self]
      ring
  obtain ⟨h1, h2⟩ := key ts (full numbers.shape 0) ⟨rfl, hin.num.shape⟩ hp
  refine ⟨h1, fun b hb i => ?_⟩
  rw [h2 b hb i]
  simp

end
end TadDftd4
