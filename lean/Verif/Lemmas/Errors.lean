import Verif.Lemmas.Api

/-!
# Exceptions: a result of `Disp.calculate` means that no term raised
-/

set_option linter.unusedSimpArgs false

open scoped Classical

namespace TadDftd4

open Tensor

@[simp] theorem Tensor.fail_err {α : Type} [Inhabited α] (e : Err) :
    (Tensor.fail e : Tensor α).err = some e := rfl

theorem check_eq_ok {α : Type} {t u : Tensor α} : t.check = .ok u ↔ t.err = none ∧ t = u := by
  unfold Tensor.check
  cases h : t.err <;> simp

theorem ensure_eq_ok {c : Prop} {e : Err} {u : Unit} : ensure c e = .ok u ↔ c := by
  unfold ensure
  split_ifs with h <;> simp [h]

theorem bind_eq_ok {α β : Type} {x : Except Err α} {f : α → Except Err β} {b : β} :
    (x >>= f) = .ok b ↔ ∃ a, x = .ok a ∧ f a = .ok b := by
  cases x <;> simp [bind, Except.bind]

section
variable {env : Env} {T : Tables} {ext : Ext} {numbers : Tensor ℕ} {positions charge : Tensor ℝ}
  {p : Param} {d : Disp} {o : CalcOpts}

/-- Exceptions of summands survive. -/
theorem foldl_add_err (f : Term → Tensor ℝ) (ts : List Term) (e0 : Tensor ℝ)
    (h : (ts.foldl (fun e t => e + f t) e0).err = none) :
    e0.err = none ∧ ∀ t ∈ ts, (f t).err = none := by
  induction ts generalizing e0 with
  | nil => exact ⟨h, by simp⟩
  | cons t ts ih =>
    obtain ⟨h1, h2⟩ := ih _ h
    simp only [add_err, orErr_eq_none] at h1
    refine ⟨h1.1.1, ?_⟩
    intro u hu
    rcases List.mem_cons.1 hu with rfl | hu
    · exact h1.1.2
    · exact h2 u hu

/-- If `calculate` returns, all checks were passed and no term raised. -/
theorem calculate_ok {e : Tensor ℝ} (h : d.calculate env T ext numbers positions charge p o = .ok e) :
    ∃ model cn q, d.getModel env T ext numbers = .ok model ∧
      d.cnFn numbers positions d.counting = cn ∧
      d.charges ext numbers positions charge (o.cutoff.getD {}) o.q = .ok q ∧
      e = sumTerms env T d.terms numbers positions p cn model q (o.r4r2.getD (getR4R2 T numbers))
        (o.rvdw.getD (getRvdw T numbers)) (o.cutoff.getD {}) ∧ e.err = none ∧
      ∀ t ∈ d.terms, (t.calculate env T numbers positions p cn model q
        (o.r4r2.getD (getR4R2 T numbers)) (o.rvdw.getD (getRvdw T numbers))
        (o.cutoff.getD {})).err = none := by
  unfold Disp.calculate at h
  simp only [bind_eq_ok, ensure_eq_ok, check_eq_ok] at h
  obtain ⟨-, -, model, hm, -, -, r4, ⟨-, rfl⟩, -, -, rv, ⟨-, rfl⟩, -, -, cn, ⟨-, rfl⟩, q, hq, hs, rfl⟩ := h
  exact ⟨model, _, q, hm, rfl, hq, rfl, hs, (foldl_add_err _ _ _ hs).2⟩

end

/-- The terms registered by `dftd4`. -/
theorem dftd4_ok {env : Env} {T : Tables} {ext : Ext} {numbers : Tensor ℕ}
    {positions charge : Tensor ℝ} {p : Param} {o : DftOpts} {e : Tensor ℝ}
    (h : dftd4 env T ext numbers positions charge p o = .ok e) :
    ∃ model cn q, (∀ t : Term, t = ⟨.twoBody, o.damping, true⟩ ∨ t = ⟨.d4ATMApprox, .zero, false⟩ →
      (t.calculate env T numbers positions p cn model q (o.opts.r4r2.getD (getR4R2 T numbers))
        (o.opts.rvdw.getD (getRvdw T numbers)) (o.opts.cutoff.getD {})).err = none) := by
  unfold dftd4 at h
  rw [bind_eq_ok] at h
  obtain ⟨d, hd, h⟩ := h
  obtain ⟨model, cn, q, -, -, -, -, -, ht⟩ := calculate_ok h
  refine ⟨model, cn, q, fun t h => ht t ?_⟩
  rcases h with rfl | rfl <;> simp [Disp.register]

/-- What an object is after its construction. -/
theorem new_ok {ext : Ext} {cls : DispClass} {sel : ModelSel} {mk : Option ModelKw}
    {cf : Option CNFunc} {ct : Option CountFn} {d : Disp}
    (h : Disp.new ext cls sel mk cf ct = .ok d) : d.terms = cls.terms ∧ d.counting = ct ∧
      (∀ f, cf = some f → d.cnFn = f) ∧
      match sel with
      | .key s => ext.casefold s ∈ cls.allowedModels ∧ d.model = .key (ext.casefold s) ∧
          d.modelKw = mk.getD {} ∧ (cf = none → defaultCN ext (ext.casefold s) = .ok d.cnFn)
      | .inst m => d.model = .inst m ∧ d.modelKw = {} ∧
          (cf = none → defaultCN ext m.kind.className = .ok d.cnFn) := by
  unfold Disp.new at h
  cases sel with
  | key s =>
    by_cases hs : ext.casefold s ∈ cls.allowedModels
    · cases cf with
      | some f =>
        simp only [hs, if_true, bind, Except.bind, pure, Except.pure, Except.ok.injEq] at h
        subst h
        simp [hs]
      | none =>
        cases hcn : defaultCN ext (ext.casefold s) with
        | error e => simp [hs, bind, Except.bind, hcn] at h
        | ok f =>
          simp only [hs, if_true, bind, Except.bind, pure, Except.pure, hcn, Except.ok.injEq] at h
          subst h
          simp [hs, hcn]
    · simp [hs, bind, Except.bind] at h
  | inst m =>
    cases cf with
    | some f =>
      simp only [bind, Except.bind, pure, Except.pure, Except.ok.injEq] at h
      subst h
      simp
    | none =>
      cases hcn : defaultCN ext m.kind.className with
      | error e => simp [bind, Except.bind, hcn] at h
      | ok f =>
        simp only [bind, Except.bind, pure, Except.pure, hcn, Except.ok.injEq] at h
        subst h
        simp [hcn]

end TadDftd4
