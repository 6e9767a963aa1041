import Verif.Model.UserTerm
import Verif.Lemmas.Runs
import Verif.Props.AnyDisp

/-! # C80: User-defined terms

Terms of user-defined classes take part in the energy like those of the package. -/

namespace TadDftd4

open Tensor

section
variable {env : Env} {T : Tables} {ext : Ext} {d : Disp} {numbers : Tensor ℕ}
  {positions charge : Tensor ℝ} {p : Param} {o : CalcOpts} {n : ℕ} {B : Shape} {R : RefCfg}
  {cn : Spec.CN} {eeq : Spec.EEQ} {ts : List TermObj}

/-- With terms of the package only, this is `Disp.calculate`. -/
theorem C80_builtin : d.calculateWith env T ext (d.terms.map (Term.obj env T)) numbers positions charge p o =
    d.calculate env T ext numbers positions charge p o := by
  have e : (d.terms.map (Term.obj env T)).any (·.chargeDep) = d.terms.any (·.chargeDep) := by
    rw [List.any_map]; rfl
  unfold Disp.calculateWith Disp.calculate sumTerms
  simp only [e, List.foldl_map]
  rfl

/-- The charges passed to the terms: those given by the caller, EEQ charges if a term is charge-dependent,
`None` otherwise. -/
noncomputable def passedCharges (ext : Ext) (ts : List TermObj) (numbers : Tensor ℕ)
    (positions charge : Tensor ℝ) (o : CalcOpts) : Option (Tensor ℝ) :=
  match o.q with
  | some q => some q
  | none => if ∃ t ∈ ts, t.chargeDep = true then
      some (ext.eeq numbers positions charge (o.cutoff.getD {}).cnEeq) else none

/-- What term `t` returns when it is called with the numbers, positions and parameters of the caller,
the coordination numbers of `cn_fn`, the model, and charges, radii and cutoffs of the caller or their
defaults. -/
noncomputable def TermObj.result (T : Tables) (ext : Ext) (d : Disp) (m : RefModel) (ts : List TermObj)
    (numbers : Tensor ℕ) (positions charge : Tensor ℝ) (p : Param) (o : CalcOpts) (t : TermObj) : Tensor ℝ :=
  t.calculate numbers positions p (d.cnFn numbers positions d.counting) m
    (passedCharges ext ts numbers positions charge o) (o.r4r2.getD (getR4R2 T numbers))
    (o.rvdw.getD (getRvdw T numbers)) (o.cutoff.getD {})

theorem calculateWith_eq {m : RefModel} (hv : ValidArgs T numbers positions charge o n B)
    (hm : d.getModel env T ext numbers = .ok m)
    (hcn : (d.cnFn numbers positions d.counting).Ok (n :: B))
    (heeq : (∃ t ∈ ts, t.chargeDep = true) →
      (ext.eeq numbers positions charge (o.cutoff.getD {}).cnEeq).Ok (n :: B))
    (hq : o.q = none ∨ ∃ t ∈ ts, t.chargeDep = true) :
    d.calculateWith env T ext ts numbers positions charge p o =
      (ts.foldl (fun energy t => energy + t.result T ext d m ts numbers positions charge p o)
        (full numbers.shape 0)).check := by
  set r4 := o.r4r2.getD (getR4R2 T numbers) with hr4
  set rv := o.rvdw.getD (getRvdw T numbers) with hrv
  have hr4ok : r4.Ok (n :: B) := by
    rw [hr4]
    cases h : o.r4r2 with
    | none => exact getR4R2_ok hv
    | some x => exact hv.r4r2 x h
  have hrvok : rv.Ok (n :: n :: B) := by
    rw [hrv]
    cases h : o.rvdw with
    | none => exact getPair_ok hv.num (AllLt.mono hv.lt hv.fits.ext)
    | some x => exact hv.rvdw x h
  have hany : ts.any (·.chargeDep) = true ↔ ∃ t ∈ ts, t.chargeDep = true := by simp
  have hqo : chargesWith ext (ts.any (·.chargeDep)) numbers positions charge (o.cutoff.getD {}) o.q =
      .ok (passedCharges ext ts numbers positions charge o) := by
    by_cases hdep : ∃ t ∈ ts, t.chargeDep = true
    · have hd := hany.2 hdep
      cases hoq : o.q with
      | some x => simp [chargesWith, passedCharges, hoq, hd, (hv.q x hoq).shape, hv.num.shape]
      | none =>
        have h1 := heeq hdep
        rw [hd]
        simp only [chargesWith, passedCharges, hoq, if_pos hdep, check_ok h1.err, bind, Except.bind]
        rw [if_neg (by rw [h1.shape, hv.num.shape]; simp)]
    · have hd : ts.any (·.chargeDep) = false := by
        rw [Bool.eq_false_iff]; exact fun h => hdep (hany.1 h)
      rcases hq with hq | hq
      · simp only [chargesWith, passedCharges, hd, hq, if_neg hdep]
      · exact absurd hq hdep
  unfold Disp.calculateWith
  rw [ensure_ok (by rw [hv.num.shape, hv.pos.shape]; rfl)]
  simp only [bind, Except.bind, hm]
  rw [ensure_ok (by intro x hx; rw [(hv.rcov x hx).shape, hv.num.shape])]
  simp only [← hr4, ← hrv, check_ok hr4ok.err, check_ok hrvok.err]
  rw [ensure_ok (by rw [hr4ok.shape, hv.num.shape])]
  simp only []
  rw [ensure_ok (by rw [hrvok.shape, hv.num.shape]; rfl)]
  simp only [check_ok hcn.err, hqo]
  rfl

theorem fold_ok {f : TermObj → Tensor ℝ} (us : List TermObj) (e0 : Tensor ℝ) (h0 : e0.Ok (n :: B))
    (hf : ∀ t ∈ us, (f t).Ok (n :: B)) :
    (us.foldl (fun energy t => energy + f t) e0).Ok (n :: B) ∧ ∀ b, InB B b → ∀ i : Fin n,
      (us.foldl (fun energy t => energy + f t) e0).get (i.1 :: b) = e0.get (i.1 :: b) +
        (us.map fun t => (f t).get (i.1 :: b)).sum := by
  induction us generalizing e0 with
  | nil => exact ⟨h0, fun b _ i => by simp⟩
  | cons t us ih =>
    have h1 := hf t (by simp)
    have hok : (e0 + f t).Ok (n :: B) := by
      constructor <;> simp [h0.err, h0.shape, h1.err, h1.shape]
    obtain ⟨h3, h4⟩ := ih _ hok fun t ht => hf t (by simp [ht])
    refine ⟨h3, fun b hb i => ?_⟩
    have hbi : InB (n :: B) (i.1 :: b) := ⟨i.2, hb⟩
    simp only [List.foldl_cons, List.map_cons, List.sum_cons]
    rw [h4 b hb i]
    simp only [add_get, h0.shape, h1.shape, pick_of_InB hbi, bshape_self]
    ring

theorem fold_err {f : TermObj → Tensor ℝ} (us : List TermObj) (e0 : Tensor ℝ) {x : Err}
    (h0 : e0.err = some x) : (us.foldl (fun energy t => energy + f t) e0).err = some x := by
  induction us generalizing e0 with
  | nil => exact h0
  | cons t us ih => exact ih _ (by simp [h0])

/-- Every registered term is called with the same arguments, and the energy of an atom is the sum of what
they return for it. -/
theorem C80_sum {m : RefModel} (hv : ValidArgs T numbers positions charge o n B)
    (hm : d.getModel env T ext numbers = .ok m)
    (hcn : (d.cnFn numbers positions d.counting).Ok (n :: B))
    (heeq : (∃ t ∈ ts, t.chargeDep = true) →
      (ext.eeq numbers positions charge (o.cutoff.getD {}).cnEeq).Ok (n :: B))
    (hq : o.q = none ∨ ∃ t ∈ ts, t.chargeDep = true)
    (ht : ∀ t ∈ ts, (t.result T ext d m ts numbers positions charge p o).Ok (n :: B)) :
    ∃ e, d.calculateWith env T ext ts numbers positions charge p o = .ok e ∧ e.Ok (n :: B) ∧
      ∀ b, InB B b → ∀ i : Fin n, e.get (i.1 :: b) =
        (ts.map fun t => (t.result T ext d m ts numbers positions charge p o).get (i.1 :: b)).sum := by
  obtain ⟨h1, h2⟩ := fold_ok ts (full numbers.shape 0) ⟨rfl, hv.num.shape⟩ ht
  refine ⟨_, ?_, h1, fun b hb i => ?_⟩
  · rw [calculateWith_eq hv hm hcn heeq hq]
    exact check_ok h1.err
  · rw [h2 b hb i]
    simp

/-- If a term raises, so does `calculate`, with the error of the first term that does. -/
theorem C80_raises {m : RefModel} {us vs : List TermObj} {t : TermObj} {x : Err}
    (hv : ValidArgs T numbers positions charge o n B)
    (hm : d.getModel env T ext numbers = .ok m)
    (hcn : (d.cnFn numbers positions d.counting).Ok (n :: B))
    (heeq : (∃ v ∈ us ++ t :: vs, v.chargeDep = true) →
      (ext.eeq numbers positions charge (o.cutoff.getD {}).cnEeq).Ok (n :: B))
    (hq : o.q = none ∨ ∃ v ∈ us ++ t :: vs, v.chargeDep = true)
    (hu : ∀ u ∈ us, (u.result T ext d m (us ++ t :: vs) numbers positions charge p o).Ok (n :: B))
    (ht : (t.result T ext d m (us ++ t :: vs) numbers positions charge p o).err = some x) :
    d.calculateWith env T ext (us ++ t :: vs) numbers positions charge p o = .error x := by
  rw [calculateWith_eq hv hm hcn heeq hq, List.foldl_append, List.foldl_cons]
  obtain ⟨h1, -⟩ := fold_ok us (full numbers.shape 0) ⟨rfl, hv.num.shape⟩ hu
  have he := fold_err (f := fun v => v.result T ext d m (us ++ t :: vs) numbers positions charge p o) vs
    (us.foldl (fun energy u => energy + u.result T ext d m (us ++ t :: vs) numbers positions
      charge p o) (full numbers.shape 0) + t.result T ext d m (us ++ t :: vs) numbers positions charge p o)
    (x := x) (by simp [h1.err, ht])
  unfold Tensor.check
  rw [he]

theorem Term.calculate_charges (t : Term) (ht : t.chargeDep = false) (cnT : Tensor ℝ) (m : RefModel)
    (q q' : Option (Tensor ℝ)) (r4r2 rvdw : Tensor ℝ) (c : Cutoff) :
    t.calculate env T numbers positions p cnT m q r4r2 rvdw c =
      t.calculate env T numbers positions p cnT m q' r4r2 rvdw c := by
  simp [Term.calculate, Term.c9, Term.charges, ht]

/-- Registering a user-defined term adds what it returns to the energies, whether or not it requires
charges. -/
theorem C80_register {m : RefModel} {u : TermObj} (h : d.Runs env T ext numbers positions charge p o n B R cn eeq)
    (hm : d.getModel env T ext numbers = .ok m)
    (heeq : u.chargeDep = true → (ext.eeq numbers positions charge (o.cutoff.getD {}).cnEeq).Ok (n :: B))
    (hu : (u.result T ext d m (d.terms.map (Term.obj env T) ++ [u]) numbers positions charge p o).Ok (n :: B)) :
    ∃ e e', d.calculate env T ext numbers positions charge p o = .ok e ∧
      d.calculateWith env T ext (d.terms.map (Term.obj env T) ++ [u]) numbers positions charge p o = .ok e' ∧
      e'.Ok (n :: B) ∧ ∀ b, InB B b → ∀ i : Fin n, e'.get (i.1 :: b) = e.get (i.1 :: b) +
        (u.result T ext d m (d.terms.map (Term.obj env T) ++ [u]) numbers positions charge p o).get (i.1 :: b) := by
  have hcn : (d.cnFn numbers positions d.counting).Ok (n :: B) :=
    (h.cn n B numbers positions h.args.num h.args.lt h.args.pos).1
  have heeq0 : (∃ t ∈ d.terms.map (Term.obj env T), t.chargeDep = true) →
      (ext.eeq numbers positions charge (o.cutoff.getD {}).cnEeq).Ok (n :: B) := by
    rintro ⟨t, ht, hd⟩
    obtain ⟨t', ht', rfl⟩ := List.mem_map.1 ht
    exact (h.eeq ⟨t', ht', hd⟩ n B numbers positions charge _ h.args.num h.args.lt h.args.pos h.args.charge).1
  have hq0 : o.q = none ∨ ∃ t ∈ d.terms.map (Term.obj env T), t.chargeDep = true := by
    refine h.q.imp id ?_
    rintro ⟨t, ht, hd⟩
    exact ⟨_, List.mem_map.2 ⟨t, ht, rfl⟩, hd⟩
  obtain ⟨S, hS⟩ := h.settings
  obtain ⟨e, h1, h2, -⟩ := h.eval hS
  have h3 := calculateWith_eq (p := p) h.args hm hcn heeq0 hq0
  rw [C80_builtin, h1] at h3
  have h4 : e = (d.terms.map (Term.obj env T)).foldl (fun energy t => energy +
      t.result T ext d m (d.terms.map (Term.obj env T)) numbers positions charge p o) (full numbers.shape 0) := by
    unfold Tensor.check at h3
    split at h3
    · cases h3
    · exact Except.ok.inj h3
  have h5 := calculateWith_eq (p := p) (ts := d.terms.map (Term.obj env T) ++ [u]) h.args hm hcn
    (by
      rintro ⟨t, ht, hd⟩
      rcases List.mem_append.1 ht with ht | ht
      · exact heeq0 ⟨t, ht, hd⟩
      · rw [List.mem_singleton.1 ht] at hd
        exact heeq hd)
    (hq0.imp id fun ⟨t, ht, hd⟩ => ⟨t, List.mem_append_left _ ht, hd⟩)
  have h6 : ∀ t ∈ d.terms, (t.obj env T).result T ext d m (d.terms.map (Term.obj env T) ++ [u]) numbers positions
      charge p o = (t.obj env T).result T ext d m (d.terms.map (Term.obj env T)) numbers positions charge p o := by
    intro t ht
    by_cases hd : t.chargeDep = true
    · have e1 : ∃ t ∈ d.terms.map (Term.obj env T), t.chargeDep = true := ⟨_, List.mem_map.2 ⟨t, ht, rfl⟩, hd⟩
      have e2 : ∃ t ∈ d.terms.map (Term.obj env T) ++ [u], t.chargeDep = true :=
        ⟨_, List.mem_append_left _ (List.mem_map.2 ⟨t, ht, rfl⟩), hd⟩
      have e3 : passedCharges ext (d.terms.map (Term.obj env T) ++ [u]) numbers positions charge o =
          passedCharges ext (d.terms.map (Term.obj env T)) numbers positions charge o := by
        unfold passedCharges
        rw [if_pos e1, if_pos e2]
      unfold TermObj.result
      rw [e3]
    · exact Term.calculate_charges t (by simpa using hd) _ _ _ _ _ _ _
  have h7 : ∀ (us : List Term) (e0 : Tensor ℝ), (∀ t ∈ us, t ∈ d.terms) →
      us.foldl (fun energy t => energy + (t.obj env T).result T ext d m
        (d.terms.map (Term.obj env T) ++ [u]) numbers positions charge p o) e0 =
      us.foldl (fun energy t => energy + (t.obj env T).result T ext d m
        (d.terms.map (Term.obj env T)) numbers positions charge p o) e0 := by
    intro us
    induction us with
    | nil => intro e0 _; rfl
    | cons t us ih =>
      intro e0 hus
      simp only [List.foldl_cons]
      rw [h6 t (hus t (by simp)), ih _ fun t ht => hus t (by simp [ht])]
  rw [List.foldl_append, List.foldl_map, h7 _ _ fun t ht => ht, ← List.foldl_map (f := Term.obj env T)
    (g := fun energy t => energy + t.result T ext d m (d.terms.map (Term.obj env T)) numbers positions
      charge p o), ← h4] at h5
  obtain ⟨h8, h9⟩ := fold_ok (f := fun t => t.result T ext d m (d.terms.map (Term.obj env T) ++ [u]) numbers
    positions charge p o) [u] e h2 (by simpa using hu)
  refine ⟨e, _, h1, h5.trans (check_ok h8.err), h8, fun b hb i => ?_⟩
  rw [h9 b hb i]
  simp

/-- Full statement: `deregister` removes the term that is given. -/
def DeregisterRemoves : Prop :=
  ∀ (ts : List TermObj) (t : TermObj), t ∈ ts →
    ∃ r, deregisterObj ts t = .ok r ∧ ∃ us vs, ts = us ++ t :: vs ∧ r = us ++ vs

theorem TermObj.eq_refl (t : TermObj) : t.eq t = true := by simp [TermObj.eq]

/-- **C80**, as far as it holds for `deregister`: no term registered earlier has the same class, damping
class and charge dependence. -/
theorem C80_deregister_partial {us vs : List TermObj} {t : TermObj}
    (h : ∀ u ∈ us, ¬ (u.cls = t.cls ∧ u.damping = t.damping ∧ u.chargeDep = t.chargeDep)) :
    deregisterObj (us ++ t :: vs) t = .ok (us ++ vs) := by
  have h1 : ∀ u ∈ us, ¬ u.eq t = true := by
    intro u hu hc
    apply h u hu
    simpa [TermObj.eq] using hc
  unfold deregisterObj
  rw [if_pos (by simp [TermObj.eq_refl]), List.eraseP_append_right _ (fun u hu => h1 u hu),
    List.eraseP_cons_of_pos (p := fun u : TermObj => u.eq t) (TermObj.eq_refl t)]

/-- A user-defined term that returns the same energy for every atom. -/
noncomputable def constantTerm (x : ℝ) : TermObj :=
  ⟨.inr "Constant", .inl .zero, false, fun numbers _ _ _ _ _ _ _ _ => full numbers.shape x⟩

/-- The full statement is false: instances of a user-defined class with different settings count as equal,
and the one registered first is removed. -/
theorem C80_deregister_false : ¬ DeregisterRemoves := by
  intro h
  have e : (constantTerm 0).eq (constantTerm 1) = true := by simp [TermObj.eq, constantTerm]
  obtain ⟨r, hr, us, vs, h1, h2⟩ := h [constantTerm 0, constantTerm 1] (constantTerm 1) (by simp)
  have hd : deregisterObj [constantTerm 0, constantTerm 1] (constantTerm 1) = .ok [constantTerm 1] := by
    simp [deregisterObj, e]
  rw [hd] at hr
  have hne : constantTerm 0 ≠ constantTerm 1 := by
    intro hc
    have := congrArg (fun t : TermObj => (t.calculate (full [] 0) (full [] 0) {} (full [] 0)
      ⟨.d4, full [] 0, 0, 0, full [] 0, "eeq", full [] 0⟩ none (full [] 0) (full [] 0) {}).get []) hc
    simp [constantTerm] at this
  have hr' := Except.ok.inj hr
  match us, h1 with
  | [], h1 => simp at h1; exact hne h1.1
  | [a], h1 =>
    simp only [List.cons_append, List.nil_append, List.cons.injEq] at h1
    rw [← hr', ← h1.1, ← h1.2.2] at h2
    simp at h2
    exact hne h2.symm
  | a :: b :: us, h1 => simp at h1

end

/-- `DispD4` with two user-defined terms instead of its own: 0.25 + 0.5 for every atom of the batch. -/
example : ∃ e, (Demo.dispOf .d4).calculateWith Demo.env Demo.T Demo.ext [constantTerm 0.25, constantTerm 0.5]
    Demo.numbers Demo.positions Demo.charge Demo.paramAll {} = .ok e ∧
    ∀ b, InB [2] b → ∀ i : Fin 3, e.get (i.1 :: b) = 0.75 := by
  have h := Demo.dispOf_runs .d4 Demo.validArgs
  obtain ⟨m, hm, -⟩ := h.model
  obtain ⟨e, h1, -, h2⟩ := C80_sum (p := Demo.paramAll) (ts := [constantTerm 0.25, constantTerm 0.5]) h.args hm
    (h.cn 3 [2] _ _ h.args.num h.args.lt h.args.pos).1 (by simp [constantTerm]) (Or.inl rfl)
    (by
      intro t ht
      simp only [List.mem_cons, List.not_mem_nil, or_false] at ht
      rcases ht with rfl | rfl <;> exact ⟨rfl, h.args.num.shape⟩)
  refine ⟨e, h1, fun b hb i => ?_⟩
  rw [h2 b hb i]
  simp [TermObj.result, constantTerm]
  norm_num

/-- Every class of the package with a user-defined term added: each energy increases by 0.25. -/
example (cls : DispClass) : ∃ e e', (Demo.dispOf cls).calculate Demo.env Demo.T Demo.ext Demo.numbers
      Demo.positions Demo.charge Demo.paramAll {} = .ok e ∧
    (Demo.dispOf cls).calculateWith Demo.env Demo.T Demo.ext ((Demo.dispOf cls).terms.map
      (Term.obj Demo.env Demo.T) ++ [constantTerm 0.25]) Demo.numbers Demo.positions Demo.charge Demo.paramAll {} =
      .ok e' ∧ ∀ b, InB [2] b → ∀ i : Fin 3, e'.get (i.1 :: b) = e.get (i.1 :: b) + 0.25 := by
  have h := Demo.dispOf_runs cls Demo.validArgs
  obtain ⟨m, hm, -⟩ := h.model
  obtain ⟨e, e', h1, h2, -, h3⟩ := C80_register (u := constantTerm 0.25) h hm (by simp [constantTerm])
    ⟨rfl, h.args.num.shape⟩
  exact ⟨e, e', h1, h2, fun b hb i => by rw [h3 b hb i]; simp [TermObj.result, constantTerm]⟩

/-- Any class of the package. -/
example (cls : DispClass) : (Demo.dispOf cls).calculateWith Demo.env Demo.T Demo.ext
      ((Demo.dispOf cls).terms.map (Term.obj Demo.env Demo.T)) Demo.numbers Demo.positions Demo.charge Demo.paramAll {} =
    (Demo.dispOf cls).calculate Demo.env Demo.T Demo.ext Demo.numbers Demo.positions Demo.charge Demo.paramAll {} :=
  C80_builtin

/-- A term that raises. -/
example : (Demo.dispOf .d4).calculateWith Demo.env Demo.T Demo.ext [constantTerm 0.25,
      ⟨.inr "Broken", .inl .zero, false, fun _ _ _ _ _ _ _ _ _ => Tensor.fail .attribute⟩, constantTerm 1]
    Demo.numbers Demo.positions Demo.charge Demo.paramAll {} = .error .attribute := by
  have h := Demo.dispOf_runs .d4 Demo.validArgs
  obtain ⟨m, hm, -⟩ := h.model
  refine C80_raises (us := [constantTerm 0.25]) (vs := [constantTerm 1]) h.args hm
    (h.cn 3 [2] _ _ h.args.num h.args.lt h.args.pos).1 (by simp [constantTerm]) (Or.inl rfl) ?_ rfl
  intro u hu
  simp only [List.mem_cons, List.not_mem_nil, or_false] at hu
  subst hu
  exact ⟨rfl, h.args.num.shape⟩

/-- The terms of `DispD4` are different, so the second one is the one that is removed. -/
example : deregisterObj (DispClass.d4.terms.map (Term.obj Demo.env Demo.T))
    (Term.obj Demo.env Demo.T ⟨.d4ATMApprox, .zero, false⟩) =
    .ok [Term.obj Demo.env Demo.T ⟨.twoBody, .rational, true⟩] :=
  C80_deregister_partial (us := [_]) (vs := []) (by simp [Term.obj])

end TadDftd4
