import Verif.Props.C37
import Verif.Props.C09

/-!
# C36: every cutoff of the `Cutoff` object is honoured
-/

set_option linter.unusedSimpArgs false

open scoped Classical

namespace TadDftd4

open Tensor

section
variable {env : Env} {T : Tables} {ext : Ext} {numbers : Tensor ℕ} {positions charge : Tensor ℝ}
  {p : Param} {n : ℕ} {B : Shape} {cn : Spec.CN} {eeq : Spec.EEQ} {P : Spec.D4Par} {d : Disp}
  {R : RefCfg} {o : CalcOpts} {m : RefModel}

/-- Each cutoff acts on its own interaction only: `disp2` matters only to two-body terms, `disp3` only
to three-body terms, `cn_eeq` only if charges have to be calculated. (Results and exceptions are the
same.) -/
theorem C36_only (c c' : Cutoff)
    (h2 : (∃ t ∈ d.terms, t.cls = .twoBody) → c.disp2 = c'.disp2)
    (h3 : (∃ t ∈ d.terms, t.cls ≠ .twoBody) → c.disp3 = c'.disp3)
    (hq : o.q = none → (∃ t ∈ d.terms, t.chargeDep = true) → c.cnEeq = c'.cnEeq) :
    d.calculate env T ext numbers positions charge p { o with cutoff := some c } =
      d.calculate env T ext numbers positions charge p { o with cutoff := some c' } := by
  have hch : d.charges ext numbers positions charge c o.q =
      d.charges ext numbers positions charge c' o.q := by
    unfold Disp.charges
    cases ho : o.q with
    | some q => cases d.terms.any (·.chargeDep) <;> rfl
    | none =>
      cases ha : d.terms.any (·.chargeDep) with
      | false => rfl
      | true =>
        simp only [List.any_eq_true] at ha
        rw [hq ho ha]
  have hsum : ∀ cnT model q r4 rv, sumTerms env T d.terms numbers positions p cnT model q r4 rv c =
      sumTerms env T d.terms numbers positions p cnT model q r4 rv c' := by
    intro cnT model q r4 rv
    unfold sumTerms
    refine List.foldl_ext _ _ _ fun e t ht => ?_
    congr 1
    unfold Term.calculate
    cases hcls : t.cls with
    | twoBody => simp only [h2 ⟨t, ht, hcls⟩]
    | _ => simp only [h3 ⟨t, ht, by simp [hcls]⟩]
  unfold Disp.calculate
  simp only [Option.getD_some, hch, hsum]

/-- The cutoff `cn` has no effect on any calculation. -/
theorem C36_cn_ignored (c : Cutoff) (x : ℝ) :
    d.calculate env T ext numbers positions charge p { o with cutoff := some c } =
      d.calculate env T ext numbers positions charge p { o with cutoff := some { c with cn := x } } :=
  C36_only c _ (fun _ => rfl) (fun _ => rfl) (fun _ _ => rfl)

/-- Only the cutoff `cn_eeq` has an effect on `get_properties`. -/
theorem C36_properties (q : Option (Tensor ℝ)) (c c' : Cutoff) (h : c.cnEeq = c'.cnEeq) :
    getProperties env T ext numbers positions q (some c) =
      getProperties env T ext numbers positions q (some c') := by
  simp only [getProperties, Option.getD_some, h]

theorem le_r {M : Spec.Mol n} {ε : ℝ} (i j : Fin n) : dist (M.pos i) (M.pos j) ≤ M.r ε i j :=
  Real.le_sqrt_of_sq_le (le_max_left _ _)

theorem e2_isolated {S : Spec.Settings} {M : Spec.Mol n} {A : Fin n → Spec.AtomData} {i : Fin n}
    (h : ∀ j, j ≠ i → M.Z j ≠ 0 → S.cut2 < dist (M.pos i) (M.pos j)) : Spec.e2 S M A i = 0 := by
  unfold Spec.e2
  rw [Finset.sum_eq_zero, mul_zero]
  refine fun j _ => if_neg ?_
  rintro ⟨-, hj, hij, hw⟩
  exact absurd ((le_r i j).trans hw) (not_le.2 (h j (Ne.symm hij) hj))

theorem e3_isolated {S : Spec.Settings} {M : Spec.Mol n} {C : Fin n → Fin n → Fin n → ℝ}
    {Rr : Fin n → Fin n → ℝ} {i : Fin n}
    (h : ∀ j, j ≠ i → M.Z j ≠ 0 → S.cut3 < dist (M.pos i) (M.pos j)) : Spec.e3 S M C Rr i = 0 := by
  unfold Spec.e3
  rw [Finset.sum_eq_zero, mul_zero]
  intro j _
  refine Finset.sum_eq_zero fun k _ => if_neg ?_
  rintro ⟨-, hj, -, hij, -, -, hw, -⟩
  exact absurd ((le_r i j).trans hw) (not_le.2 (h j (Ne.symm hij) hj))

/-- An atom farther away from all other atoms than the cutoffs of the terms present has no energy. -/
theorem C36_isolated {S : Term → Spec.Settings}
    (hv : ValidArgs T numbers positions charge o n B)
    (hgm : d.getModel env T ext numbers = .ok m) (hm : m.IsFor env T numbers R n B)
    (hcn : CNFunc.PerSystem d.cnFn d.counting T.nZ cn)
    (heeq : (∃ t ∈ d.terms, t.chargeDep = true) → ext.EEQPerSystem T.nZ eeq)
    (hq : o.q = none ∨ ∃ t ∈ d.terms, t.chargeDep = true)
    (hp : ∀ t ∈ d.terms, TermPar env T R p (o.cutoff.getD {}) t (S t)) {b : Idx} (hb : InB B b)
    {i : Fin n}
    (h2 : (∃ t ∈ d.terms, t.cls = .twoBody) → ∀ j : Fin n, j ≠ i → numbers.get (j.1 :: b) ≠ 0 →
      (o.cutoff.getD {}).disp2 < dist (coords positions n b i) (coords positions n b j))
    (h3 : (∃ t ∈ d.terms, t.cls ≠ .twoBody) → ∀ j : Fin n, j ≠ i → numbers.get (j.1 :: b) ≠ 0 →
      (o.cutoff.getD {}).disp3 < dist (coords positions n b i) (coords positions n b j)) :
    ∃ e, d.calculate env T ext numbers positions charge p o = .ok e ∧ e.get (i.1 :: b) = 0 := by
  obtain ⟨e, h, -, hg⟩ := calculate_eval hv hgm hm hcn heeq hq hp
  refine ⟨e, h, ?_⟩
  rw [hg b hb i]
  refine List.sum_eq_zero fun x hx => ?_
  obtain ⟨t, ht, rfl⟩ := List.mem_map.1 hx
  have hpt := hp t ht
  have he3 : t.cls ≠ .twoBody → ∀ C Rr, Spec.e3 (S t)
      (system T cn eeq numbers positions charge o n b) C Rr i = 0 := by
    intro hcls C Rr
    refine e3_isolated fun j hj hz => ?_
    rw [(hpt.three hcls).2.1]
    exact h3 ⟨t, ht, hcls⟩ j hj hz
  unfold Term.energy
  cases hcls : t.cls with
  | twoBody =>
    refine e2_isolated fun j hj hz => ?_
    rw [(hpt.two hcls).2]
    exact h2 ⟨t, ht, hcls⟩ j hj hz
  | _ => exact he3 (by simp [hcls]) _ _

/-- The same for `dftd4`. -/
theorem C36_isolated_dftd4 {o : DftOpts}
    (h : Call env T ext numbers positions charge p o n B R cn eeq P) {b : Idx} (hb : InB B b)
    {i : Fin n} (hd : ∀ j : Fin n, j ≠ i → numbers.get (j.1 :: b) ≠ 0 →
      max (o.opts.cutoff.getD {}).disp2 (o.opts.cutoff.getD {}).disp3 <
        dist (coords positions n b i) (coords positions n b j)) :
    ∃ e, dftd4 env T ext numbers positions charge p o = .ok e ∧ e.get (i.1 :: b) = 0 := by
  obtain ⟨e, he, -, hg⟩ := h.eval
  refine ⟨e, he, ?_⟩
  rw [hg b hb i, Spec.energy, e2_isolated, e3_isolated, add_zero]
  · exact fun j hj hz => (le_max_right _ _).trans_lt (hd j hj hz)
  · exact fun j hj hz => (le_max_left _ _).trans_lt (hd j hj hz)

/-- Within the cutoffs nothing is lost: if all distances of a system are within them, larger cutoffs
give the same energies. -/
theorem C36_within {o : DftOpts} {c c' : Cutoff}
    (h : Call env T ext numbers positions charge p { o with opts := { o.opts with cutoff := some c } }
      n B R cn eeq P)
    (hle2 : c.disp2 ≤ c'.disp2) (hle3 : c.disp3 ≤ c'.disp3) (heq : c.cnEeq = c'.cnEeq)
    (he2 : √env.eps ≤ c.disp2) (he3 : √env.eps ≤ c.disp3) {b : Idx} (hb : InB B b)
    (hd : ∀ i j : Fin n, numbers.get (i.1 :: b) ≠ 0 → numbers.get (j.1 :: b) ≠ 0 →
      dist (coords positions n b i) (coords positions n b j) ≤ min c.disp2 c.disp3) :
    ∃ e e', dftd4 env T ext numbers positions charge p
        { o with opts := { o.opts with cutoff := some c } } = .ok e ∧
      dftd4 env T ext numbers positions charge p
        { o with opts := { o.opts with cutoff := some c' } } = .ok e' ∧
      ∀ i : Fin n, e.get (i.1 :: b) = e'.get (i.1 :: b) := by
  have h' : Call env T ext numbers positions charge p
      { o with opts := { o.opts with cutoff := some c' } } n B R cn eeq P :=
    ⟨h.keys, ⟨h.args.num, h.args.pos, h.args.lt, h.args.fits, h.args.charge, h.args.q, h.args.rcov,
      h.args.r4r2, h.args.rvdw⟩, h.model, h.cn, h.eeq, h.damping, h.par, h.cut3.trans hle3⟩
  obtain ⟨e, hee, -, hg⟩ := h.eval
  obtain ⟨e', hee', -, hg'⟩ := h'.eval
  refine ⟨e, e', hee, hee', fun i => ?_⟩
  rw [hg b hb i, hg' b hb i]
  have hsys : system T cn eeq numbers positions charge { o.opts with cutoff := some c' } n b =
      system T cn eeq numbers positions charge { o.opts with cutoff := some c } n b := by
    unfold system
    simp only [Option.getD_some, heq]
  simp only [Option.getD_some]
  rw [hsys]
  set M := system T cn eeq numbers positions charge { o.opts with cutoff := some c } n b with hM
  have hr : ∀ i j : Fin n, M.Z i ≠ 0 → M.Z j ≠ 0 →
      M.r env.eps i j ≤ c.disp2 ∧ M.r env.eps i j ≤ c.disp3 := by
    intro i j hi hj
    have h1 : M.r env.eps i j ≤ max (dist (coords positions n b i) (coords positions n b j))
        (√env.eps) := by
      refine Real.sqrt_le_iff.2 ⟨(Real.sqrt_nonneg _).trans (le_max_right _ _), ?_⟩
      refine max_le ?_ ?_
      · exact pow_le_pow_left₀ dist_nonneg (le_max_left _ _) 2
      · calc env.eps = √env.eps ^ 2 := (Real.sq_sqrt env.eps_pos.le).symm
          _ ≤ _ := pow_le_pow_left₀ (Real.sqrt_nonneg _) (le_max_right _ _) 2
    have h2 := hd i j hi hj
    exact ⟨h1.trans (max_le (h2.trans (min_le_left _ _)) he2),
      h1.trans (max_le (h2.trans (min_le_right _ _)) he3)⟩
  unfold Spec.energy
  congr 1
  · unfold Spec.e2
    refine congrArg _ (Finset.sum_congr rfl fun j _ => ?_)
    refine if_congr ?_ rfl rfl
    constructor
    · rintro ⟨hi, hj, hij, hc⟩
      exact ⟨hi, hj, hij, hc.trans hle2⟩
    · rintro ⟨hi, hj, hij, hc⟩
      exact ⟨hi, hj, hij, (hr i j hi hj).1⟩
  · unfold Spec.e3
    refine congrArg _ (Finset.sum_congr rfl fun j _ => Finset.sum_congr rfl fun k _ => ?_)
    refine if_congr ?_ rfl rfl
    constructor
    · rintro ⟨hi, hj, hk, hij, hik, hjk, hc1, hc2⟩
      exact ⟨hi, hj, hk, hij, hik, hjk, hc1.trans hle3, hc2.trans hle3⟩
    · rintro ⟨hi, hj, hk, hij, hik, hjk, -, -⟩
      exact ⟨hi, hj, hk, hij, hik, hjk, (hr i j hi hj).2, (hr j k hj hk).2⟩

/-- The charges are those the charge model gives for the cutoff `cn_eeq`: passing these explicitly is
the same as letting `calculate` obtain them. -/
theorem C36_cn_eeq (c : Cutoff) (hdep : ∃ t ∈ d.terms, t.chargeDep = true) (hq : o.q = none)
    (hok : (ext.eeq numbers positions charge c.cnEeq).err = none) :
    d.calculate env T ext numbers positions charge p { o with cutoff := some c } =
      d.calculate env T ext numbers positions charge p { o with
        cutoff := some c, q := some (ext.eeq numbers positions charge c.cnEeq) } := by
  refine calculate_same rfl rfl (by simp [hq]) rfl ?_
  have ha : d.terms.any (·.chargeDep) = true := by simpa using hdep
  simp [Disp.charges, ha, hq, check_ok hok, bind, Except.bind]

end

/-! ## What is not true -/

/-- The claim about the cutoff `cn`, for the coordination numbers of `get_properties` and systems of
two atoms: atoms farther apart than it do not see each other, so the coordination number does not
depend on how far they are apart. -/
def CnCutoffHonoured : Prop :=
  ∀ (env : Env) (T : Tables) (ext : Ext) (numbers : Tensor ℕ) (positions positions' : Tensor ℝ)
    (charge : Tensor ℝ) (c : Cutoff) (r r' : Tensor ℝ × Tensor ℝ × Tensor ℝ × Tensor ℝ),
    getProperties env T ext numbers positions (some charge) (some c) = .ok r →
    getProperties env T ext numbers positions' (some charge) (some c) = .ok r' →
    numbers.shape = [2] →
    c.cn < dist (coords positions 2 [] 0) (coords positions 2 [] 1) →
    c.cn < dist (coords positions' 2 [] 0) (coords positions' 2 [] 1) →
    ∀ i < 2, r.1.get [i] = r'.1.get [i]

/-- Two hydrogen atoms at distance `x`. -/
noncomputable def Demo.h2 (x : ℝ) : Tensor ℝ := ⟨none, [3, 2], fun
  | [0, 1] => x
  | _ => 0⟩

theorem Demo.h2_valid (x : ℝ) :
    ValidArgs Demo.T Demo.dimer (Demo.h2 x) (scalar 0) {} 2 [] where
  num := ⟨rfl, rfl⟩
  pos := ⟨rfl, rfl⟩
  lt i _ := by show 1 < 104; norm_num
  fits := Demo.fits
  charge := ⟨rfl, rfl⟩
  q _ h := by simp at h
  rcov _ h := by simp at h
  r4r2 _ h := by simp at h
  rvdw _ h := by simp at h

theorem Demo.h2_dist {x : ℝ} (hx : 0 ≤ x) :
    dist (coords (Demo.h2 x) 2 [] 0) (coords (Demo.h2 x) 2 [] 1) = x := by
  rw [EuclideanSpace.dist_eq]
  simp [Fin.sum_univ_three, coords, Demo.h2, Real.dist_eq, Real.sqrt_sq_eq_abs, abs_of_nonneg hx]

/-- The claim is false: with cutoff 1, the coordination numbers of two hydrogen atoms at distances 2
and 3 differ. -/
theorem C36_cn_false : ¬ CnCutoffHonoured := by
  intro H
  have hcn := CNFunc.ofSpec_perSystem Demo.cn none Demo.T.nZ
  obtain ⟨c, q, c6, α, h, hc, -⟩ := properties_eval (env := Demo.env) (ext := Demo.ext)
    (cutoff := some { cn := 1 }) (Demo.h2_valid 2) hcn Demo.call.eeq
  obtain ⟨c', q', c6', α', h', hc', -⟩ := properties_eval (env := Demo.env) (ext := Demo.ext)
    (cutoff := some { cn := 1 }) (Demo.h2_valid 3) hcn Demo.call.eeq
  have heq := H _ _ _ _ _ _ _ _ _ _ h h' rfl (by rw [Demo.h2_dist (by norm_num)]; norm_num)
    (by rw [Demo.h2_dist (by norm_num)]; norm_num) 0 (by norm_num)
  have hv : ∀ x, 0 ≤ x → (Demo.ext.cnD4 Demo.dimer (Demo.h2 x) none).get [0] = Real.exp (-x) := by
    intro x hx
    have := (hcn 2 [] Demo.dimer (Demo.h2 x) ⟨rfl, rfl⟩ (Demo.h2_valid x).lt ⟨rfl, rfl⟩).2 []
      InB_nil 0
    have e : ∀ i : Fin 2, elements Demo.dimer 2 [] i ≠ 0 := fun i => one_ne_zero
    refine this.trans ?_
    unfold Demo.cn
    rw [Fin.sum_univ_two, if_neg (by simp), if_pos ⟨e 0, e 1, by decide⟩, Demo.h2_dist hx, zero_add]
  simp only [hc, hc'] at heq
  rw [hv 2 (by norm_num), hv 3 (by norm_num), Real.exp_eq_exp] at heq
  norm_num at heq

theorem Demo.h2_call (x : ℝ) : Call Demo.env Demo.T Demo.ext Demo.dimer (Demo.h2 x) (scalar 0)
    Demo.param { opts := { cutoff := some {} } } 2 [] .d4 Demo.cn Demo.eeq Demo.par where
  keys := Demo.keys
  args := ⟨⟨rfl, rfl⟩, ⟨rfl, rfl⟩, (Demo.h2_valid x).lt, Demo.fits, ⟨rfl, rfl⟩, by simp, by simp,
    by simp, by simp⟩
  model := Or.inl ⟨"d4", rfl, Demo.keys "d4" (by simp), rfl⟩
  cn := Demo.call.cn
  eeq := Demo.call.eeq
  damping := rfl
  par := Demo.reads
  cut3 := by norm_num [Defaults.disp3Cutoff]

/-- Two hydrogen atoms 100 Bohr apart have no energy with the default cutoffs 60 and 40. -/
example : ∃ e, dftd4 Demo.env Demo.T Demo.ext Demo.dimer (Demo.h2 100) (scalar 0) Demo.param
      { opts := { cutoff := some {} } } = .ok e ∧ e.get [0] = 0 := by
  refine C36_isolated_dftd4 (i := 0) (Demo.h2_call 100) InB_nil fun j hj _ => ?_
  have : j = 1 := by omega
  subst this
  rw [Demo.h2_dist (by norm_num)]
  norm_num [Defaults.disp2Cutoff, Defaults.disp3Cutoff]

/-- At 2 Bohr they do not notice larger cutoffs. -/
example : ∃ e e', dftd4 Demo.env Demo.T Demo.ext Demo.dimer (Demo.h2 2) (scalar 0) Demo.param
      { opts := { cutoff := some {} } } = .ok e ∧
    dftd4 Demo.env Demo.T Demo.ext Demo.dimer (Demo.h2 2) (scalar 0) Demo.param
      { opts := { cutoff := some { disp2 := 70, disp3 := 70 } } } = .ok e' ∧
    ∀ i : Fin 2, e.get (i.1 :: []) = e'.get (i.1 :: []) := by
  have heps : √Demo.env.eps ≤ 1 := by
    rw [Real.sqrt_le_one]
    show (1 : ℝ) / 2 ^ 52 ≤ 1
    norm_num
  refine C36_within (o := {}) (c := {}) (c' := { disp2 := 70, disp3 := 70 }) (Demo.h2_call 2) (by norm_num [Defaults.disp2Cutoff])
    (by norm_num [Defaults.disp3Cutoff]) rfl (heps.trans (by norm_num [Defaults.disp2Cutoff]))
    (heps.trans (by norm_num [Defaults.disp3Cutoff])) InB_nil fun i j _ _ => ?_
  have hle : ∀ i j : Fin 2, dist (coords (Demo.h2 2) 2 [] i) (coords (Demo.h2 2) 2 [] j) ≤ 2 := by
    intro i j
    have h := Demo.h2_dist (x := 2) (by norm_num)
    fin_cases i <;> fin_cases j
    · simp
    · exact h.le
    · rw [dist_comm]; exact h.le
    · simp
  exact (hle i j).trans (by norm_num [Defaults.disp2Cutoff, Defaults.disp3Cutoff])

example (x : ℝ) := C36_cn_ignored (env := Demo.env) (T := Demo.T) (ext := Demo.ext) (d := Demo.dispD4)
  (numbers := Demo.numbers) (positions := Demo.positions) (charge := Demo.charge) (p := Demo.param)
  (o := {}) {} x

/-- The two-body term alone does not use the three-body cutoff. -/
example := C36_only (env := Demo.env) (T := Demo.T) (ext := Demo.ext)
  (d := { Demo.dispD4 with terms := [⟨.twoBody, .rational, true⟩] }) (numbers := Demo.numbers)
  (positions := Demo.positions) (charge := Demo.charge) (p := Demo.param) (o := {}) {}
  { disp3 := 10 } (fun _ => rfl) (by simp) (fun _ _ => rfl)

example := C36_cn_eeq (env := Demo.env) (T := Demo.T) (ext := Demo.ext) (d := Demo.dispD4)
  (numbers := Demo.numbers) (positions := Demo.positions) (charge := Demo.charge) (p := Demo.param)
  (o := {}) {} ⟨⟨.twoBody, .rational, true⟩, by simp [Demo.dispD4, DispClass.terms], rfl⟩ rfl
  (eeqOfSpec_perSystem (ext := Demo.ext) Demo.eeq rfl 104 3 [2] Demo.numbers Demo.positions Demo.charge
    _ ⟨rfl, rfl⟩ (fun i _ => Demo.numbers_lt i) ⟨rfl, rfl⟩ ⟨rfl, rfl⟩).1.err

example := C36_properties (env := Demo.env) (T := Demo.T) (ext := Demo.ext) (numbers := Demo.numbers)
  (positions := Demo.positions) (some Demo.charge) { disp2 := 10 } { cn := 1 } rfl

end TadDftd4
