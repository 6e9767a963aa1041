import Verif.Props.C96
import Verif.Props.C04
import Verif.Lemmas.Runs
import Verif.Lemmas.C6Pos

/-!
# C96: energies of dispersion objects with an entry `only_damping`
-/

open scoped Classical

namespace TadDftd4

open Tensor

section
variable {env : Env} {T : Tables} {ext : Ext} {d : Disp} {numbers : Tensor ℕ} {positions charge : Tensor ℝ} {p : Param}
  {o : CalcOpts} {n : ℕ} {B : Shape} {R : RefCfg} {cn : Spec.CN} {eeq : Spec.EEQ}

/-- Everything `calculate` does before it evaluates the terms does not involve the entry. -/
theorem calculate_termsO (h : d.Runs env T ext numbers positions charge p o n B R cn eeq) :
    ∃ (m : RefModel) (qo : Option (Tensor ℝ)) (c q : Idx → ℝ) (cnT : Tensor ℝ),
      TermInput env T numbers positions m R (o.r4r2.getD (getR4R2 T numbers)) (o.rvdw.getD (getRvdw T numbers)) n B ∧
      D4.OptIs (some cnT) n B c ∧ D4.OptIs qo n B q ∧
      d.calculate env T ext numbers positions charge p o =
        (sumTerms env T d.terms numbers positions p cnT m qo (o.r4r2.getD (getR4R2 T numbers))
          (o.rvdw.getD (getRvdw T numbers)) (o.cutoff.getD {})).check ∧
      ∀ k, d.calculateO env k T ext numbers positions charge p o =
        (sumTermsO env k T d.terms numbers positions p cnT m qo (o.r4r2.getD (getR4R2 T numbers))
          (o.rvdw.getD (getRvdw T numbers)) (o.cutoff.getD {})).check := by
  obtain ⟨m, hgm, hm⟩ := h.model
  have hv := h.args
  set r4 := o.r4r2.getD (getR4R2 T numbers) with hr4
  set rv := o.rvdw.getD (getRvdw T numbers) with hrv
  have hr4ok : r4.Ok (n :: B) := by
    rw [hr4]
    cases h : o.r4r2 with
    | none => exact getR4R2_ok hv
    | some x => exact hv.r4r2 x h
  have hrvok : rv.Ok (n :: n :: B) := by
    rw [hrv]
    cases h : o.rvdw with
    | none => exact getPair_ok hv.num (AllLt.mono hv.lt hv.fits.ext)
    | some x => exact hv.rvdw x h
  obtain ⟨cok, cget⟩ := h.cn n B numbers positions hv.num hv.lt hv.pos
  have hany : d.terms.any (·.chargeDep) = true ↔ ∃ t ∈ d.terms, t.chargeDep = true := by simp
  obtain ⟨qo, qg, hqo, hqis⟩ : ∃ (qo : Option (Tensor ℝ)) (qg : Idx → ℝ),
      d.charges ext numbers positions charge (o.cutoff.getD {}) o.q = .ok qo ∧
      D4.OptIs qo n B qg := by
    by_cases hdep : ∃ t ∈ d.terms, t.chargeDep = true
    · have hd := hany.2 hdep
      cases hoq : o.q with
      | some x =>
        have hx := hv.q x hoq
        refine ⟨some x, x.get, ?_, Or.inr ⟨x, rfl, hx, rfl⟩⟩
        simp [Disp.charges, hd, hx.shape, hv.num.shape]
      | none =>
        obtain ⟨h1, h2⟩ := h.eeq hdep n B numbers positions charge (o.cutoff.getD {}).cnEeq hv.num
          hv.lt hv.pos hv.charge
        refine ⟨some _, _, ?_, Or.inr ⟨_, rfl, h1, rfl⟩⟩
        simp [Disp.charges, hd, check_ok h1.err, h1.shape, hv.num.shape, bind, Except.bind]
    · have hd : d.terms.any (·.chargeDep) = false := by
        rw [Bool.eq_false_iff]; exact fun h => hdep (hany.1 h)
      rcases h.q with hq | hq
      · refine ⟨none, fun _ => 0, ?_, Or.inl ⟨rfl, rfl⟩⟩
        simp [Disp.charges, hd, hq]
      · exact absurd hq hdep
  refine ⟨m, qo, _, qg, d.cnFn numbers positions d.counting, ⟨hv.num, hv.pos, hm, hr4ok, hrvok⟩,
    Or.inr ⟨_, rfl, cok, rfl⟩, hqis, ?_, fun k => ?_⟩
  · unfold Disp.calculate
    rw [ensure_ok (by rw [hv.num.shape, hv.pos.shape]; rfl)]
    simp only [bind, Except.bind, hgm]
    rw [ensure_ok (by intro x hx; rw [(hv.rcov x hx).shape, hv.num.shape])]
    simp only [← hr4, ← hrv, check_ok hr4ok.err, check_ok hrvok.err]
    rw [ensure_ok (by rw [hr4ok.shape, hv.num.shape])]
    simp only []
    rw [ensure_ok (by rw [hrvok.shape, hv.num.shape]; rfl)]
    simp only [check_ok cok.err, hqo]
  · unfold Disp.calculateO
    rw [ensure_ok (by rw [hv.num.shape, hv.pos.shape]; rfl)]
    simp only [bind, Except.bind, hgm]
    rw [ensure_ok (by intro x hx; rw [(hv.rcov x hx).shape, hv.num.shape])]
    simp only [← hr4, ← hrv, check_ok hr4ok.err, check_ok hrvok.err]
    rw [ensure_ok (by rw [hr4ok.shape, hv.num.shape])]
    simp only []
    rw [ensure_ok (by rw [hrvok.shape, hv.num.shape]; rfl)]
    simp only [check_ok cok.err, hqo]

/-- Three-body terms vanish with `s9 = 0`. -/
theorem term_s9_zero {m : RefModel} {r4r2 rvdw cnT : Tensor ℝ} {qo : Option (Tensor ℝ)} {c q : Idx → ℝ} {cut : Cutoff}
    {t : Term} (hin : TermInput env T numbers positions m R r4r2 rvdw n B) (hc : D4.OptIs (some cnT) n B c)
    (hq : D4.OptIs qo n B q) (ht : t.cls ≠ .twoBody) (hu : t.Usable env R p cut) (h9 : p.s9 = .val 0) :
    (t.calculate env T numbers positions p cnT m qo r4r2 rvdw cut).Ok (n :: B) ∧
    ∀ b i, InB B b → i < n → (t.calculate env T numbers positions p cnT m qo r4r2 rvdw cut).get (i :: b) = 0 := by
  obtain ⟨S, hS⟩ := hu.settings (T := T)
  obtain ⟨ok, hv⟩ := term_eval hin hc hq hS
  refine ⟨ok, fun b i hb hi => ?_⟩
  have hs : S.s9 = 0 := by
    rcases (hS.three ht).1.s9 with h | ⟨h, -⟩
    · rw [h9] at h; exact (PVal.val.inj h).symm
    · rw [h9] at h; cases h
  have z : ∀ (M : Spec.Mol n) C Rr (i : Fin n), Spec.e3 S M C Rr i = 0 := by
    intro M C Rr i
    unfold Spec.e3
    rw [Finset.sum_eq_zero fun j _ => Finset.sum_eq_zero fun k _ => ?_, mul_zero]
    split_ifs
    · simp [Spec.tripleTerm, hs]
    · rfl
  rw [hv b hb ⟨i, hi⟩]
  unfold Term.energy
  cases hcl : t.cls with
  | twoBody => exact absurd hcl ht
  | _ => exact z _ _ _ _

/-- With zero damping of pairs and no three-body energies the results are those of `dispersion2`. -/
theorem zero_run (h : d.Runs env T ext numbers positions charge p o n B R cn eeq) {cd : Bool} {ts : List Term}
    (hd : d.terms = ⟨.twoBody, .zero, cd⟩ :: ts) (hts : ∀ t ∈ ts, t.cls ≠ .twoBody) (h9 : p.s9 = .val 0)
    {s6 s8 rs6 rs8 alp : ℝ} (hp : Spec.ReadsPairZero p s6 s8 rs6 rs8 alp) :
    ∃ (e e' c6 : Tensor ℝ) (c q : Idx → ℝ), d.calculate env T ext numbers positions charge p o = .ok e ∧
      d.calculateO env .isTrue T ext numbers positions charge p o = .ok e' ∧
      D2Shapes numbers positions c6 (o.r4r2.getD (getR4R2 T numbers)) (o.rvdw.getD (getRvdw T numbers)) n 3 B ∧
      (∀ b i j, InB B b → i < n → j < n → c6.get (j :: i :: b) =
        c6At env T R ⟨numbers.get (i :: b), c (i :: b), q (i :: b)⟩ ⟨numbers.get (j :: b), c (j :: b), q (j :: b)⟩) ∧
      ∀ b i, InB B b → i < n →
        e.get (i :: b) = (dispersion2 env numbers positions p c6 (o.r4r2.getD (getR4R2 T numbers))
          (some (o.rvdw.getD (getRvdw T numbers))) .zero (some (o.cutoff.getD {}).disp2)).get (i :: b) ∧
        e'.get (i :: b) = (dispersion2O env .isTrue numbers positions p c6 (o.r4r2.getD (getR4R2 T numbers))
          (some (o.rvdw.getD (getRvdw T numbers))) .zero (some (o.cutoff.getD {}).disp2)).get (i :: b) := by
  obtain ⟨m, qo, c, q, cnT, hin, hc, hq, e1, e2⟩ := calculate_termsO h
  set r4 := o.r4r2.getD (getR4R2 T numbers)
  set rv := o.rvdw.getD (getRvdw T numbers)
  set cut := o.cutoff.getD {}
  obtain ⟨c6ok, c6get⟩ := model_c6_eval hin.model hc (termCharges_optIs (t := ⟨.twoBody, .zero, cd⟩) hq)
  set c6 := m.atomicC6 (m.weights env T (some cnT) ((⟨.twoBody, .zero, cd⟩ : Term).charges qo)) with hc6
  have hsh : D2Shapes numbers positions c6 r4 rv n 3 B := ⟨hin.num, hin.pos, c6ok, hin.r4r2, hin.rvdw⟩
  have fold : ∀ (l : List Term), (∀ t ∈ l, t ∈ ts) → ∀ x : Tensor ℝ, x.Ok (n :: B) →
      (l.foldl (fun energy t => energy + t.calculate env T numbers positions p cnT m qo r4 rv cut) x).Ok (n :: B) ∧
      ∀ b i, InB B b → i < n →
        (l.foldl (fun energy t => energy + t.calculate env T numbers positions p cnT m qo r4 rv cut) x).get (i :: b) =
          x.get (i :: b) := by
    intro l
    induction l with
    | nil => intro _ x hx; exact ⟨hx, fun _ _ _ _ => rfl⟩
    | cons t l ih =>
      intro hl x hx
      have htm : t ∈ ts := hl t List.mem_cons_self
      have hu : t.Usable env R p cut := h.par t (by rw [hd]; exact List.mem_cons_of_mem _ htm)
      obtain ⟨tok, tget⟩ := term_s9_zero (t := t) hin hc hq (hts t htm) hu h9
      obtain ⟨a, b⟩ := ih (fun s hs => hl s (List.mem_cons_of_mem _ hs))
        (x + t.calculate env T numbers positions p cnT m qo r4 rv cut)
        (by constructor <;> simp [hx.err, hx.shape, tok.err, tok.shape])
      refine ⟨a, fun b' i hb hi => ?_⟩
      rw [List.foldl_cons, b b' i hb hi]
      have hbi : InB (n :: B) (i :: b') := ⟨hi, hb⟩
      simp only [add_get, hx.shape, tok.shape, pick_of_InB hbi, tget b' i hb hi, add_zero]
  have foldO : ∀ (l : List Term), (∀ t ∈ l, t ∈ ts) → ∀ x : Tensor ℝ,
      l.foldl (fun energy t => energy + t.calculateO env .isTrue T numbers positions p cnT m qo r4 rv cut) x =
        l.foldl (fun energy t => energy + t.calculate env T numbers positions p cnT m qo r4 rv cut) x := by
    intro l
    induction l with
    | nil => intros; rfl
    | cons t l ih =>
      intro hl x
      rw [List.foldl_cons, List.foldl_cons, ih fun s hs => hl s (List.mem_cons_of_mem _ hs),
        calculateO_eq (Or.inr (Or.inl (hts t (hl t List.mem_cons_self))))]
  obtain ⟨p6, p8, p6', p8'⟩ := hp.point (env := env)
  obtain ⟨-, ok2, -, -⟩ := dispersion2O_eval (k := .isTrue) (f10 := fun _ _ => 0) hsh hp.extra p6 p8 hp.s6 hp.s8
    hp.s10 (some cut.disp2)
  obtain ⟨-, ok1, -, -⟩ := dispersion2_eval (f10 := fun _ _ => 0) (s10 := 0) hsh hp.extra p6' p8' hp.s6 hp.s8
    (Or.inl ⟨hp.s10, rfl⟩) (some cut.disp2)
  have z0 : (full numbers.shape (0 : ℝ)).Ok (n :: B) := ⟨rfl, hin.num.shape⟩
  obtain ⟨a1, a2⟩ := fold ts (fun _ h => h) (full numbers.shape 0 +
    dispersion2 env numbers positions p c6 r4 (some rv) .zero (some cut.disp2))
    (by constructor <;> simp [hin.num.shape, ok1.err, ok1.shape])
  obtain ⟨b1, b2⟩ := fold ts (fun _ h => h) (full numbers.shape 0 +
    dispersion2O env .isTrue numbers positions p c6 r4 (some rv) .zero (some cut.disp2))
    (by constructor <;> simp [hin.num.shape, ok2.err, ok2.shape])
  have s1 : sumTerms env T d.terms numbers positions p cnT m qo r4 rv cut =
      ts.foldl (fun energy t => energy + t.calculate env T numbers positions p cnT m qo r4 rv cut)
        (full numbers.shape 0 + dispersion2 env numbers positions p c6 r4 (some rv) .zero (some cut.disp2)) := by
    unfold sumTerms
    rw [hd, List.foldl_cons]
    rfl
  have s2 : sumTermsO env .isTrue T d.terms numbers positions p cnT m qo r4 rv cut =
      ts.foldl (fun energy t => energy + t.calculate env T numbers positions p cnT m qo r4 rv cut)
        (full numbers.shape 0 +
          dispersion2O env .isTrue numbers positions p c6 r4 (some rv) .zero (some cut.disp2)) := by
    unfold sumTermsO
    rw [hd, List.foldl_cons, foldO ts (fun _ h => h)]
    rfl
  refine ⟨_, _, c6, _, _, e1.trans (by rw [s1]; exact check_ok a1.err), (e2 _).trans (by rw [s2]; exact check_ok b1.err),
    hsh, c6get, fun b i hb hi => ⟨?_, ?_⟩⟩
  · have hbi : InB (n :: B) (i :: b) := ⟨hi, hb⟩
    rw [a2 b i hb hi]
    simp only [add_get, z0.shape, ok1.shape, pick_of_InB hbi]
    exact zero_add _
  · have hbi : InB (n :: B) (i :: b) := ⟨hi, hb⟩
    rw [b2 b i hb hi]
    simp only [add_get, z0.shape, ok2.shape, pick_of_InB hbi]
    exact zero_add _

/-- **C96**: a dispersion object with zero damping of pairs (and no three-body energies, `s9 = 0`). With the entry `True`
no exception is raised, and the energy of an atom whose partners are all at least `l ≥ 1` Bohr away is overestimated by
a factor of at least `l ^ 6`. -/
theorem C96_energy (h : d.Runs env T ext numbers positions charge p o n B R cn eeq) {cd : Bool} {ts : List Term}
    (hd : d.terms = ⟨.twoBody, .zero, cd⟩ :: ts) (hts : ∀ t ∈ ts, t.cls ≠ .twoBody) (h9 : p.s9 = .val 0)
    {s6 s8 rs6 rs8 alp : ℝ} (hp : Spec.ReadsPairZero p s6 s8 rs6 rs8 alp) (h6 : 0 ≤ s6) (h8 : 0 ≤ s8)
    (hrs6 : 0 ≤ rs6) (hrs8 : 0 ≤ rs8)
    (hR : ∀ b i j, InB B b → i < n → j < n → 0 < (o.rvdw.getD (getRvdw T numbers)).get (j :: i :: b))
    (hQ : ∀ b i, InB B b → i < n → 0 ≤ (o.r4r2.getD (getR4R2 T numbers)).get (i :: b)) :
    ∃ e e', d.calculate env T ext numbers positions charge p o = .ok e ∧
      d.calculateO env .isTrue T ext numbers positions charge p o = .ok e' ∧
      ∀ b i, InB B b → i < n → ∀ l, 1 ≤ l →
        (∀ j < n, j ≠ i → numbers.get (i :: b) ≠ 0 → numbers.get (j :: b) ≠ 0 → l ≤ pairDist positions 3 b i j) →
        e'.get (i :: b) ≤ l ^ 6 * e.get (i :: b) ∧ e.get (i :: b) ≤ 0 := by
  obtain ⟨e, e', c6, c, q, h1, h2, hsh, hc6, hv⟩ := zero_run h hd hts h9 hp
  refine ⟨e, e', h1, h2, fun b i hb hi l hl hdist => ?_⟩
  obtain ⟨v1, v2⟩ := hv b i hb hi
  rw [v1, v2]
  set r4 := o.r4r2.getD (getR4R2 T numbers)
  set rv := o.rvdw.getD (getRvdw T numbers)
  set cut := (o.cutoff.getD {}).disp2
  obtain ⟨p6, p8, p6', p8'⟩ := hp.point (env := env)
  obtain ⟨-, -, gm, ga⟩ := dispersion2O_eval (k := .isTrue) (f10 := fun _ _ => 0) hsh hp.extra p6 p8 hp.s6 hp.s8
    hp.s10 (some cut)
  obtain ⟨-, -, gm', ga'⟩ := dispersion2_eval (f10 := fun _ _ => 0) (s10 := 0) hsh hp.extra p6' p8' hp.s6 hp.s8
    (Or.inl ⟨hp.s10, rfl⟩) (some cut)
  rw [ga b i hb hi, ga' b i hb hi]
  have key : ∀ j ∈ Finset.range n, 0 ≤ pairEnergy env numbers positions c6 r4 rv 3 .zero
        ((some cut).getD Defaults.disp2Cutoff) s6 s8 0 (fun x r => env.sdiv (zeroF env rs6 alp x r) (x ^ 6))
        (fun x r => env.sdiv (zeroF env rs8 (alp + 2) x r) (x ^ 8)) (fun _ _ => 0) b i j ∧
      l ^ 6 * pairEnergy env numbers positions c6 r4 rv 3 .zero
        ((some cut).getD Defaults.disp2Cutoff) s6 s8 0 (fun x r => env.sdiv (zeroF env rs6 alp x r) (x ^ 6))
        (fun x r => env.sdiv (zeroF env rs8 (alp + 2) x r) (x ^ 8)) (fun _ _ => 0) b i j ≤
      pairEnergy env numbers positions c6 r4 rv 3 .zero
        ((some cut).getD Defaults.disp2Cutoff) s6 s8 0 (zeroF env rs6 alp) (zeroF env rs8 (alp + 2))
        (fun _ _ => 0) b i j := by
    intro j hj
    have hjn := Finset.mem_range.1 hj
    unfold pairEnergy
    split_ifs with hin
    · obtain ⟨⟨hZi, hZj, hij⟩, hcut⟩ := hin
      have hl' := hdist j hjn (Ne.symm hij) hZi hZj
      set r := distAt env positions 3 b i j with hr
      have hrl : l ≤ r := by
        rw [hr, distAt_eq_max]
        exact le_max_of_le_left hl'
      have hr0 : 0 < r := lt_of_lt_of_le (lt_of_lt_of_le one_pos hl) hrl
      have hC : 0 ≤ c6.get (j :: i :: b) := by rw [hc6 b i j hb hi hjn]; exact c6At_nonneg _ _
      have hqq : 0 ≤ 3 * r4.get (i :: b) * r4.get (j :: b) :=
        mul_nonneg (mul_nonneg (by norm_num) (hQ b i hb hi)) (hQ b j hb hjn)
      have hrad : radAt .zero r4 rv b i j = rv.get (j :: i :: b) := rfl
      have hR' := hR b i j hb hi hjn
      rw [hrad]
      have f6 : 0 ≤ zeroF env rs6 alp r (rv.get (j :: i :: b)) := by
        unfold zeroF
        have hs : env.sdiv r (rv.get (j :: i :: b)) = r / rv.get (j :: i :: b) := by simp [Env.sdiv, hR'.ne']
        rw [hs]
        have := Real.rpow_nonneg (mul_nonneg hrs6 (div_pos hr0 hR').le) alp
        positivity
      have f8 : 0 ≤ zeroF env rs8 (alp + 2) r (rv.get (j :: i :: b)) := by
        unfold zeroF
        have hs : env.sdiv r (rv.get (j :: i :: b)) = r / rv.get (j :: i :: b) := by simp [Env.sdiv, hR'.ne']
        rw [hs]
        have := Real.rpow_nonneg (mul_nonneg hrs8 (div_pos hr0 hR').le) (alp + 2)
        positivity
      unfold pairE
      have hs6 : ∀ x, env.sdiv x (r ^ 6) = x / r ^ 6 := fun x => by simp [Env.sdiv, hr0.ne']
      have hs8 : ∀ x, env.sdiv x (r ^ 8) = x / r ^ 8 := fun x => by simp [Env.sdiv, hr0.ne']
      simp only [hs6, hs8]
      generalize zeroF env rs6 alp r (rv.get (j :: i :: b)) = F6 at *
      generalize zeroF env rs8 (alp + 2) r (rv.get (j :: i :: b)) = F8 at *
      generalize 3 * r4.get (i :: b) * r4.get (j :: b) = Q at *
      generalize c6.get (j :: i :: b) = C at *
      refine ⟨by positivity, ?_⟩
      have l0 : 0 < l := lt_of_lt_of_le one_pos hl
      have k6 : l ^ 6 * (F6 / r ^ 6) ≤ F6 := by
        rw [← mul_div_assoc, div_le_iff₀ (by positivity), mul_comm]
        exact mul_le_mul_of_nonneg_left (pow_le_pow_left₀ l0.le hrl 6) f6
      have k8 : l ^ 6 * (F8 / r ^ 8) ≤ F8 := by
        rw [← mul_div_assoc, div_le_iff₀ (by positivity), mul_comm]
        refine mul_le_mul_of_nonneg_left ?_ f8
        exact (pow_le_pow_left₀ l0.le hrl 6).trans (pow_le_pow_right₀ (hl.trans hrl) (by norm_num))
      have m6 := mul_le_mul_of_nonneg_left k6 (mul_nonneg h6 hC)
      have m8 := mul_le_mul_of_nonneg_left k8 (mul_nonneg h8 (mul_nonneg hC hqq))
      nlinarith [m6, m8]
    · simp
  have t1 := Finset.sum_nonneg fun j hj => (key j hj).1
  have t2 := Finset.sum_le_sum fun j hj => (key j hj).2
  rw [← Finset.mul_sum] at t2
  constructor
  · linarith
  · linarith

end

/-! ## `dftd4` -/

namespace Demo

/-- Parameters of zero damping without three-body term. -/
noncomputable def zeroParam : Param := { onlyParam with s9 := .val 0 }

theorem zeroReads : Spec.ReadsPairZero zeroParam 1 1 1 1 14 :=
  ⟨rfl, Or.inl rfl, Or.inl rfl, rfl, rfl, rfl, Or.inl rfl⟩

/-- The object that `dftd4` creates with zero damping. -/
theorem zeroObject : ∃ d : Disp, d.terms = [⟨.twoBody, .zero, true⟩, ⟨.d4ATMApprox, .zero, false⟩] ∧
    d.Runs env T ext numbersHF positionsHF chargeHF zeroParam {} 2 [] .d4 cn eeq ∧
    dftd4 env T ext numbersHF positionsHF chargeHF zeroParam { damping := .zero } =
      d.calculate env T ext numbersHF positionsHF chargeHF zeroParam {} ∧
    ∀ k, dftd4O env k T ext numbersHF positionsHF chargeHF zeroParam { damping := .zero } =
      d.calculateO env k T ext numbersHF positionsHF chargeHF zeroParam {} := by
  have h := callHF
  obtain ⟨d, m, hnew, hts, hf, hct, hm, hgm⟩ := new_getModel (cls := .base) (sel := ({} : DftOpts).model)
    (f := ext.cnD4) (counting := some ext.erfCount)
    h.keys h.model h.args.num h.args.lt h.args.fits
  obtain ⟨-, -, p6, p8⟩ := zeroReads.point (env := env)
  refine ⟨{ d with terms := [⟨.twoBody, .zero, true⟩, ⟨.d4ATMApprox, .zero, false⟩] }, rfl,
    ⟨h.args, ⟨m, hgm _, hm⟩, ?_, fun _ => h.eeq, Or.inr ⟨⟨.twoBody, .zero, true⟩, by simp, rfl⟩, ?_⟩, ?_, fun k => ?_⟩
  · show CNFunc.PerSystem d.cnFn d.counting T.nZ cn
    rw [hf, hct]; exact h.cn
  · intro t ht
    simp only [List.mem_cons, List.not_mem_nil, or_false] at ht
    rcases ht with rfl | rfl
    · refine ⟨fun _ => ?_, by simp, by simp, by simp, by simp, by simp, by simp, by simp, by simp⟩
      exact ⟨rfl, by simp [zeroParam, onlyParam], by simp [zeroParam, onlyParam], by simp [zeroParam, onlyParam],
        ⟨_, p6⟩, ⟨_, p8⟩, fun hx => absurd rfl hx⟩
    · exact ⟨by simp, fun _ => rfl, by simp [zeroParam], by simp [zeroParam, onlyParam], fun _ => h.cut3,
        by simp [zeroParam, onlyParam], by simp [zeroParam, onlyParam], by simp, by simp⟩
  · unfold dftd4
    show (Disp.new ext .base ({} : DftOpts).model none (some ext.cnD4) (some ext.erfCount) >>= _) = _
    rw [hnew]
    simp only [bind, Except.bind, Disp.register, hts, DispClass.terms, List.nil_append, List.cons_append]
  · unfold dftd4O
    show (Disp.new ext .base ({} : DftOpts).model none (some ext.cnD4) (some ext.erfCount) >>= _) = _
    rw [hnew]
    simp only [bind, Except.bind, Disp.register, hts, DispClass.terms, List.nil_append, List.cons_append]

theorem HF_rvdw (i j : ℕ) : (getRvdw T numbersHF).get [j, i] = 3 := by
  rfl

theorem HF_r4r2 (i : ℕ) (hi : i < 2) : 0 < (getR4R2 T numbersHF).get [i] := by
  show 0 < T.r4r2 (numbersHF.get [i])
  obtain rfl | rfl : i = 0 ∨ i = 1 := by omega
  · exact shipped_r4r2_pos (by simp [numbersHF]) (by simp [numbersHF])
  · exact shipped_r4r2_pos (by simp [numbersHF]) (by simp [numbersHF])

theorem HF_pairDist : pairDist positionsHF 3 [] 0 1 = 1.8 := by
  have h : ∑ k ∈ Finset.range 3, (positionsHF.get [k, 0] - positionsHF.get [k, 1]) ^ 2 = (1.8 : ℝ) ^ 2 := by
    simp only [Finset.sum_range_succ, Finset.sum_range_zero, positionsHF]
    norm_num
  rw [pairDist, h, Real.sqrt_sq (by norm_num)]

end Demo

/-- **C96**, the claim that the entry never changes energies is false also of `dftd4`: for hydrogen fluoride with zero
damping the entry `True` raises no exception, and the energy of the fluorine atom is at least 30 times too large. -/
theorem C96_dftd4_false : ∃ e e', dftd4 Demo.env Demo.T Demo.ext Demo.numbersHF Demo.positionsHF Demo.chargeHF
      Demo.zeroParam { damping := .zero } = .ok e ∧
    dftd4O Demo.env .isTrue Demo.T Demo.ext Demo.numbersHF Demo.positionsHF Demo.chargeHF
      Demo.zeroParam { damping := .zero } = .ok e' ∧
    e.get [0] < 0 ∧ e'.get [0] ≤ 30 * e.get [0] := by
  obtain ⟨d, hts, hrun, h1, h2⟩ := Demo.zeroObject
  have h3 : ∀ t ∈ [(⟨.d4ATMApprox, .zero, false⟩ : Term)], t.cls ≠ .twoBody := by simp
  obtain ⟨e, e', a1, a2, hv⟩ := C96_energy hrun hts h3 rfl Demo.zeroReads (by norm_num) (by norm_num) (by norm_num)
    (by norm_num) (fun b i j hb hi hj => by
      cases b with
      | nil => show 0 < (getRvdw Demo.T Demo.numbersHF).get [j, i]; rw [Demo.HF_rvdw]; norm_num
      | cons => exact absurd hb (by simp [InB]))
    (fun b i hb hi => by
      cases b with
      | nil => exact (Demo.HF_r4r2 i hi).le
      | cons => exact absurd hb (by simp [InB]))
  obtain ⟨e₁, e₁', c6, c, q, b1, b2, hsh, hc6, hw⟩ := zero_run hrun hts h3 rfl Demo.zeroReads
  obtain rfl : e = e₁ := Except.ok.inj (a1.symm.trans b1)
  have hd : pairDist Demo.positionsHF 3 [] 0 1 = 1.8 := Demo.HF_pairDist
  obtain ⟨k1, -⟩ := hv [] 0 InB_nil (by norm_num) 1.8 (by norm_num) (fun j hj hne _ _ => by
    obtain rfl : j = 1 := by omega
    rw [hd])
  have neg : e.get [0] < 0 := by
    rw [(hw [] 0 InB_nil (by norm_num)).1]
    obtain ⟨-, -, p6', p8'⟩ := Demo.zeroReads.point (env := Demo.env)
    obtain ⟨-, -, -, ga'⟩ := dispersion2_eval (f10 := fun _ _ => 0) (s10 := 0) hsh Demo.zeroReads.extra p6' p8'
      Demo.zeroReads.s6 Demo.zeroReads.s8 (Or.inl ⟨Demo.zeroReads.s10, rfl⟩)
      (some (({} : CalcOpts).cutoff.getD {}).disp2)
    rw [ga' [] 0 InB_nil (by norm_num)]
    have hr : distAt Demo.env Demo.positionsHF 3 [] 0 1 = 1.8 := by
      rw [distAt_eq_max, hd, max_eq_left (Demo.only_eps.trans (by norm_num))]
    have hC : 0 < c6.get [1, 0] := by
      rw [hc6 [] 0 1 InB_nil (by norm_num) (by norm_num)]
      exact c6At_pos rfl Demo.physical (by norm_num [RefCfg.d4]) (by show 9 < 104; norm_num)
        (by show 1 < 104; norm_num)
        (shipped_polarizable (by simp [Demo.numbersHF]) (by simp [Demo.numbersHF]) (by simp [Demo.numbersHF]))
        (shipped_polarizable (by simp [Demo.numbersHF]) (by simp [Demo.numbersHF]) (by simp [Demo.numbersHF]))
    have z : ∀ f6 f8, pairEnergy Demo.env Demo.numbersHF Demo.positionsHF c6 (getR4R2 Demo.T Demo.numbersHF)
        (getRvdw Demo.T Demo.numbersHF) 3 .zero (({} : Cutoff).disp2) 1 1 0 f6 f8 (fun _ _ => 0) [] 0 0 = 0 := by
      intro f6 f8
      unfold pairEnergy
      rw [if_neg fun h => h.1.2.2 rfl]
    rw [Finset.sum_range_succ, Finset.sum_range_succ, Finset.sum_range_zero]
    simp only [Option.getD]
    rw [z]
    unfold pairEnergy
    have hin : inCut Demo.env Demo.numbersHF Demo.positionsHF 3 (({} : Cutoff).disp2) [] 0 1 := by
      refine ⟨⟨by simp [Demo.numbersHF], by simp [Demo.numbersHF], by norm_num⟩, ?_⟩
      rw [hr]
      show (1.8 : ℝ) ≤ 60
      norm_num
    rw [if_pos hin, hr]
    have hrad : radAt .zero (getR4R2 Demo.T Demo.numbersHF) (getRvdw Demo.T Demo.numbersHF) [] 0 1 = 3 := rfl
    rw [hrad]
    have hs : Demo.env.sdiv 1.8 3 = 0.6 := by norm_num [Env.sdiv]
    have hq : 0 < 3 * (getR4R2 Demo.T Demo.numbersHF).get [0] * (getR4R2 Demo.T Demo.numbersHF).get [1] :=
      mul_pos (mul_pos (by norm_num) (Demo.HF_r4r2 0 (by norm_num))) (Demo.HF_r4r2 1 (by norm_num))
    have f6 : 0 < Demo.env.sdiv (zeroF Demo.env 1 14 1.8 3) (1.8 ^ 6) := by
      have : Demo.env.sdiv (zeroF Demo.env 1 14 1.8 3) (1.8 ^ 6) = zeroF Demo.env 1 14 1.8 3 / 1.8 ^ 6 := by
        norm_num [Env.sdiv]
      rw [this, zeroF, hs]
      positivity
    have f8 : 0 < Demo.env.sdiv (zeroF Demo.env 1 (14 + 2) 1.8 3) (1.8 ^ 8) := by
      have : Demo.env.sdiv (zeroF Demo.env 1 (14 + 2) 1.8 3) (1.8 ^ 8) = zeroF Demo.env 1 (14 + 2) 1.8 3 / 1.8 ^ 8 := by
        norm_num [Env.sdiv]
      rw [this, zeroF, hs]
      positivity
    have t6 := mul_pos hC f6
    have t8 := mul_pos (mul_pos hC hq) f8
    unfold pairE
    linarith
  exact ⟨e, e', h1.trans a1, (h2 _).trans a2, neg, k1.trans (by nlinarith)⟩

/-- An object that meets the hypotheses: the one that `dftd4` creates for hydrogen fluoride with zero damping. -/
example : ∃ (d : Disp) (e e' : Tensor ℝ),
    d.calculate Demo.env Demo.T Demo.ext Demo.numbersHF Demo.positionsHF Demo.chargeHF Demo.zeroParam {} = .ok e ∧
    d.calculateO Demo.env .isTrue Demo.T Demo.ext Demo.numbersHF Demo.positionsHF Demo.chargeHF Demo.zeroParam {} = .ok e' ∧
    e'.get [0] ≤ 1.8 ^ 6 * e.get [0] := by
  obtain ⟨d, hts, hrun, -, -⟩ := Demo.zeroObject
  obtain ⟨e, e', a1, a2, hv⟩ := C96_energy hrun hts (by simp) rfl Demo.zeroReads (by norm_num) (by norm_num)
    (by norm_num) (by norm_num) (fun b i j hb hi hj => by
      cases b with
      | nil => show 0 < (getRvdw Demo.T Demo.numbersHF).get [j, i]; rw [Demo.HF_rvdw]; norm_num
      | cons => exact absurd hb (by simp [InB]))
    (fun b i hb hi => by
      cases b with
      | nil => exact (Demo.HF_r4r2 i hi).le
      | cons => exact absurd hb (by simp [InB]))
  refine ⟨d, e, e', a1, a2, (hv [] 0 InB_nil (by norm_num) 1.8 (by norm_num) fun j hj hne _ _ => ?_).1⟩
  obtain rfl : j = 1 := by omega
  rw [Demo.HF_pairDist]

end TadDftd4
