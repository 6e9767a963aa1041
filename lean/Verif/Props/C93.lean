import Verif.Props.C47
import Verif.Props.C49

/-!
# C93: reference C6 coefficients given by the user
-/

set_option linter.unusedSimpArgs false

open scoped Classical

namespace TadDftd4

open Tensor

namespace Spec

/-- Dispersion energy of an atom if the C6 coefficients of the pairs are `C` in the two-body term and `N` in the
three-body term. -/
noncomputable def energyFrom {n : ℕ} (S : Settings) (M : Mol n) (C N : Fin n → Fin n → ℝ) (i : Fin n) : ℝ :=
  -(1 / 2) * (∑ j, if M.Z i ≠ 0 ∧ M.Z j ≠ 0 ∧ i ≠ j ∧ M.r S.ε i j ≤ S.cut2 then
    C i j * (S.s6 * S.f6 (M.r S.ε i j) (rad S M i j) +
      S.s8 * (3 * M.Q i * M.Q j) * S.f8 (M.r S.ε i j) (rad S M i j) +
      S.s10 * (49 / 40 * (3 * M.Q i * M.Q j) ^ 2) * S.f10 (M.r S.ε i j) (rad S M i j)) else 0) +
  e3 S M (fun i j k => rsqrt S.ε |N i j * N i k * N j k|) (R0 S M) i

/-- C6 coefficient of two atoms from coefficients `rc` of their reference systems: weighted with the charge scaling and
the Gaussian weight of each reference. -/
noncomputable def c6Given (C : C6Settings) (rc : ℕ → ℕ → ℝ) (A A' : AtomData) : ℝ :=
  ∑ a ∈ Finset.range nref, ∑ b ∈ Finset.range nref, rc a b *
    ((zetaRef C A a * weight C (C.wf A.Z A'.Z) A.Z A.cn a) *
      (zetaRef C A' b * weight C (C.wf A'.Z A.Z) A'.Z A'.cn b))

/-- Entry of a tensor of reference coefficients of shape `(..., nat, nat, nref, nref)`: system `b`, atoms `i`, `j`,
references `a`, `c`. -/
def entry (x : Tensor ℝ) (b : Idx) (i j a c : ℕ) : ℝ := x.get (c :: a :: j :: i :: b)

end Spec

section
variable {env : Env} {T : Tables} {ext : Ext} {numbers : Tensor ℕ} {positions charge : Tensor ℝ}
  {p : Param} {o : CalcOpts} {n : ℕ} {B : Shape} {R : RefCfg}
  {cn : Spec.CN} {eeq : Spec.EEQ} {P : Spec.D4Par} {m m₀ : RefModel} {d : Disp} {kw : ModelKw} {s : String}
  {cf : Option CNFunc} {ct : Option CountFn} {cls : DispClass} {x : Tensor ℝ}

/-- With the coefficients of the settings it is the dispersion energy. -/
theorem Spec.energyFrom_own {S : Spec.Settings} (M : Spec.Mol n) (i : Fin n) :
    Spec.energyFrom S M (fun i j => S.c6 (M.atom i) (M.atom j)) (fun i j => S.c6 (M.neutral i) (M.neutral j)) i =
      Spec.energy S M i := by
  unfold Spec.energyFrom Spec.energy Spec.e2
  congr 2
  refine Finset.sum_congr rfl fun j _ => if_congr Iff.rfl ?_ rfl
  unfold Spec.pairTerm
  ring

/-- C6 coefficients of a model object with given reference coefficients. -/
theorem model_c6_given (h : m₀.IsFor env T numbers R n B) (hm : m = { m₀ with rc6 := x })
    (hx : x.Ok (nref :: nref :: n :: n :: B)) {co qo : Option (Tensor ℝ)}
    {cg qg : Idx → ℝ} (hc : D4.OptIs co n B cg) (hq : D4.OptIs qo n B qg) :
    (m.atomicC6 (m.weights env T co qo)).Ok (n :: n :: B) ∧
    ∀ b i j, InB B b → i < n → j < n →
      (m.atomicC6 (m.weights env T co qo)).get (j :: i :: b) =
        c6Of (Spec.entry x b i j)
          (wtAt env T R ⟨numbers.get (i :: b), cg (i :: b), qg (i :: b)⟩ (numbers.get (j :: b)))
          (wtAt env T R ⟨numbers.get (j :: b), cg (j :: b), qg (j :: b)⟩ (numbers.get (i :: b))) := by
  have hg := h.good
  have hnum := h.num
  have hxm : m.rc6 = x := by rw [hm]
  have hrc : m.rc6.Ok (nref :: nref :: n :: n :: B) := by rw [hxm]; exact hx
  have hw0 : m.weights env T co qo = m₀.weights env T co qo := by rw [hm]; rfl
  have hkm : m.kind = m₀.kind := by rw [hm]
  rw [hw0]
  rcases h.wf with ⟨hk, w, hw, hR⟩ | ⟨hk, hw, hR⟩
  · have hwt := D4.weights_ok (env := env) hg hw hc hq
    have hk' : R.kind = .d4 := h.kind ▸ hk
    simp only [RefModel.weights, RefModel.atomicC6, hkm, hk]
    refine ⟨D4.atomicC6_ok hrc hwt, fun b i j hb hi hj => ?_⟩
    rw [D4.atomicC6_get hrc hwt hb hi hj, hxm]
    refine c6Of_congr (fun a ha c hc => rfl) (fun a ha => ?_)
      (fun a ha => ?_)
    · rw [D4.weights_get hg hw hc hq hb hi ha, wtAt, h.ga, h.gc, h.rq, hnum, hk', hR]; rfl
    · rw [D4.weights_get hg hw hc hq hb hj ha, wtAt, h.ga, h.gc, h.rq, hnum, hk', hR]; rfl
  · have hwt := D4S.weights_ok (env := env) hg hw hc hq
    have e1 : m₀.weights env T co qo = D4S.weights env T m₀ co qo := by
      rcases hk with hk | hk <;> simp only [RefModel.weights, hk]
    have e2 : ∀ x, m.atomicC6 x = D4S.atomicC6 m x := by
      intro x; rcases hk with hk | hk <;> simp only [RefModel.atomicC6, hkm, hk]
    have e3 : expwSel env T R.kind = expwD4S env T := by
      rw [← h.kind]; rcases hk with hk | hk <;> rw [hk] <;> rfl
    rw [e1, e2]
    refine ⟨D4S.atomicC6_ok hrc hwt, fun b i j hb hi hj => ?_⟩
    rw [D4S.atomicC6_get hrc hwt hb hi hj, hxm]
    refine c6Of_congr (fun a ha c hc => rfl) (fun a ha => ?_)
      (fun a ha => ?_)
    · rw [D4S.weights_get hg hw hc hq hb hi hj ha, wtAt, h.ga, h.gc, h.rq, hnum, e3,
        hR b i j hb hi hj]
    · rw [D4S.weights_get hg hw hc hq hb hj hi ha, wtAt, h.ga, h.gc, h.rq, hnum, e3,
        hR b j i hb hj hi]

/-- The coefficients by the published formula. -/
theorem c6Of_given (hfl : env.fl = id) (hT : T.Physical R.rq) (hgc : 0 < R.gc) {A A' : Spec.AtomData}
    (hA : A.Z < T.nZ) (hA' : A'.Z < T.nZ) (rc : ℕ → ℕ → ℝ) :
    c6Of rc (wtAt env T R A A'.Z) (wtAt env T R A' A.Z) = Spec.c6Given (R.spec T env.eps) rc A A' := by
  unfold c6Of Spec.c6Given
  refine Finset.sum_congr rfl fun a ha => Finset.sum_congr rfl fun b hb => ?_
  rw [wtAt_spec hfl hT hgc hA _ (Finset.mem_range.1 ha), wtAt_spec hfl hT hgc hA' _ (Finset.mem_range.1 hb)]
  rfl

/-- Energies from the C6 coefficients of any model object that computes them without an exception. -/
theorem calculate_from (hv : ValidArgs T numbers positions charge o n B) (hts : d.terms = DispClass.d4.terms)
    (hgm : d.getModel env T ext numbers = .ok m) (himp : m.kind.implemented = true)
    {K : Idx → ℕ → ℕ → Spec.AtomData → Spec.AtomData → ℝ}
    (hm : ∀ {co qo : Option (Tensor ℝ)} {cg qg : Idx → ℝ}, D4.OptIs co n B cg → D4.OptIs qo n B qg →
      (m.atomicC6 (m.weights env T co qo)).Ok (n :: n :: B) ∧ ∀ b i j, InB B b → i < n → j < n →
        (m.atomicC6 (m.weights env T co qo)).get (j :: i :: b) =
          K b i j ⟨numbers.get (i :: b), cg (i :: b), qg (i :: b)⟩ ⟨numbers.get (j :: b), cg (j :: b), qg (j :: b)⟩)
    (hcn : CNFunc.PerSystem d.cnFn d.counting T.nZ cn) (heeq : ext.EEQPerSystem T.nZ eeq)
    (hp : p.Reads P) (hc3 : 0 ≤ (o.cutoff.getD {}).disp3) :
    ∃ e, d.calculate env T ext numbers positions charge p o = .ok e ∧ e.Ok (n :: B) ∧
      ∀ b, InB B b → ∀ i : Fin n,
        let M := system T cn eeq numbers positions charge o n b
        e.get (i.1 :: b) =
          Spec.energyFrom (Spec.d4Settings (R.spec T env.eps) env.eps P (o.cutoff.getD {}).disp2
            (o.cutoff.getD {}).disp3) M (fun i j => K b i j (M.atom i) (M.atom j))
            (fun i j => K b i j (M.neutral i) (M.neutral j)) i := by
  obtain ⟨r4, hr4⟩ : ∃ r4, r4 = o.r4r2.getD (getR4R2 T numbers) := ⟨_, rfl⟩
  obtain ⟨rv, hrv⟩ : ∃ rv, rv = o.rvdw.getD (getRvdw T numbers) := ⟨_, rfl⟩
  obtain ⟨cutoff, hcutoff⟩ : ∃ c, c = o.cutoff.getD {} := ⟨_, rfl⟩
  have hr4ok : r4.Ok (n :: B) := by
    rw [hr4]
    cases h : o.r4r2 with
    | none => exact getR4R2_ok hv
    | some x => exact hv.r4r2 x h
  have hrvok : rv.Ok (n :: n :: B) := by
    rw [hrv]
    cases h : o.rvdw with
    | none => exact getPair_ok hv.num (AllLt.mono hv.lt hv.fits.ext)
    | some x => exact hv.rvdw x h
  obtain ⟨cok, cget⟩ := hcn n B numbers positions hv.num hv.lt hv.pos
  obtain ⟨cT, hcT⟩ : ∃ cT, cT = d.cnFn numbers positions d.counting := ⟨_, rfl⟩
  rw [← hcT] at cok cget
  obtain ⟨qT, hqo, hqok, hqv⟩ : ∃ qT : Tensor ℝ,
      d.charges ext numbers positions charge cutoff o.q = .ok (some qT) ∧ qT.Ok (n :: B) ∧
      ∀ b, InB B b → ∀ i : Fin n, qT.get (i.1 :: b) =
        (system T cn eeq numbers positions charge o n b).q i := by
    cases hoq : o.q with
    | some x =>
      have hx := hv.q x hoq
      refine ⟨x, ?_, hx, fun b hb i => ?_⟩
      · simp [Disp.charges, hts, DispClass.terms, hx.shape, hv.num.shape]
      · simp [system, hoq]
    | none =>
      obtain ⟨h1, h2⟩ := heeq n B numbers positions charge cutoff.cnEeq hv.num hv.lt hv.pos hv.charge
      refine ⟨_, ?_, h1, fun b hb i => ?_⟩
      · simp [Disp.charges, hts, DispClass.terms, check_ok h1.err, h1.shape, hv.num.shape, bind, Except.bind]
      · rw [h2 b hb i]; simp [system, hoq, hcutoff]
  have hcut0 : 0 ≤ cutoff.disp3 := by rw [hcutoff]; exact hc3
  have hpar := hp.dftPar (env := env) (T := T) (R := R) hcut0
  obtain ⟨c6ok, c6get⟩ := hm (cg := cT.get) (qg := qT.get)
    (Or.inr ⟨_, rfl, cok, rfl⟩) (Or.inr ⟨_, rfl, hqok, rfl⟩)
  obtain ⟨n6ok, n6get⟩ := hm (cg := cT.get) (qg := fun _ => 0)
    (qo := none) (Or.inr ⟨_, rfl, cok, rfl⟩) (Or.inl ⟨rfl, rfl⟩)
  obtain ⟨c6, hc6⟩ : ∃ c6, c6 = m.atomicC6 (m.weights env T (some cT) (some qT)) := ⟨_, rfl⟩
  obtain ⟨n6, hn6⟩ : ∃ n6, n6 = m.atomicC6 (m.weights env T (some cT) none) := ⟨_, rfl⟩
  rw [← hc6] at c6ok c6get
  rw [← hn6] at n6ok n6get
  have hsh : D2Shapes numbers positions c6 r4 rv n 3 B := ⟨hv.num, hv.pos, c6ok, hr4ok, hrvok⟩
  obtain ⟨-, ok2, -, get2⟩ := dispersion2_eval (d := .rational) hsh hpar.two.noExtra hpar.two.f6
    hpar.two.f8 hpar.two.s6 hpar.two.s8 hpar.two.s10 (some cutoff.disp2)
  obtain ⟨alp, halp, hf9⟩ := hpar.alp
  obtain ⟨rok, rget⟩ := radiiBJ_ok (env := env) hr4ok hpar.a1.tensor hpar.a2.tensor
  have c9ok := c9Approx_ok (env := env) n6ok
  obtain ⟨ok3, get3⟩ := atm_spec (cn := cT.get) (q := qT.get) (r4r2 := r4)
    (rvdw := rv) (S := { d4Computed env T R P cutoff with f9 := zeroF env 1 (P.alp / 3) }) hv.num hv.pos
    rok c9ok (d := .zero) (alp := alp) (by rw [hf9]; exact point9_zero alp)
    rfl rfl hcut0
  have hsum : sumTerms env T d.terms numbers positions p cT m (some qT) r4 rv cutoff =
      full numbers.shape 0 +
        dispersion2 env numbers positions p c6 r4 (some rv) .rational (some cutoff.disp2) +
        (c9Approx env n6).after ((radiiBJ env p r4).after (atmDispersion env numbers positions
          (c9Approx env n6) (radiiBJ env p r4) cutoff.disp3 .zero P.s9 alp)) := by
    have h9 : p.s9.num Defaults.s9 = some P.s9 := hpar.s9.num
    simp only [sumTerms, hts, DispClass.terms, List.foldl_cons, List.foldl_nil, Term.calculate, Term.charges,
      h9, halp.num, Term.c9, himp, if_true, Term.radii, hc6, hn6]
    rfl
  obtain ⟨x2, hx2⟩ : ∃ x, x = dispersion2 env numbers positions p c6 r4 (some rv) .rational
    (some cutoff.disp2) := ⟨_, rfl⟩
  obtain ⟨x3, hx3⟩ : ∃ x, x = (c9Approx env n6).after ((radiiBJ env p r4).after (atmDispersion env
    numbers positions (c9Approx env n6) (radiiBJ env p r4) cutoff.disp3 .zero P.s9 alp)) := ⟨_, rfl⟩
  have ok3' : x3.Ok (n :: B) := by
    rw [hx3]
    have ok3 : (atmDispersion env numbers positions (c9Approx env n6)
        (radiiBJ env p r4) cutoff.disp3 .zero P.s9 alp).Ok (n :: B) := ok3
    exact ⟨by simp [c9ok.err, rok.err, ok3.err], by simp [ok3.shape]⟩
  rw [← hx2] at ok2
  rw [← hx2, ← hx3] at hsum
  have sok : (sumTerms env T d.terms numbers positions p cT m (some qT) r4 rv cutoff).Ok
      (n :: B) := by
    rw [hsum]
    constructor <;> simp [hv.num.shape, ok2.err, ok2.shape, ok3'.err, ok3'.shape]
  refine ⟨sumTerms env T d.terms numbers positions p cT m (some qT) r4 rv cutoff, ?_,
    sok, fun b hb i => ?_⟩
  · unfold Disp.calculate
    rw [ensure_ok (by rw [hv.num.shape, hv.pos.shape]; rfl)]
    simp only [bind, Except.bind, hgm]
    rw [ensure_ok (by intro x hx; rw [(hv.rcov x hx).shape, hv.num.shape])]
    simp only [← hr4, ← hrv, check_ok hr4ok.err, check_ok hrvok.err]
    rw [ensure_ok (by rw [hr4ok.shape, hv.num.shape])]
    simp only []
    rw [ensure_ok (by rw [hrvok.shape, hv.num.shape]; rfl)]
    have hcc : d.cnFn numbers positions d.counting = cT := by rw [hcT]
    simp only [hcc, check_ok cok.err, ← hcutoff, hqo]
    exact check_ok sok.err
  · have hbi : InB (n :: B) (i.1 :: b) := ⟨i.2, hb⟩
    have hmol : molOf n numbers positions cT.get qT.get r4 rv b =
        system T cn eeq numbers positions charge o n b := by
      unfold molOf system
      congr 1
      · funext j; exact cget b hb j
      · funext j; exact hqv b hb j
      · funext j
        rw [hr4]
        cases o.r4r2 with
        | some x => rfl
        | none => simp [getR4R2, elements]
      · funext j k
        rw [hrv]
        cases o.rvdw with
        | some x => rfl
        | none => exact getPair_get hv.num hb j.2 k.2
    have hc : ∀ j : Fin n, cT.get (j.1 :: b) =
      (system T cn eeq numbers positions charge o n b).cn j := fun j => cget b hb j
    rw [hsum]
    simp only [add_get, full_shape, hv.num.shape, ok2.shape, ok3'.shape, bshape_self, add_shape,
      pick_of_InB hbi, full_get, zero_add]
    have hA : ∀ j : Fin n, (⟨numbers.get (j.1 :: b), cT.get (j.1 :: b), qT.get (j.1 :: b)⟩ : Spec.AtomData) =
        (system T cn eeq numbers positions charge o n b).atom j := by
      intro j
      rw [hc, hqv b hb]
      rfl
    unfold Spec.energyFrom
    congr 1
    · rw [hx2, get2 b i.1 hb i.2]
      congr 1
      rw [← Fin.sum_univ_eq_sum_range (fun j => pairEnergy env numbers positions _ r4 rv 3 .rational
        _ _ _ _ _ _ _ b i.1 j)]
      refine Finset.sum_congr rfl fun j _ => ?_
      rw [Option.getD_some, ← hcutoff]
      have := pairEnergy_spec (numbers := numbers) (positions := positions) (r4r2 := r4) (rvdw := rv)
        (n := n) (b := b) (cn := cT.get) (q := qT.get) (d := .rational)
        (S := { d4Computed env T R P cutoff with
          f9 := zeroF env 1 (P.alp / 3)
          c6 := fun _ _ => c6.get (j.1 :: i.1 :: b) })
        (c6 := c6) rfl rfl (fun _ => ⟨0, 0, 0⟩) i j rfl
      rw [hmol] at this
      refine this.trans (if_congr Iff.rfl ?_ rfl)
      have hK : K b i.1 j.1 ((system T cn eeq numbers positions charge o n b).atom i)
          ((system T cn eeq numbers positions charge o n b).atom j) = c6.get (j.1 :: i.1 :: b) := by
        rw [← hA, ← hA]
        exact (c6get b i.1 j.1 hb i.2 j.2).symm
      beta_reduce
      rw [hK]
      simp only [Spec.pairTerm, Spec.rad, d4Computed, Spec.d4Settings]
      ring
    · rw [hx3]
      simp only [after_get]
      refine (get3 b hb i).trans ?_
      rw [hmol, ← hcutoff]
      unfold Spec.e3
      congr 1
      refine Finset.sum_congr rfl fun j _ => Finset.sum_congr rfl fun k _ => ?_
      refine if_congr Iff.rfl ?_ rfl
      unfold Spec.tripleTerm
      have hr : ∀ j k, 0 < (system T cn eeq numbers positions charge o n b).r env.eps j k :=
        fun j k => Spec.Mol.r_pos env.eps_pos _ j k
      have hR : ∀ j k : Fin n, (radiiBJ env p r4).get (k.1 :: j.1 :: b) =
          Spec.R0 (d4Computed env T R P cutoff)
            (system T cn eeq numbers positions charge o n b) j k := by
        intro j k
        rw [rget b j k hb j.2 k.2, ← hmol]
        rfl
      have h9 : (c9Approx env n6).get (k.1 :: j.1 :: i.1 :: b) =
          Spec.rsqrt env.eps |K b i j ((system T cn eeq numbers positions charge o n b).neutral i)
            ((system T cn eeq numbers positions charge o n b).neutral j) *
            K b i k ((system T cn eeq numbers positions charge o n b).neutral i)
            ((system T cn eeq numbers positions charge o n b).neutral k) *
            K b j k ((system T cn eeq numbers positions charge o n b).neutral j)
            ((system T cn eeq numbers positions charge o n b).neutral k)| := by
        rw [c9Approx_get n6ok hb i.2 j.2 k.2, n6get b i j hb i.2 j.2,
          n6get b i k hb i.2 k.2, n6get b j k hb j.2 k.2, hc, hc, hc]
        rfl
      have hz : ∀ R' : ℝ, zeroF env 1 (P.alp / 3) R'
          ((system T cn eeq numbers positions charge o n b).r env.eps i j *
            (system T cn eeq numbers positions charge o n b).r env.eps i k *
            (system T cn eeq numbers positions charge o n b).r env.eps j k) =
          (d4Computed env T R P cutoff).f9 R'
          ((system T cn eeq numbers positions charge o n b).r env.eps i j *
            (system T cn eeq numbers positions charge o n b).r env.eps i k *
            (system T cn eeq numbers positions charge o n b).r env.eps j k) :=
        fun R' => zeroF_pos (mul_pos (mul_pos (hr _ _) (hr _ _)) (hr _ _))
      simp only [hR, h9]
      have hε : (d4Computed env T R P cutoff).ε = env.eps := rfl
      simp only [hε, hz]
      rfl

/-- The energies with given reference coefficients. -/
noncomputable def Spec.energyGiven (T : Tables) (R : RefCfg) (ε : ℝ) (P : Spec.D4Par) (cutoff : Cutoff) (rc : ℕ → ℕ → ℕ → ℕ → ℝ)
    (M : Spec.Mol n) (i : Fin n) : ℝ :=
  Spec.energyFrom (Spec.d4Settings (R.spec T ε) ε P cutoff.disp2 cutoff.disp3) M
    (fun i j => Spec.c6Given (R.spec T ε) (rc i j) (M.atom i) (M.atom j))
    (fun i j => Spec.c6Given (R.spec T ε) (rc i j) (M.neutral i) (M.neutral j)) i

/-- The constructor call with given coefficients: the object built without them, with its attribute replaced. -/
theorem buildModel_given {kind : ModelKind} (h : buildModel env T kind numbers { kw with rc6 := none } = .ok m₀) (hx : x.err = none) :
    buildModel env T kind numbers { kw with rc6 := some x } = .ok { m₀ with rc6 := x } := by
  unfold buildModel at h ⊢
  split_ifs at h ⊢ with h1
  simp only [] at h ⊢
  split at h
  · cases h
  · cases h
    rename_i h2
    have h3 : (mkModel env T kind numbers (kw.ga.getD gaDefault) (kw.gc.getD gcDefault) kw.wf
        (kw.refCharges.getD "eeq") (some x)).ctorErr = none := by
      simp only [RefModel.ctorErr, orErr_eq_none, mkModel, Option.getD_some] at h2 ⊢
      exact ⟨h2.1, hx⟩
    rw [h3]
    rfl

theorem getModel_given (hk : ext.CasefoldKeys)
    (hs : ext.casefold s = "d4" ∧ R.kind = .d4 ∨ ext.casefold s = "d4s" ∧ R.kind = .d4s)
    (hnew : Disp.new ext cls (.key s) (some { kw with rc6 := some x }) cf ct = .ok d)
    (h : Spec.Asks T { kw with rc6 := none } numbers R n B) (hn : numbers.Ok (n :: B)) (hlt : numbers.AllLt T.nZ)
    (hT : T.Fits) (hx : x.err = none) :
    ∃ m₀ : RefModel, m₀.IsFor env T numbers R n B ∧ d.getModel env T ext numbers = .ok { m₀ with rc6 := x } := by
  obtain ⟨-, -, -, -, hm, hkw, -⟩ := new_ok hnew
  obtain ⟨m₀, hb, hi⟩ := h.build (env := env) hn hlt hT
  have hb' := buildModel_given hb hx
  refine ⟨m₀, hi, ?_⟩
  rcases hs with ⟨hs, hR⟩ | ⟨hs, hR⟩ <;> rw [hR] at hb'
  · simp [Disp.getModel, hm, hs, hk "d4" (by simp), hkw, hb']
  · simp [Disp.getModel, hm, hs, hk "d4s" (by simp), hkw, hb']

/-- `DispD4` with the keyword `rc6`, a tensor of shape `(..., nat, nat, nref, nref)` of arbitrary numbers: the energies are
those of the method with these coefficients of the reference systems; the weights of the references, which depend on
the other keywords, are as without. -/
theorem C93_energy (hk : ext.CasefoldKeys)
    (hs : ext.casefold s = "d4" ∧ R.kind = .d4 ∨ ext.casefold s = "d4s" ∧ R.kind = .d4s)
    (hnew : Disp.new ext .d4 (.key s) (some { kw with rc6 := some x }) cf ct = .ok d)
    (h : Spec.Asks T { kw with rc6 := none } numbers R n B) (hx : x.Ok (nref :: nref :: n :: n :: B))
    (hv : ValidArgs T numbers positions charge o n B)
    (hcn : CNFunc.PerSystem d.cnFn d.counting T.nZ cn) (heeq : ext.EEQPerSystem T.nZ eeq)
    (hp : p.Reads P) (hc : 0 ≤ (o.cutoff.getD {}).disp3) (hfl : env.fl = id)
    (hT : T.Physical R.rq) (hgc : 0 < R.gc) :
    ∃ e, d.calculate env T ext numbers positions charge p o = .ok e ∧ e.Ok (n :: B) ∧
      ∀ b, InB B b → ∀ i : Fin n, e.get (i.1 :: b) =
        Spec.energyGiven T R env.eps P (o.cutoff.getD {}) (Spec.entry x b) (system T cn eeq numbers positions charge o n b) i := by
  obtain ⟨m₀, hm, hgm⟩ := getModel_given (env := env) hk hs hnew h hv.num hv.lt hv.fits hx.err
  obtain ⟨hts, -⟩ := new_ok hnew
  obtain ⟨e, h1, h2, h3⟩ := calculate_from (R := R) (P := P) hv hts hgm hm.implemented
    (K := fun b i j A A' => c6Of (Spec.entry x b i j) (wtAt env T R A A'.Z) (wtAt env T R A' A.Z))
    (fun hc hq => model_c6_given hm rfl hx hc hq) hcn heeq hp hc
  refine ⟨e, h1, h2, fun b hb i => ?_⟩
  rw [h3 b hb i]
  have hZ := fun j => hv.Z_lt (cn := cn) (eeq := eeq) hb j
  unfold Spec.energyGiven
  congr 1
  · funext j k
    exact c6Of_given hfl hT hgc (hZ j) (hZ k) _
  · funext j k
    exact c6Of_given hfl hT hgc (A := (system T cn eeq numbers positions charge o n b).neutral j)
      (A' := (system T cn eeq numbers positions charge o n b).neutral k) (hZ j) (hZ k) _

/-- The same for a model object with the attribute `rc6` given at construction or assigned later, in `dftd4`. -/
theorem C93_object {o : DftOpts} {R' : RefCfg} (h : Call env T ext numbers positions charge p o n B R' cn eeq P)
    (hm : m₀.IsFor env T numbers R n B) (hx : x.Ok (nref :: nref :: n :: n :: B)) (hfl : env.fl = id)
    (hT : T.Physical R.rq) (hgc : 0 < R.gc) :
    ∃ e, dftd4 env T ext numbers positions charge p { o with model := .inst { m₀ with rc6 := x } } = .ok e ∧ e.Ok (n :: B) ∧
      ∀ b, InB B b → ∀ i : Fin n, e.get (i.1 :: b) =
        Spec.energyGiven T R env.eps P (o.opts.cutoff.getD {}) (Spec.entry x b)
          (system T cn eeq numbers positions charge o.opts n b) i := by
  obtain ⟨d, hd⟩ : ∃ d : Disp, d = ⟨[⟨.twoBody, o.damping, true⟩, ⟨.d4ATMApprox, .zero, false⟩],
    o.cnFunction.getD ext.cnD4, some (o.counting.getD ext.erfCount), .inst { m₀ with rc6 := x }, {}⟩ := ⟨_, rfl⟩
  have e0 : dftd4 env T ext numbers positions charge p { o with model := .inst { m₀ with rc6 := x } } =
      d.calculate env T ext numbers positions charge p o.opts := by rw [hd]; rfl
  have hts : d.terms = DispClass.d4.terms := by rw [hd, h.damping]; rfl
  obtain ⟨e, h1, h2, h3⟩ := calculate_from (R := R) (P := P) (d := d) (m := { m₀ with rc6 := x }) (ext := ext) h.args hts
    (by rw [hd]; rfl) hm.implemented
    (K := fun b i j A A' => c6Of (Spec.entry x b i j) (wtAt env T R A A'.Z) (wtAt env T R A' A.Z))
    (fun hc hq => model_c6_given hm rfl hx hc hq) (by rw [hd]; exact h.cn) h.eeq h.par h.cut3
  rw [e0]
  refine ⟨e, h1, h2, fun b hb i => ?_⟩
  rw [h3 b hb i]
  have hZ := fun j => h.args.Z_lt (cn := cn) (eeq := eeq) hb j
  unfold Spec.energyGiven
  congr 1
  · funext j k
    exact c6Of_given hfl hT hgc (hZ j) (hZ k) _
  · funext j k
    exact c6Of_given hfl hT hgc (A := (system T cn eeq numbers positions charge o.opts n b).neutral j)
      (A' := (system T cn eeq numbers positions charge o.opts n b).neutral k) (hZ j) (hZ k) _

/-- Giving the coefficients that a model computes itself changes nothing, for any keywords and arguments, exceptions
included. -/
theorem C93_own {kind : ModelKind} (hs : s = "d4" ∧ kind = .d4 ∨ s = "d4s" ∧ kind = .d4s) (hk : ext.CasefoldKeys)
    (hm : buildModel env T kind numbers kw = .ok m)
    {d' : Disp} (hnew : Disp.new ext cls (.key s) (some kw) cf ct = .ok d)
    (hnew' : Disp.new ext cls (.key s) (some { kw with rc6 := some m.rc6 }) cf ct = .ok d') (positions charge : Tensor ℝ)
    (p : Param) (o : CalcOpts) :
    d'.calculate env T ext numbers positions charge p o = d.calculate env T ext numbers positions charge p o := by
  have hb : buildModel env T kind numbers { kw with rc6 := some m.rc6 } = .ok m := by
    unfold buildModel at hm ⊢
    split_ifs at hm ⊢ with h1
    simp only [] at hm ⊢
    split at hm
    · cases hm
    · cases hm
      rename_i h2
      rw [show (mkModel env T kind numbers (kw.ga.getD gaDefault) (kw.gc.getD gcDefault) kw.wf
        (kw.refCharges.getD "eeq") (some (mkModel env T kind numbers (kw.ga.getD gaDefault) (kw.gc.getD gcDefault) kw.wf
        (kw.refCharges.getD "eeq") kw.rc6).rc6)) = (mkModel env T kind numbers (kw.ga.getD gaDefault)
        (kw.gc.getD gcDefault) kw.wf (kw.refCharges.getD "eeq") kw.rc6) from rfl, h2]
  obtain ⟨ht, hct, hcf, -, hmo, hkw, hcn⟩ := new_ok hnew
  obtain ⟨ht', hct', hcf', -, hmo', hkw', hcn'⟩ := new_ok hnew'
  have hf : d'.cnFn = d.cnFn := by
    cases cf with
    | some f => rw [hcf f rfl, hcf' f rfl]
    | none => exact Except.ok.inj ((hcn' rfl).symm.trans (hcn rfl))
  have hg : d'.getModel env T ext numbers = d.getModel env T ext numbers := by
    have e : ∀ key, key = "d4" ∨ key = "d4s" → ext.casefold (ext.casefold key) = key := by
      intro key hkey
      rcases hkey with rfl | rfl
      · rw [hk "d4" (by simp), hk "d4" (by simp)]
      · rw [hk "d4s" (by simp), hk "d4s" (by simp)]
    rcases hs with ⟨rfl, rfl⟩ | ⟨rfl, rfl⟩ <;>
    simp [Disp.getModel, hmo, hmo', hkw, hkw', e, hb, hm]
  have hq : ∀ c q, d'.charges ext numbers positions charge c q =
      d.charges ext numbers positions charge c q := by
    intro c q
    simp only [Disp.charges, ht, ht']
  simp only [Disp.calculate, hg, hf, hct, hct', hq, ht, ht']

/-- Without the three-body term the energies are linear in the coefficients. -/
theorem C93_linear (hk : ext.CasefoldKeys) (hs9 : P.s9 = 0)
    (hs : ext.casefold s = "d4" ∧ R.kind = .d4 ∨ ext.casefold s = "d4s" ∧ R.kind = .d4s)
    {x₁ x₂ : Tensor ℝ} {l₁ l₂ : ℝ} {d₁ d₂ : Disp}
    (hnew : Disp.new ext .d4 (.key s) (some { kw with rc6 := some x }) cf ct = .ok d)
    (hnew₁ : Disp.new ext .d4 (.key s) (some { kw with rc6 := some x₁ }) cf ct = .ok d₁)
    (hnew₂ : Disp.new ext .d4 (.key s) (some { kw with rc6 := some x₂ }) cf ct = .ok d₂)
    (h : Spec.Asks T { kw with rc6 := none } numbers R n B) (hx : x.Ok (nref :: nref :: n :: n :: B))
    (hx₁ : x₁.Ok (nref :: nref :: n :: n :: B)) (hx₂ : x₂.Ok (nref :: nref :: n :: n :: B))
    (hlin : ∀ i, InB (nref :: nref :: n :: n :: B) i → x.get i = l₁ * x₁.get i + l₂ * x₂.get i)
    (hv : ValidArgs T numbers positions charge o n B)
    (hcn : CNFunc.PerSystem d.cnFn d.counting T.nZ cn) (heeq : ext.EEQPerSystem T.nZ eeq)
    (hp : p.Reads P) (hc : 0 ≤ (o.cutoff.getD {}).disp3) (hfl : env.fl = id)
    (hT : T.Physical R.rq) (hgc : 0 < R.gc) :
    ∃ e e₁ e₂, d.calculate env T ext numbers positions charge p o = .ok e ∧
      d₁.calculate env T ext numbers positions charge p o = .ok e₁ ∧
      d₂.calculate env T ext numbers positions charge p o = .ok e₂ ∧
      ∀ i, InB (n :: B) i → e.get i = l₁ * e₁.get i + l₂ * e₂.get i := by
  obtain ⟨-, hct, hcf, -, -, -, hcn0⟩ := new_ok hnew
  obtain ⟨-, hct₁, hcf₁, -, -, -, hcn₁⟩ := new_ok hnew₁
  obtain ⟨-, hct₂, hcf₂, -, -, -, hcn₂⟩ := new_ok hnew₂
  have hf₁ : d₁.cnFn = d.cnFn := by
    cases cf with
    | some f => rw [hcf f rfl, hcf₁ f rfl]
    | none => exact Except.ok.inj ((hcn₁ rfl).symm.trans (hcn0 rfl))
  have hf₂ : d₂.cnFn = d.cnFn := by
    cases cf with
    | some f => rw [hcf f rfl, hcf₂ f rfl]
    | none => exact Except.ok.inj ((hcn₂ rfl).symm.trans (hcn0 rfl))
  obtain ⟨e, he, -, hg⟩ := C93_energy hk hs hnew h hx hv hcn heeq hp hc hfl hT hgc
  obtain ⟨e₁, he₁, -, hg₁⟩ := C93_energy hk hs hnew₁ h hx₁ hv (by rw [hf₁, hct₁, ← hct]; exact hcn) heeq hp hc hfl hT hgc
  obtain ⟨e₂, he₂, -, hg₂⟩ := C93_energy hk hs hnew₂ h hx₂ hv (by rw [hf₂, hct₂, ← hct]; exact hcn) heeq hp hc hfl hT hgc
  refine ⟨e, e₁, e₂, he, he₁, he₂, fun k hkB => ?_⟩
  obtain ⟨i, b, rfl⟩ : ∃ i b, k = i :: b := by
    cases k with
    | nil => simp [InB] at hkB
    | cons i b => exact ⟨i, b, rfl⟩
  obtain ⟨hi, hb⟩ := hkB
  have q := hg b hb ⟨i, hi⟩
  have q₁ := hg₁ b hb ⟨i, hi⟩
  have q₂ := hg₂ b hb ⟨i, hi⟩
  have e3 : ∀ C R' i, Spec.e3 (Spec.d4Settings (R.spec T env.eps) env.eps P (o.cutoff.getD {}).disp2
      (o.cutoff.getD {}).disp3) (system T cn eeq numbers positions charge o n b) C R' i = 0 := by
    intro C R' i
    simp [Spec.e3, Spec.tripleTerm, Spec.d4Settings, hs9]
  have hcl : ∀ (j k : Fin n) (A A' : Spec.AtomData), Spec.c6Given (R.spec T env.eps) (Spec.entry x b j k) A A' =
      l₁ * Spec.c6Given (R.spec T env.eps) (Spec.entry x₁ b j k) A A' +
        l₂ * Spec.c6Given (R.spec T env.eps) (Spec.entry x₂ b j k) A A' := by
    intro j k A A'
    simp only [Spec.c6Given, Finset.mul_sum, ← Finset.sum_add_distrib]
    refine Finset.sum_congr rfl fun a ha => Finset.sum_congr rfl fun c hc => ?_
    have := hlin (c :: a :: k.1 :: j.1 :: b) ⟨Finset.mem_range.1 hc, Finset.mem_range.1 ha, k.2, j.2, hb⟩
    simp only [Spec.entry]
    rw [this]
    ring
  have key : ∀ i : Fin n, Spec.energyGiven T R env.eps P (o.cutoff.getD {}) (Spec.entry x b)
        (system T cn eeq numbers positions charge o n b) i =
      l₁ * Spec.energyGiven T R env.eps P (o.cutoff.getD {}) (Spec.entry x₁ b)
        (system T cn eeq numbers positions charge o n b) i +
      l₂ * Spec.energyGiven T R env.eps P (o.cutoff.getD {}) (Spec.entry x₂ b)
        (system T cn eeq numbers positions charge o n b) i := by
    intro i
    simp only [Spec.energyGiven, Spec.energyFrom, e3, add_zero, hcl]
    simp only [Finset.mul_sum, ← Finset.sum_add_distrib]
    refine Finset.sum_congr rfl fun j _ => ?_
    split_ifs
    · ring
    · ring
  exact q.trans ((key ⟨i, hi⟩).trans (by rw [← q₁, ← q₂]))

/-- The coefficients must be those of the pairs of the system. -/
theorem atomicC6_wrong (hk : m.kind = .d4 ∨ m.kind = .d4s) {gw : Tensor ℝ}
    (hx : m.rc6.shape.length < 4 ∨ ∃ n' B', m.rc6.shape = nref :: nref :: n' :: n' :: B' ∧ n' ≠ n ∧ n' ≠ 1 ∧ n ≠ 1)
    (hg : ∃ B', gw.shape = (if m.kind = .d4 then nref :: n :: B' else nref :: n :: n :: B')) :
    (m.atomicC6 gw).err ≠ none := by
  intro h0
  obtain ⟨B', hg⟩ := hg
  rcases hk with hk | hk
  · simp only [RefModel.atomicC6, hk, D4.atomicC6, einsum, List.foldr_cons, List.foldr_nil, orErr_eq_none] at h0
    have h2 := h0.2.2.2
    split_ifs at h2 with h3
    rcases hx with hx | ⟨n', B'', hx, h4, h5, h6⟩
    · have := h3.1 _ (List.mem_cons_self)
      simp [Operand.rankOk] at this
      omega
    · simp only [hk, if_true] at hg
      have h7 := h3.2.1
      simp only [List.flatMap_cons, List.flatMap_nil, Operand.dims, hx, hg, List.zip_cons_cons, List.zip_nil_left,
        lblOk] at h7
      have a1 := h7 (Lbl.i, n') (by simp)
      have a2 := h7 (Lbl.i, n) (by simp)
      simp only [lblDim] at a1 a2
      simp [bdim] at a1 a2
      split_ifs at a1 a2 <;> omega
  · simp only [RefModel.atomicC6, hk, D4S.atomicC6, einsum, List.foldr_cons, List.foldr_nil, orErr_eq_none] at h0
    have h2 := h0.2.2.2
    split_ifs at h2 with h3
    rcases hx with hx | ⟨n', B'', hx, h4, h5, h6⟩
    · have := h3.1 _ (List.mem_cons_self)
      simp [Operand.rankOk] at this
      omega
    · have hne : (ModelKind.d4s = ModelKind.d4) = False := by simp
      simp only [hk, hne, if_false] at hg
      have h7 := h3.2.1
      simp only [List.flatMap_cons, List.flatMap_nil, Operand.dims, hx, hg, List.zip_cons_cons, List.zip_nil_left,
        lblOk] at h7
      have a1 := h7 (Lbl.i, n') (by simp)
      have a2 := h7 (Lbl.i, n) (by simp)
      simp only [lblDim] at a1 a2
      simp [bdim] at a1 a2
      split_ifs at a1 a2 <;> omega

/-- Coefficients of wrong shape are accepted by the constructors, but every calculation raises: too few axes, or
coefficients of a system with another number of atoms. -/
theorem C93_wrong_shape (hk : ext.CasefoldKeys)
    (hs : ext.casefold s = "d4" ∧ R.kind = .d4 ∨ ext.casefold s = "d4s" ∧ R.kind = .d4s)
    (hnew : Disp.new ext cls (.key s) (some { kw with rc6 := some x }) cf ct = .ok d) (hcls : cls ≠ .base)
    (h : Spec.Asks T { kw with rc6 := none } numbers R n B)
    (hx : x.shape.length < 4 ∨ ∃ n' B', x.shape = nref :: nref :: n' :: n' :: B' ∧ n' ≠ n ∧ n' ≠ 1 ∧ n ≠ 1)
    (hxe : x.err = none)
    (hv : ValidArgs T numbers positions charge o n B)
    (hcn : CNFunc.PerSystem d.cnFn d.counting T.nZ cn) (heeq : ext.EEQPerSystem T.nZ eeq) (p : Param) :
    (∃ m, d.getModel env T ext numbers = .ok m) ∧
      ∃ err, d.calculate env T ext numbers positions charge p o = .error err := by
  obtain ⟨m₀, hm, hgm⟩ := getModel_given (env := env) hk hs hnew h hv.num hv.lt hv.fits hxe
  refine ⟨⟨_, hgm⟩, ?_⟩
  cases hcalc : d.calculate env T ext numbers positions charge p o with
  | error err => exact ⟨err, rfl⟩
  | ok e =>
    exfalso
    obtain ⟨model, c, q, hgm', hc, hq, -, -, ht⟩ := calculate_ok hcalc
    rw [hgm] at hgm'
    cases hgm'
    obtain ⟨hts, -⟩ := new_ok hnew
    obtain ⟨t, htm, htc⟩ : ∃ t ∈ d.terms, t.cls = .twoBody := by
      rw [hts]
      cases cls <;> simp [DispClass.terms] at hcls ⊢
    have h1 := ht t htm
    simp only [Term.calculate, htc, dispersion2, after_err, orErr_eq_none, mul_err] at h1
    obtain ⟨cok, -⟩ := hcn n B numbers positions hv.num hv.lt hv.pos
    rw [hc] at cok
    have hqis : ∃ g, D4.OptIs (t.charges q) n B g := by
      unfold Term.charges
      split
      · rename_i hdep
        have hany : d.terms.any (·.chargeDep) = true := List.any_eq_true.2 ⟨t, htm, hdep⟩
        cases hoq : o.q with
        | some y =>
          have hy := hv.q y hoq
          simp only [Disp.charges, hoq, hany] at hq
          split_ifs at hq
          cases hq
          exact ⟨_, Or.inr ⟨y, rfl, hy, rfl⟩⟩
        | none =>
          obtain ⟨hE, -⟩ := heeq n B numbers positions charge (o.cutoff.getD {}).cnEeq hv.num hv.lt hv.pos hv.charge
          simp only [Disp.charges, hoq, hany, check_ok hE.err, bind, Except.bind] at hq
          split_ifs at hq
          cases hq
          exact ⟨_, Or.inr ⟨_, rfl, hE, rfl⟩⟩
      · exact ⟨_, Or.inl ⟨rfl, rfl⟩⟩
    obtain ⟨g, hqis⟩ := hqis
    refine atomicC6_wrong (m := { m₀ with rc6 := x }) (n := n) (gw := RefModel.weights env T _ (some c) (t.charges q))
      ?_ hx ?_ h1.2.1.1.1
    · show m₀.kind = _ ∨ m₀.kind = _
      rw [hm.kind]
      tauto
    · refine ⟨B, ?_⟩
      show (RefModel.weights env T m₀ (some c) (t.charges q)).shape = _
      rcases hm.wf with ⟨hk, w, hw, hR⟩ | ⟨hk, hw, hR⟩
      · have hwt := D4.weights_ok (env := env) hm.good hw (Or.inr ⟨c, rfl, cok, rfl⟩) hqis
        simp only [RefModel.weights, hk, if_true]
        exact hwt.shape
      · have hwt := D4S.weights_ok (env := env) hm.good hw (Or.inr ⟨c, rfl, cok, rfl⟩) hqis
        have e1 : m₀.weights env T (some c) (t.charges q) = D4S.weights env T m₀ (some c) (t.charges q) := by
          rcases hk with hk | hk <;> simp only [RefModel.weights, hk]
        have hne : m₀.kind ≠ .d4 := by rcases hk with hk | hk <;> rw [hk] <;> simp
        rw [e1, if_neg hne]
        exact hwt.shape

/-- The exact three-body term takes no notice of the coefficients: it computes its own from the polarizabilities. -/
theorem C93_exact_ignores {t : Term} (ht : t.cls = .d4ATMExact) (m : RefModel) (x : Tensor ℝ) (numbers : Tensor ℕ)
    (positions : Tensor ℝ) (p : Param) (c : Tensor ℝ) (q : Option (Tensor ℝ)) (r4r2 rvdw : Tensor ℝ) (cutoff : Cutoff) :
    t.calculate env T numbers positions p c { m with rc6 := x } q r4r2 rvdw cutoff =
      t.calculate env T numbers positions p c m q r4r2 rvdw cutoff := by
  simp only [Term.calculate, ht, Term.c9]
  rfl

end

namespace Demo

/-- Coefficients that are 20 for each pair of references. -/
noncomputable def rc6Flat (n : ℕ) (B : Shape) : Tensor ℝ := full (nref :: nref :: n :: n :: B) 20

theorem rc6Flat_ok (n : ℕ) (B : Shape) : (rc6Flat n B).Ok (nref :: nref :: n :: n :: B) := ⟨rfl, rfl⟩

/-- `DispD4(model_kwargs={"ga": 2.5, "wf": 4, "ref_charges": "gfn2", "rc6": x})`. -/
noncomputable def dispGiven (x : Tensor ℝ) : Disp :=
  { dispKeywords with modelKw := { keywords with rc6 := some x } }

theorem dispGiven_new (x : Tensor ℝ) : Disp.new ext .d4 (.key "d4") (some { keywords with rc6 := some x }) (some ext.cnD4) =
    .ok (dispGiven x) := by
  have hk := keys "d4" (by simp)
  simp [Disp.new, hk, DispClass.allowedModels, bind, Except.bind, pure, Except.pure, dispKeywords, dispGiven]

/-- Water and hydrogen fluoride with any coefficients. -/
example (x : Tensor ℝ) (hx : x.Ok [7, 7, 3, 3, 2]) : ∃ e, (dispGiven x).calculate env T ext numbers positions charge param {} =
    .ok e ∧ e.Ok [3, 2] ∧ ∀ b, InB [2] b → ∀ i : Fin 3, e.get (i.1 :: b) =
      Spec.energyGiven T askedCfg env.eps par {} (Spec.entry x b) (system T cn eeq numbers positions charge {} 3 b) i :=
  C93_energy (kw := keywords) keys (Or.inl ⟨keys "d4" (by simp), rfl⟩) (dispGiven_new x) asks hx
    validArgs (CNFunc.ofSpec_perSystem _ _ _) (eeqOfSpec_perSystem eeq rfl _) reads
    (by norm_num [Defaults.disp3Cutoff]) rfl (shipped_physical extTables (Or.inr rfl)) (by norm_num [askedCfg])

/-- A model object with other coefficients. -/
example (x : Tensor ℝ) (hx : x.Ok [7, 7, 3, 3, 2]) := C93_object (o := {}) call
  (mkModel_isFor_d4 (env := env) call.args.num call.args.lt fits) hx rfl physical (by norm_num [RefCfg.d4])

/-- The coefficients of the model itself. -/
example (positions charge : Tensor ℝ) (p : Param) (o : CalcOpts) : ∃ m, buildModel env T .d4 numbers keywords = .ok m ∧
    (dispGiven m.rc6).calculate env T ext numbers positions charge p o =
      dispKeywords.calculate env T ext numbers positions charge p o := by
  obtain ⟨m, hm, -⟩ := asks.build (env := env) (kw := keywords) ⟨rfl, rfl⟩ (fun i _ => numbers_lt i) fits
  exact ⟨m, hm, C93_own (Or.inl ⟨rfl, rfl⟩) keys hm dispKeywords_new (dispGiven_new _) _ _ _ _⟩

/-- Twice the coefficients, twice the two-body energies. -/
example : ∃ e e₁ : Tensor ℝ, (dispGiven (full [7, 7, 3, 3, 2] 40)).calculate env T ext numbers positions charge paramNoAtm {} =
      .ok e ∧ (dispGiven (rc6Flat 3 [2])).calculate env T ext numbers positions charge paramNoAtm {} = .ok e₁ ∧
    ∀ i, InB [3, 2] i → e.get i = 2 * e₁.get i := by
  obtain ⟨e, e₁, e₂, h1, h2, -, h3⟩ := C93_linear (env := env) (cn := cn) (eeq := eeq) (kw := keywords) (P := { par with s9 := 0 })
    (x := full [7, 7, 3, 3, 2] 40)
    (x₁ := rc6Flat 3 [2]) (x₂ := rc6Flat 3 [2]) (l₁ := 2) (l₂ := 0) keys rfl
    (Or.inl ⟨keys "d4" (by simp), rfl⟩) (dispGiven_new _) (dispGiven_new _) (dispGiven_new _) asks ⟨rfl, rfl⟩ ⟨rfl, rfl⟩
    ⟨rfl, rfl⟩ (by intro i _; norm_num [rc6Flat, full])
    validArgs (CNFunc.ofSpec_perSystem _ _ _) (eeqOfSpec_perSystem eeq rfl _) readsNoAtm
    (by norm_num [Defaults.disp3Cutoff]) rfl (shipped_physical extTables (Or.inr rfl)) (by norm_num [askedCfg])
  exact ⟨e, e₁, h1, h2, fun i hi => by rw [h3 i hi]; ring⟩

/-- Coefficients of a system of four atoms, and only one coefficient for each pair. -/
example (p : Param) : (∃ x, (dispGiven (rc6Flat 4 [2])).calculate env T ext numbers positions charge p {} = .error x) ∧
    ∃ x, (dispGiven (full [3, 3] 20)).calculate env T ext numbers positions charge p {} = .error x :=
  ⟨(C93_wrong_shape (env := env) (cn := cn) (eeq := eeq) (kw := keywords) keys (Or.inl ⟨keys "d4" (by simp), rfl⟩)
    (dispGiven_new _) (by simp) asks (Or.inr ⟨4, [2], rfl, by norm_num, by norm_num, by norm_num⟩) rfl validArgs
    (CNFunc.ofSpec_perSystem _ _ _) (eeqOfSpec_perSystem eeq rfl _) p).2,
  (C93_wrong_shape (env := env) (cn := cn) (eeq := eeq) (kw := keywords) keys (Or.inl ⟨keys "d4" (by simp), rfl⟩)
    (dispGiven_new _) (by simp) asks (Or.inl (by simp [full])) rfl validArgs
    (CNFunc.ofSpec_perSystem _ _ _) (eeqOfSpec_perSystem eeq rfl _) p).2⟩

/-- The exact three-body term. -/
example (m : RefModel) (c q : Tensor ℝ) := C93_exact_ignores (env := env) (T := T) (t := ⟨.d4ATMExact, .zero, false⟩) rfl m (rc6Flat 3 [2])
  numbers positions param c (some q) (getR4R2 T numbers) (getRvdw T numbers) {}

end Demo

end TadDftd4
