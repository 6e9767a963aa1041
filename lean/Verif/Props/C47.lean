import Verif.Lemmas.Setup
import Verif.Lemmas.C6Pos
import Verif.Props.C16Pos

/-!
# C47: model objects and the system they were built for

A model object holds atomic numbers of its own, and the code takes its C6 coefficients from these
without comparing them to the numbers of the system. `C47_other_atoms` says what is computed then.
-/

set_option linter.unusedSimpArgs false

open scoped Classical

namespace TadDftd4

open Tensor

section
variable {env : Env} {T : Tables} {ext : Ext} {numbers numbers' : Tensor ℕ}
  {positions charge : Tensor ℝ} {p : Param} {o : DftOpts} {n : ℕ} {B : Shape} {R R' : RefCfg}
  {cn : Spec.CN} {eeq : Spec.EEQ} {P : Spec.D4Par} {m : RefModel}

/-- The claim: a model object either belongs to the system or is rejected, that is, if nothing is
raised the energies are those of the default model. -/
def ObjectsAreChecked (env : Env) (T : Tables) (ext : Ext) : Prop :=
  ∀ (numbers numbers' : Tensor ℕ) (positions charge : Tensor ℝ) (p : Param) (e e' : Tensor ℝ),
    dftd4 env T ext numbers positions charge p { model := .inst (mkModel env T .d4 numbers') } =
      .ok e → dftd4 env T ext numbers positions charge p = .ok e' →
    ∀ i, InB numbers.shape i → e.get i = e'.get i

/-- Proved part: a model object built for the numbers of the system (with default options) is
equivalent to its key, for all arguments. -/
theorem C47_own_atoms_partial (hk : ext.CasefoldKeys) (hT : T.Fits) (hn : numbers.Ok (n :: B))
    (hlt : numbers.AllLt T.nZ) {kind : ModelKind} {key : String}
    (hs : kind = .d4 ∧ key = "d4" ∨ kind = .d4s ∧ key = "d4s")
    (positions charge : Tensor ℝ) (p : Param) (o : DftOpts) :
    dftd4 env T ext numbers positions charge p
        { o with model := .inst (mkModel env T kind numbers) } =
      dftd4 env T ext numbers positions charge p { o with model := .key key } := by
  rcases hs with ⟨rfl, rfl⟩ | ⟨rfl, rfl⟩
  · have h1 := buildModel_d4 (env := env) hn hlt hT
    have hc := hk "d4" (by simp)
    simp only [dftd4, Disp.new, hc, DispClass.allowedModels, bind, Except.bind, pure, Except.pure,
      Option.getD_none, List.mem_cons, true_or, or_true, if_true]
    simp [Disp.calculate, Disp.getModel, Disp.register, hc, h1, bind, Except.bind]
    rfl
  · have h1 := buildModel_d4s (env := env) hn hlt hT
    have hc := hk "d4s" (by simp)
    simp only [dftd4, Disp.new, hc, DispClass.allowedModels, bind, Except.bind, pure, Except.pure,
      Option.getD_none, List.mem_cons, true_or, or_true, if_true]
    simp [Disp.calculate, Disp.getModel, Disp.register, hc, h1, bind, Except.bind]
    rfl

/-- A model object built for other atoms (same shape): nothing is raised, and the energies are those
of the system with the C6 coefficients of the other atoms. -/
theorem C47_other_atoms (h : Call env T ext numbers positions charge p o n B R' cn eeq P)
    (hm : m.IsFor env T numbers' R n B) :
    ∃ e, dftd4 env T ext numbers positions charge p { o with model := .inst m } = .ok e ∧
      ∀ b, InB B b → ∀ i : Fin n,
        let M := system T cn eeq numbers positions charge o.opts n b
        let S := d4Computed env T R P (o.opts.cutoff.getD {})
        e.get (i.1 :: b) =
          Spec.e2 S M (fun j => ⟨numbers'.get (j.1 :: b), M.cn j, M.q j⟩) i +
          Spec.e3 S M (Spec.c9 S fun j => ⟨numbers'.get (j.1 :: b), M.cn j, 0⟩) (Spec.R0 S M) i := by
  have hv := h.args
  obtain ⟨f, hf⟩ : ∃ f, f = o.cnFunction.getD ext.cnD4 := ⟨_, rfl⟩
  obtain ⟨ct, hct⟩ : ∃ ct, ct = some (o.counting.getD ext.erfCount) := ⟨_, rfl⟩
  obtain ⟨r4, hr4⟩ : ∃ r4, r4 = o.opts.r4r2.getD (getR4R2 T numbers) := ⟨_, rfl⟩
  obtain ⟨rv, hrv⟩ : ∃ rv, rv = o.opts.rvdw.getD (getRvdw T numbers) := ⟨_, rfl⟩
  obtain ⟨cutoff, hcutoff⟩ : ∃ c, c = o.opts.cutoff.getD {} := ⟨_, rfl⟩
  have hr4ok : r4.Ok (n :: B) := by
    rw [hr4]
    cases h : o.opts.r4r2 with
    | none => exact getR4R2_ok hv
    | some x => exact hv.r4r2 x h
  have hrvok : rv.Ok (n :: n :: B) := by
    rw [hrv]
    cases h : o.opts.rvdw with
    | none => exact getPair_ok hv.num (AllLt.mono hv.lt hv.fits.ext)
    | some x => exact hv.rvdw x h
  obtain ⟨cok, cget⟩ := h.cn n B numbers positions hv.num hv.lt hv.pos
  rw [← hf, ← hct] at cok cget
  obtain ⟨cT, hcT⟩ : ∃ cT, cT = f numbers positions ct := ⟨_, rfl⟩
  rw [← hcT] at cok cget
  obtain ⟨d, hd⟩ : ∃ d : Disp, d = ⟨[⟨.twoBody, o.damping, true⟩, ⟨.d4ATMApprox, .zero, false⟩], f, ct,
    .inst m, {}⟩ := ⟨_, rfl⟩
  obtain ⟨qT, hqo, hqok, hqv⟩ : ∃ qT : Tensor ℝ,
      d.charges ext numbers positions charge cutoff o.opts.q = .ok (some qT) ∧ qT.Ok (n :: B) ∧
      ∀ b, InB B b → ∀ i : Fin n, qT.get (i.1 :: b) =
        (system T cn eeq numbers positions charge o.opts n b).q i := by
    cases hoq : o.opts.q with
    | some x =>
      have hx := hv.q x hoq
      refine ⟨x, ?_, hx, fun b hb i => ?_⟩
      · simp [Disp.charges, hd, hx.shape, hv.num.shape]
      · simp [system, hoq]
    | none =>
      obtain ⟨h1, h2⟩ := h.eeq n B numbers positions charge cutoff.cnEeq hv.num hv.lt hv.pos hv.charge
      refine ⟨_, ?_, h1, fun b hb i => ?_⟩
      · simp [Disp.charges, hd, check_ok h1.err, h1.shape, hv.num.shape, bind, Except.bind]
      · rw [h2 b hb i]; simp [system, hoq, hcutoff]
  have hcut0 : 0 ≤ cutoff.disp3 := by rw [hcutoff]; exact h.cut3
  have hpar := h.par.dftPar (env := env) (T := T) (R := R) hcut0
  obtain ⟨c6ok, c6get⟩ := model_c6_eval hm (cg := cT.get) (qg := qT.get)
    (Or.inr ⟨_, rfl, cok, rfl⟩) (Or.inr ⟨_, rfl, hqok, rfl⟩)
  obtain ⟨n6ok, n6get⟩ := model_c6_eval hm (cg := cT.get) (qg := fun _ => 0)
    (qo := none) (Or.inr ⟨_, rfl, cok, rfl⟩) (Or.inl ⟨rfl, rfl⟩)
  obtain ⟨c6, hc6⟩ : ∃ c6, c6 = m.atomicC6 (m.weights env T (some cT) (some qT)) := ⟨_, rfl⟩
  obtain ⟨n6, hn6⟩ : ∃ n6, n6 = m.atomicC6 (m.weights env T (some cT) none) := ⟨_, rfl⟩
  rw [← hc6] at c6ok c6get
  rw [← hn6] at n6ok n6get
  have hsh : D2Shapes numbers positions c6 r4 rv n 3 B := ⟨hv.num, hv.pos, c6ok, hr4ok, hrvok⟩
  obtain ⟨-, ok2, -, get2⟩ := dispersion2_eval (d := .rational) hsh hpar.two.noExtra hpar.two.f6
    hpar.two.f8 hpar.two.s6 hpar.two.s8 hpar.two.s10 (some cutoff.disp2)
  obtain ⟨alp, halp, hf9⟩ := hpar.alp
  obtain ⟨rok, rget⟩ := radiiBJ_ok (env := env) hr4ok hpar.a1.tensor hpar.a2.tensor
  have c9ok := c9Approx_ok (env := env) n6ok
  obtain ⟨ok3, get3⟩ := atm_spec (cn := cT.get) (q := qT.get) (r4r2 := r4)
    (rvdw := rv) (S := { d4Computed env T R P cutoff with f9 := zeroF env 1 (P.alp / 3) }) hv.num hv.pos
    rok c9ok (d := .zero) (alp := alp) (by rw [hf9]; exact point9_zero alp)
    rfl rfl hcut0
  have hsum : sumTerms env T d.terms numbers positions p cT m (some qT) r4 rv cutoff =
      full numbers.shape 0 +
        dispersion2 env numbers positions p c6 r4 (some rv) .rational (some cutoff.disp2) +
        (c9Approx env n6).after ((radiiBJ env p r4).after (atmDispersion env numbers positions
          (c9Approx env n6) (radiiBJ env p r4) cutoff.disp3 .zero P.s9 alp)) := by
    have h9 : p.s9.num Defaults.s9 = some P.s9 := hpar.s9.num
    simp only [sumTerms, hd, List.foldl_cons, List.foldl_nil, Term.calculate, Term.charges, h.damping,
      h9, halp.num, Term.c9, hm.implemented, if_true, Term.radii, hc6, hn6]
    rfl
  obtain ⟨x2, hx2⟩ : ∃ x, x = dispersion2 env numbers positions p c6 r4 (some rv) .rational
    (some cutoff.disp2) := ⟨_, rfl⟩
  obtain ⟨x3, hx3⟩ : ∃ x, x = (c9Approx env n6).after ((radiiBJ env p r4).after (atmDispersion env
    numbers positions (c9Approx env n6) (radiiBJ env p r4) cutoff.disp3 .zero P.s9 alp)) := ⟨_, rfl⟩
  have ok3' : x3.Ok (n :: B) := by
    rw [hx3]
    have ok3 : (atmDispersion env numbers positions (c9Approx env n6)
        (radiiBJ env p r4) cutoff.disp3 .zero P.s9 alp).Ok (n :: B) := ok3
    exact ⟨by simp [c9ok.err, rok.err, ok3.err], by simp [ok3.shape]⟩
  rw [← hx2] at ok2
  rw [← hx2, ← hx3] at hsum
  have sok : (sumTerms env T d.terms numbers positions p cT m (some qT) r4 rv cutoff).Ok
      (n :: B) := by
    rw [hsum]
    constructor <;> simp [hv.num.shape, ok2.err, ok2.shape, ok3'.err, ok3'.shape]
  refine ⟨sumTerms env T d.terms numbers positions p cT m (some qT) r4 rv cutoff, ?_,
    fun b hb i => ?_⟩
  · have : dftd4 env T ext numbers positions charge p { o with model := .inst m } =
        d.calculate env T ext numbers positions charge p o.opts := by rw [hd, hf, hct]; rfl
    rw [this]
    unfold Disp.calculate
    rw [ensure_ok (by rw [hv.num.shape, hv.pos.shape]; rfl)]
    have hgm : d.getModel env T ext numbers = .ok m := by rw [hd]; rfl
    simp only [bind, Except.bind, hgm]
    rw [ensure_ok (by intro x hx; rw [(hv.rcov x hx).shape, hv.num.shape])]
    simp only [← hr4, ← hrv, check_ok hr4ok.err, check_ok hrvok.err]
    rw [ensure_ok (by rw [hr4ok.shape, hv.num.shape])]
    simp only []
    rw [ensure_ok (by rw [hrvok.shape, hv.num.shape]; rfl)]
    have hcc : d.cnFn numbers positions d.counting = cT := by rw [hcT, hd]
    simp only [hcc, check_ok cok.err, ← hcutoff, hqo]
    exact check_ok sok.err
  · have hbi : InB (n :: B) (i.1 :: b) := ⟨i.2, hb⟩
    have hmol : molOf n numbers positions cT.get qT.get r4 rv b =
        system T cn eeq numbers positions charge o.opts n b := by
      unfold molOf system
      congr 1
      · funext j; exact cget b hb j
      · funext j; exact hqv b hb j
      · funext j
        rw [hr4]
        cases o.opts.r4r2 with
        | some x => rfl
        | none => simp [getR4R2, elements]
      · funext j k
        rw [hrv]
        cases o.opts.rvdw with
        | some x => rfl
        | none => exact getPair_get hv.num hb j.2 k.2
    have hc : ∀ j : Fin n, cT.get (j.1 :: b) =
      (system T cn eeq numbers positions charge o.opts n b).cn j := fun j => cget b hb j
    rw [hsum]
    simp only [add_get, full_shape, hv.num.shape, ok2.shape, ok3'.shape, bshape_self, add_shape,
      pick_of_InB hbi, full_get, zero_add]
    congr 1
    · rw [hx2, get2 b i.1 hb i.2, Spec.e2]
      congr 1
      rw [← Fin.sum_univ_eq_sum_range (fun j => pairEnergy env numbers positions _ r4 rv 3 .rational
        _ _ _ _ _ _ _ b i.1 j)]
      refine Finset.sum_congr rfl fun j _ => ?_
      rw [Option.getD_some, ← hcutoff]
      have := pairEnergy_spec (numbers := numbers) (positions := positions) (r4r2 := r4) (rvdw := rv)
        (n := n) (b := b) (cn := cT.get) (q := qT.get) (d := .rational)
        (S := { d4Computed env T R P cutoff with f9 := zeroF env 1 (P.alp / 3) })
        (c6 := c6) rfl rfl
        (fun j => ⟨numbers'.get (j.1 :: b), cT.get (j.1 :: b), qT.get (j.1 :: b)⟩) i j
        (c6get b i.1 j.1 hb i.2 j.2)
      rw [hmol] at this
      simp only [hc, hqv b hb] at this
      exact this
    · rw [hx3]
      simp only [after_get]
      refine (get3 b hb i).trans ?_
      rw [hmol, ← hcutoff]
      unfold Spec.e3
      congr 1
      refine Finset.sum_congr rfl fun j _ => Finset.sum_congr rfl fun k _ => ?_
      refine if_congr Iff.rfl ?_ rfl
      unfold Spec.tripleTerm
      have hr : ∀ j k, 0 < (system T cn eeq numbers positions charge o.opts n b).r env.eps j k :=
        fun j k => Spec.Mol.r_pos env.eps_pos _ j k
      have hR : ∀ j k : Fin n, (radiiBJ env p r4).get (k.1 :: j.1 :: b) =
          Spec.R0 (d4Computed env T R P cutoff)
            (system T cn eeq numbers positions charge o.opts n b) j k := by
        intro j k
        rw [rget b j k hb j.2 k.2, ← hmol]
        rfl
      have h9 : (c9Approx env n6).get (k.1 :: j.1 :: i.1 :: b) =
          Spec.c9 (d4Computed env T R P cutoff) (fun j => ⟨numbers'.get (j.1 :: b),
            (system T cn eeq numbers positions charge o.opts n b).cn j, 0⟩) i j k := by
        rw [c9Approx_get n6ok hb i.2 j.2 k.2, n6get b i j hb i.2 j.2,
          n6get b i k hb i.2 k.2, n6get b j k hb j.2 k.2, hc, hc, hc]
        rfl
      have hz : ∀ R' : ℝ, zeroF env 1 (P.alp / 3) R'
          ((system T cn eeq numbers positions charge o.opts n b).r env.eps i j *
            (system T cn eeq numbers positions charge o.opts n b).r env.eps i k *
            (system T cn eeq numbers positions charge o.opts n b).r env.eps j k) =
          (d4Computed env T R P cutoff).f9 R'
          ((system T cn eeq numbers positions charge o.opts n b).r env.eps i j *
            (system T cn eeq numbers positions charge o.opts n b).r env.eps i k *
            (system T cn eeq numbers positions charge o.opts n b).r env.eps j k) :=
        fun R' => zeroF_pos (mul_pos (mul_pos (hr _ _) (hr _ _)) (hr _ _))
      simp only [hR, h9]
      have hε : (d4Computed env T R P cutoff).ε = env.eps := rfl
      simp only [hε, hz]

/-- The reference coefficients of a padding entry are zero. -/
theorem c6At_pad {A A' : Spec.AtomData} (h0 : ∀ r < nref, T.refc 0 r = 0) (hA : A.Z = 0) :
    c6At env T R A A' = 0 := by
  unfold c6At c6Of
  refine Finset.sum_eq_zero fun a ha => Finset.sum_eq_zero fun b _ => ?_
  have : wtAt env T R A A'.Z a = 0 := by
    simp [wtAt, wtOf, zetaAt, hA, h0 a (Finset.mem_range.1 ha)]
  rw [this, zero_mul, mul_zero]

end

namespace Demo

/-- The batch of `Demo.numbers` with the two systems exchanged. -/
def numbersSwapped : Tensor ℕ where
  err := none
  shape := [3, 2]
  get
    | [0, 0] => 9
    | [1, 0] => 1
    | [0, 1] => 8
    | [1, 1] => 1
    | [2, 1] => 1
    | _ => 0

theorem numbersSwapped_lt (i : Idx) : numbersSwapped.get i < 104 := by
  unfold numbersSwapped
  dsimp only
  split <;> norm_num

/-- The model object of the batch in the other order. -/
theorem swapped_isFor : (mkModel env T .d4 numbersSwapped).IsFor env T numbersSwapped .d4 3 [2] :=
  mkModel_isFor_d4 ⟨rfl, rfl⟩ (fun i _ => numbersSwapped_lt i) fits

noncomputable def paramNoAtm : Param := { param with s9 := .val 0 }

theorem readsNoAtm : paramNoAtm.Reads { par with s9 := 0 } :=
  { reads with s9 := Or.inl rfl }

theorem callNoAtm : Call env T ext numbers positions charge paramNoAtm {} 3 [2] .d4 cn eeq
    { par with s9 := 0 } :=
  { call with par := readsNoAtm }

end Demo

/-- The full claim is false: with the systems of a batch exchanged, a hydrogen atom of water is taken
for padding. -/
theorem C47_objects_checked_false : ¬ ObjectsAreChecked Demo.env Demo.T Demo.ext := by
  intro H
  obtain ⟨e, he, hv⟩ := C47_other_atoms Demo.callNoAtm Demo.swapped_isFor
  have hz : ∀ i : Fin 3, 0 < (elements Demo.numbers 3 [0] i) ∧
      elements Demo.numbers 3 [0] i < 10 := by
    intro i; fin_cases i <;> simp [elements, Demo.numbers]
  obtain ⟨e', he', hv'⟩ := C08_dftd4 Demo.callNoAtm rfl (by norm_num [Demo.par]) (by norm_num [Demo.par])
    (by norm_num [Demo.par]) (by
      intro b _ i
      show 0 ≤ Demo.T.r4r2 (Demo.numbers.get (i.1 :: b))
      rcases Nat.eq_zero_or_pos (Demo.numbers.get (i.1 :: b)) with h0 | h0
      · rw [h0]
        simp [Demo.T, shipped]
      · exact (shipped_r4r2_pos (nExt := 119) (gam := Demo.gam) (zeff := Demo.zeff)
          (vdw := fun _ _ => 3) h0 (by have := Demo.numbers_lt (i.1 :: b); omega)).le)
  have hI : InB [2] [0] := by simp [InB]
  have h0 := H Demo.numbers Demo.numbersSwapped Demo.positions Demo.charge Demo.paramNoAtm e e' he he'
    [2, 0] (by simp [InB, Demo.numbers])
  have h1 := hv [0] hI 2
  have h2 := (hv' [0] hI 2).2 rfl Demo.physical (by norm_num [RefCfg.d4]) (by norm_num [Demo.par]) 0
    (by decide) (by simp [Demo.numbers]) (by simp [Demo.numbers])
    (shipped_polarizable (by simp [Demo.numbers]) (by simp [Demo.numbers]) (by simp [Demo.numbers]))
    (shipped_polarizable (by simp [Demo.numbers]) (by simp [Demo.numbers]) (by simp [Demo.numbers]))
    (by
      have h1 : dist (coords Demo.positions 3 [0] 2) (coords Demo.positions 3 [0] 0) ≤ 60 := by
        rw [EuclideanSpace.dist_eq, Real.sqrt_le_left (by norm_num)]
        simp [coords, Demo.positions, Fin.sum_univ_three, Real.dist_eq]
        norm_num
      show √(max _ _) ≤ (60 : ℝ)
      rw [Real.sqrt_le_left (by norm_num)]
      refine max_le (pow_le_pow_left₀ dist_nonneg h1 2) ?_
      norm_num [Demo.env])
  have hpad : ∀ r < nref, Demo.T.refc 0 r = 0 := fun r hr =>
    beq_iff_eq.1 (forall_of_all1 Data.check_pad r hr)
  have hc : ∀ (c q : ℝ) (A' : Spec.AtomData), c6At Demo.env Demo.T .d4
      ⟨Demo.numbersSwapped.get [2, 0], c, q⟩ A' = 0 := fun c q A' => c6At_pad hpad rfl
  have h3 : e.get [2, 0] = 0 := by
    refine h1.trans ?_
    have e3 : ∀ c R', Spec.e3 (d4Computed Demo.env Demo.T .d4 { Demo.par with s9 := 0 }
        ((({} : DftOpts).opts.cutoff).getD {})) (system Demo.T Demo.cn Demo.eeq Demo.numbers
        Demo.positions Demo.charge ({} : DftOpts).opts 3 [0]) c R' 2 = 0 := by
      intro c R'
      simp [Spec.e3, Spec.tripleTerm, d4Computed, Spec.d4Settings]
    rw [e3, add_zero]
    have hp : ∀ (M : Spec.Mol 3) (g : Fin 3 → ℝ) (g' : Fin 3 → ℝ) j, Spec.pairTerm (d4Computed Demo.env
        Demo.T .d4 { Demo.par with s9 := 0 } ((({} : DftOpts).opts.cutoff).getD {})) M
        (fun j => ⟨Demo.numbersSwapped.get (j.1 :: [0]), g j, g' j⟩) 2 j = 0 := by
      intro M g g' j
      have := hc (g 2) (g' 2) ⟨Demo.numbersSwapped.get (j.1 :: [0]), g j, g' j⟩
      have h6 : (d4Computed Demo.env Demo.T .d4 { Demo.par with s9 := 0 }
        ((({} : DftOpts).opts.cutoff).getD {})).c6 = c6At Demo.env Demo.T .d4 := rfl
      simp only [Spec.pairTerm, h6]
      rw [show ((2 : Fin 3).1 :: [0] : Idx) = [2, 0] from rfl, this]
      ring
    simp only [Spec.e2, hp]
    simp
  have h4 : e'.get [2, 0] < 0 := h2
  rw [← h0, h3] at h4
  exact lt_irrefl _ h4

/-- The model object of the batch in the other order. -/
example := C47_other_atoms Demo.call Demo.swapped_isFor

example := C47_own_atoms_partial (env := Demo.env) (T := Demo.T) Demo.keys Demo.fits
  (numbers := Demo.numbers) (n := 3) (B := [2]) ⟨rfl, rfl⟩ (fun i _ => Demo.numbers_lt i)
  (Or.inr ⟨rfl, rfl⟩) Demo.positions Demo.charge Demo.param {}

end TadDftd4
