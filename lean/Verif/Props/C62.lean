import Verif.Props.AnyDisp

/-!
# C62: the energies of the other classes

`DispD4Exact` differs from `DispD4` in its C9 coefficients, which are Casimir-Polder integrals over three
polarizabilities. `DispD3BJ` uses the coefficients of the uncharged atoms for the pairs as well and van
der Waals radii for the triples. (`DispD4` is the subject of C01 and C46.)

`DispD3Zero` has the pairs damped by the function of C23, which is not the documented one; here it is
stated as it is computed.
-/

set_option linter.unusedSimpArgs false

open scoped Classical

namespace TadDftd4

open Tensor

section
variable {n : ℕ} {S S' : Spec.Settings} {M : Spec.Mol n}

theorem e2_agree (hε : 0 < S.ε) (h : S.Agree S' M) {A : Fin n → Spec.AtomData}
    (hA : ∀ i, (A i).Z = M.Z i ∧ (A i).cn = M.cn i) (i : Fin n) :
    Spec.e2 S M A i = Spec.e2 S' M A i := by
  have hM : Spec.e2 S { M with q := fun i => (A i).q } A i =
      Spec.e2 S' { M with q := fun i => (A i).q } A i := by
    have hA' : A = Spec.Mol.atom { M with q := fun i => (A i).q } := by
      funext j
      obtain ⟨h1, h2⟩ := hA j
      unfold Spec.Mol.atom
      rw [← h1, ← h2]
    have ha : S.Agree S' { M with q := fun i => (A i).q } :=
      ⟨h.ε, h.c6, h.f6, h.f8, h.f10, h.f9, h.radius, h.s6, h.s8, h.s10, h.s9, h.a1, h.a2, h.cut2, h.cut3⟩
    have hz : ∀ S : Spec.Settings, Spec.energy { S with s9 := 0 } { M with q := fun i => (A i).q } i =
        Spec.e2 S { M with q := fun i => (A i).q } A i := by
      intro S
      unfold Spec.energy
      rw [← hA']
      have : ∀ C R, Spec.e3 { S with s9 := 0 } { M with q := fun i => (A i).q } C R i = 0 := by
        intro C R
        simp [Spec.e3, Spec.tripleTerm]
      rw [this, add_zero]
      rfl
    rw [← hz S, ← hz S']
    exact Spec.energy_congr (S := { S with s9 := 0 }) (S' := { S' with s9 := 0 }) hε
      ⟨ha.ε, ha.c6, ha.f6, ha.f8, ha.f10, ha.f9, ha.radius, ha.s6, ha.s8, ha.s10, rfl, ha.a1, ha.a2,
        ha.cut2, ha.cut3⟩ i
  exact hM

theorem e3_agree (hε : 0 < S.ε) (h : S.Agree S' M) {C C' : Fin n → Fin n → Fin n → ℝ}
    {R R' : Fin n → Fin n → ℝ} (hC : ∀ i j k, C i j k = C' i j k) (hR : ∀ i j, R i j = R' i j)
    (i : Fin n) : Spec.e3 S M C R i = Spec.e3 S' M C' R' i := by
  have hr : ∀ a b, 0 < M.r S'.ε a b := fun a b => h.ε ▸ M.r_pos hε a b
  unfold Spec.e3
  congr 1
  refine Finset.sum_congr rfl fun j _ => Finset.sum_congr rfl fun k _ => ?_
  have hw : Spec.withinCut3 S M i j k ↔ Spec.withinCut3 S' M i j k := by
    unfold Spec.withinCut3
    rw [h.ε, h.cut3]
  refine if_congr (by rw [hw]) ?_ rfl
  unfold Spec.tripleTerm
  simp only [h.ε, h.s9, hC, hR]
  rw [h.f9 _ _ (mul_pos (mul_pos (hr i j) (hr i k)) (hr j k))]

end

section
variable {env : Env} {T : Tables} {ext : Ext} {numbers : Tensor ℕ} {d : Disp} {cls : DispClass}
  {sel : ModelSel} {modelKw : Option ModelKw} {cnFn : Option CNFunc} {counting : Option CountFn}
  {positions charge : Tensor ℝ} {p : Param} {o : CalcOpts} {n : ℕ}
  {B : Shape} {R : RefCfg} {cn : Spec.CN} {eeq : Spec.EEQ} {P : Spec.D4Par} {rs9 : ℝ}

theorem new_terms (h : Disp.new ext cls sel modelKw cnFn counting = .ok d) : d.terms = cls.terms := by
  unfold Disp.new at h
  simp only [bind, Except.bind, pure, Except.pure] at h
  cases sel with
  | key s =>
    by_cases hs : ext.casefold s ∈ cls.allowedModels
    · simp only [hs, if_true] at h
      cases cnFn with
      | some f => simp only [Except.ok.injEq] at h; rw [← h]
      | none =>
        cases hd : defaultCN ext (ext.casefold s) with
        | error e => simp [hd] at h
        | ok f => simp only [hd, Except.ok.injEq] at h; rw [← h]
    · simp [hs] at h
  | inst m =>
    cases cnFn with
    | some f => simp only [Except.ok.injEq] at h; rw [← h]
    | none =>
      cases hd : defaultCN ext m.kind.className with
      | error e => simp [hd] at h
      | ok f => simp only [hd, Except.ok.injEq] at h; rw [← h]

/-- The coefficients of the exact three-body term. -/
theorem c9At_spec (hfl : env.fl = id) (hT : T.Physical R.rq) (hgc : 0 < R.gc)
    {A A' A'' : Spec.AtomData} (hA : A.Z < T.nZ) (hA' : A'.Z < T.nZ) (hA'' : A''.Z < T.nZ) :
    c9At env T R A A' A'' = Spec.c9Triple (R.spec T env.eps) A A' A'' := by
  have hp : ∀ {A : Spec.AtomData}, A.Z < T.nZ → ∀ w, polAt env T R A w =
      Spec.alpha (R.spec T env.eps) A 0 w := by
    intro A hA w
    unfold polAt polOf Spec.alpha
    refine Finset.sum_congr rfl fun r hr => ?_
    have hr := Finset.mem_range.1 hr
    rw [wtAt_spec hfl hT hgc hA _ hr, alphaAt_spec hT hgc hA hr]
    rfl
  unfold c9At Spec.c9Triple
  refine congrArg₂ (· * ·) rfl (Finset.sum_congr rfl fun w _ => ?_)
  rw [hp hA, hp hA', hp hA'']
  exact mul_comm _ _

/-- The settings that the terms of `DispD4Exact` and `DispD3BJ` read. -/
theorem d4_termPar (hp : p.Reads P) {c : Cutoff} (hc : 0 ≤ c.disp3)
    {t : Term} (h9 : t.cls = .d3ATM → p.rs9.Is Defaults.rs9 rs9)
    (ht : t.cls = .twoBody ∧ t.damping = .rational ∨ t.cls ≠ .twoBody ∧ t.damping = .zero)
    (hx : t.cls = .d4ATMExact → R.kind = .d4) :
    TermPar env T R p c t { d4Computed env T R P c with
      f9 := zeroF env 1 (P.alp / 3), c9x := c9At env T R, rs9 := rs9 } := by
  have hd := hp.dftPar (env := env) (T := T) (R := R) hc
  refine ⟨rfl, rfl, fun h => ?_, fun h => ?_, fun _ => ⟨Or.inl hp.a1, Or.inl hp.a2⟩,
    fun h => ⟨hx h, rfl⟩, h9⟩
  · have hr : t.damping = .rational := by
      rcases ht with ht | ht
      · exact ht.2
      · exact absurd h ht.1
    rw [hr]
    have := hd.two
    exact ⟨⟨this.noExtra, this.f6, this.f8, this.s6, this.s8, this.s10, this.radius⟩, rfl⟩
  · have hr : t.damping = .zero := by
      rcases ht with ht | ht
      · exact absurd ht.1 h
      · exact ht.2
    rw [hr]
    exact ⟨⟨hd.s9, P.alp, hp.alp, point9_zero P.alp⟩, rfl, hc⟩

theorem d4_agree (hfl : env.fl = id) (hT : T.Physical R.rq) (hgc : 0 < R.gc) {cutoff : Cutoff}
    {M : Spec.Mol n} (hM : ∀ i, M.Z i < T.nZ) : Spec.Settings.Agree { d4Computed env T R P cutoff with
      f9 := zeroF env 1 (P.alp / 3), c9x := c9At env T R, rs9 := rs9 }
      (Spec.d4Settings (R.spec T env.eps) env.eps P cutoff.disp2 cutoff.disp3) M := by
  constructor
  case c6 => intro i j q q'; exact c6At_spec hfl hT hgc (hM i) (hM j)
  case f9 => intro R r hr; exact zeroF_pos hr
  all_goals intros; rfl

/-- `DispD4Exact`: the pairs of DFT-D4 and triples with exact coefficients of the uncharged atoms. -/
theorem C62_exact (hnew : Disp.new ext .d4Exact sel modelKw cnFn counting = .ok d)
    (h : d.Runs env T ext numbers positions charge p o n B R cn eeq) (hp : p.Reads P)
    (hfl : env.fl = id) (hT : T.Physical R.rq) (hgc : 0 < R.gc) :
    ∃ e, d.calculate env T ext numbers positions charge p o = .ok e ∧ e.Ok (n :: B) ∧
      ∀ b, InB B b → ∀ i : Fin n,
        let S := Spec.d4Settings (R.spec T env.eps) env.eps P (o.cutoff.getD {}).disp2
          (o.cutoff.getD {}).disp3
        let M := system T cn eeq numbers positions charge o n b
        e.get (i.1 :: b) = Spec.e2 S M M.atom i + Spec.e3 S M (fun i j k =>
          Spec.c9Triple (R.spec T env.eps) (M.neutral i) (M.neutral j) (M.neutral k)) (Spec.R0 S M) i := by
  have ht := new_terms hnew
  have hmem : ∀ t ∈ d.terms, t = ⟨.twoBody, .rational, true⟩ ∨ t = ⟨.d4ATMExact, .zero, false⟩ := by
    rw [ht]
    intro t ht
    simpa [DispClass.terms] using ht
  have hU := h.par ⟨.d4ATMExact, .zero, false⟩ (by rw [ht]; simp [DispClass.terms])
  obtain ⟨e, h1, h2, h3⟩ := h.eval (S := fun _ => { d4Computed env T R P (o.cutoff.getD {}) with
      f9 := zeroF env 1 (P.alp / 3), c9x := c9At env T R, rs9 := 1 }) fun t htm =>
    d4_termPar hp (hU.cut3 (by simp)) (by rcases hmem t htm with rfl | rfl <;> simp)
      (by rcases hmem t htm with rfl | rfl <;> simp) (fun _ => hU.exact rfl)
  refine ⟨e, h1, h2, fun b hb i => ?_⟩
  have hM := h.args.Z_lt (cn := cn) (eeq := eeq) hb
  have ha := d4_agree (P := P) (rs9 := 1) hfl hT hgc (cutoff := o.cutoff.getD {}) hM
  rw [h3 b hb i, ht]
  simp only [DispClass.terms, List.map_cons, List.map_nil, List.sum_cons, List.sum_nil, add_zero]
  simp only [Term.energy]
  refine congrArg₂ (· + ·) ?_ ?_
  · exact e2_agree env.eps_pos ha (fun i => ⟨rfl, rfl⟩) i
  · exact e3_agree env.eps_pos ha (fun i j k => c9At_spec hfl hT hgc (hM i) (hM j) (hM k))
      (fun i j => rfl) i

/-- `DispD3BJ`: pairs and triples of uncharged atoms, the latter with van der Waals radii. -/
theorem C62_d3bj (hnew : Disp.new ext .d3BJ sel modelKw cnFn counting = .ok d)
    (h : d.Runs env T ext numbers positions charge p o n B R cn eeq) (hp : p.Reads P)
    (h9 : p.rs9.Is Defaults.rs9 rs9) (hfl : env.fl = id) (hT : T.Physical R.rq) (hgc : 0 < R.gc) :
    ∃ e, d.calculate env T ext numbers positions charge p o = .ok e ∧ e.Ok (n :: B) ∧
      ∀ b, InB B b → ∀ i : Fin n,
        let S := Spec.d4Settings (R.spec T env.eps) env.eps P (o.cutoff.getD {}).disp2
          (o.cutoff.getD {}).disp3
        let M := system T cn eeq numbers positions charge o n b
        e.get (i.1 :: b) = Spec.e2 S M M.neutral i +
          Spec.e3 S M (Spec.c9 S M.neutral) (fun i j => rs9 * M.rvdw i j) i := by
  have ht := new_terms hnew
  have hmem : ∀ t ∈ d.terms, t = ⟨.twoBody, .rational, false⟩ ∨ t = ⟨.d3ATM, .zero, false⟩ := by
    rw [ht]
    intro t ht
    simpa [DispClass.terms] using ht
  have hU := h.par ⟨.d3ATM, .zero, false⟩ (by rw [ht]; simp [DispClass.terms])
  obtain ⟨e, h1, h2, h3⟩ := h.eval (S := fun _ => { d4Computed env T R P (o.cutoff.getD {}) with
      f9 := zeroF env 1 (P.alp / 3), c9x := c9At env T R, rs9 := rs9 }) fun t htm =>
    d4_termPar hp (hU.cut3 (by simp)) (fun _ => h9) (by rcases hmem t htm with rfl | rfl <;> simp)
      (by rcases hmem t htm with rfl | rfl <;> simp)
  refine ⟨e, h1, h2, fun b hb i => ?_⟩
  have hM := h.args.Z_lt (cn := cn) (eeq := eeq) hb
  have ha := d4_agree (P := P) (rs9 := rs9) hfl hT hgc (cutoff := o.cutoff.getD {}) hM
  rw [h3 b hb i, ht]
  simp only [DispClass.terms, List.map_cons, List.map_nil, List.sum_cons, List.sum_nil, add_zero]
  simp only [Term.energy]
  refine congrArg₂ (· + ·) ?_ ?_
  · exact e2_agree env.eps_pos ha (fun i => ⟨rfl, rfl⟩) i
  · refine e3_agree env.eps_pos ha (fun i j k => ?_) (fun i j => rfl) i
    unfold Spec.c9
    rw [ha.ε]
    have hc := fun i j => ha.c6 i j 0 0
    exact congrArg (fun x => Spec.rsqrt env.eps |x|)
      (congrArg₂ (· * ·) (congrArg₂ (· * ·) (hc i j) (hc i k)) (hc j k))

/-- What `DispD3Zero` reads from the parameters. -/
structure Param.ReadsZero (p : Param) (P : Spec.D4Par) (rs6 rs8 rs9 : ℝ) : Prop where
  extra : p.extra = []
  s6 : p.s6.Is 1 P.s6
  s8 : p.s8.Is 1 P.s8
  s9 : p.s9.Is 1 P.s9
  s10 : p.s10 = .absent ∧ P.s10 = 0
  rs6 : p.rs6 = .val rs6
  rs8 : p.rs8 = .val rs8
  rs9 : p.rs9.Is Defaults.rs9 rs9
  alp : p.alp = .val P.alp

/-- `DispD3Zero`: pairs and triples of uncharged atoms, both with van der Waals radii. The damping of the
pairs is the one computed by the code, an increasing function of `R0 / R` (see C23). -/
theorem C62_d3zero {rs6 rs8 : ℝ} (hnew : Disp.new ext .d3Zero sel modelKw cnFn counting = .ok d)
    (h : d.Runs env T ext numbers positions charge p o n B R cn eeq) (hp : p.ReadsZero P rs6 rs8 rs9)
    (hfl : env.fl = id) (hT : T.Physical R.rq) (hgc : 0 < R.gc) :
    ∃ e, d.calculate env T ext numbers positions charge p o = .ok e ∧ e.Ok (n :: B) ∧
      ∀ b, InB B b → ∀ i : Fin n,
        let S := { Spec.d4Settings (R.spec T env.eps) env.eps P (o.cutoff.getD {}).disp2
          (o.cutoff.getD {}).disp3 with
            radius := .rvdw
            f6 := fun r x => 1 / (1 + 6 * (rs6 * env.sdiv r x) ^ P.alp) / r ^ 6
            f8 := fun r x => 1 / (1 + 6 * (rs8 * env.sdiv r x) ^ (P.alp + 2)) / r ^ 8 }
        let M := system T cn eeq numbers positions charge o n b
        e.get (i.1 :: b) = Spec.e2 S M M.neutral i +
          Spec.e3 S M (Spec.c9 S M.neutral) (fun i j => rs9 * M.rvdw i j) i := by
  have ht := new_terms hnew
  have hmem : ∀ t ∈ d.terms, t = ⟨.twoBody, .zero, false⟩ ∨ t = ⟨.d3ATM, .zero, false⟩ := by
    rw [ht]
    intro t ht
    simpa [DispClass.terms] using ht
  have hU := h.par ⟨.d3ATM, .zero, false⟩ (by rw [ht]; simp [DispClass.terms])
  have hc := hU.cut3 (by simp)
  obtain ⟨e, h1, h2, h3⟩ := h.eval (S := fun _ => { d4Computed env T R P (o.cutoff.getD {}) with
      f9 := zeroF env 1 (P.alp / 3), rs9 := rs9, radius := .rvdw
      f6 := fun x r => env.sdiv (zeroF env rs6 P.alp x r) (x ^ 6)
      f8 := fun x r => env.sdiv (zeroF env rs8 (P.alp + 2) x r) (x ^ 8) }) fun t htm => by
    rcases hmem t htm with rfl | rfl
    · refine ⟨rfl, rfl, fun _ => ⟨⟨hp.extra, ?_, ?_, hp.s6, hp.s8, Or.inl hp.s10, rfl⟩, rfl⟩,
        fun hc => absurd rfl hc, fun hc => by simp at hc, fun hc => by simp at hc, fun hc => by simp at hc⟩
      · simp [Damping.point, Damping.required, Damping.pointF, Param.kw, PVal.kw, hp.rs6, hp.alp]
      · simp [Damping.point, Damping.required, Damping.pointF, Param.kw, PVal.kw, hp.rs8, hp.alp]
    · exact ⟨rfl, rfl, fun hc => by simp at hc, fun _ => ⟨⟨hp.s9, P.alp, Or.inl hp.alp,
        point9_zero P.alp⟩, rfl, hc⟩, fun hc => by simp at hc, fun hc => by simp at hc, fun _ => hp.rs9⟩
  refine ⟨e, h1, h2, fun b hb i => ?_⟩
  have hM := h.args.Z_lt (cn := cn) (eeq := eeq) hb
  obtain ⟨S, hS⟩ : ∃ S : Spec.Settings, S = { d4Computed env T R P (o.cutoff.getD {}) with
      f9 := zeroF env 1 (P.alp / 3), rs9 := rs9, radius := .rvdw
      f6 := fun x r => env.sdiv (zeroF env rs6 P.alp x r) (x ^ 6)
      f8 := fun x r => env.sdiv (zeroF env rs8 (P.alp + 2) x r) (x ^ 8) } := ⟨_, rfl⟩
  have ha : S.Agree { Spec.d4Settings (R.spec T env.eps) env.eps P (o.cutoff.getD {}).disp2
          (o.cutoff.getD {}).disp3 with
            radius := .rvdw
            f6 := fun r x => 1 / (1 + 6 * (rs6 * env.sdiv r x) ^ P.alp) / r ^ 6
            f8 := fun r x => 1 / (1 + 6 * (rs8 * env.sdiv r x) ^ (P.alp + 2)) / r ^ 8 }
        (system T cn eeq numbers positions charge o n b) := by
    subst hS
    constructor
    case c6 => intro i j q q'; exact c6At_spec hfl hT hgc (hM i) (hM j)
    case f9 => intro R r hr; exact zeroF_pos hr
    case f6 =>
      intro r x hr
      have h' : ∀ a, env.sdiv a (r ^ 6) = a / r ^ 6 := fun a => by
        unfold Env.sdiv; rw [if_neg (pow_pos hr 6).ne']
      exact h' _
    case f8 =>
      intro r x hr
      have h' : ∀ a, env.sdiv a (r ^ 8) = a / r ^ 8 := fun a => by
        unfold Env.sdiv; rw [if_neg (pow_pos hr 8).ne']
      exact h' _
    all_goals intros; rfl
  rw [h3 b hb i, ht, ← hS]
  have hε : 0 < S.ε := by rw [hS]; exact env.eps_pos
  simp only [DispClass.terms, List.map_cons, List.map_nil, List.sum_cons, List.sum_nil, add_zero]
  simp only [Term.energy]
  refine congrArg₂ (· + ·) ?_ ?_
  · exact e2_agree hε ha (fun i => ⟨rfl, rfl⟩) i
  · refine e3_agree hε ha (fun i j k => ?_) (fun i j => by rw [hS]; rfl) i
    unfold Spec.c9
    rw [ha.ε]
    have hc := fun i j => ha.c6 i j 0 0
    exact congrArg (fun x => Spec.rsqrt env.eps |x|)
      (congrArg₂ (· * ·) (congrArg₂ (· * ·) (hc i j) (hc i k)) (hc j k))

end

/-! ## A concrete case: water and hydrogen fluoride -/

namespace Demo

noncomputable def parAll : Spec.D4Par where
  s6 := 1
  s8 := 1.2
  s10 := 0
  s9 := 1
  a1 := 0.4
  a2 := 5
  alp := 14

theorem readsAll : paramAll.Reads parAll := by
  constructor <;> simp [paramAll, parAll]

theorem readsZero : paramAll.ReadsZero parAll 1.2 1 Defaults.rs9 := by
  constructor <;> simp [paramAll, parAll, PVal.Is]

end Demo

example : ∃ e, (Demo.dispOf .d4Exact).calculate Demo.env Demo.T Demo.ext Demo.numbers Demo.positions
    Demo.charge Demo.paramAll {} = .ok e ∧ ∀ i : Fin 3,
      let S := Spec.d4Settings (RefCfg.d4.spec Demo.T Demo.env.eps) Demo.env.eps Demo.parAll 60 40
      let M := system Demo.T Demo.cn Demo.eeq Demo.numbers Demo.positions Demo.charge {} 3 [0]
      e.get [i.1, 0] = Spec.e2 S M M.atom i + Spec.e3 S M (fun i j k =>
        Spec.c9Triple (RefCfg.d4.spec Demo.T Demo.env.eps) (M.neutral i) (M.neutral j) (M.neutral k))
          (Spec.R0 S M) i := by
  obtain ⟨e, h1, -, h3⟩ := C62_exact (Demo.dispOf_new .d4Exact) (Demo.dispOf_runs .d4Exact Demo.validArgs)
    Demo.readsAll rfl Demo.physical (by norm_num [RefCfg.d4])
  exact ⟨e, h1, fun i => h3 [0] (by simp [InB]) i⟩

example : ∃ e e', (Demo.dispOf .d3BJ).calculate Demo.env Demo.T Demo.ext Demo.numbers Demo.positions
    Demo.charge Demo.paramAll {} = .ok e ∧ (Demo.dispOf .d3Zero).calculate Demo.env Demo.T Demo.ext
    Demo.numbers Demo.positions Demo.charge Demo.paramAll {} = .ok e' ∧ e.Ok [3, 2] ∧ e'.Ok [3, 2] := by
  obtain ⟨e, h1, h2, -⟩ := C62_d3bj (Demo.dispOf_new .d3BJ) (Demo.dispOf_runs .d3BJ Demo.validArgs)
    Demo.readsAll (rs9 := Defaults.rs9) (Or.inr ⟨rfl, rfl⟩) rfl Demo.physical (by norm_num [RefCfg.d4])
  obtain ⟨e', h1', h2', -⟩ := C62_d3zero (Demo.dispOf_new .d3Zero) (Demo.dispOf_runs .d3Zero Demo.validArgs)
    Demo.readsZero rfl Demo.physical (by norm_num [RefCfg.d4])
  exact ⟨e, e', h1, h1', h2, h2'⟩

end TadDftd4
