import Verif.Props.C93

/-!
# C93: coefficients of one molecule for all systems of a batch, and of one atom for all pairs
-/

open scoped Classical

namespace TadDftd4

open Tensor

section
variable {env : Env} {T : Tables} {ext : Ext} {numbers : Tensor ℕ} {positions charge : Tensor ℝ}
  {p : Param} {o : CalcOpts} {n : ℕ} {B : Shape} {R : RefCfg}
  {cn : Spec.CN} {eeq : Spec.EEQ} {P : Spec.D4Par} {m m₀ : RefModel} {d : Disp} {kw : ModelKw} {s : String}
  {cf : Option CNFunc} {ct : Option CountFn} {x : Tensor ℝ}

/-- Index that broadcasting reads in an axis of length `k`. -/
def own (k i : ℕ) : ℕ := if k = 1 then 0 else i

theorem D4.atomicC6_shared {gw : Tensor ℝ} {k : ℕ} (hk : k = n ∨ k = 1) (hr : m.rc6.Ok [nref, nref, k, k])
    (hg : gw.Ok (nref :: n :: B)) :
    (D4.atomicC6 m gw).Ok (n :: n :: B) ∧ ∀ {e : Idx} {i j : ℕ}, InB B e → i < n → j < n →
      (D4.atomicC6 m gw).get (j :: i :: e) =
        c6Of (fun a b => m.rc6.get [b, a, own k j, own k i]) (fun a => gw.get (a :: i :: e)) (fun b => gw.get (b :: j :: e)) := by
  refine ⟨?_, fun {e i j} he hi hj => ?_⟩
  · rcases hk with rfl | rfl <;> constructor <;>
    simp [D4.atomicC6, einsum, Operand.dims, Operand.rankOk, Operand.batch, hr.err, hr.shape, hg.err,
      hg.shape, lblOk, lblDim, bcompats, bshapes]
  · have di : (if n = 1 then 0 else i) = i := by split_ifs <;> omega
    have dj : (if n = 1 then 0 else j) = j := by split_ifs <;> omega
    rcases hk with rfl | rfl <;>
    · simp [D4.atomicC6, einsum, Operand.dims, Operand.rankOk, Operand.batch, hr.shape, hg.shape,
        lblDim, contracted, sumOver, lblSet, bindOut, c6Of]
      refine Finset.sum_congr rfl fun a ha => Finset.sum_congr rfl fun b hb => ?_
      have ha := Finset.mem_range.1 ha
      have hb := Finset.mem_range.1 hb
      simp [pick, di, dj, pick_of_InB he, own]

theorem D4S.atomicC6_shared {gw : Tensor ℝ} {k : ℕ} (hk : k = n ∨ k = 1) (hr : m.rc6.Ok [nref, nref, k, k])
    (hg : gw.Ok (nref :: n :: n :: B)) :
    (D4S.atomicC6 m gw).Ok (n :: n :: B) ∧ ∀ {e : Idx} {i j : ℕ}, InB B e → i < n → j < n →
      (D4S.atomicC6 m gw).get (j :: i :: e) =
        c6Of (fun a b => m.rc6.get [b, a, own k j, own k i]) (fun a => gw.get (a :: i :: j :: e))
          (fun b => gw.get (b :: j :: i :: e)) := by
  refine ⟨?_, fun {e i j} he hi hj => ?_⟩
  · rcases hk with rfl | rfl <;> constructor <;>
    simp [D4S.atomicC6, einsum, Operand.dims, Operand.rankOk, Operand.batch, hr.err, hr.shape, hg.err,
      hg.shape, lblOk, lblDim, bcompats, bshapes]
  · have di : (if n = 1 then 0 else i) = i := by split_ifs <;> omega
    have dj : (if n = 1 then 0 else j) = j := by split_ifs <;> omega
    rcases hk with rfl | rfl <;>
    · simp [D4S.atomicC6, einsum, Operand.dims, Operand.rankOk, Operand.batch, hr.shape, hg.shape,
        lblDim, contracted, sumOver, lblSet, bindOut, c6Of]
      refine Finset.sum_congr rfl fun a ha => Finset.sum_congr rfl fun b hb => ?_
      have ha := Finset.mem_range.1 ha
      have hb := Finset.mem_range.1 hb
      simp [pick, di, dj, pick_of_InB he, own]

/-- C6 coefficients with coefficients of references without batch axes; see `model_c6_given`. -/
theorem model_c6_shared {k : ℕ} (hkn : k = n ∨ k = 1) (h : m₀.IsFor env T numbers R n B) (hm : m = { m₀ with rc6 := x })
    (hx : x.Ok [nref, nref, k, k]) {co qo : Option (Tensor ℝ)} {cg qg : Idx → ℝ}
    (hc : D4.OptIs co n B cg) (hq : D4.OptIs qo n B qg) :
    (m.atomicC6 (m.weights env T co qo)).Ok (n :: n :: B) ∧
    ∀ b i j, InB B b → i < n → j < n →
      (m.atomicC6 (m.weights env T co qo)).get (j :: i :: b) =
        c6Of (Spec.entry x [] (own k i) (own k j))
          (wtAt env T R ⟨numbers.get (i :: b), cg (i :: b), qg (i :: b)⟩ (numbers.get (j :: b)))
          (wtAt env T R ⟨numbers.get (j :: b), cg (j :: b), qg (j :: b)⟩ (numbers.get (i :: b))) := by
  have hg := h.good
  have hnum := h.num
  have hxm : m.rc6 = x := by rw [hm]
  have hrc : m.rc6.Ok [nref, nref, k, k] := by rw [hxm]; exact hx
  have hw0 : m.weights env T co qo = m₀.weights env T co qo := by rw [hm]; rfl
  have hkm : m.kind = m₀.kind := by rw [hm]
  rw [hw0]
  rcases h.wf with ⟨hk, w, hw, hR⟩ | ⟨hk, hw, hR⟩
  · have hwt := D4.weights_ok (env := env) hg hw hc hq
    have hk' : R.kind = .d4 := h.kind ▸ hk
    simp only [RefModel.weights, RefModel.atomicC6, hkm, hk]
    refine ⟨(D4.atomicC6_shared hkn hrc hwt).1, fun b i j hb hi hj => ?_⟩
    rw [(D4.atomicC6_shared hkn hrc hwt).2 hb hi hj, hxm]
    refine c6Of_congr (fun a ha c hc => rfl) (fun a ha => ?_)
      (fun a ha => ?_)
    · rw [D4.weights_get hg hw hc hq hb hi ha, wtAt, h.ga, h.gc, h.rq, hnum, hk', hR]; rfl
    · rw [D4.weights_get hg hw hc hq hb hj ha, wtAt, h.ga, h.gc, h.rq, hnum, hk', hR]; rfl
  · have hwt := D4S.weights_ok (env := env) hg hw hc hq
    have e1 : m₀.weights env T co qo = D4S.weights env T m₀ co qo := by
      rcases hk with hk | hk <;> simp only [RefModel.weights, hk]
    have e2 : ∀ x, m.atomicC6 x = D4S.atomicC6 m x := by
      intro x; rcases hk with hk | hk <;> simp only [RefModel.atomicC6, hkm, hk]
    have e3 : expwSel env T R.kind = expwD4S env T := by
      rw [← h.kind]; rcases hk with hk | hk <;> rw [hk] <;> rfl
    rw [e1, e2]
    refine ⟨(D4S.atomicC6_shared hkn hrc hwt).1, fun b i j hb hi hj => ?_⟩
    rw [(D4S.atomicC6_shared hkn hrc hwt).2 hb hi hj, hxm]
    refine c6Of_congr (fun a ha c hc => rfl) (fun a ha => ?_)
      (fun a ha => ?_)
    · rw [D4S.weights_get hg hw hc hq hb hi hj ha, wtAt, h.ga, h.gc, h.rq, hnum, e3,
        hR b i j hb hi hj]
    · rw [D4S.weights_get hg hw hc hq hb hj hi ha, wtAt, h.ga, h.gc, h.rq, hnum, e3,
        hR b j i hb hj hi]

/-- Energies with coefficients of shape `(k, k, nref, nref)`. -/
theorem energy_shared {k : ℕ} (hkn : k = n ∨ k = 1) (hk : ext.CasefoldKeys)
    (hs : ext.casefold s = "d4" ∧ R.kind = .d4 ∨ ext.casefold s = "d4s" ∧ R.kind = .d4s)
    (hnew : Disp.new ext .d4 (.key s) (some { kw with rc6 := some x }) cf ct = .ok d)
    (h : Spec.Asks T { kw with rc6 := none } numbers R n B) (hx : x.Ok [nref, nref, k, k])
    (hv : ValidArgs T numbers positions charge o n B)
    (hcn : CNFunc.PerSystem d.cnFn d.counting T.nZ cn) (heeq : ext.EEQPerSystem T.nZ eeq)
    (hp : p.Reads P) (hc : 0 ≤ (o.cutoff.getD {}).disp3) (hfl : env.fl = id)
    (hT : T.Physical R.rq) (hgc : 0 < R.gc) :
    ∃ e, d.calculate env T ext numbers positions charge p o = .ok e ∧ e.Ok (n :: B) ∧
      ∀ b, InB B b → ∀ i : Fin n, e.get (i.1 :: b) =
        Spec.energyGiven T R env.eps P (o.cutoff.getD {}) (fun i j => Spec.entry x [] (own k i) (own k j))
          (system T cn eeq numbers positions charge o n b) i := by
  obtain ⟨m₀, hm, hgm⟩ := getModel_given (env := env) hk hs hnew h hv.num hv.lt hv.fits hx.err
  obtain ⟨hts, -⟩ := new_ok hnew
  obtain ⟨e, h1, h2, h3⟩ := calculate_from (R := R) (P := P) hv hts hgm hm.implemented
    (K := fun _ i j A A' => c6Of (Spec.entry x [] (own k i) (own k j)) (wtAt env T R A A'.Z) (wtAt env T R A' A.Z))
    (fun hc hq => model_c6_shared hkn hm rfl hx hc hq) hcn heeq hp hc
  refine ⟨e, h1, h2, fun b hb i => ?_⟩
  rw [h3 b hb i]
  have hZ := fun j => hv.Z_lt (cn := cn) (eeq := eeq) hb j
  unfold Spec.energyGiven
  congr 1
  · funext j k
    exact c6Of_given hfl hT hgc (hZ j) (hZ k) _
  · funext j k
    exact c6Of_given hfl hT hgc (A := (system T cn eeq numbers positions charge o n b).neutral j)
      (A' := (system T cn eeq numbers positions charge o n b).neutral k) (hZ j) (hZ k) _

/-- **C93**: coefficients without batch axes, of shape `(nat, nat, nref, nref)`, are used for every system of a batch. -/
theorem C93_shared (hk : ext.CasefoldKeys)
    (hs : ext.casefold s = "d4" ∧ R.kind = .d4 ∨ ext.casefold s = "d4s" ∧ R.kind = .d4s)
    (hnew : Disp.new ext .d4 (.key s) (some { kw with rc6 := some x }) cf ct = .ok d)
    (h : Spec.Asks T { kw with rc6 := none } numbers R n B) (hx : x.Ok [nref, nref, n, n])
    (hv : ValidArgs T numbers positions charge o n B)
    (hcn : CNFunc.PerSystem d.cnFn d.counting T.nZ cn) (heeq : ext.EEQPerSystem T.nZ eeq)
    (hp : p.Reads P) (hc : 0 ≤ (o.cutoff.getD {}).disp3) (hfl : env.fl = id)
    (hT : T.Physical R.rq) (hgc : 0 < R.gc) :
    ∃ e, d.calculate env T ext numbers positions charge p o = .ok e ∧ e.Ok (n :: B) ∧
      ∀ b, InB B b → ∀ i : Fin n, e.get (i.1 :: b) =
        Spec.energyGiven T R env.eps P (o.cutoff.getD {}) (Spec.entry x [])
          (system T cn eeq numbers positions charge o n b) i := by
  obtain ⟨e, h1, h2, h3⟩ := energy_shared (Or.inl rfl) hk hs hnew h hx hv hcn heeq hp hc hfl hT hgc
  refine ⟨e, h1, h2, fun b hb i => (h3 b hb i).trans ?_⟩
  have ho : ∀ j : Fin n, own n j = j := fun j => by unfold own; split_ifs <;> omega
  unfold Spec.energyGiven
  simp only [ho]

/-- **C93**: coefficients of a single atom, of shape `(1, 1, nref, nref)`, raise no exception for larger systems: they are
used for every pair of atoms. -/
theorem C93_one_atom (hk : ext.CasefoldKeys)
    (hs : ext.casefold s = "d4" ∧ R.kind = .d4 ∨ ext.casefold s = "d4s" ∧ R.kind = .d4s)
    (hnew : Disp.new ext .d4 (.key s) (some { kw with rc6 := some x }) cf ct = .ok d)
    (h : Spec.Asks T { kw with rc6 := none } numbers R n B) (hx : x.Ok [nref, nref, 1, 1])
    (hv : ValidArgs T numbers positions charge o n B)
    (hcn : CNFunc.PerSystem d.cnFn d.counting T.nZ cn) (heeq : ext.EEQPerSystem T.nZ eeq)
    (hp : p.Reads P) (hc : 0 ≤ (o.cutoff.getD {}).disp3) (hfl : env.fl = id)
    (hT : T.Physical R.rq) (hgc : 0 < R.gc) :
    ∃ e, d.calculate env T ext numbers positions charge p o = .ok e ∧ e.Ok (n :: B) ∧
      ∀ b, InB B b → ∀ i : Fin n, e.get (i.1 :: b) =
        Spec.energyGiven T R env.eps P (o.cutoff.getD {}) (fun _ _ => Spec.entry x [] 0 0)
          (system T cn eeq numbers positions charge o n b) i := by
  obtain ⟨e, h1, h2, h3⟩ := energy_shared (Or.inr rfl) hk hs hnew h hx hv hcn heeq hp hc hfl hT hgc
  refine ⟨e, h1, h2, fun b hb i => (h3 b hb i).trans ?_⟩
  have ho : ∀ j, own 1 j = 0 := fun j => if_pos rfl
  simp only [ho]

end

namespace Demo

/-- The coefficients of one molecule for a batch of two. -/
example (x : Tensor ℝ) (hx : x.Ok [7, 7, 3, 3]) : ∃ e, (dispGiven x).calculate env T ext numbers positions charge param {} =
    .ok e ∧ e.Ok [3, 2] ∧ ∀ b, InB [2] b → ∀ i : Fin 3, e.get (i.1 :: b) =
      Spec.energyGiven T askedCfg env.eps par {} (Spec.entry x []) (system T cn eeq numbers positions charge {} 3 b) i :=
  C93_shared (kw := keywords) keys (Or.inl ⟨keys "d4" (by simp), rfl⟩) (dispGiven_new x) asks hx
    validArgs (CNFunc.ofSpec_perSystem _ _ _) (eeqOfSpec_perSystem eeq rfl _) reads
    (by norm_num [Defaults.disp3Cutoff]) rfl (shipped_physical extTables (Or.inr rfl)) (by norm_num [askedCfg])

/-- The coefficients of one atom for a batch of molecules. -/
example (x : Tensor ℝ) (hx : x.Ok [7, 7, 1, 1]) : ∃ e, (dispGiven x).calculate env T ext numbers positions charge param {} =
    .ok e ∧ e.Ok [3, 2] ∧ ∀ b, InB [2] b → ∀ i : Fin 3, e.get (i.1 :: b) =
      Spec.energyGiven T askedCfg env.eps par {} (fun _ _ => Spec.entry x [] 0 0)
        (system T cn eeq numbers positions charge {} 3 b) i :=
  C93_one_atom (kw := keywords) keys (Or.inl ⟨keys "d4" (by simp), rfl⟩) (dispGiven_new x) asks hx
    validArgs (CNFunc.ofSpec_perSystem _ _ _) (eeqOfSpec_perSystem eeq rfl _) reads
    (by norm_num [Defaults.disp3Cutoff]) rfl (shipped_physical extTables (Or.inr rfl)) (by norm_num [askedCfg])

end Demo

end TadDftd4
