import Verif.Props.C32
import Verif.Props.AnyDisp

/-!
# C32: coordination numbers without batch axes

The shape of the coordination numbers is not tested (`dispersion/base.py:390`).
-/

open scoped Classical

namespace TadDftd4

open Tensor

/-- The values of `x`, one per atom, for every system of a batch. -/
def Spec.everySystem (B : Shape) (x : Tensor ℝ) : Tensor ℝ := ⟨x.err, x.shape ++ B, fun i => x.get [i.headD 0]⟩

section
variable {env : Env} {T : Tables} {ext : Ext}

theorem D4.dcn_shared {m : RefModel} {n : ℕ} {B : Shape} (hm : m.numbers.shape = n :: B) {x : Tensor ℝ}
    (hx : x.shape = [n]) : D4.dcn T m (Spec.everySystem B x) = D4.dcn T m x := by
  have hr : (D4.refcn T m).shape = nref :: n :: B := by simp [D4.refcn, gather1, hm]
  unfold D4.dcn
  change map2 _ _ _ = map2 _ _ _
  unfold map2
  simp only [unsqueeze, Spec.everySystem, hx, hr, List.cons_append, List.nil_append, insAt_zero, Tensor.mk.injEq]
  refine ⟨by simp [bErr], by simp, ?_⟩
  funext i
  rcases i with _ | ⟨a, _ | ⟨k, b⟩⟩ <;> simp [pick]

theorem D4S.dcn_shared {m : RefModel} {n : ℕ} {B : Shape} (hm : m.numbers.shape = n :: B) {x : Tensor ℝ}
    (hx : x.shape = [n]) : D4S.dcn T m (Spec.everySystem B x) = D4S.dcn T m x := by
  have hr : (D4S.refcn T m).shape = nref :: n :: n :: B := by
    simp [D4S.refcn, D4S.spread, D4S.shp, expand, D4.refc, gather1, hm]
  unfold D4S.dcn
  change map2 _ _ _ = map2 _ _ _
  unfold map2
  simp only [unsqueeze, Spec.everySystem, hx, hr, List.cons_append, List.nil_append, insAt, Tensor.mk.injEq]
  refine ⟨by simp [bErr], by simp, ?_⟩
  funext i
  rcases i with _ | ⟨a, _ | ⟨k, _ | ⟨l, b⟩⟩⟩ <;> simp [pick]

theorem weights_shared {m : RefModel} {n : ℕ} {B : Shape} (hm : m.numbers.shape = n :: B) {x : Tensor ℝ}
    (hx : x.shape = [n]) (q : Option (Tensor ℝ)) :
    m.weights env T (some (Spec.everySystem B x)) q = m.weights env T (some x) q := by
  have h4 := D4.dcn_shared (T := T) hm hx
  have h4s := D4S.dcn_shared (T := T) hm hx
  have e4 : D4.gw env T m (Spec.everySystem B x) = D4.gw env T m x := by
    simp only [D4.gw, D4.gwTemp, D4.norm, D4.expw, D4.refcPow1, D4.refcPow3, D4.powT, D4.tmp, h4]
  have e4s : D4S.gw env T m (Spec.everySystem B x) = D4S.gw env T m x := by
    simp only [D4S.gw, D4S.gwTemp, D4S.norm, D4S.expw, D4S.refcPow1, D4S.refcPow3, D4S.powT, D4S.tmp, D4S.arg, h4s]
  unfold RefModel.weights D4.weights D4S.weights
  simp only [Option.getD_some, e4, e4s]

/-- **C32**: the shape of the coordination numbers is not tested. If the coordination number function returns one value per
atom for a whole batch, these values are used for every system. -/
theorem C32_cn_shared {d : Disp} {numbers : Tensor ℕ} {positions charge : Tensor ℝ} {p : Param} {o : CalcOpts} {n : ℕ}
    {B : Shape} {m : RefModel} (hm : d.getModel env T ext numbers = .ok m) (hs : m.numbers.shape = n :: B) {x : Tensor ℝ}
    (hx : x.Ok [n]) :
    ({ d with cnFn := fun _ _ _ => x } : Disp).calculate env T ext numbers positions charge p o =
      ({ d with cnFn := fun _ _ _ => Spec.everySystem B x } : Disp).calculate env T ext numbers positions charge p o := by
  have hm1 : ({ d with cnFn := fun _ _ _ => x } : Disp).getModel env T ext numbers = .ok m := hm
  have hm2 : ({ d with cnFn := fun _ _ _ => Spec.everySystem B x } : Disp).getModel env T ext numbers = .ok m := hm
  have hw := weights_shared (env := env) (T := T) hs hx.shape
  have ht : ∀ (t : Term) q r4 rv cut, t.calculate env T numbers positions p (Spec.everySystem B x) m q r4 rv cut =
      t.calculate env T numbers positions p x m q r4 rv cut := by
    intro t q r4 rv cut
    unfold Term.calculate Term.c9
    simp only [hw]
  have he : (Spec.everySystem B x).err = none := hx.err
  unfold Disp.calculate sumTerms
  simp only [hm1, hm2, check_ok hx.err, check_ok he, ht, bind, Except.bind, Disp.charges]

theorem D4.dcn_scalar {m : RefModel} {n : ℕ} {B : Shape} (hm : m.numbers.shape = n :: B) (c : ℝ) :
    D4.dcn T m (full (n :: B) c) = D4.dcn T m (scalar c) := by
  have hr : (D4.refcn T m).shape = nref :: n :: B := by simp [D4.refcn, gather1, hm]
  unfold D4.dcn
  change map2 _ _ _ = map2 _ _ _
  unfold map2
  simp only [unsqueeze, full, scalar, hr, insAt_zero, Tensor.mk.injEq]
  exact ⟨by simp [bErr], by simp, trivial⟩

/-- **C32**: with the D4 model a single coordination number is used for all atoms. -/
theorem C32_cn_scalar {d : Disp} {numbers : Tensor ℕ} {positions charge : Tensor ℝ} {p : Param} {o : CalcOpts} {n : ℕ}
    {B : Shape} {m : RefModel} (hm : d.getModel env T ext numbers = .ok m) (hk : m.kind = .d4)
    (hs : m.numbers.shape = n :: B) (c : ℝ) :
    ({ d with cnFn := fun _ _ _ => scalar c } : Disp).calculate env T ext numbers positions charge p o =
      ({ d with cnFn := fun _ _ _ => full (n :: B) c } : Disp).calculate env T ext numbers positions charge p o := by
  have hm1 : ({ d with cnFn := fun _ _ _ => scalar c } : Disp).getModel env T ext numbers = .ok m := hm
  have hm2 : ({ d with cnFn := fun _ _ _ => full (n :: B) c } : Disp).getModel env T ext numbers = .ok m := hm
  have h4 := D4.dcn_scalar (T := T) hs c
  have hw : ∀ q, m.weights env T (some (full (n :: B) c)) q = m.weights env T (some (scalar c)) q := by
    intro q
    simp only [RefModel.weights, hk, D4.weights, Option.getD_some, D4.gw, D4.gwTemp, D4.norm, D4.expw, D4.refcPow1,
      D4.refcPow3, D4.powT, D4.tmp, h4]
  have ht : ∀ (t : Term) q r4 rv cut, t.calculate env T numbers positions p (full (n :: B) c) m q r4 rv cut =
      t.calculate env T numbers positions p (scalar c) m q r4 rv cut := by
    intro t q r4 rv cut
    unfold Term.calculate Term.c9
    simp only [hw]
  have e1 : (scalar c).err = none := rfl
  have e2 : (full (n :: B) c).err = none := rfl
  unfold Disp.calculate sumTerms
  simp only [hm1, hm2, check_ok e1, check_ok e2, ht, bind, Except.bind, Disp.charges]

theorem D4S.weights_scalar (m : RefModel) (c : ℝ) (q : Option (Tensor ℝ)) :
    (D4S.weights env T m (some (scalar c)) q).err ≠ none := by
  have h1 : (D4S.dcn T m (scalar c)).err ≠ none := by
    intro h
    change (map2 (· - ·) (((scalar c).unsqueeze 0).unsqueeze 2) (D4S.refcn T m)).err = none at h
    simp only [map2, orErr_eq_none] at h
    have := h.1.1
    simp [unsqueeze, scalar] at this
  have h2 : (D4S.arg T m (scalar c)).err ≠ none := by
    intro h
    simp only [D4S.arg, einsum, List.foldr_cons, orErr_eq_none] at h
    exact h1 h.2.1
  have h3 : (D4S.tmp env T m (scalar c)).err ≠ none := by
    intro h
    exact h2 (orErr_eq_none.1 (orErr_eq_none.1 (orErr_eq_none.1 h).1).2).1
  have h4 : (D4S.expw env T m (scalar c)).err ≠ none := by
    intro h
    have h5 := (orErr_eq_none.1 (orErr_eq_none.1 (orErr_eq_none.1 h).1).2).1
    have h6 := (orErr_eq_none.1 (orErr_eq_none.1 (orErr_eq_none.1 h5).1).2).2
    exact h3 (orErr_eq_none.1 (orErr_eq_none.1 (orErr_eq_none.1 h6).1).2).2
  have h5 : (D4S.gwTemp env T m (scalar c)).err ≠ none := fun h => h4 (orErr_eq_none.1 (orErr_eq_none.1 h).1).1
  have h6 : (D4S.gw env T m (scalar c)).err ≠ none := fun h => h5 (orErr_eq_none.1 (orErr_eq_none.1 h).1).1
  intro h
  exact h6 (orErr_eq_none.1 (orErr_eq_none.1 h).1).2

/-- **C32**: with the D4S model a single coordination number raises an exception. -/
theorem C32_cn_scalar_d4s {d : Disp} {numbers : Tensor ℕ} {positions charge : Tensor ℝ} {p : Param} {o : CalcOpts}
    {m : RefModel} (hm : d.getModel env T ext numbers = .ok m) (hk : m.kind = .d4s) (ht : d.terms ≠ []) (c : ℝ) :
    ∃ e, ({ d with cnFn := fun _ _ _ => scalar c } : Disp).calculate env T ext numbers positions charge p o = .error e := by
  cases hc : ({ d with cnFn := fun _ _ _ => scalar c } : Disp).calculate env T ext numbers positions charge p o with
  | error e => exact ⟨e, rfl⟩
  | ok e =>
    exfalso
    obtain ⟨m', cnT, q, hm', hcn, -, -, -, hall⟩ := calculate_ok hc
    have hm1 : ({ d with cnFn := fun _ _ _ => scalar c } : Disp).getModel env T ext numbers = .ok m := hm
    obtain rfl : m = m' := Except.ok.inj (hm1.symm.trans hm')
    obtain rfl : scalar c = cnT := hcn
    obtain ⟨t, ts, hts⟩ := List.exists_cons_of_ne_nil ht
    have h := hall t (by rw [hts]; exact List.mem_cons_self)
    have hw : ∀ q, (m.weights env T (some (scalar c)) q).err ≠ none := by
      intro q
      simp only [RefModel.weights, hk]
      exact D4S.weights_scalar m c q
    have h6 : ∀ q, (m.atomicC6 (m.weights env T (some (scalar c)) q)).err ≠ none := by
      intro q h0
      simp only [RefModel.atomicC6, hk, D4S.atomicC6, einsum, List.foldr_cons, orErr_eq_none] at h0
      exact hw q h0.2.1
    have hp : ∀ q, (m.weightedPols env T (m.weights env T (some (scalar c)) q)).err ≠ none := by
      intro q h0
      simp only [RefModel.weightedPols, hk, D4S.weightedPols] at h0
      have h1 := (orErr_eq_none.1 (orErr_eq_none.1 h0).1).1
      simp only [einsum, List.foldr_cons, orErr_eq_none] at h1
      exact hw q h1.1
    have h9 : ∀ t : Term, (t.c9 env T m (scalar c) q).err ≠ none := by
      intro t h0
      have himp : m.kind.implemented = true := by rw [hk]; rfl
      simp only [Term.c9, himp, if_true] at h0
      split at h0
      · have h1 := (orErr_eq_none.1 (orErr_eq_none.1 h0).1).2
        simp only [einsum, List.foldr_cons, orErr_eq_none] at h1
        have h2 := (orErr_eq_none.1 (orErr_eq_none.1 h1.1).1).1
        have h3 := (orErr_eq_none.1 (orErr_eq_none.1 h2).1).1
        exact hp _ (orErr_eq_none.1 (orErr_eq_none.1 h3).1).1
      · have h1 : (ijT _ * ikT _ * jkT _).err = none := h0
        have h2 := (orErr_eq_none.1 (orErr_eq_none.1 h1).1).1
        have h3 := (orErr_eq_none.1 (orErr_eq_none.1 h2).1).1
        exact h6 _ (orErr_eq_none.1 h3).1
    unfold Term.calculate at h
    split at h
    · simp only [dispersion2, after_err, orErr_eq_none] at h
      exact h6 _ (orErr_eq_none.1 (orErr_eq_none.1 h.2.1).1).1
    · split at h
      · exact h9 t (orErr_eq_none.1 h).1
      · exact h9 t (orErr_eq_none.1 h).1

/-- The coordination number function is stored only. -/
theorem new_cnFn {cls : DispClass} {sel : ModelSel} {f g : CNFunc} {ct : Option CountFn} {d : Disp}
    (h : Disp.new ext cls sel none (some f) ct = .ok d) :
    Disp.new ext cls sel none (some g) ct = .ok { d with cnFn := g } := by
  cases sel with
  | key s =>
    by_cases hk : ext.casefold s ∈ cls.allowedModels
    · simp only [Disp.new, hk, if_true, bind, Except.bind, pure, Except.pure, Except.ok.injEq] at h ⊢
      rw [← h]
    · simp [Disp.new, hk, bind, Except.bind] at h
  | inst m =>
    simp only [Disp.new, bind, Except.bind, pure, Except.pure, Except.ok.injEq] at h ⊢
    rw [← h]

/-- **C32** for `dftd4`: values without batch axes returned by the argument `cn_function`. -/
theorem C32_cn_shared_dftd4 {numbers : Tensor ℕ} {positions charge : Tensor ℝ} {p : Param} {o : DftOpts} {n : ℕ}
    {B : Shape} {R : RefCfg} (hk : ext.CasefoldKeys) (hs : o.model.Gives env T ext numbers R n B)
    (hn : numbers.Ok (n :: B)) (hlt : numbers.AllLt T.nZ) (hT : T.Fits) {x : Tensor ℝ} (hx : x.Ok [n]) :
    dftd4 env T ext numbers positions charge p { o with cnFunction := some fun _ _ _ => x } =
      dftd4 env T ext numbers positions charge p { o with cnFunction := some fun _ _ _ => Spec.everySystem B x } := by
  obtain ⟨d, m, h1, -, h3, -, h5, h6⟩ := new_getModel (env := env) (cls := .base) (f := fun _ _ _ => x)
    (counting := some (o.counting.getD ext.erfCount)) hk hs hn hlt hT
  have h2 := new_cnFn (g := fun _ _ _ => Spec.everySystem B x) h1
  unfold dftd4
  simp only [Option.getD_some, h1, h2, bind, Except.bind]
  let d' := (d.register ⟨.twoBody, o.damping, true⟩).register ⟨.d4ATMApprox, .zero, false⟩
  have hm : d'.getModel env T ext numbers = .ok m := h6 d'.terms
  have hd : { d' with cnFn := fun _ _ _ => x } = d' := by
    change ({ d' with cnFn := _ } : Disp) = { d' with cnFn := d.cnFn }
    rw [h3]
  have := C32_cn_shared (positions := positions) (charge := charge) (p := p) (o := o.opts) hm
    (by rw [h5.num]; exact hn.shape) hx
  rw [hd] at this
  exact this

end

namespace Demo

/-- Every atom twofold coordinated. -/
example (cls : DispClass) : ∃ m, (dispOf cls).getModel env T ext numbers = .ok m ∧
    ({ dispOf cls with cnFn := fun _ _ _ => scalar 2 } : Disp).calculate env T ext numbers positions charge paramAll =
      ({ dispOf cls with cnFn := fun _ _ _ => full [3, 2] 2 } : Disp).calculate env T ext numbers positions charge
        paramAll := by
  obtain ⟨m, hm, hf⟩ := (dispOf_runs cls validArgs).model
  exact ⟨m, hm, C32_cn_scalar hm hf.kind (by rw [hf.num]; rfl) 2⟩

/-- Two molecules with the coordination numbers of one. -/
example (cls : DispClass) : ∃ m, (dispOf cls).getModel env T ext numbers = .ok m ∧
    ({ dispOf cls with cnFn := fun _ _ _ => ⟨none, [3], fun i => (i.headD 0 : ℕ)⟩ } : Disp).calculate env T ext numbers
        positions charge paramAll =
      ({ dispOf cls with cnFn := fun _ _ _ => Spec.everySystem [2] ⟨none, [3], fun i => (i.headD 0 : ℕ)⟩ } : Disp).calculate
        env T ext numbers positions charge paramAll := by
  obtain ⟨m, hm, hf⟩ := (dispOf_runs cls validArgs).model
  exact ⟨m, hm, C32_cn_shared hm (by rw [hf.num]; rfl) ⟨rfl, rfl⟩⟩

/-- `dftd4` with the coordination numbers of one molecule for two. -/
example := C32_cn_shared_dftd4 (env := env) (T := T) (ext := ext) (numbers := numbers) (positions := positions)
  (charge := charge) (p := param) (o := {}) (n := 3) (B := [2]) (R := .d4) keys
  (Or.inl ⟨"d4", rfl, keys "d4" (by simp), rfl⟩) validArgs.num validArgs.lt validArgs.fits
  (x := ⟨none, [3], fun i => (i.headD 0 : ℕ)⟩) ⟨rfl, rfl⟩

/-- One number for all atoms with D4S. -/
example (cls : DispClass) (hc : cls ≠ .base) : ∃ d, Disp.new ext cls (.key "d4s") none (some ext.cnD4) = .ok d ∧
    ∃ e, ({ d with cnFn := fun _ _ _ => scalar 2 } : Disp).calculate env T ext numbers positions charge paramAll =
      .error e := by
  obtain ⟨d, m, h1, h2, -, -, h5, h6⟩ := new_getModel (env := env) (cls := cls)
    (sel := .key "d4s") (f := ext.cnD4) (counting := none) (R := .d4s T) keys
    (Or.inr (Or.inl ⟨"d4s", rfl, keys "d4s" (by simp), rfl⟩)) validArgs.num validArgs.lt validArgs.fits
  exact ⟨d, h1, C32_cn_scalar_d4s (h6 d.terms) h5.kind (by rw [h2]; cases cls <;> simp_all [DispClass.terms]) 2⟩

end Demo

end TadDftd4
