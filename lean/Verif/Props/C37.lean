import Verif.Props.C33
import Verif.Lemmas.C6Pos
import Verif.Props.C35

/-!
# C37: `get_properties` is consistent with `dftd4`
-/

set_option linter.unusedSimpArgs false

open scoped Classical

namespace TadDftd4

open Tensor

/-- The default counting function of `tad_mctc.ncoord.cn_d4` is `erf_count`: omitting the argument, as
`get_properties` does, is the same as passing it, as `dftd4` does. -/
def Ext.DefaultCounting (ext : Ext) : Prop :=
  ∀ numbers positions, ext.cnD4 numbers positions none =
    ext.cnD4 numbers positions (some ext.erfCount)

section
variable {env : Env} {T : Tables} {ext : Ext} {numbers : Tensor ℕ} {positions charge : Tensor ℝ}
  {p : Param} {n : ℕ} {B : Shape} {cn : Spec.CN} {eeq : Spec.EEQ} {P : Spec.D4Par}
  {cutoff : Option Cutoff}

/-- What a calculation depends on. -/
theorem calculate_same {d d' : Disp} {o o' : CalcOpts} (ht : d.terms = d'.terms)
    (hm : d.getModel env T ext numbers = d'.getModel env T ext numbers)
    (ho : ({ o with q := none } : CalcOpts) = { o' with q := none })
    (hc : d.cnFn numbers positions d.counting = d'.cnFn numbers positions d'.counting)
    (hq : d.charges ext numbers positions charge (o.cutoff.getD {}) o.q =
      d'.charges ext numbers positions charge (o'.cutoff.getD {}) o'.q) :
    d.calculate env T ext numbers positions charge p o =
      d'.calculate env T ext numbers positions charge p o' := by
  obtain ⟨c, q, rc, r4, rv⟩ := o
  obtain ⟨c', q', rc', r4', rv'⟩ := o'
  simp only [CalcOpts.mk.injEq] at ho
  obtain ⟨rfl, -, rfl, rfl, rfl⟩ := ho
  unfold Disp.calculate
  simp only [hm, hc, hq, ht]

/-- `get_properties` raises nothing for valid input; values of its results. -/
theorem properties_eval (hv : ValidArgs T numbers positions charge {} n B)
    (hcn : CNFunc.PerSystem ext.cnD4 none T.nZ cn) (heeq : ext.EEQPerSystem T.nZ eeq) :
    ∃ c q c6 α, getProperties env T ext numbers positions (some charge) cutoff = .ok (c, q, c6, α) ∧
      c = ext.cnD4 numbers positions none ∧
      q = ext.eeq numbers positions charge (cutoff.getD {}).cnEeq ∧
      c.Ok (n :: B) ∧ q.Ok (n :: B) ∧ c6.Ok (n :: n :: B) ∧ α.Ok (n :: B) ∧
      (∀ b i j, InB B b → i < n → j < n → c6.get (j :: i :: b) =
        c6At env T .d4 ⟨numbers.get (i :: b), c.get (i :: b), q.get (i :: b)⟩
          ⟨numbers.get (j :: b), c.get (j :: b), q.get (j :: b)⟩) ∧
      ∀ b i, InB B b → i < n → α.get (i :: b) =
        polAt env T .d4 ⟨numbers.get (i :: b), c.get (i :: b), q.get (i :: b)⟩ 0 := by
  obtain ⟨hc, -⟩ := hcn n B numbers positions hv.num hv.lt hv.pos
  obtain ⟨hq, -⟩ := heeq n B numbers positions charge (cutoff.getD {}).cnEeq hv.num hv.lt hv.pos
    hv.charge
  set c := ext.cnD4 numbers positions none with hcd
  set q := ext.eeq numbers positions charge (cutoff.getD {}).cnEeq with hqd
  set m := mkModel env T .d4 numbers with hmd
  have hm : m.IsFor env T numbers .d4 n B := mkModel_isFor_d4 hv.num hv.lt hv.fits
  have hco : D4.OptIs (some c) n B c.get := Or.inr ⟨c, rfl, hc, rfl⟩
  have hqo : D4.OptIs (some q) n B q.get := Or.inr ⟨q, rfl, hq, rfl⟩
  obtain ⟨h6, g6⟩ := model_c6_eval (env := env) hm hco hqo
  have hwf : m.wf = scalar 6 := rfl
  have hw : (m.weights env T (some c) (some q)).Ok (nref :: n :: B) := by
    have : m.weights env T (some c) (some q) = D4.weights env T m (some c) (some q) := rfl
    rw [this]; exact D4.weights_ok hm.good hwf hco hqo
  have hα := polarizabilities_ok (env := env) hm.good hw
  refine ⟨c, q, m.atomicC6 (m.weights env T (some c) (some q)),
    polarizabilities env T m (m.weights env T (some c) (some q)), ?_, rfl, rfl, hc, hq, h6, hα, g6, ?_⟩
  · simp only [getProperties, Option.getD_some, ← hcd, ← hqd, check_ok hc.err, check_ok hq.err,
      buildModel_d4 hv.num hv.lt hv.fits, ← hmd, check_ok hw.err, check_ok h6.err, check_ok hα.err,
      bind, Except.bind, pure, Except.pure]
  · intro b i hb hi
    rw [polarizabilities_get hm.good hw hb hi]
    have : m.weights env T (some c) (some q) = D4.weights env T m (some c) (some q) := rfl
    unfold polAt polOf
    refine Finset.sum_congr rfl fun r hr => ?_
    simp only [this]
    rw [D4.weights_get hm.good hwf hco hqo hb hi (Finset.mem_range.1 hr)]
    rfl

/-- `get_properties` raises nothing for valid input and returns one coordination number, one charge
and one polarizability per atom and one C6 coefficient per pair. -/
theorem C37_shapes (hv : ValidArgs T numbers positions charge {} n B)
    (hcn : CNFunc.PerSystem ext.cnD4 none T.nZ cn) (heeq : ext.EEQPerSystem T.nZ eeq) :
    ∃ c q c6 α, getProperties env T ext numbers positions (some charge) cutoff = .ok (c, q, c6, α) ∧
      c.Ok (n :: B) ∧ q.Ok (n :: B) ∧ c6.Ok (n :: n :: B) ∧ α.Ok (n :: B) := by
  obtain ⟨c, q, c6, α, h, -, -, h1, h2, h3, h4, -⟩ :=
    properties_eval (env := env) (cutoff := cutoff) hv hcn heeq
  exact ⟨c, q, c6, α, h, h1, h2, h3, h4⟩

/-- For all arguments, valid or not: `dftd4` with its defaults does the same as `dftd4` given the
coordination numbers and charges returned by `get_properties`. -/
theorem C37_cn_q (hdef : ext.DefaultCounting) {c q c6 α : Tensor ℝ}
    (h : getProperties env T ext numbers positions (some charge) cutoff = .ok (c, q, c6, α))
    (model : ModelSel) (damping : Damping) (p : Param) :
    dftd4 env T ext numbers positions charge p
        { model := model, damping := damping, opts := { cutoff := cutoff } } =
      dftd4 env T ext numbers positions charge p
        { model := model, damping := damping, opts := { cutoff := cutoff, q := some q },
          cnFunction := some fun _ _ _ => c } := by
  unfold getProperties at h
  simp only [bind_eq_ok, check_eq_ok, Option.getD_some] at h
  obtain ⟨c', ⟨hc, rfl⟩, q', ⟨hq, rfl⟩, m, hm, w, ⟨hw, rfl⟩, c6', ⟨h6, rfl⟩, α', ⟨hα, rfl⟩, hr⟩ := h
  cases hr
  have hcd := hdef numbers positions
  have hnew : ∀ f g : CNFunc, ∀ ct, (∃ d, Disp.new ext .base model none (some f) ct = .ok d ∧
      Disp.new ext .base model none (some g) ct = .ok { d with cnFn := g } ∧ d.cnFn = f ∧
        d.counting = ct) ∨
      ∃ e, Disp.new ext .base model none (some f) ct = .error e ∧
        Disp.new ext .base model none (some g) ct = .error e := by
    intro f g ct
    unfold Disp.new
    cases model with
    | key s =>
      by_cases hs : ext.casefold s ∈ DispClass.base.allowedModels
      · exact Or.inl ⟨_, by simp [hs, bind, Except.bind, pure, Except.pure]; rfl,
          by simp [hs, bind, Except.bind, pure, Except.pure], rfl, rfl⟩
      · exact Or.inr ⟨.value, by simp [hs, bind, Except.bind], by simp [hs, bind, Except.bind]⟩
    | inst m =>
      exact Or.inl ⟨_, by simp [bind, Except.bind, pure, Except.pure]; rfl,
        by simp [bind, Except.bind, pure, Except.pure], rfl, rfl⟩
  unfold dftd4
  simp only [Option.getD_none, Option.getD_some]
  rcases hnew ext.cnD4 (fun _ _ _ => ext.cnD4 numbers positions none) (some ext.erfCount) with
    ⟨d, h1, h2, h3, h4⟩ | ⟨e, h1, h2⟩
  · rw [h1, h2]
    simp only [bind, Except.bind, Disp.register]
    refine calculate_same rfl rfl rfl ?_ ?_
    · rw [h3, h4, hcd]
    · simp [Disp.charges, check_ok hq, bind, Except.bind]
  · rw [h1, h2]
    rfl

/-- Without three-body term, the energies of `dftd4` with default settings are the damped pair sums
of the C6 coefficients returned by `get_properties`. -/
theorem C37_c6 (hdef : ext.DefaultCounting) (hk : ext.CasefoldKeys)
    (hv : ValidArgs T numbers positions charge {} n B)
    (hcn : CNFunc.PerSystem ext.cnD4 none T.nZ cn) (heeq : ext.EEQPerSystem T.nZ eeq)
    (hp : p.Reads P) (hs9 : P.s9 = 0) (hcut : 0 ≤ (cutoff.getD {}).disp3) :
    ∃ c q c6 α e,
      getProperties env T ext numbers positions (some charge) cutoff = .ok (c, q, c6, α) ∧
      dftd4 env T ext numbers positions charge p { opts := { cutoff := cutoff } } = .ok e ∧
      ∀ b, InB B b → ∀ i : Fin n, e.get (i.1 :: b) = -(1 / 2) * ∑ j : Fin n,
        (let r := √(max (dist (coords positions n b i) (coords positions n b j) ^ 2) env.eps)
         let qq := 3 * T.r4r2 (numbers.get (i.1 :: b)) * T.r4r2 (numbers.get (j.1 :: b))
         let R0 := P.a1 * √qq + P.a2
         let C6 := c6.get (j.1 :: i.1 :: b)
         if numbers.get (i.1 :: b) ≠ 0 ∧ numbers.get (j.1 :: b) ≠ 0 ∧ i ≠ j ∧
             r ≤ (cutoff.getD {}).disp2 then
           P.s6 * (C6 / (r ^ 6 + R0 ^ 6)) + P.s8 * (C6 * qq / (r ^ 8 + R0 ^ 8)) +
             P.s10 * (49 / 40 * C6 * qq ^ 2 / (r ^ 10 + R0 ^ 10))
         else 0) := by
  obtain ⟨c, q, c6, α, h, hce, hqe, hc, hq, h6, -, g6, -⟩ :=
    properties_eval (env := env) (cutoff := cutoff) hv hcn heeq
  have hcn' : CNFunc.PerSystem ext.cnD4 (some ext.erfCount) T.nZ cn := by
    intro n B numbers positions h1 h2 h3
    rw [← hdef]
    exact hcn n B numbers positions h1 h2 h3
  have hcall : Call env T ext numbers positions charge p { opts := { cutoff := cutoff } } n B .d4 cn
      eeq P :=
    { keys := hk
      args := ⟨hv.num, hv.pos, hv.lt, hv.fits, hv.charge, by simp, by simp, by simp, by simp⟩
      model := Or.inl ⟨"d4", rfl, hk "d4" (by simp), rfl⟩
      cn := hcn'
      eeq := heeq
      damping := rfl
      par := hp
      cut3 := hcut }
  obtain ⟨e, he, -, ge⟩ := hcall.eval
  refine ⟨c, q, c6, α, e, h, he, fun b hb i => ?_⟩
  rw [ge b hb i]
  have h3 : ∀ C Rr, Spec.e3 (d4Computed env T .d4 P (cutoff.getD {}))
      (system T cn eeq numbers positions charge { cutoff := cutoff } n b) C Rr i = 0 := by
    intro C Rr
    unfold Spec.e3
    rw [Finset.sum_eq_zero, mul_zero]
    intro j _
    refine Finset.sum_eq_zero fun k _ => ?_
    split_ifs
    · simp [Spec.tripleTerm, d4Computed, Spec.d4Settings, hs9]
    · rfl
  unfold Spec.energy
  rw [h3, add_zero]
  unfold Spec.e2
  refine congrArg _ (Finset.sum_congr rfl fun j _ => ?_)
  refine if_congr Iff.rfl ?_ rfl
  have hcg : ∀ i : Fin n, c.get (i.1 :: b) = cn n (elements numbers n b) (coords positions n b) i := by
    intro i
    rw [hce]
    exact (hcn n B numbers positions hv.num hv.lt hv.pos).2 b hb i
  have hqg : ∀ i : Fin n, q.get (i.1 :: b) = eeq n (cutoff.getD {}).cnEeq (elements numbers n b)
      (coords positions n b) (charge.get b) i := by
    intro i
    rw [hqe]
    exact (heeq n B numbers positions charge _ hv.num hv.lt hv.pos hv.charge).2 b hb i
  have h6e : c6.get (j.1 :: i.1 :: b) = c6At env T .d4
      ((system T cn eeq numbers positions charge { cutoff := cutoff } n b).atom i)
      ((system T cn eeq numbers positions charge { cutoff := cutoff } n b).atom j) := by
    rw [g6 b i j hb i.2 j.2, hcg, hcg, hqg, hqg]
    rfl
  rw [h6e]
  simp only [Spec.pairTerm, Spec.rad, d4Computed, Spec.d4Settings]
  have hQ : ∀ i : Fin n, (system T cn eeq numbers positions charge { cutoff := cutoff } n b).Q i =
      T.r4r2 (numbers.get (i.1 :: b)) := fun _ => rfl
  rw [hQ, hQ]
  simp only [Spec.Mol.r, Spec.rsqrt, system]
  ring

/-- Polarizabilities are non-negative. -/
theorem C37_polarizabilities (hv : ValidArgs T numbers positions charge {} n B)
    (hcn : CNFunc.PerSystem ext.cnD4 none T.nZ cn) (heeq : ext.EEQPerSystem T.nZ eeq)
    {c q c6 α : Tensor ℝ}
    (h : getProperties env T ext numbers positions (some charge) cutoff = .ok (c, q, c6, α)) {b : Idx}
    {i : ℕ} (hb : InB B b) (hi : i < n) :
    0 ≤ α.get (i :: b) ∧
    ((∀ r < nref, T.refc 0 r = 0) → numbers.get (i :: b) = 0 → α.get (i :: b) = 0) ∧
    (env.fl = id → T.Physical "eeq" → T.Polarizable env .d4 (numbers.get (i :: b)) →
      0 < α.get (i :: b)) := by
  obtain ⟨c', q', c6', α', h', -, -, -, -, -, -, -, g⟩ :=
    properties_eval (env := env) (cutoff := cutoff) hv hcn heeq
  rw [h] at h'
  cases h'
  rw [g b i hb hi]
  refine ⟨polOf_nonneg (wtAt_nonneg _ _) _, fun h0 hz => ?_, fun hfl hT hpol => ?_⟩
  · unfold polAt polOf
    refine Finset.sum_eq_zero fun r hr => ?_
    have : wtAt env T .d4 ⟨numbers.get (i :: b), c.get (i :: b), q.get (i :: b)⟩ 0 r = 0 := by
      simp [wtAt, wtOf, zetaAt, hz, h0 r (Finset.mem_range.1 hr)]
    rw [this, zero_mul]
  · refine polOf_pos (A := ⟨numbers.get (i :: b), c.get (i :: b), q.get (i :: b)⟩) hfl hT ?_ ?_ hpol 0
    · norm_num [RefCfg.d4]
    · exact hv.lt _ (by rw [hv.num.shape]; exact ⟨hi, hb⟩)

end

/-- The demo coordination number ignores the counting function. -/
theorem Demo.defaultCounting : Demo.ext.DefaultCounting := fun _ _ => rfl

/-- The C6 coefficients of water and HF (a batch) are the ones `dftd4` uses. -/
example : ∃ c q c6 α e,
    getProperties Demo.env Demo.T Demo.ext Demo.numbers Demo.positions (some Demo.charge) none =
      .ok (c, q, c6, α) ∧
    dftd4 Demo.env Demo.T Demo.ext Demo.numbers Demo.positions Demo.charge
      { Demo.param with s9 := .val 0 } = .ok e ∧ c6.shape = [3, 3, 2] := by
  have hr : Param.Reads { Demo.param with s9 := .val 0 } { Demo.par with s9 := 0 } := by
    have := Demo.reads
    exact ⟨this.extra, this.a1, this.a2, this.s8, this.s6, this.s10, Or.inl rfl, this.alp⟩
  obtain ⟨c, q, c6, α, e, h1, h2, -⟩ := C37_c6 (env := Demo.env) (cutoff := none)
    Demo.defaultCounting Demo.keys Demo.validArgs (Demo.call.cn) Demo.call.eeq hr rfl
    (by norm_num [Defaults.disp3Cutoff])
  obtain ⟨c', q', c6', α', h1', -, -, h6, -⟩ := C37_shapes (env := Demo.env) (cutoff := none)
    Demo.validArgs Demo.call.cn Demo.call.eeq
  rw [h1] at h1'
  cases h1'
  exact ⟨c, q, c6, α, e, h1, h2, h6.shape⟩

example : ∃ c q c6 α,
    getProperties Demo.env Demo.T Demo.ext Demo.numbers Demo.positions (some Demo.charge) none =
      .ok (c, q, c6, α) ∧
    dftd4 Demo.env Demo.T Demo.ext Demo.numbers Demo.positions Demo.charge Demo.param
        { opts := { cutoff := none } } =
      dftd4 Demo.env Demo.T Demo.ext Demo.numbers Demo.positions Demo.charge Demo.param
        { opts := { cutoff := none, q := some q }, cnFunction := some fun _ _ _ => c } ∧
    0 < α.get [0, 0] ∧ α.get [2, 1] = 0 := by
  obtain ⟨c, q, c6, α, h, -⟩ := C37_shapes (env := Demo.env) (cutoff := none)
    Demo.validArgs Demo.call.cn Demo.call.eeq
  have hp := fun (b : Idx) (i : ℕ) (hb : InB [2] b) (hi : i < 3) =>
    C37_polarizabilities Demo.validArgs Demo.call.cn Demo.call.eeq h hb hi
  refine ⟨c, q, c6, α, h, C37_cn_q Demo.defaultCounting h _ _ _, ?_, ?_⟩
  · exact (hp [0] 0 (by simp [InB]) (by norm_num)).2.2 rfl Demo.physical
      (shipped_polarizable (by decide) (by decide) (by decide))
  · refine (hp [1] 2 (by simp [InB]) (by norm_num)).2.1 (fun r hr => ?_) rfl
    show at2 Data.refc 0 r = 0
    have h : r < 7 := hr
    interval_cases r <;> rfl

end TadDftd4
