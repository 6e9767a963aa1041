import Verif.Lemmas.Runs
import Verif.Props.C02
import Verif.Props.C03
import Verif.Props.C05
import Verif.Props.C04
import Verif.Props.C13

/-!
# C02-C06 for `Disp` objects of any class with any list of terms

The theorems of C02-C06 about `dftd4` with rational damping, for `Disp.calculate` of every class
(`DispD4`, `DispD4Exact`, `DispD3BJ`, `DispD3Zero`, or with registered terms), every damping function
and the exact three-body term.
-/

set_option linter.unusedSimpArgs false

open scoped Classical

namespace TadDftd4

open Tensor

section
variable {env : Env} {T : Tables} {ext : Ext} {d d' : Disp} {numbers numbers' : Tensor ℕ}
  {positions positions' charge charge' : Tensor ℝ} {p : Param} {o o' : CalcOpts} {n m k : ℕ}
  {B B' : Shape} {R : RefCfg} {cn : Spec.CN} {eeq : Spec.EEQ}

/-- Relabelling the atoms of a system relabels its energies and leaves their sum unchanged. -/
theorem C02_any_disp (h : d.Runs env T ext numbers positions charge p o n B R cn eeq)
    (h' : d.Runs env T ext numbers' positions' charge' p o' n B R cn eeq)
    (hcn : cn.Equivariant) (heeq : eeq.Equivariant) (hcut : o'.cutoff = o.cutoff) :
    ∃ e e', d.calculate env T ext numbers positions charge p o = .ok e ∧
      d.calculate env T ext numbers' positions' charge' p o' = .ok e' ∧
      ∀ b, InB B b → ∀ π : Equiv.Perm (Fin n),
        Relabelled π b numbers numbers' positions positions' charge charge' o o' →
        (∀ i : Fin n, e'.get (i.1 :: b) = e.get ((π i).1 :: b)) ∧
        ∑ i ∈ Finset.range n, e'.get (i :: b) = ∑ i ∈ Finset.range n, e.get (i :: b) := by
  obtain ⟨S, hS⟩ := h.settings
  obtain ⟨e, h1, -, h3⟩ := h.eval hS
  obtain ⟨e', h1', -, h3'⟩ := h'.eval (by rw [hcut]; exact hS)
  refine ⟨e, e', h1, h1', fun b hb π hπ => ?_⟩
  have key : ∀ i : Fin n, e'.get (i.1 :: b) = e.get ((π i).1 :: b) := by
    intro i
    rw [h3' b hb i, h3 b hb (π i), system_relabelled hcn heeq hπ]
    congr 1
    exact List.map_congr_left fun t _ =>
      Term.energy_comap π.injective (fun j hj => absurd (π.surjective j) hj) i
  refine ⟨key, ?_⟩
  rw [← Fin.sum_univ_eq_sum_range (fun i => e'.get (i :: b)),
    ← Fin.sum_univ_eq_sum_range (fun i => e.get (i :: b))]
  simp_rw [key]
  exact Equiv.sum_comp π (fun i : Fin n => e.get (i.1 :: b))

/-- Moving system `b` by any isometry of space leaves all its energies unchanged. -/
theorem C03_any_disp (h : d.Runs env T ext numbers positions charge p o n B R cn eeq)
    (hpos : positions'.Ok (3 :: n :: B)) (hcn : cn.Invariant) (heeq : eeq.Invariant) :
    ∃ e e', d.calculate env T ext numbers positions charge p o = .ok e ∧
      d.calculate env T ext numbers positions' charge p o = .ok e' ∧
      ∀ b, InB B b → ∀ g : Spec.E3 ≃ᵢ Spec.E3,
        (∀ i, coords positions' n b i = g (coords positions n b i)) →
        ∀ i : Fin n, e'.get (i.1 :: b) = e.get (i.1 :: b) := by
  have h' : d.Runs env T ext numbers positions' charge p o n B R cn eeq :=
    { h with args := { h.args with pos := hpos } }
  obtain ⟨S, hS⟩ := h.settings
  obtain ⟨e, h1, -, h3⟩ := h.eval hS
  obtain ⟨e', h1', -, h3'⟩ := h'.eval hS
  refine ⟨e, e', h1, h1', fun b hb g hg i => ?_⟩
  have hc : coords positions' n b = fun k => g (coords positions n b k) := by funext k; exact hg k
  rw [h3' b hb i, h3 b hb i]
  congr 1
  refine List.map_congr_left fun t _ => Term.energy_congr_pos ?_ ?_ ?_ ?_ ?_ ?_ i
  · rfl
  · funext j
    show cn n _ (coords positions' n b) j = cn n _ (coords positions n b) j
    rw [hc]; exact hcn n g _ _ j
  · funext j
    show (match o.q with
      | some q => q.get (j.1 :: b)
      | none => eeq n _ _ (coords positions' n b) _ j) = (match o.q with
      | some q => q.get (j.1 :: b)
      | none => eeq n _ _ (coords positions n b) _ j)
    cases o.q with
    | some x => rfl
    | none => simp only []; rw [hc]; exact heeq n g _ _ _ _ j
  · rfl
  · rfl
  · intro j k
    show dist (coords positions' n b j) (coords positions' n b k) = _
    rw [hg, hg, g.dist_eq]
    rfl

/-- A system packed into any place of a batch with padding atoms has the energies it has elsewhere
without padding (for example alone), and the padding atoms have none. -/
theorem C04_any_disp (h : d.Runs env T ext numbers positions charge p o (m + k) B R cn eeq)
    (h' : d.Runs env T ext numbers' positions' charge' p o' m B' R cn eeq)
    (hcn : cn.IgnoresPadding) (heeq : eeq.IgnoresPadding) (hcut : o.cutoff = o'.cutoff) :
    ∃ e e', d.calculate env T ext numbers positions charge p o = .ok e ∧
      d.calculate env T ext numbers' positions' charge' p o' = .ok e' ∧
      ∀ b b', InB B b → InB B' b' →
        Padded m k b b' numbers numbers' positions positions' charge charge' o o' →
        (∀ i < m, e.get (i :: b) = e'.get (i :: b')) ∧
        ∀ i, m ≤ i → i < m + k → e.get (i :: b) = 0 := by
  obtain ⟨S, hS⟩ := h.settings
  obtain ⟨e, h1, -, h3⟩ := h.eval hS
  obtain ⟨e', h1', -, h3'⟩ := h'.eval (by rw [← hcut]; exact hS)
  refine ⟨e, e', h1, h1', fun b b' hb hb' hpad => ⟨fun i hi => ?_, fun i hm hi => ?_⟩⟩
  · have a := h3 b hb (Fin.castAdd k ⟨i, hi⟩)
    have a' := h3' b' hb' ⟨i, hi⟩
    simp only [Fin.val_castAdd] at a
    rw [a, a', system_padded hcn heeq hpad]
    congr 1
    refine List.map_congr_left fun t _ =>
      (Term.energy_comap (Fin.castAdd_injective m k) (fun j hj => ?_) _).symm
    refine Or.inl (hpad.pad j.1 ?_ j.2)
    by_contra hlt
    exact hj ⟨⟨j.1, by omega⟩, by ext; rfl⟩
  · rw [h3 b hb ⟨i, hi⟩]
    refine List.sum_eq_zero fun x hx => ?_
    obtain ⟨t, -, rfl⟩ := List.mem_map.1 hx
    exact Term.energy_pad (hpad.pad i hm hi)

/-- The energies of a system depend only on its own entry of the batch. -/
theorem C05_any_disp (h : d.Runs env T ext numbers positions charge p o n B R cn eeq)
    (h' : d.Runs env T ext numbers' positions' charge' p o' n B' R cn eeq)
    (hcut : o.cutoff = o'.cutoff) :
    ∃ e e', d.calculate env T ext numbers positions charge p o = .ok e ∧
      d.calculate env T ext numbers' positions' charge' p o' = .ok e' ∧
      ∀ b b', InB B b → InB B' b' →
        SameEntry n b b' numbers numbers' positions positions' charge charge' o o' →
        ∀ i < n, e.get (i :: b) = e'.get (i :: b') := by
  obtain ⟨S, hS⟩ := h.settings
  obtain ⟨e, h1, -, h3⟩ := h.eval hS
  obtain ⟨e', h1', -, h3'⟩ := h'.eval (by rw [← hcut]; exact hS)
  refine ⟨e, e', h1, h1', fun b b' hb hb' hs i hi => ?_⟩
  rw [h3 b hb ⟨i, hi⟩, h3' b' hb' ⟨i, hi⟩, system_sameEntry hs]

/-- Nothing is raised and there is one energy per atom of every system. -/
theorem C06_any_disp (h : d.Runs env T ext numbers positions charge p o n B R cn eeq) :
    ∃ e, d.calculate env T ext numbers positions charge p o = .ok e ∧ e.err = none ∧
      e.shape = numbers.shape := by
  obtain ⟨S, hS⟩ := h.settings
  obtain ⟨e, h1, h2, -⟩ := h.eval hS
  exact ⟨e, h1, h2.err, by rw [h2.shape, h.args.num.shape]⟩

/-- The energies of a fragment farther from the rest than the cutoffs are those of a calculation of
the fragment alone, if coordination numbers, charges and radii of its atoms are the same in both. -/
theorem C13_any_disp (h : d.Runs env T ext numbers positions charge p o n B R cn eeq)
    (h' : d.Runs env T ext numbers' positions' charge' p o' m B' R cn eeq)
    (hcut : o.cutoff = o'.cutoff) {b b' : Idx} (hb : InB B b) (hb' : InB B' b')
    (F : Fin m → Fin n) (hF : Function.Injective F)
    (hsame : system T cn eeq numbers' positions' charge' o' m b' =
      (system T cn eeq numbers positions charge o n b).comap F)
    (hfar : ∀ i k, k ∉ Set.range F → numbers.get ((F i).1 :: b) ≠ 0 → numbers.get (k.1 :: b) ≠ 0 →
      ((∃ t ∈ d.terms, t.cls = .twoBody) →
        (o.cutoff.getD {}).disp2 < dist (coords positions n b (F i)) (coords positions n b k)) ∧
      ((∃ t ∈ d.terms, t.cls ≠ .twoBody) →
        (o.cutoff.getD {}).disp3 < dist (coords positions n b (F i)) (coords positions n b k))) :
    ∃ e e', d.calculate env T ext numbers positions charge p o = .ok e ∧
      d.calculate env T ext numbers' positions' charge' p o' = .ok e' ∧
      ∀ i : Fin m, e.get ((F i).1 :: b) = e'.get (i.1 :: b') := by
  obtain ⟨S, hS⟩ := h.settings
  obtain ⟨e, h1, -, h3⟩ := h.eval hS
  obtain ⟨e', h1', -, h3'⟩ := h'.eval (by rw [← hcut]; exact hS)
  refine ⟨e, e', h1, h1', fun i => ?_⟩
  rw [h3 b hb (F i), h3' b' hb' i, hsame]
  congr 1
  refine List.map_congr_left fun t ht => (Term.energy_comap hF (fun j hj => ?_) i).symm
  by_cases hz : numbers.get (j.1 :: b) = 0
  · exact Or.inl hz
  refine Or.inr fun i hi => ?_
  have hle : dist (coords positions n b (F i)) (coords positions n b j) ≤
      (system T cn eeq numbers positions charge o n b).r (S t).ε (F i) j := by
    unfold Spec.Mol.r Spec.rsqrt
    refine (Real.sqrt_sq dist_nonneg).symm.le.trans (Real.sqrt_le_sqrt (le_max_left _ _))
  constructor
  · intro hc
    rw [((hS t ht).two hc).2]
    exact ((hfar i j hj hi hz).1 ⟨t, ht, hc⟩).trans_le hle
  · intro hc
    rw [((hS t ht).three hc).2.1]
    exact ((hfar i j hj hi hz).2 ⟨t, ht, hc⟩).trans_le hle

end

namespace Demo

/-- The four classes, with the D4 model. -/
noncomputable def dispOf (cls : DispClass) : Disp :=
  { terms := cls.terms, cnFn := ext.cnD4, counting := none, model := .key "d4", modelKw := {} }

theorem dispOf_new (cls : DispClass) : Disp.new ext cls (.key "d4") = .ok (dispOf cls) := by
  have hk := keys "d4" (by simp)
  simp [Disp.new, hk, DispClass.allowedModels, bind, Except.bind, defaultCN, dispOf,
    show hasChar "d4" '3' = false by decide +kernel, show hasChar "d4" '4' = true by decide +kernel]
  rfl

/-- Parameters for all of them. -/
noncomputable def paramAll : Param where
  a1 := .val 0.4
  a2 := .val 5
  s8 := .val 1.2
  rs6 := .val 1.2
  rs8 := .val 1
  alp := .val 14

theorem dispOf_runs (cls : DispClass) {numbers : Tensor ℕ} {positions charge : Tensor ℝ} {n : ℕ}
    {B : Shape} (hv : ValidArgs T numbers positions charge {} n B) :
    (dispOf cls).Runs env T ext numbers positions charge paramAll {} n B .d4 cn eeq where
  args := hv
  model := by
    obtain ⟨d, m, h1, h2, h3, h4, h5, h6⟩ := new_getModel (env := env) (cls := cls)
      (sel := .key "d4") (f := ext.cnD4) (counting := none) (R := .d4) keys
      (Or.inl ⟨"d4", rfl, keys "d4" (by simp), rfl⟩) hv.num hv.lt hv.fits
    refine ⟨m, ?_, h5⟩
    have hk := keys "d4" (by simp)
    have : d = dispOf cls := by
      simp [Disp.new, hk, DispClass.allowedModels, bind, Except.bind, pure, Except.pure] at h1
      rw [← h1]; rfl
    rw [← this]
    exact h6 d.terms
  cn := CNFunc.ofSpec_perSystem _ _ _
  eeq _ := eeqOfSpec_perSystem eeq rfl _
  q := Or.inl rfl
  par t ht := by
    have h3 : (0 : ℝ) ≤ ((({} : CalcOpts).cutoff).getD {}).disp3 := by
      norm_num [Defaults.disp3Cutoff]
    have hr : Damping.Usable env .rational paramAll := by
      constructor <;> simp [Damping.point, Damping.required, Damping.pointF, Param.kw, PVal.kw,
        paramAll]
    have hz : Damping.Usable env .zero paramAll := by
      constructor <;> simp [Damping.point, Damping.required, Damping.pointF, Param.kw, PVal.kw,
        paramAll]
    have ht' : t ∈ cls.terms := ht
    cases cls <;> simp only [DispClass.terms, List.mem_cons, List.not_mem_nil, or_false] at ht'
    all_goals
      rcases ht' with rfl | rfl <;>
      exact ⟨fun _ => by first | exact hr | exact hz | simp_all, by simp, by simp [paramAll],
        by simp [paramAll], fun _ => h3, by simp [paramAll], by simp [paramAll],
        by simp [paramAll], fun _ => rfl⟩

theorem validArgsHF : ValidArgs T numbersHF positionsHF chargeHF {} 2 [] := callHF.args

end Demo

/-- Hydrogen fluoride padded in a batch with water has the energies it has alone, for all classes. -/
example (cls : DispClass) : ∃ e e',
    (Demo.dispOf cls).calculate Demo.env Demo.T Demo.ext Demo.numbers Demo.positions Demo.charge
      Demo.paramAll {} = .ok e ∧
    (Demo.dispOf cls).calculate Demo.env Demo.T Demo.ext Demo.numbersHF Demo.positionsHF
      Demo.chargeHF Demo.paramAll {} = .ok e' ∧ e.get [0, 1] = e'.get [0] ∧ e.get [2, 1] = 0 := by
  obtain ⟨e, e', h1, h2, h3⟩ := C04_any_disp (m := 2) (k := 1) (Demo.dispOf_runs cls Demo.validArgs)
    (Demo.dispOf_runs cls Demo.validArgsHF) Demo.cn_ignoresPadding Demo.eeq_ignoresPadding rfl
  have := h3 [1] [] (by simp [InB]) trivial Demo.padded
  exact ⟨e, e', h1, h2, this.1 0 (by norm_num), this.2 2 le_rfl (by norm_num)⟩

/-- The other theorems of this file, for the same two batches. -/
example (cls : DispClass) := C02_any_disp (Demo.dispOf_runs cls Demo.validArgs)
  (Demo.dispOf_runs cls Demo.callSwap.args) Demo.cn_equivariant Demo.eeq_equivariant rfl

example (cls : DispClass) := C03_any_disp (positions' := full [3, 3, 2] 1)
  (Demo.dispOf_runs cls Demo.validArgs) ⟨rfl, rfl⟩ Demo.cn_invariant Demo.eeq_invariant

example (cls : DispClass) := C05_any_disp (Demo.dispOf_runs cls Demo.validArgs)
  (Demo.dispOf_runs cls Demo.callSwap.args) rfl

example (cls : DispClass) := C06_any_disp (Demo.dispOf_runs cls Demo.validArgs)

/-- A hydrogen molecule 100 Bohr from an atom and next to padding, with a coordination number that has a cutoff. -/
example (cls : DispClass) := by
  have runs : ∀ (n : ℕ) (num : Tensor ℕ) (pos : Tensor ℝ), num.Ok [n] → pos.Ok [3, n] →
      (∀ i, num.get i ≤ 1) →
      Disp.Runs Demo.env Demo.T Demo.extCut { Demo.dispOf cls with cnFn := Demo.extCut.cnD4 } num pos
        Demo.neutral Demo.paramAll {} n [] .d4 Demo.cnCut Demo.eeq := by
    intro n num pos hn hp h1
    have h := Demo.dispOf_runs cls (Demo.callCut num pos hn hp h1).args
    exact { h with cn := CNFunc.ofSpec_perSystem _ _ _, eeq := fun _ => eeqOfSpec_perSystem _ rfl _ }
  exact C13_any_disp (runs 4 Demo.pairNum Demo.pairPos ⟨rfl, rfl⟩ ⟨rfl, rfl⟩ Demo.pairNum_le)
    (runs 2 Demo.dimer Demo.onePos ⟨rfl, rfl⟩ ⟨rfl, rfl⟩ fun _ => le_rfl) rfl InB_nil InB_nil
    (Fin.natAdd 2) (fun _ _ h => Fin.natAdd_inj _ |>.1 h) Demo.pair_system (fun i k hk _ h0 => by
      have hk : k.1 < 2 := by
        by_contra h
        exact hk ⟨⟨k.1 - 2, by omega⟩, by ext; simp; omega⟩
      have := Demo.pair_dist (i := Fin.natAdd 2 i) (by simp) hk h0
      refine ⟨fun _ => ?_, fun _ => ?_⟩
      · show (60 : ℝ) < _
        exact this
      · show (40 : ℝ) < _
        linarith)

/-- `C32_sum` for `DispD4`: both terms can be evaluated. -/
example : ∃ m e, Demo.dispD4.calculate Demo.env Demo.T Demo.ext Demo.numbers Demo.positions
    Demo.charge Demo.paramAll {} = .ok e ∧ e.get [1, 0] = (Demo.dispD4.terms.map fun t =>
      (termEnergy Demo.env Demo.T Demo.ext Demo.dispD4 Demo.numbers Demo.positions Demo.charge
        Demo.paramAll {} m t).get [1, 0]).sum := by
  obtain ⟨m, hm⟩ := Demo.ready {} (by simp) (by simp)
  refine ⟨m, ?_⟩
  have hs : Spec.ShapesAgree Demo.numbers Demo.positions {} := ⟨rfl, by simp, by simp, by simp⟩
  suffices h : ∀ t ∈ Demo.dispD4.terms, (termEnergy Demo.env Demo.T Demo.ext Demo.dispD4 Demo.numbers
      Demo.positions Demo.charge Demo.paramAll {} m t).Ok [3, 2] by
    obtain ⟨e, h1, -, h2⟩ := (C32_sum (p := Demo.paramAll) hm fun _ _ => h).2.2 hs (by simp) (by simp)
    exact ⟨e, h1, h2 [1, 0] (by simp [InB])⟩
  intro t ht
  have h := Demo.dispOf_runs .d4 Demo.validArgs
  obtain ⟨m', h1, h2⟩ := h.model
  have e : m = m' := by
    have := hm.model.symm.trans h1
    exact Except.ok.inj this
  subst e
  obtain ⟨S, hS⟩ := (h.par t ht).settings (T := Demo.T)
  have hin : TermInput Demo.env Demo.T Demo.numbers Demo.positions m .d4
      (getR4R2 Demo.T Demo.numbers) (getRvdw Demo.T Demo.numbers) 3 [2] :=
    ⟨Demo.validArgs.num, Demo.validArgs.pos, h2, getR4R2_ok Demo.validArgs,
      getPair_ok Demo.validArgs.num (AllLt.mono Demo.validArgs.lt Demo.fits.ext)⟩
  have hc := (h.cn 3 [2] Demo.numbers Demo.positions Demo.validArgs.num Demo.validArgs.lt
    Demo.validArgs.pos).1
  have hq : D4.OptIs (Spec.chargesUsed Demo.ext Demo.dispD4 Demo.numbers Demo.positions Demo.charge
      {}) 3 [2] (Demo.ext.eeq Demo.numbers Demo.positions Demo.charge
        ((({} : CalcOpts).cutoff).getD {}).cnEeq).get := by
    refine Or.inr ⟨_, ?_, hm.eeq ⟨⟨.twoBody, .rational, true⟩, by simp [Demo.dispD4, DispClass.terms],
      rfl⟩ rfl, rfl⟩
    simp only [Spec.chargesUsed]
    rw [if_pos ⟨⟨.twoBody, .rational, true⟩, by simp [Demo.dispD4, DispClass.terms], rfl⟩]
  exact (term_eval hin (Or.inr ⟨_, rfl, hc, rfl⟩) hq hS).1

end TadDftd4
