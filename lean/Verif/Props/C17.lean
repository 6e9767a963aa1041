import Verif.Props.C16
import Verif.Data.Shipped

/-!
# C17, D4S: weighted polarizabilities

For D4S `get_weighted_pols` contracts the wrong atom axis: the result is the mean over all atoms,
the same for every row. The Casimir-Polder property is false of the code.
-/

set_option linter.unusedSimpArgs false

open scoped Classical

namespace TadDftd4

open Tensor

section
variable {env : Env} {T : Tables} {m : RefModel} {n : ℕ} {gw : Tensor ℝ}

/-- Number of real atoms. -/
noncomputable def realCount (numbers : Tensor ℕ) (n : ℕ) : ℝ :=
  ∑ i ∈ Finset.range n, if numbers.get [i] ≠ 0 then (1 : ℝ) else 0

theorem natT_ok (h : m.numbers.Ok [n]) : (D4S.natT m.numbers).Ok [1] ∧
    (D4S.natT m.numbers).get [0] = realCount m.numbers n := by
  have hs : ((realAtoms m.numbers).map (fun p => if p then (1 : ℝ) else 0)).shape = [n] := by
    simp [h.shape]
  refine ⟨⟨by simp [D4S.natT, h.err], by rw [D4S.natT, sumLastKeep_shape hs]⟩, ?_⟩
  rw [D4S.natT, sumLastKeep_get hs]
  exact Finset.sum_congr rfl fun i _ => ite_iff Iff.rfl rfl rfl

/-- What the code computes for a single system: row `k` is the mean over all atoms `i` of the
polarizability of `i` with the weights for partner `k`. -/
theorem C17_d4s_mean_partial (h : m.Good T n []) (hg : gw.Ok [nref, n, n]) :
    (D4S.weightedPols env T m gw).Ok [nfreq, n] ∧ ∀ k w, k < n → w < nfreq →
      (D4S.weightedPols env T m gw).get [w, k] =
        (∑ i ∈ Finset.range n, polOf env T m.ga m.gc m.refCharges (m.numbers.get [i])
          (fun r => gw.get [r, i, k]) w) / realCount m.numbers n := by
  have ha := getAlpha_ok (env := env) (ga := m.ga) (gc := m.gc) h.num h.fits h.known h.lim
  obtain ⟨hn1, hn2⟩ := natT_ok h.num
  have hin : (einsum [⟨[Lbl.r, Lbl.n, Lbl.m], true, gw⟩, ⟨[Lbl.w, Lbl.r, Lbl.n], true,
      getAlpha env T m.numbers m.ga m.gc m.refCharges⟩] [Lbl.w, Lbl.m]).Ok [nfreq, n] := by
    constructor <;>
    simp [einsum, Operand.dims, Operand.rankOk, Operand.batch, ha.err, ha.shape, hg.err, hg.shape,
      lblOk, lblDim, bcompats, bshapes]
  refine ⟨⟨by simp [D4S.weightedPols, hin.err, hin.shape, hn1.err, hn1.shape],
    by simp [D4S.weightedPols, hin.shape, hn1.shape]⟩, fun k w hk hw => ?_⟩
  simp only [D4S.weightedPols, div_get, hin.shape, hn1.shape, pick_cons_lt hw, pick_cons_lt hk,
    pick_one, pick_of_InB (show InB [nfreq, n] [w, k] from ⟨hw, hk, InB_nil⟩)]
  rw [show pick [] [k] = [] from rfl, hn2]
  congr 1
  simp [einsum, Operand.dims, Operand.rankOk, Operand.batch, ha.shape, hg.shape, lblDim, contracted,
    sumOver, lblSet, bindOut, polOf]
  rw [Finset.sum_comm]
  refine Finset.sum_congr rfl fun i hi => Finset.sum_congr rfl fun r hr => ?_
  have hi := Finset.mem_range.1 hi
  have hr := Finset.mem_range.1 hr
  simp [pick_cons_lt hi, pick_cons_lt hr, pick_cons_lt hk, pick_cons_lt hw,
    getAlpha_get h.num h.fits h.known h.lim InB_nil hi hr hw]

/-- In a batch of `k` systems of `n` atoms, `n ≠ k` and both at least 2, the division by the number
of atoms is a broadcasting error. -/
theorem C17_d4s_batch_error {k : ℕ} (h : m.Good T n [k]) (hg : gw.Ok [nref, n, n, k]) (hn : 2 ≤ n)
    (hk : 2 ≤ k) (hne : n ≠ k) : (D4S.weightedPols env T m gw).err = some .runtime := by
  have ha := getAlpha_ok (env := env) (ga := m.ga) (gc := m.gc) h.num h.fits h.known h.lim
  have hs : ((realAtoms m.numbers).map (fun p => if p then (1 : ℝ) else 0)).shape = [n, k] := by
    simp [h.shape]
  have hn1 : (D4S.natT m.numbers).Ok [1, k] :=
    ⟨by simp [D4S.natT, h.num.err], by rw [D4S.natT, sumLastKeep_shape hs]⟩
  have hin : (einsum [⟨[Lbl.r, Lbl.n, Lbl.m], true, gw⟩, ⟨[Lbl.w, Lbl.r, Lbl.n], true,
      getAlpha env T m.numbers m.ga m.gc m.refCharges⟩] [Lbl.w, Lbl.m]).Ok [nfreq, n, k] := by
    constructor <;>
    simp [einsum, Operand.dims, Operand.rankOk, Operand.batch, ha.err, ha.shape, hg.err, hg.shape,
      lblOk, lblDim, bcompats, bshapes]
  have h1 : n ≠ 1 := by omega
  have h2 : k ≠ 1 := by omega
  simp [D4S.weightedPols, hin.err, hin.shape, hn1.err, hn1.shape, bErr, bcompat, dimOk, hne, h1, h2]

/-- `get_polarizabilities` of D4S for a single system returns a matrix, not one value per atom. -/
theorem C17_d4s_static_shape (h : m.Good T n []) (hg : gw.Ok [nref, n, n]) :
    (polarizabilities env T m gw).Ok [n, n] := by
  have ha := getAlpha_ok (env := env) (ga := m.ga) (gc := m.gc) h.num h.fits h.known h.lim
  constructor <;>
  simp [polarizabilities, selectLast, einsum, Operand.dims, Operand.rankOk, Operand.batch, ha.err,
    ha.shape, hg.err, hg.shape, lblOk, lblDim, bcompats, bshapes]

end

/-! ## The full statement is false -/

/-- For D4S with constant weighting factors, integrating the weighted polarizabilities gives the C6
coefficients of the model. -/
def D4SCasimirPolder (env : Env) (T : Tables) : Prop :=
  ∀ (numbers : Tensor ℕ) (n : ℕ) (w : ℝ), numbers.Ok [n] → numbers.AllLt T.nZ →
    let m := mkModel env T .d4s numbers gaDefault gcDefault (some (full [n, n] w))
    let gw := D4S.weights env T m none none
    ∀ i < n, ∀ j < n,
      (trapzdNoref (D4S.weightedPols env T m gw) (some (D4S.weightedPols env T m gw))).get [j, i] =
        (D4S.atomicC6 m gw).get [j, i]

/-- Helium and a padding atom. -/
def heNumbers : Tensor ℕ := ⟨none, [2], fun i => if i = [0] then 2 else 0⟩

/-- For the shipped tables the statement fails already for a padded helium atom: the padding atom gets
the polarizability of helium. -/
theorem C17_d4s_false {env : Env} {nExt : ℕ} {gam zeff : ℕ → ℝ} {vdw : ℕ → ℕ → ℝ}
    (hE : ExtTables nExt gam zeff) : ¬ D4SCasimirPolder env (shipped nExt gam zeff vdw) := by
  intro hall
  set T := shipped nExt gam zeff vdw with hT
  have hlt : heNumbers.AllLt T.nZ := by
    intro i _
    show (if i = [0] then 2 else 0) < 104
    split_ifs <;> norm_num
  have key := hall heNumbers 2 6 ⟨rfl, rfl⟩ hlt
  set m := mkModel env T .d4s heNumbers gaDefault gcDefault (some (full [2, 2] 6)) with hm
  have hgood : m.Good T 2 [] := ⟨⟨rfl, rfl⟩, shipped_fits hE, Or.inl rfl, hlt⟩
  have hwf : m.wf.Ok [2, 2] := ⟨rfl, rfl⟩
  set gw := D4S.weights env T m none none with hgw
  have hg : gw.Ok [nref, 2, 2] := D4S.weights_ok hgood hwf (Or.inl ⟨rfl, rfl⟩) (Or.inl ⟨rfl, rfl⟩)
  have hr : m.DefaultRC6 env T := rfl
  have key := key 1 (by norm_num) 1 (by norm_num)
  obtain ⟨hp, hpg⟩ := C17_d4s_mean_partial (env := env) hgood hg
  rw [trapzdNoref_get (e := []) hp hp InB_nil (by norm_num) (by norm_num),
    D4S.c6_integral (e := []) hr hgood hg InB_nil (by norm_num) (by norm_num)] at key
  -- weights of the padding atom vanish
  have hzero : ∀ r < nref, gw.get [r, 1, 1] = 0 := by
    intro r hr
    rw [hgw, D4S.weights_get (b := []) hgood hwf (Or.inl ⟨rfl, rfl⟩) (Or.inl ⟨rfl, rfl⟩) InB_nil
      (by norm_num) (by norm_num) hr]
    have : T.refc (m.numbers.get [1]) r = 0 := shipped_hasTop.pad r hr
    simp [wtOf, zetaAt, this]
  have hpol0 : ∀ w, polOf env T m.ga m.gc m.refCharges (m.numbers.get [1])
      (fun r => gw.get [r, 1, 1]) w = 0 := fun w =>
    Finset.sum_eq_zero fun r hr => by
      beta_reduce
      rw [hzero r (Finset.mem_range.1 hr), zero_mul]
  rw [Finset.sum_eq_zero (s := Finset.range nfreq) (f := fun w => trapzWeights.getD w 0 *
    (polOf env T m.ga m.gc m.refCharges (m.numbers.get [1]) (fun r => gw.get [r, 1, 1]) w *
    polOf env T m.ga m.gc m.refCharges (m.numbers.get [1]) (fun r => gw.get [r, 1, 1]) w))
    (fun w _ => by rw [hpol0, mul_zero, mul_zero]), mul_zero] at key
  -- the weighted polarizability of the padding row is positive
  have hcount : realCount m.numbers 2 = 1 := by
    simp [realCount, Finset.sum_range_succ, hm, mkModel, heNumbers]
  have hrow : ∀ w < nfreq, 0 < (D4S.weightedPols env T m gw).get [w, 1] := by
    intro w hw
    rw [hpg 1 w (by norm_num) hw, hcount, div_one, Finset.sum_range_succ, Finset.sum_range_one,
      hpol0, add_zero]
    have hnum : m.numbers.get [0] = 2 := rfl
    unfold polOf
    rw [hnum]
    refine lt_of_lt_of_le ?_ (Finset.single_le_sum (f := fun r => gw.get [r, 0, 1] *
      alphaAt env T m.ga m.gc m.refCharges 2 r w) (fun r hr => mul_nonneg ?_
      (alphaAt_nonneg _ _ _ _ _ _)) (Finset.mem_range.2 (show 0 < nref by norm_num)))
    · refine mul_pos ?_ ?_
      · rw [hgw, D4S.weights_get (b := []) hgood hwf (Or.inl ⟨rfl, rfl⟩) (Or.inl ⟨rfl, rfl⟩) InB_nil
          (by norm_num) (by norm_num) (by norm_num), hnum]
        have hpos : 0 < T.refc 2 0 := by
          show 0 < at2 Data.refc 2 0
          decide +kernel
        have hpart := gwOf_partition (env := env) (T := T) (Z := 2)
          (E := expwD4S env T (m.wf.get [1, 0]) 2 ((fun _ => 0 : Idx → ℝ) [0]))
          (Classical.choose_spec (shipped_hasTop.top 2 (by norm_num) (show 2 < 104 by norm_num)))
          (fun r => expwD4S_nonneg _ _ _ _) (fun r => expwD4S_missing)
        have hsum := hpart.1.sum
        rw [Finset.sum_eq_single_of_mem 0 (Finset.mem_range.2 (by norm_num))] at hsum
        · unfold wtOf
          rw [hsum, mul_one, zetaAt, if_pos hpos]
          have hP : T.Physical m.refCharges := shipped_physical hE (Or.inl rfl)
          have hgc : 0 < m.gc := by show (0 : ℝ) < 2; norm_num
          rw [zetaF_spec (mul_pos (hP.gam 2 (show 2 < 104 by norm_num) 0 (by norm_num) hpos)
            hgc) (hP.qref 2 (show 2 < 104 by norm_num) 0 (by norm_num)
            hpos)]
          show 0 < Spec.zeta _ _ _ _ _
          unfold Spec.zeta
          split_ifs <;> exact Real.exp_pos _
        · intro r hr hr0
          refine hpart.1.missing r (Finset.mem_range.1 hr) ?_
          have hr7 : r < 7 := Finset.mem_range.1 hr
          show at2 Data.refc 2 r = 0
          interval_cases r <;> first | exact absurd rfl hr0 | decide +kernel
      · have h1 : T.refscount 2 0 = 0 := by
          show ((at2 Data.refscount 2 0 : ℕ) : ℝ) / 10 = 0
          have : at2 Data.refscount 2 0 = 0 := by decide +kernel
          rw [this]; norm_num
        have h2 : T.refascale 2 0 = 1 := by
          show ((at2 Data.refascale 2 0 : ℕ) : ℝ) / 10 ^ 14 = 1
          have : at2 Data.refascale 2 0 = 10 ^ 14 := by decide +kernel
          rw [this]; norm_num
        have h3 : 0 < T.refalpha 2 0 w := by
          show 0 < ((at3 Data.refalpha 2 0 w : ℕ) : ℝ) / 10 ^ 7
          have h4 : (List.range 23).all (fun w => decide (0 < at3 Data.refalpha 2 0 w)) = true := by
            decide +kernel
          have : 0 < at3 Data.refalpha 2 0 w := by simpa using forall_of_all1 h4 w hw
          positivity
        unfold alphaAt
        rw [h1, h2, zero_mul, sub_zero, one_mul]
        exact lt_max_of_lt_right h3
    · exact (C16_weights_nonneg (e := []) hgood (Or.inl ⟨rfl, rfl⟩) (Or.inl ⟨rfl, rfl⟩) InB_nil
        (by norm_num) (by norm_num) (Finset.mem_range.1 hr)).2 hwf
  have hlast : 0 < thopi * ∑ w ∈ Finset.range nfreq, trapzWeights.getD w 0 *
      ((D4S.weightedPols env T m gw).get [w, 1] * (D4S.weightedPols env T m gw).get [w, 1]) := by
    refine mul_pos thopi_pos (Finset.sum_pos (fun w hw => ?_) ⟨0, by simp⟩)
    have hw := Finset.mem_range.1 hw
    exact mul_pos (trapzWeights_pos hw) (mul_pos (hrow w hw) (hrow w hw))
  exact hlast.ne' key

/-! ## Cases of the theorems -/

namespace Demo

/-- Water in the D4S model. -/
def water : Tensor ℕ := ⟨none, [3], fun
  | [0] => 8
  | _ => 1⟩

noncomputable def waterS : RefModel := mkModel env T .d4s water

theorem waterS_good : waterS.Good T 3 [] :=
  ⟨⟨rfl, rfl⟩, fits, Or.inl rfl, fun i _ => by
    show water.get i < 104
    unfold water
    dsimp only
    split <;> norm_num⟩

theorem waterS_weights : (D4S.weights env T waterS none none).Ok [nref, 3, 3] :=
  D4S.weights_ok waterS_good (getPair_ok (n := 3) (B := []) ⟨rfl, rfl⟩
    (AllLt.mono waterS_good.lt fits.pair)) (Or.inl ⟨rfl, rfl⟩) (Or.inl ⟨rfl, rfl⟩)

end Demo

example := C17_d4s_mean_partial (env := Demo.env) Demo.waterS_good Demo.waterS_weights
example := C17_d4s_static_shape (env := Demo.env) Demo.waterS_good Demo.waterS_weights

/-- A batch of two systems of three atoms. -/
example : (D4S.weightedPols Demo.env Demo.T Demo.modelS (full [nref, 3, 3, 2] 1)).err =
    some .runtime :=
  C17_d4s_batch_error (n := 3) (k := 2) Demo.modelS_good ⟨rfl, rfl⟩ (by norm_num) (by norm_num)
    (by norm_num)

end TadDftd4
