import Verif.Data.Checks
import Verif.Lemmas.C6Spec

/-!
# The shipped tables as an instance of `Tables`

The tables `gam`, `zeff` and `vdw` (`tad_mctc.data`) are not part of the repository and remain
parameters.
-/

namespace TadDftd4

/-- The tables of `/repo/src/tad_dftd4/{reference,data}`, with the external ones as parameters. -/
noncomputable def shipped (nExt : ℕ) (gam zeff : ℕ → ℝ) (vdw : ℕ → ℕ → ℝ) : Tables where
  nZ := 104
  refcn Z r := at2 Data.refcn Z r / 10 ^ 14
  refc Z r := at2 Data.refc Z r
  refsys Z r := at2 Data.refsys Z r
  refascale Z r := at2 Data.refascale Z r / 10 ^ 14
  refscount Z r := at2 Data.refscount Z r / 10
  refalpha Z r w := at3 Data.refalpha Z r w / 10 ^ 7
  nSec := 18
  secscale s := at2 Data.secscale s 0 / 10 ^ 7
  secalpha s w := at2 Data.secalpha s w / 10 ^ 7
  eeqQ Z r := at2 Data.eeqQ Z r / 10 ^ 14
  eeqH Z r := at2 Data.eeqH Z r / 10 ^ 14
  nG := 87
  gfnQ Z r := at2 Data.gfnQ Z r / 10 ^ 14
  gfnH Z r := at2 Data.gfnH Z r / 10 ^ 14
  nPair := 119
  wfpair Z Z' := at2 Data.wfpair Z Z' / 10 ^ 9
  nR4 := 119
  -- `data/r4r2.py:83-88`
  r4r2 Z := Real.sqrt (0.5 * (Data.r4OverR2.getD Z 0 / 10 ^ 4 * Real.sqrt Z))
  nExt := nExt
  gam := gam
  zeff := zeff
  vdw := vdw


/-- What is assumed about the external tables: positive hardnesses, effective nuclear charges at least
one (five from boron onwards); true of the tables published with D4. -/
structure ExtTables (nExt : ℕ) (gam zeff : ℕ → ℝ) : Prop where
  len : 104 ≤ nExt
  gam : ∀ Z, 1 ≤ Z → Z < 104 → 0 < gam Z
  zeff : ∀ Z, 1 ≤ Z → Z < 104 → (min Z 5 : ℕ) ≤ zeff Z

variable {nExt : ℕ} {gam zeff : ℕ → ℝ} {vdw : ℕ → ℕ → ℝ}

theorem shipped_fits (h : ExtTables nExt gam zeff) : (shipped nExt gam zeff vdw).Fits where
  ext := h.len
  pair := by simp [shipped]
  r4 := by simp [shipped]
  gfn := by simp [shipped]
  sysSec Z hZ r hr := by
    have := forall_of_all2 Data.check_refs Z hZ r hr
    simp only [Bool.and_eq_true, decide_eq_true_eq] at this
    exact this.1.2
  sysExt Z hZ r hr := by
    have := forall_of_all2 Data.check_refs Z hZ r hr
    simp only [Bool.and_eq_true, decide_eq_true_eq] at this
    have h1 := h.len
    have h2 := this.1.2
    show at2 Data.refsys Z r < nExt
    omega

theorem shipped_refc_pos_Z {Z r : ℕ} (hr : r < nref) (h : 0 < at2 Data.refc Z r) : 1 ≤ Z := by
  rcases Nat.eq_zero_or_pos Z with rfl | h0
  · have := forall_of_all1 Data.check_pad r hr
    simp only [beq_iff_eq] at this
    omega
  · exact h0

/-- Reference charges do not exceed the effective nuclear charge. -/
theorem shipped_qref_pos (h : ExtTables nExt gam zeff) {rq : String} (hrq : knownCharges rq) {Z r : ℕ}
    (h1 : 1 ≤ Z) (hZ : Z < 104) (hr : r < nref) :
    0 < refqAt (shipped nExt gam zeff vdw) rq Z r + zeff Z := by
  have hz := h.zeff Z h1 hZ
  have hZ1 : (1 : ℝ) ≤ zeff Z := le_trans (by exact_mod_cast (by omega : 1 ≤ min Z 5)) hz
  rcases hrq with rfl | rfl
  · have hq := forall_of_all2 Data.check_eeqQ Z hZ r hr
    simp only [decide_eq_true_eq] at hq
    have hq' : (-10 ^ 14 : ℝ) < at2 Data.eeqQ Z r := by exact_mod_cast hq
    show 0 < ((at2 Data.eeqQ Z r : ℤ) : ℝ) / 10 ^ 14 + zeff Z
    linarith
  · show 0 < ((at2 Data.gfnQ Z r : ℤ) : ℝ) / 10 ^ 14 + zeff Z
    by_cases hg : Z < 87
    · have hq := forall_of_all2 Data.check_gfnQ Z hg r hr
      simp only [Bool.and_eq_true, Bool.or_eq_true, decide_eq_true_eq] at hq
      obtain ⟨ha, hb | hb⟩ := hq
      · have : min Z 5 = 5 := by omega
        rw [this] at hz
        have hq' : (-5 * 10 ^ 14 : ℝ) < at2 Data.gfnQ Z r := by exact_mod_cast ha
        push_cast at hz
        linarith
      · have hq' : (-10 ^ 14 : ℝ) < at2 Data.gfnQ Z r := by exact_mod_cast hb
        linarith
    · have h0 : at2 Data.gfnQ Z r = 0 := by
        have hl : Data.gfnQ.length = 87 := by decide +kernel
        unfold at2
        simp [List.getD_eq_getElem?_getD, List.getElem?_eq_none (show Data.gfnQ.length ≤ Z by omega)]
      rw [h0]
      norm_num
      linarith

theorem shipped_physical (h : ExtTables nExt gam zeff) {rq : String} (hrq : knownCharges rq) :
    (shipped nExt gam zeff vdw).Physical rq where
  refc Z hZ r hr := by
    have := forall_of_all2 Data.check_refs Z hZ r hr
    simp only [Bool.and_eq_true, Bool.or_eq_true, beq_iff_eq] at this
    show at2 Data.refc Z r = 0 ∨ at2 Data.refc Z r = 1 ∨ at2 Data.refc Z r = 3
    tauto
  gam Z hZ r hr hc := h.gam Z (shipped_refc_pos_Z hr hc) hZ
  qref Z hZ r hr hc := shipped_qref_pos h hrq (shipped_refc_pos_Z hr hc) hZ hr
  gamSec Z hZ r hr hc := by
    have := forall_of_all2 Data.check_refs Z hZ r hr
    simp only [Bool.and_eq_true, decide_eq_true_eq] at this
    exact h.gam _ hc (lt_trans this.1.2 (by norm_num))
  zeffSec Z hZ r hr hc := by
    have := forall_of_all2 Data.check_refs Z hZ r hr
    simp only [Bool.and_eq_true, decide_eq_true_eq] at this
    have hz := h.zeff _ hc (lt_trans this.1.2 (by norm_num))
    refine lt_of_lt_of_le ?_ hz
    have hc' : 0 < at2 Data.refsys Z r := hc
    exact_mod_cast (by omega : 0 < min (at2 Data.refsys Z r) 5)

end TadDftd4
