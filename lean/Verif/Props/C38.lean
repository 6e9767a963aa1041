import Verif.Lemmas.C6Pos
import Verif.Props.C14

/-!
# C38: reference tables are consistent
-/

set_option linter.unusedSimpArgs false

open scoped Classical

namespace TadDftd4

open Tensor

/-- Consistency of the reference tables: `nZ - 1` elements with up to `nref` references. -/
structure Spec.TablesConsistent (T : Tables) : Prop where
  /-- the number of references is between one and seven -/
  count : ∀ Z, 1 ≤ Z → Z < T.nZ →
    1 ≤ ((Finset.range 7).filter fun r => T.refc Z r ≠ 0).card ∧
    ((Finset.range 7).filter fun r => T.refc Z r ≠ 0).card ≤ 7
  /-- each reference has one or three Gaussians -/
  gaussians : ∀ Z < T.nZ, ∀ r < 7, T.refc Z r ≠ 0 → T.refc Z r = 1 ∨ T.refc Z r = 3
  /-- reference systems are rows of the secondary tables, row 0 exactly for missing references -/
  system : ∀ Z < T.nZ, ∀ r < 7, T.refsys Z r < T.nSec ∧ (T.refsys Z r = 0 ↔ T.refc Z r = 0)
  /-- missing references are zero in all tables -/
  missing : ∀ Z < T.nZ, ∀ r < 7, T.refc Z r = 0 → T.refcn Z r = 0 ∧ T.refascale Z r = 0 ∧
    T.refscount Z r = 0 ∧ (∀ w < 23, T.refalpha Z r w = 0) ∧ T.eeqQ Z r = 0 ∧ T.eeqH Z r = 0 ∧
    (Z < T.nG → T.gfnQ Z r = 0 ∧ T.gfnH Z r = 0)
  /-- existing references have positive polarizabilities and scaling factors, also of the reference
  system (the scaling factor of reference system 2 is zero) -/
  present : ∀ Z < T.nZ, ∀ r < 7, T.refc Z r ≠ 0 → 0 ≤ T.refcn Z r ∧ 0 < T.refascale Z r ∧
    T.refascale Z r ≤ 1 ∧ 0 ≤ T.refscount Z r ∧ (∀ w < 23, 0 < T.refalpha Z r w) ∧
    (T.refsys Z r = 2 ∨ 0 < T.secscale (T.refsys Z r)) ∧ ∀ w < 23, 0 < T.secalpha (T.refsys Z r) w
  /-- exactly one reference has the largest reference coordination number -/
  top : ∀ Z, 1 ≤ Z → Z < T.nZ → ∃! r, r < 7 ∧ T.refc Z r ≠ 0 ∧ ∀ s < 7, T.refcn Z s ≤ T.refcn Z r
  /-- the references of an element have different coordination numbers -/
  distinct : ∀ Z < T.nZ, ∀ r < 7, ∀ s < 7, T.refc Z r ≠ 0 → T.refc Z s ≠ 0 →
    T.refcn Z r = T.refcn Z s → r = s
  /-- padding has no references -/
  padding : ∀ r < 7, T.refc 0 r = 0
  /-- pairwise weighting factors -/
  pairs : ∀ Z < T.nPair, ∀ Z' < T.nPair, T.wfpair Z Z' = T.wfpair Z' Z ∧
    (1 ≤ Z → 1 ≤ Z' → 0 < T.wfpair Z Z')
  /-- expectation values -/
  r4r2 : T.r4r2 0 = 0 ∧ ∀ Z, 1 ≤ Z → Z < T.nR4 → 0 < T.r4r2 Z

namespace Data

theorem check_missing : (List.range 104).all (fun Z => (List.range 7).all fun r =>
    !(at2 refc Z r == 0) || (at2 refcn Z r == 0 && at2 refascale Z r == 0 && at2 refscount Z r == 0 &&
      at2 eeqQ Z r == 0 && at2 eeqH Z r == 0)) = true := by decide +kernel

theorem check_missing_gfn : (List.range 87).all (fun Z => (List.range 7).all fun r =>
    !(at2 refc Z r == 0) || (at2 gfnQ Z r == 0 && at2 gfnH Z r == 0)) = true := by decide +kernel

theorem check_sec : (List.range 104).all (fun Z => (List.range 7).all fun r =>
    at2 refc Z r == 0 || ((at2 refsys Z r == 2 || decide (0 < at2 secscale (at2 refsys Z r) 0)) &&
      (List.range 23).all fun w => decide (0 < at2 secalpha (at2 refsys Z r) w))) = true := by
  decide +kernel

end Data

section
variable {nExt : ℕ} {gam zeff : ℕ → ℝ} {vdw : ℕ → ℕ → ℝ}

theorem all_range {N : ℕ} {p : ℕ → Bool} : (List.range N).all p = true ↔ ∀ i < N, p i = true := by
  simp [List.all_eq_true]

theorem getD_mem_tail {α : Type} {l : List α} (d : α) {i : ℕ} (h1 : 1 ≤ i) (h2 : i < l.length) :
    l.getD i d ∈ l.tail := by
  obtain ⟨j, rfl⟩ : ∃ j, i = j + 1 := ⟨i - 1, by omega⟩
  cases l with
  | nil => simp at h2
  | cons a l =>
    have h3 : j < l.length := by simpa using h2
    rw [List.getD_cons_succ, List.tail_cons, List.getD_eq_getElem?_getD,
      List.getElem?_eq_getElem h3, Option.getD_some]
    exact List.getElem_mem h3

/-- The shipped tables are consistent. -/
theorem C38_consistent : Spec.TablesConsistent (shipped nExt gam zeff vdw) where
  count Z h1 h2 := by
    have h := forall_of_all1 Data.check_first (Z - 1) (by have : Z < 104 := h2; omega)
    have e : Z - 1 + 1 = Z := by omega
    simp only [e, decide_eq_true_eq] at h
    refine ⟨Finset.card_pos.2 ⟨0, ?_⟩, (Finset.card_filter_le _ _).trans (by simp)⟩
    simp only [Finset.mem_filter, Finset.mem_range]
    exact ⟨by norm_num, h.ne'⟩
  gaussians Z hZ r hr h := by
    have := forall_of_all2 Data.check_refs Z hZ r hr
    simp only [Bool.and_eq_true, Bool.or_eq_true, beq_iff_eq] at this
    exact (this.1.1.imp_left fun x => x.resolve_left h)
  system Z hZ r hr := by
    have := forall_of_all2 Data.check_refs Z hZ r hr
    simp only [Bool.and_eq_true, decide_eq_true_eq] at this
    refine ⟨this.1.2, ?_⟩
    have h2 := this.2
    show at2 Data.refsys Z r = 0 ↔ at2 Data.refc Z r = 0
    by_cases hc : at2 Data.refc Z r = 0 <;> by_cases hs : at2 Data.refsys Z r = 0 <;> simp_all
  missing Z hZ r hr h := by
    have h0 : at2 Data.refc Z r = 0 := h
    have h1 := forall_of_all2 Data.check_missing Z hZ r hr
    have ha := forall_of_all2 Data.check_alpha Z hZ r hr
    simp only [h0, beq_self_eq_true, Bool.not_true, Bool.false_or, Bool.and_eq_true, beq_iff_eq,
      if_true, all_range] at h1 ha
    obtain ⟨⟨⟨⟨e1, e2⟩, e3⟩, e4⟩, e5⟩ := h1
    refine ⟨?_, ?_, ?_, fun w hw => ?_, ?_, ?_, fun hG => ?_⟩
    · simp [shipped, e1]
    · simp [shipped, e2]
    · simp [shipped, e3]
    · simp [shipped, ha w hw]
    · simp [shipped, e4]
    · simp [shipped, e5]
    · have h2 := forall_of_all2 Data.check_missing_gfn Z hG r hr
      simp only [h0, beq_self_eq_true, Bool.not_true, Bool.false_or, Bool.and_eq_true, beq_iff_eq] at h2
      exact ⟨by simp [shipped, h2.1], by simp [shipped, h2.2]⟩
  present Z hZ r hr h := by
    have h0 : at2 Data.refc Z r ≠ 0 := h
    have hf : (at2 Data.refc Z r == 0) = false := by simpa using h0
    have ha := forall_of_all2 Data.check_alpha Z hZ r hr
    have hs := forall_of_all2 Data.check_ascale Z hZ r hr
    have h2 := forall_of_all2 Data.check_sec Z hZ r hr
    simp only [hf, Bool.false_or, Bool.and_eq_true, decide_eq_true_eq, Nat.ble_eq, all_range,
      Bool.false_eq_true, if_false, Bool.or_eq_true, beq_iff_eq] at ha hs h2
    refine ⟨?_, ?_, ?_, ?_, fun w hw => ?_, ?_, fun w hw => ?_⟩
    · simp only [shipped]; positivity
    · have : (0 : ℝ) < (at2 Data.refascale Z r : ℕ) := by exact_mod_cast hs.2
      simp only [shipped]; positivity
    · have : ((at2 Data.refascale Z r : ℕ) : ℝ) ≤ 10 ^ 14 := by exact_mod_cast hs.1
      simp only [shipped]
      rw [div_le_one (by positivity)]
      exact this
    · simp only [shipped]; positivity
    · have : (0 : ℝ) < (at3 Data.refalpha Z r w : ℕ) := by exact_mod_cast ha w hw
      simp only [shipped]; positivity
    · refine h2.1.imp id fun h => ?_
      have : (0 : ℝ) < (at2 Data.secscale (at2 Data.refsys Z r) 0 : ℕ) := by exact_mod_cast h
      simp only [shipped]; positivity
    · have : (0 : ℝ) < (at2 Data.secalpha (at2 Data.refsys Z r) w : ℕ) := by exact_mod_cast h2.2 w hw
      simp only [shipped]; positivity
  top Z h1 h2 := by
    have h := forall_of_all1 Data.check_top (Z - 1) (by have : Z < 104 := h2; omega)
    have e : Z - 1 + 1 = Z := by omega
    simp only [e, beq_iff_eq, List.length_eq_one_iff] at h
    obtain ⟨r, hr⟩ := h
    have key : ∀ s, (s < 7 ∧ (shipped nExt gam zeff vdw).refc Z s ≠ 0 ∧
        ∀ t < 7, (shipped nExt gam zeff vdw).refcn Z t ≤ (shipped nExt gam zeff vdw).refcn Z s) ↔
        s = r := by
      intro s
      have hm : s ∈ (List.range 7).filter (fun r => Data.isTop Z r && !(at2 Data.refc Z r == 0)) ↔
          s = r := by rw [hr]; simp
      rw [← hm]
      simp only [List.mem_filter, List.mem_range, Bool.and_eq_true, Data.isTop, all_range, Nat.ble_eq,
        Bool.not_eq_true', beq_eq_false_iff_ne]
      have hle : ∀ t, (shipped nExt gam zeff vdw).refcn Z t ≤ (shipped nExt gam zeff vdw).refcn Z s ↔
          at2 Data.refcn Z t ≤ at2 Data.refcn Z s := by
        intro t
        simp only [shipped]
        rw [div_le_div_iff_of_pos_right (by positivity)]
        exact_mod_cast Iff.rfl
      simp only [hle]
      exact ⟨fun ⟨a, b, c⟩ => ⟨a, c, b⟩, fun ⟨a, c, b⟩ => ⟨a, b, c⟩⟩
    exact ⟨r, (key r).2 rfl, fun s hs => (key s).1 hs⟩
  distinct Z hZ r hr s hs h1 h2 heq := by
    have h := forall_of_all1 (forall_of_all2 Data.check_distinct Z hZ r hr) s hs
    have h1' : at2 Data.refc Z r ≠ 0 := h1
    have h2' : at2 Data.refc Z s ≠ 0 := h2
    have e : at2 Data.refcn Z r = at2 Data.refcn Z s := by
      simp only [shipped] at heq
      rw [div_left_inj' (by positivity)] at heq
      exact_mod_cast heq
    simpa [h1', h2', e] using h
  padding r hr := by
    have := forall_of_all1 Data.check_pad r hr
    exact beq_iff_eq.1 this
  pairs Z hZ Z' hZ' := by
    refine ⟨?_, fun h1 h2 => ?_⟩
    · simp only [shipped, Data.sym_of_symAux Data.check_wf_sym hZ Z']
    · have hZ1 : Z < 119 := hZ
      have hZ2 : Z' < 119 := hZ'
      have hl : Data.wfpair.length = 119 := by decide +kernel
      have hl2 : (Data.wfpair.all (·.length == 119)) = true := by decide +kernel
      have hp := Data.check_wf_pos
      rw [List.all_eq_true] at hp hl2
      have hrow := getD_mem_tail (l := Data.wfpair) [] h1 (by omega)
      have hrl : (Data.wfpair.getD Z []).length = 119 := by
        simpa using hl2 _ (List.mem_of_mem_tail hrow)
      have hp := hp _ hrow
      rw [List.all_eq_true] at hp
      have hp := hp _ (getD_mem_tail (l := Data.wfpair.getD Z []) 0 h2 (by omega))
      have : 0 < at2 Data.wfpair Z Z' := Nat.le_of_ble_eq_true hp
      have : (0 : ℝ) < (at2 Data.wfpair Z Z' : ℕ) := by exact_mod_cast this
      simp only [shipped]
      positivity
  r4r2 := ⟨by simp [shipped], fun Z h1 h2 => shipped_r4r2_pos h1 h2⟩

/-- Reference polarizabilities as used (subtracted and clamped) are non-negative, and zero for missing
references. -/
theorem C38_alpha {env : Env} {ga gc : ℝ} {rq : String} {Z r : ℕ} (hZ : Z < 104) (hr : r < 7) (w : ℕ) :
    0 ≤ alphaAt env (shipped nExt gam zeff vdw) ga gc rq Z r w ∧
    ((shipped nExt gam zeff vdw).refc Z r = 0 →
      alphaAt env (shipped nExt gam zeff vdw) ga gc rq Z r w = 0) := by
  refine ⟨alphaAt_nonneg _ _ _ _ _ _, fun h => ?_⟩
  have := (C38_consistent (nExt := nExt) (gam := gam) (zeff := zeff) (vdw := vdw)).missing Z hZ r hr h
  simp [alphaAt, this.2.1]

end

/-- Carbon has seven references. -/
example : ((Finset.range 7).filter fun r => Demo.T.refc 6 r ≠ 0).card = 7 := by
  have : ∀ r < 7, Demo.T.refc 6 r ≠ 0 := by
    intro r hr
    show at2 Data.refc 6 r ≠ 0
    interval_cases r <;> decide
  rw [Finset.filter_true_of_mem (fun r hr => this r (Finset.mem_range.1 hr))]
  simp

/-- Carbon and its seventh reference. -/
example := (C38_alpha (nExt := 119) (gam := Demo.gam) (zeff := Demo.zeff) (vdw := fun _ _ => 3)
  (env := Demo.env) (ga := 3) (gc := 2) (rq := "eeq") (Z := 6) (r := 6) (by norm_num) (by norm_num) 3).1

/-- Helium has one reference. -/
example : alphaAt Demo.env Demo.T 3 2 "eeq" 2 5 0 = 0 :=
  (C38_alpha (nExt := 119) (gam := Demo.gam) (zeff := Demo.zeff) (vdw := fun _ _ => 3)
    (env := Demo.env) (ga := 3) (gc := 2) (rq := "eeq") (Z := 2) (r := 5) (by norm_num) (by norm_num)
    0).2 (by show at2 Data.refc 2 5 = 0; decide)

end TadDftd4
