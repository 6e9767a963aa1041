import Verif.Lemmas.Setup
import Verif.Lemmas.C6Props

/-!
# C14: the reference weights are a partition of unity for every coordination number
-/

set_option linter.unusedSimpArgs false

open scoped Classical

namespace TadDftd4

open Tensor

/-- The reference `r` of element `Z` exists and has the largest coordination number of all
references of the element. -/
def Tables.IsTop (T : Tables) (Z r : ℕ) : Prop :=
  r < nref ∧ 0 < T.refc Z r ∧ (∀ s < nref, T.refcn Z s ≤ T.refcn Z r) ∧
    ∀ s < nref, 0 < T.refc Z s → s ≠ r → T.refcn Z s < T.refcn Z r

/-- Every element has exactly one reference with the largest coordination number, padding has no
references. -/
structure Tables.HasTop (T : Tables) : Prop where
  top : ∀ Z, 1 ≤ Z → Z < T.nZ → ∃ r, T.IsTop Z r
  pad : ∀ r < nref, T.refc 0 r = 0

/-- Weights `g` of the references of element `Z`: finite, between 0 and 1, zero on references the
element does not have, and with sum 1. -/
structure IsPartition (T : Tables) (Z : ℕ) (g : ℕ → FP) : Prop where
  fin : ∀ r < nref, (g r).IsFin
  nonneg : ∀ r < nref, 0 ≤ (g r).toReal
  le_one : ∀ r < nref, (g r).toReal ≤ 1
  missing : ∀ r < nref, T.refc Z r = 0 → (g r).toReal = 0
  sum : ∑ r ∈ Finset.range nref, (g r).toReal = 1

/-- The shipped tables have a unique top reference for every element. -/
theorem shipped_hasTop {nExt : ℕ} {gam zeff : ℕ → ℝ} {vdw : ℕ → ℕ → ℝ} :
    (shipped nExt gam zeff vdw).HasTop where
  top Z h1 hZ := by
    have hZ : Z < 104 := hZ
    have h := forall_of_all1 Data.check_top (Z - 1) (by omega)
    rw [show Z - 1 + 1 = Z by omega] at h
    rw [beq_iff_eq, List.length_eq_one_iff] at h
    obtain ⟨r, hr⟩ := h
    have mem : ∀ s, s ∈ (List.range 7).filter (fun r => Data.isTop Z r && !(at2 Data.refc Z r == 0)) ↔
        s = r := by intro s; rw [hr]; simp
    have hr' := (mem r).2 rfl
    rw [List.mem_filter, List.mem_range, Bool.and_eq_true] at hr'
    obtain ⟨hlt, htop, hex⟩ := hr'
    have hle : ∀ s < 7, at2 Data.refcn Z s ≤ at2 Data.refcn Z r := by
      intro s hs
      exact Nat.le_of_ble_eq_true (forall_of_all1 htop s hs)
    have cast : ∀ {a b : ℕ}, a ≤ b → (a : ℝ) / 10 ^ 14 ≤ b / 10 ^ 14 := by
      intro a b h
      have : (a : ℝ) ≤ b := by exact_mod_cast h
      exact div_le_div_of_nonneg_right this (by positivity)
    refine ⟨r, hlt, ?_, fun s hs => cast (hle s hs), fun s hs hex' hne => ?_⟩
    · show 0 < at2 Data.refc Z r
      simp only [Bool.not_eq_true', beq_eq_false_iff_ne, ne_eq] at hex
      omega
    · have hex' : 0 < at2 Data.refc Z s := hex'
      have : at2 Data.refcn Z s < at2 Data.refcn Z r := by
        by_contra hge
        refine hne ((mem s).1 ?_)
        rw [List.mem_filter, List.mem_range, Bool.and_eq_true]
        refine ⟨hs, ?_, by simp; omega⟩
        unfold Data.isTop
        rw [List.all_eq_true]
        intro t ht
        exact Nat.ble_eq_true_of_le ((hle t (List.mem_range.1 ht)).trans (not_lt.1 hge))
      have : ((at2 Data.refcn Z s : ℕ) : ℝ) < (at2 Data.refcn Z r : ℕ) := by exact_mod_cast this
      exact div_lt_div_of_pos_right this (by positivity)
  pad r hr := by
    have := forall_of_all1 Data.check_pad r hr
    rw [beq_iff_eq] at this
    exact this

section
variable {env : Env} {T : Tables}

theorem maxN_eq {f : ℕ → ℝ} {r : ℕ} : ∀ {n : ℕ}, r ≤ n → (∀ s ≤ n, f s ≤ f r) → maxN f n = f r
  | 0, hr, _ => by rw [Nat.le_zero.1 hr]; rfl
  | n + 1, hr, h => by
    unfold maxN
    rcases Nat.lt_or_ge r (n + 1) with h1 | h1
    · rw [maxN_eq (Nat.lt_succ_iff.1 h1) fun s hs => h s (by omega)]
      exact max_eq_left (h _ le_rfl)
    · have hr : r = n + 1 := by omega
      subst hr
      refine max_eq_right ?_
      clear h1
      have : ∀ k ≤ n, maxN f k ≤ f (n + 1) := by
        intro k
        induction k with
        | zero => intro _; exact h 0 (by omega)
        | succ k ih => intro hk; exact max_le (ih (by omega)) (h _ (by omega))
      exact this n le_rfl

/-- Normalised sums of non-negative numbers `E`, with the fallback of the code. -/
theorem gwOf_partition {Z : ℕ} {E : ℕ → ℝ} {t : ℕ} (ht : T.IsTop Z t) (hE : ∀ r, 0 ≤ E r)
    (h0 : ∀ r, T.refc Z r = 0 → E r = 0) : IsPartition T Z (gwOf env T Z E) ∧
    ((∀ r < nref, E r = 0) → gwOf env T Z E t = .fin 1 ∧
      ∀ r < nref, r ≠ t → gwOf env T Z E r = .fin 0) := by
  have hmiss : ∀ r, T.refc Z r = 0 → gwOf env T Z E r = .fin 0 := by
    intro r hr
    have : gwTempOf T Z E r = .fin 0 := by
      unfold gwTempOf
      rw [h0 r hr, if_neg (by omega)]
      have : tiny ≠ 0 := by unfold tiny; positivity
      simp [FP.div, this]
    unfold gwOf
    rw [this, if_neg]
    simp only [FP.isExceptional, not_lt]
    linarith [env.one_le_fmax]
  have hS : 0 ≤ ∑ s ∈ Finset.range nref, E s := Finset.sum_nonneg fun s _ => hE s
  rcases hS.eq_or_lt with hS | hS
  · -- all Gaussians are zero
    have hz : ∀ r < nref, E r = 0 := fun r hr =>
      (Finset.sum_eq_zero_iff_of_nonneg fun s _ => hE s).1 hS.symm r (Finset.mem_range.2 hr)
    have htemp : ∀ r < nref, 0 < T.refc Z r → gwTempOf T Z E r = .nan := by
      intro r hr hc
      unfold gwTempOf
      rw [if_pos hc, ← hS, hz r hr]
      simp [FP.div]
    have hmax : maxN (T.refcn Z) (nref - 1) = T.refcn Z t :=
      maxN_eq (by have := ht.1; omega) fun s hs => ht.2.2.1 s (by
        have : nref = 7 := rfl
        omega)
    have ht1 : gwOf env T Z E t = .fin 1 := by
      unfold gwOf
      rw [htemp t ht.1 ht.2.1, if_pos (by trivial), if_pos hmax.symm]
    have hne : ∀ r < nref, r ≠ t → gwOf env T Z E r = .fin 0 := by
      intro r hr hrt
      rcases Nat.eq_zero_or_pos (T.refc Z r) with hc | hc
      · exact hmiss r hc
      · unfold gwOf
        rw [htemp r hr hc, if_pos (by trivial), if_neg]
        rw [hmax]
        exact (ht.2.2.2 r hr hc hrt).ne
    have hval : ∀ r < nref, (gwOf env T Z E r).toReal = if r = t then 1 else 0 := by
      intro r hr
      split_ifs with h
      · rw [h, ht1]; rfl
      · rw [hne r hr h]; rfl
    refine ⟨⟨fun r hr => ?_, fun r hr => ?_, fun r hr => ?_, fun r hr hc => ?_, ?_⟩,
      fun _ => ⟨ht1, hne⟩⟩
    · by_cases h : r = t
      · rw [h, ht1]; trivial
      · rw [hne r hr h]; trivial
    · rw [hval r hr]; split_ifs <;> norm_num
    · rw [hval r hr]; split_ifs <;> norm_num
    · rw [hmiss r hc]; rfl
    · rw [Finset.sum_congr rfl fun r hr => hval r (Finset.mem_range.1 hr)]
      rw [Finset.sum_ite_eq' (Finset.range nref) t, if_pos (Finset.mem_range.2 ht.1)]
  · have hle : ∀ r < nref, E r ≤ ∑ s ∈ Finset.range nref, E s := fun r hr =>
      Finset.single_le_sum (fun s _ => hE s) (Finset.mem_range.2 hr)
    have hval : ∀ r < nref, gwOf env T Z E r = .fin (E r / ∑ s ∈ Finset.range nref, E s) := by
      intro r hr
      rcases Nat.eq_zero_or_pos (T.refc Z r) with hc | hc
      · rw [hmiss r hc, h0 r hc, zero_div]
      · have : gwTempOf T Z E r = .fin (E r / ∑ s ∈ Finset.range nref, E s) := by
          unfold gwTempOf
          rw [if_pos hc]
          simp [FP.div, hS.ne']
        unfold gwOf
        rw [this, if_neg]
        simp only [FP.isExceptional, not_lt]
        exact ((div_le_one hS).2 (hle r hr)).trans env.one_le_fmax
    refine ⟨⟨fun r hr => ?_, fun r hr => ?_, fun r hr => ?_, fun r hr hc => ?_, ?_⟩, fun hz => ?_⟩
    · rw [hval r hr]; trivial
    · rw [hval r hr]; exact div_nonneg (hE r) hS.le
    · rw [hval r hr]; exact (div_le_one hS).2 (hle r hr)
    · rw [hmiss r hc]; rfl
    · rw [Finset.sum_congr rfl fun r hr => by rw [hval r (Finset.mem_range.1 hr)]]
      show ∑ r ∈ Finset.range nref, E r / _ = 1
      rw [← Finset.sum_div, div_self hS.ne']
    · exfalso
      rw [Finset.sum_eq_zero fun s hs => hz s (Finset.mem_range.1 hs)] at hS
      exact lt_irrefl _ hS

theorem gwOf_pad {Z r : ℕ} {E : ℕ → ℝ} (hr : T.refc Z r = 0) (h0 : E r = 0) :
    gwOf env T Z E r = .fin 0 := by
  have : gwTempOf T Z E r = .fin 0 := by
    unfold gwTempOf
    rw [h0, if_neg (by omega)]
    have : tiny ≠ 0 := by unfold tiny; positivity
    simp [FP.div, this]
  unfold gwOf
  rw [this, if_neg]
  simp only [FP.isExceptional, not_lt]
  linarith [env.one_le_fmax]

variable {m : RefModel} {cn : Tensor ℝ} {n : ℕ} {B : Shape} {w : ℝ} {b : Idx} {i k : ℕ}

/-- D4: partition of unity for every real atom and any coordination numbers, whatever underflows. -/
theorem C14_d4 (h : m.Good T n B) (hw : m.wf = scalar w) (hc : cn.Ok (n :: B)) (hT : T.HasTop)
    (hb : InB B b) (hi : i < n) (hZ : m.numbers.get (i :: b) ≠ 0) :
    IsPartition T (m.numbers.get (i :: b)) fun r => (D4.gw env T m cn).get (r :: i :: b) := by
  obtain ⟨t, ht⟩ := hT.top _ (Nat.one_le_iff_ne_zero.2 hZ)
    (h.lt _ (by rw [h.shape]; exact ⟨hi, hb⟩))
  have := (gwOf_partition (env := env) (E := expwD4 env T w (m.numbers.get (i :: b))
    (cn.get (i :: b))) ht (fun r => expwD4_nonneg _ _ _ _) fun r => expwD4_missing).1
  have e : ∀ r < nref, (D4.gw env T m cn).get (r :: i :: b) = _ := fun r hr =>
    D4.gw_get (env := env) h hw hc hb hi hr
  refine ⟨fun r hr => ?_, fun r hr => ?_, fun r hr => ?_, fun r hr => ?_, ?_⟩
  · simp only [e r hr]; exact this.fin r hr
  · simp only [e r hr]; exact this.nonneg r hr
  · simp only [e r hr]; exact this.le_one r hr
  · simp only [e r hr]; exact this.missing r hr
  · rw [Finset.sum_congr rfl fun r hr => by rw [e r (Finset.mem_range.1 hr)]]; exact this.sum

/-- D4S: the same for every atom `i` and partner `k`. -/
theorem C14_d4s (h : m.Good T n B) (hw : m.wf.Ok (n :: n :: B)) (hc : cn.Ok (n :: B))
    (hT : T.HasTop) (hb : InB B b) (hi : i < n) (hk : k < n) (hZ : m.numbers.get (i :: b) ≠ 0) :
    IsPartition T (m.numbers.get (i :: b)) fun r =>
      (D4S.gw env T m cn).get (r :: i :: k :: b) := by
  obtain ⟨t, ht⟩ := hT.top _ (Nat.one_le_iff_ne_zero.2 hZ)
    (h.lt _ (by rw [h.shape]; exact ⟨hi, hb⟩))
  have := (gwOf_partition (env := env) (E := expwD4S env T (m.wf.get (k :: i :: b))
    (m.numbers.get (i :: b)) (cn.get (i :: b))) ht (fun r => expwD4S_nonneg _ _ _ _) fun r =>
    expwD4S_missing).1
  have e : ∀ r < nref, (D4S.gw env T m cn).get (r :: i :: k :: b) = _ := fun r hr =>
    D4S.gw_get (env := env) h hw hc hb hi hk hr
  refine ⟨fun r hr => ?_, fun r hr => ?_, fun r hr => ?_, fun r hr => ?_, ?_⟩
  · simp only [e r hr]; exact this.fin r hr
  · simp only [e r hr]; exact this.nonneg r hr
  · simp only [e r hr]; exact this.le_one r hr
  · simp only [e r hr]; exact this.missing r hr
  · rw [Finset.sum_congr rfl fun r hr => by rw [e r (Finset.mem_range.1 hr)]]; exact this.sum

/-- D4, all Gaussians underflow: the whole weight is on the reference with the largest coordination
number. -/
theorem C14_d4_underflow (h : m.Good T n B) (hw : m.wf = scalar w) (hw0 : w ≠ 0)
    (hc : cn.Ok (n :: B)) (hb : InB B b) (hi : i < n) {t : ℕ}
    (ht : T.IsTop (m.numbers.get (i :: b)) t) (hfl : env.fl 0 = 0)
    (hunder : ∀ r < nref, 0 < T.refc (m.numbers.get (i :: b)) r →
      env.fl (Real.exp (-(cn.get (i :: b) - T.refcn (m.numbers.get (i :: b)) r) ^ 2)) = 0) :
    (D4.gw env T m cn).get (t :: i :: b) = .fin 1 ∧
      ∀ r < nref, r ≠ t → (D4.gw env T m cn).get (r :: i :: b) = .fin 0 := by
  have hE : ∀ r < nref, expwD4 env T w (m.numbers.get (i :: b)) (cn.get (i :: b)) r = 0 := by
    intro r hr
    rcases Nat.eq_zero_or_pos (T.refc (m.numbers.get (i :: b)) r) with h0 | h0
    · exact expwD4_missing h0
    · have h1 : tmpD4 env (cn.get (i :: b)) (T.refcn (m.numbers.get (i :: b)) r) = 0 := by
        unfold tmpD4
        rw [← hunder r hr h0]
        congr 2; ring
      have h2 : ∀ j : ℕ, j ≠ 0 → powD4 env w (cn.get (i :: b))
          (T.refcn (m.numbers.get (i :: b)) r) j = 0 := by
        intro j hj
        unfold powD4
        rw [h1, Real.zero_rpow (mul_ne_zero (by exact_mod_cast hj) hw0), hfl]
      unfold expwD4
      rw [h1, h2 1 (by norm_num), h2 2 (by norm_num), h2 3 (by norm_num)]
      split_ifs <;> norm_num
  obtain ⟨h1, h2⟩ := (gwOf_partition (env := env) ht (fun r => expwD4_nonneg w _ _ _) fun r =>
    expwD4_missing).2 hE
  refine ⟨by rw [D4.gw_get h hw hc hb hi ht.1]; exact h1, fun r hr hne => ?_⟩
  rw [D4.gw_get h hw hc hb hi hr]
  exact h2 r hr hne

/-- D4S, all Gaussians underflow. -/
theorem C14_d4s_underflow (h : m.Good T n B) (hw : m.wf.Ok (n :: n :: B)) (hc : cn.Ok (n :: B))
    (hb : InB B b) (hi : i < n) (hk : k < n) {t : ℕ} (ht : T.IsTop (m.numbers.get (i :: b)) t)
    (hfl : env.fl 0 = 0)
    (hunder : ∀ r < nref, 0 < T.refc (m.numbers.get (i :: b)) r →
      env.fl (Real.exp (-m.wf.get (k :: i :: b) *
        (cn.get (i :: b) - T.refcn (m.numbers.get (i :: b)) r) ^ 2)) = 0) :
    (D4S.gw env T m cn).get (t :: i :: k :: b) = .fin 1 ∧
      ∀ r < nref, r ≠ t → (D4S.gw env T m cn).get (r :: i :: k :: b) = .fin 0 := by
  have hE : ∀ r < nref, expwD4S env T (m.wf.get (k :: i :: b)) (m.numbers.get (i :: b))
      (cn.get (i :: b)) r = 0 := by
    intro r hr
    rcases Nat.eq_zero_or_pos (T.refc (m.numbers.get (i :: b)) r) with h0 | h0
    · exact expwD4S_missing h0
    · have h1 : tmpD4S env (m.wf.get (k :: i :: b)) (cn.get (i :: b))
          (T.refcn (m.numbers.get (i :: b)) r) = 0 := by
        unfold tmpD4S
        rw [← hunder r hr h0]
        congr 2; ring
      have h2 : ∀ j : ℕ, j ≠ 0 → powD4S env (m.wf.get (k :: i :: b)) (cn.get (i :: b))
          (T.refcn (m.numbers.get (i :: b)) r) j = 0 := by
        intro j hj
        unfold powD4S
        rw [h1, zero_pow hj, hfl]
      unfold expwD4S
      rw [h1, h2 1 (by norm_num), h2 2 (by norm_num), h2 3 (by norm_num)]
      split_ifs <;> norm_num
  obtain ⟨h1, h2⟩ := (gwOf_partition (env := env) ht (fun r => expwD4S_nonneg _ _ _ _) fun r =>
    expwD4S_missing).2 hE
  refine ⟨by rw [D4S.gw_get h hw hc hb hi hk ht.1]; exact h1, fun r hr hne => ?_⟩
  rw [D4S.gw_get h hw hc hb hi hk hr]
  exact h2 r hr hne

/-- Padding atoms have only zero weights. -/
theorem C14_padding (h : m.Good T n B) (hc : cn.Ok (n :: B)) (hT : T.HasTop) (hb : InB B b)
    (hi : i < n) (hk : k < n) (hZ : m.numbers.get (i :: b) = 0) {r : ℕ} (hr : r < nref) :
    (m.wf = scalar w → (D4.gw env T m cn).get (r :: i :: b) = .fin 0) ∧
    (m.wf.Ok (n :: n :: B) → (D4S.gw env T m cn).get (r :: i :: k :: b) = .fin 0) := by
  have h0 : T.refc (m.numbers.get (i :: b)) r = 0 := by rw [hZ]; exact hT.pad r hr
  constructor
  · intro hw
    rw [D4.gw_get h hw hc hb hi hr, gwOf_pad h0 (expwD4_missing h0)]
  · intro hw
    rw [D4S.gw_get h hw hc hb hi hk hr, gwOf_pad h0 (expwD4S_missing h0)]

/-- Without charge scaling (`ga = 0`) the result of `weight_references` itself adds up to one, for
any charges. -/
theorem C14_observable {q : Tensor ℝ} (h : m.Good T n B) (hw : m.wf = scalar w)
    (hc : cn.Ok (n :: B)) (hq : q.Ok (n :: B)) (hT : T.HasTop) (hP : T.Physical m.refCharges)
    (hga : m.ga = 0) (hgc : 0 < m.gc) (hb : InB B b) (hi : i < n)
    (hZ : m.numbers.get (i :: b) ≠ 0) :
    ∑ r ∈ Finset.range nref, (D4.weights env T m (some cn) (some q)).get (r :: i :: b) = 1 := by
  have hp := C14_d4 (env := env) h hw hc hT hb hi hZ
  rw [← hp.sum]
  refine Finset.sum_congr rfl fun r hr => ?_
  have hr := Finset.mem_range.1 hr
  have hlt : m.numbers.get (i :: b) < T.nZ := h.lt _ (by rw [h.shape]; exact ⟨hi, hb⟩)
  rw [D4.weights_get h hw (Or.inr ⟨cn, rfl, hc, rfl⟩) (Or.inr ⟨q, rfl, hq, rfl⟩) hb hi hr, wtOf,
    ← D4.gw_get h hw hc hb hi hr, hga]
  rcases Nat.eq_zero_or_pos (T.refc (m.numbers.get (i :: b)) r) with h0 | h0
  · rw [hp.missing r hr h0, mul_zero]
  · rw [zetaAt, if_pos h0, zetaF_spec (mul_pos (hP.gam _ hlt r hr h0) hgc) (hP.qref _ hlt r hr h0)]
    simp [FP.toReal, Spec.zeta]

end

/-! ## Concrete case: water and hydrogen fluoride -/

namespace Demo

/-- The D4 model of the demo system. -/
noncomputable def model : RefModel := mkModel env T .d4 numbers

theorem model_good : model.Good T 3 [2] where
  num := ⟨rfl, rfl⟩
  fits := fits
  known := Or.inl rfl
  lim i _ := numbers_lt i

theorem hasTop : T.HasTop := shipped_hasTop

/-- An environment in which every exponential underflows. -/
noncomputable def envU : Env := { env with fl := fun _ => 0, fl_nonneg := fun _ _ => le_rfl }

end Demo

example : IsPartition Demo.T 8 fun r => (D4.gw Demo.env Demo.T Demo.model (full [3, 2] 2)).get
    [r, 0, 0] :=
  C14_d4 (w := 6) (cn := full [3, 2] 2) Demo.model_good rfl ⟨rfl, rfl⟩ Demo.hasTop (b := [0]) (i := 0) (by simp [InB]) (by norm_num)
    (show (8 : ℕ) ≠ 0 by norm_num)

/-- Oxygen: the reference with the largest coordination number, if everything underflows. -/
example : ∃ t, (D4.gw Demo.envU Demo.T Demo.model (full [3, 2] 1000)).get [t, 0, 0] = .fin 1 := by
  obtain ⟨t, ht⟩ := Demo.hasTop.top 8 (by norm_num) (show 8 < 104 by norm_num)
  exact ⟨t, (C14_d4_underflow (env := Demo.envU) (w := 6) (cn := full [3, 2] 1000) Demo.model_good rfl (by norm_num)
    ⟨rfl, rfl⟩ (b := [0]) (i := 0) (by simp [InB]) (by norm_num) ht rfl fun _ _ _ => rfl).1⟩

namespace Demo

/-- The D4S model of the same atoms. -/
noncomputable def modelS : RefModel := mkModel env T .d4s numbers

theorem modelS_good : modelS.Good T 3 [2] := ⟨⟨rfl, rfl⟩, fits, Or.inl rfl, fun i _ => numbers_lt i⟩

theorem modelS_wf : modelS.wf.Ok [3, 3, 2] :=
  getPair_ok (n := 3) (B := [2]) ⟨rfl, rfl⟩ (AllLt.mono (fun i _ => numbers_lt i) fits.pair)

end Demo

example : IsPartition Demo.T 8 fun r => (D4S.gw Demo.env Demo.T Demo.modelS (full [3, 2] 2)).get
    [r, 0, 1, 0] :=
  C14_d4s (b := [0]) (i := 0) (k := 1) Demo.modelS_good Demo.modelS_wf ⟨rfl, rfl⟩ Demo.hasTop
    (by simp [InB]) (by norm_num) (by norm_num) (show (8 : ℕ) ≠ 0 by norm_num)

example : ∃ t, (D4S.gw Demo.envU Demo.T Demo.modelS (full [3, 2] 1000)).get [t, 0, 1, 0] =
    .fin 1 := by
  obtain ⟨t, ht⟩ := Demo.hasTop.top 8 (by norm_num) (show 8 < 104 by norm_num)
  exact ⟨t, (C14_d4s_underflow (env := Demo.envU) (b := [0]) (i := 0) (k := 1) Demo.modelS_good
    Demo.modelS_wf ⟨rfl, rfl⟩ (by simp [InB]) (by norm_num) (by norm_num) ht rfl
    fun _ _ _ => rfl).1⟩

/-- The third atom of the second system of the batch is padding. -/
example : (D4.gw Demo.env Demo.T Demo.model (full [3, 2] 2)).get [1, 2, 1] = .fin 0 :=
  (C14_padding (w := 6) (cn := full [3, 2] 2) (b := [1]) (i := 2) (k := 0) Demo.model_good
    ⟨rfl, rfl⟩ Demo.hasTop (by simp [InB]) (by norm_num) (by norm_num) rfl (by norm_num)).1 rfl

/-- Without charge scaling. -/
example : ∑ r ∈ Finset.range nref, (D4.weights Demo.env Demo.T
    (mkModel Demo.env Demo.T .d4 Demo.numbers 0) (some (full [3, 2] 2))
      (some (full [3, 2] 0.1))).get [r, 0, 0] = 1 :=
  C14_observable (w := 6) (b := [0]) (i := 0)
    ⟨⟨rfl, rfl⟩, Demo.fits, Or.inl rfl, fun i _ => Demo.numbers_lt i⟩ rfl ⟨rfl, rfl⟩ ⟨rfl, rfl⟩
    Demo.hasTop Demo.physical rfl (by norm_num [mkModel, gcDefault]) (by simp [InB]) (by norm_num)
    (show (8 : ℕ) ≠ 0 by norm_num)

end TadDftd4
