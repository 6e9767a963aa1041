import Verif.Props.C39

/-!
# C41: C9 coefficients are symmetric and non-negative
-/

set_option linter.unusedSimpArgs false

open scoped Classical

namespace TadDftd4

open Tensor

/-- A coefficient of three atoms is non-negative and does not change if the three atoms are
permuted. -/
def Spec.SymNonneg3 {n : ℕ} (C : Fin n → Fin n → Fin n → ℝ) : Prop :=
  ∀ a : Fin 3 → Fin n, 0 ≤ C (a 0) (a 1) (a 2) ∧
    ∀ σ : Equiv.Perm (Fin 3), C (a (σ 0)) (a (σ 1)) (a (σ 2)) = C (a 0) (a 1) (a 2)

/-- Two transpositions generate all permutations. -/
theorem Spec.SymNonneg3.of_swaps {n : ℕ} {C : Fin n → Fin n → Fin n → ℝ}
    (h0 : ∀ i j k, 0 ≤ C i j k) (h1 : ∀ i j k, C i j k = C j i k)
    (h2 : ∀ i j k, C i j k = C i k j) : Spec.SymNonneg3 C := by
  intro a
  refine ⟨h0 _ _ _, fun σ => ?_⟩
  have key : ∀ x y z : Fin 3, x ≠ y → x ≠ z → y ≠ z →
      C (a x) (a y) (a z) = C (a 0) (a 1) (a 2) := by
    intro x y z hxy hxz hyz
    fin_cases x <;> fin_cases y <;> fin_cases z <;>
      first
        | exact absurd rfl hxy
        | exact absurd rfl hxz
        | exact absurd rfl hyz
        | rfl
        | exact h1 _ _ _
        | exact h2 _ _ _
        | exact (h1 _ _ _).trans (h2 _ _ _)
        | exact (h2 _ _ _).trans (h1 _ _ _)
        | exact (h1 _ _ _).trans ((h2 _ _ _).trans (h1 _ _ _))
  exact key _ _ _ (σ.injective.ne (by decide)) (σ.injective.ne (by decide))
    (σ.injective.ne (by decide))

section
variable {env : Env} {T : Tables} {m : RefModel} {numbers : Tensor ℕ} {R : RefCfg} {n : ℕ}
  {B : Shape} {cn q : Idx → ℝ} {cnT : Tensor ℝ} {qo : Option (Tensor ℝ)} {b : Idx}

theorem ssqrt_nonneg (x : ℝ) : 0 ≤ env.ssqrt x := Real.sqrt_nonneg _

/-- Exact C9 of non-negative polarizabilities, whatever they are. -/
theorem c9Exact_sym {aiw : Tensor ℝ} (h : aiw.Ok (nfreq :: n :: B)) (hb : InB B b)
    (h0 : ∀ w < nfreq, ∀ i < n, 0 ≤ aiw.get (w :: i :: b)) :
    Spec.SymNonneg3 fun i j k : Fin n => (c9Exact aiw).get (k.1 :: j.1 :: i.1 :: b) := by
  refine .of_swaps (fun i j k => ?_) (fun i j k => ?_) (fun i j k => ?_)
  · beta_reduce
    rw [c9Exact_get h hb i.2 j.2 k.2]
    refine mul_nonneg thopi_pos.le (Finset.sum_nonneg fun w hw => ?_)
    have hw := Finset.mem_range.1 hw
    exact mul_nonneg (mul_nonneg (mul_nonneg (h0 w hw i i.2) (h0 w hw j j.2)) (h0 w hw k k.2))
      (trapzWeights_nonneg w)
  · beta_reduce
    rw [c9Exact_get h hb i.2 j.2 k.2, c9Exact_get h hb j.2 i.2 k.2]
    exact congrArg _ (Finset.sum_congr rfl fun w _ => by ring)
  · beta_reduce
    rw [c9Exact_get h hb i.2 j.2 k.2, c9Exact_get h hb i.2 k.2 j.2]
    exact congrArg _ (Finset.sum_congr rfl fun w _ => by ring)

/-- The approximate C9 coefficients of every three-body term, for D4 and D4S and every batch. -/
theorem C41_approx {t : Term} (hm : m.IsFor env T numbers R n B) (ht : t.cls ≠ .d4ATMExact)
    (hc : D4.OptIs (some cnT) n B cn) (hq : D4.OptIs qo n B q) :
    (t.c9 env T m cnT qo).Ok (n :: n :: n :: B) ∧ ∀ b, InB B b →
      Spec.SymNonneg3 fun i j k : Fin n => (t.c9 env T m cnT qo).get (k.1 :: j.1 :: i.1 :: b) := by
  obtain ⟨c6ok, c6get⟩ := model_c6_eval hm hc (termCharges_optIs (t := t) hq)
  have e : t.c9 env T m cnT qo =
      c9Approx env (m.atomicC6 (m.weights env T (some cnT) (t.charges qo))) := by
    simp only [Term.c9, hm.implemented, if_true]
  rw [e]
  refine ⟨c9Approx_ok c6ok, fun b hb => ?_⟩
  have hs : ∀ i j : Fin n, (m.atomicC6 (m.weights env T (some cnT) (t.charges qo))).get
      (j.1 :: i.1 :: b) = (m.atomicC6 (m.weights env T (some cnT) (t.charges qo))).get
      (i.1 :: j.1 :: b) := by
    intro i j
    rw [c6get b i j hb i.2 j.2, c6get b j i hb j.2 i.2, c6At_symm]
  refine .of_swaps (fun i j k => ?_) (fun i j k => ?_) (fun i j k => ?_)
  · beta_reduce
    rw [c9Approx_get c6ok hb i.2 j.2 k.2]
    exact ssqrt_nonneg _
  · beta_reduce
    rw [c9Approx_get c6ok hb i.2 j.2 k.2, c9Approx_get c6ok hb j.2 i.2 k.2, hs j i]
    exact congrArg env.ssqrt (congrArg abs (by ring))
  · beta_reduce
    rw [c9Approx_get c6ok hb i.2 j.2 k.2, c9Approx_get c6ok hb i.2 k.2 j.2, hs k j]
    exact congrArg env.ssqrt (congrArg abs (by ring))

/-- The exact C9 coefficients for D4, every batch. -/
theorem C41_exact {t : Term} (hm : m.IsFor env T numbers R n B) (hk : R.kind = .d4)
    (ht : t.cls = .d4ATMExact) (hc : D4.OptIs (some cnT) n B cn) (hq : D4.OptIs qo n B q) :
    (t.c9 env T m cnT qo).Ok (n :: n :: n :: B) ∧ ∀ b, InB B b →
      Spec.SymNonneg3 fun i j k : Fin n => (t.c9 env T m cnT qo).get (k.1 :: j.1 :: i.1 :: b) := by
  obtain ⟨hok, hget⟩ := model_pols_eval hm hk hc (termCharges_optIs (t := t) hq)
  have e : t.c9 env T m cnT qo =
      c9Exact (m.weightedPols env T (m.weights env T (some cnT) (t.charges qo))) := by
    simp [Term.c9, hm.implemented, ht]
  rw [e]
  refine ⟨c9Exact_ok hok, fun b hb => c9Exact_sym hok hb fun w hw i hi => ?_⟩
  rw [hget b i w hb hi hw]
  exact polOf_nonneg (fun r => wtAt_nonneg _ _ _) w

/-- Weighted polarizabilities of D4S for non-negative weights are non-negative wherever the shape is
the documented one. -/
theorem D4S.weightedPols_nonneg {gw : Tensor ℝ} (h : m.Good T n B)
    (hg : gw.Ok (nref :: n :: n :: B)) {w k : ℕ} (hw : w < nfreq) (hk : k < n) (hb : InB B b)
    (h0 : ∀ i < n, ∀ r < nref, 0 ≤ gw.get (r :: i :: k :: b)) :
    0 ≤ (D4S.weightedPols env T m gw).get (w :: k :: b) := by
  have ha := getAlpha_ok (env := env) (ga := m.ga) (gc := m.gc) h.num h.fits h.known h.lim
  have hin := D4S.pairs_ok (env := env) h hg
  have hsh : ((realAtoms m.numbers).map (fun p => if p then (1 : ℝ) else 0)).shape = n :: B := by
    simp [h.shape]
  rw [D4S.weightedPols, div_get, hin.shape,
    pick_of_InB (show InB (nfreq :: n :: B) (w :: k :: b) from ⟨hw, hk, hb⟩)]
  refine div_nonneg ?_ ?_
  · simp [einsum, Operand.dims, Operand.rankOk, Operand.batch, ha.shape, hg.shape, lblDim,
      contracted, sumOver, lblSet, bindOut]
    refine Finset.sum_nonneg fun r hr => Finset.sum_nonneg fun i hi => ?_
    have hi := Finset.mem_range.1 hi
    have hr := Finset.mem_range.1 hr
    simp [pick_cons_lt hi, pick_cons_lt hr, pick_cons_lt hk, pick_cons_lt hw, pick_of_InB hb,
      getAlpha_get h.num h.fits h.known h.lim hb hi hr hw]
    exact mul_nonneg (h0 i hi r hr) (alphaAt_nonneg _ _ _ _ _ _)
  · rw [D4S.natT, sumLastKeep]
    simp only [hsh]
    refine Finset.sum_nonneg fun j _ => ?_
    simp only [map_get]
    split_ifs <;> norm_num

/-- The exact C9 coefficients for D4S, for all batches whose weighted polarizabilities have the
documented shape: single systems and those of C39. In all other batches they have none. -/
theorem C41_exact_d4s {t : Term} (hm : m.IsFor env T numbers R n B)
    (hk : R.kind = .d4s ∨ R.kind = .d4sDebug) (ht : t.cls = .d4ATMExact)
    (hB : List.IsChain (fun x y => y = 1 ∨ y = x) (n :: B))
    (hc : D4.OptIs (some cnT) n B cn) (hq : D4.OptIs qo n B q) :
    (t.c9 env T m cnT qo).Ok (n :: n :: n :: B) ∧ ∀ b, InB B b →
      Spec.SymNonneg3 fun i j k : Fin n => (t.c9 env T m cnT qo).get (k.1 :: j.1 :: i.1 :: b) := by
  have hq' := termCharges_optIs (t := t) hq
  rcases hm.wf with ⟨hk1, _⟩ | ⟨hk1, hw, _⟩
  · rw [hm.kind] at hk1; rw [hk1] at hk; simp at hk
  have e1 : m.weights env T (some cnT) (t.charges qo) =
      D4S.weights env T m (some cnT) (t.charges qo) := by
    rcases hk1 with h | h <;> simp only [RefModel.weights, h]
  have e2 : ∀ x, m.weightedPols env T x = D4S.weightedPols env T m x := by
    intro x; rcases hk1 with h | h <;> simp only [RefModel.weightedPols, h]
  have e : t.c9 env T m cnT qo =
      c9Exact (D4S.weightedPols env T m (D4S.weights env T m (some cnT) (t.charges qo))) := by
    rw [← e1, ← e2]; simp [Term.c9, hm.implemented, ht]
  have hwt := D4S.weights_ok (env := env) hm.good hw hc hq'
  have hok := (C39_weighted_pols_iff (env := env) hm.good hwt).2 hB
  rw [e]
  refine ⟨c9Exact_ok hok, fun b hb => c9Exact_sym hok hb fun w hw' i hi => ?_⟩
  exact D4S.weightedPols_nonneg hm.good hwt hw' hi hb fun j hj r hr =>
    (C16_weights_nonneg hm.good hc hq' hb hj hi hr).2 hw

end

/-- Exact and approximate C9 of water in the demo batch. -/
example : ((⟨.d4ATMExact, .zero, false⟩ : Term).c9 Demo.env Demo.T
      (mkModel Demo.env Demo.T .d4 Demo.numbers gaDefault gcDefault none) (full [3, 2] 1)
        none).get [1, 0, 2, 0] =
    ((⟨.d4ATMExact, .zero, false⟩ : Term).c9 Demo.env Demo.T
      (mkModel Demo.env Demo.T .d4 Demo.numbers gaDefault gcDefault none) (full [3, 2] 1)
        none).get [0, 2, 1, 0] := by
  have h := (C41_exact (t := ⟨.d4ATMExact, .zero, false⟩) (cnT := full [3, 2] 1) (qo := none)
    (mkModel_isFor_d4 (env := Demo.env) (T := Demo.T) (numbers := Demo.numbers) (n := 3) (B := [2])
      ⟨rfl, rfl⟩ (fun i _ => Demo.numbers_lt i) Demo.fits) rfl rfl
    (Or.inr ⟨_, rfl, ⟨rfl, rfl⟩, rfl⟩) (Or.inl ⟨rfl, rfl⟩)).2 [0] (by simp [InB])
    ![1, 2, 0]
  exact h.2 (finRotate 3)

example : 0 ≤ ((⟨.d4ATMApprox, .zero, false⟩ : Term).c9 Demo.env Demo.T
      (mkModel Demo.env Demo.T .d4s Demo.numbers gaDefault gcDefault none) (full [3, 2] 1)
        none).get [2, 1, 0, 0] :=
  ((C41_approx (t := ⟨.d4ATMApprox, .zero, false⟩) (cnT := full [3, 2] 1) (qo := none)
    (mkModel_isFor_d4s (env := Demo.env) (T := Demo.T) (numbers := Demo.numbers) (n := 3) (B := [2])
      ⟨rfl, rfl⟩ (fun i _ => Demo.numbers_lt i) Demo.fits) (by decide)
    (Or.inr ⟨_, rfl, ⟨rfl, rfl⟩, rfl⟩) (Or.inl ⟨rfl, rfl⟩)).2 [0] (by simp [InB]) ![0, 1, 2]).1

/-- D4S: three oxygen atoms, and a batch of three systems of three atoms. -/
example := C41_exact_d4s (t := ⟨.d4ATMExact, .zero, false⟩) (cnT := full [3] 1) (qo := none)
  (mkModel_isFor_d4s (env := Demo.env) (T := Demo.T) (numbers := full [3] 8) (n := 3) (B := [])
    ⟨rfl, rfl⟩ (fun _ _ => by show 8 < 104; norm_num) Demo.fits) (Or.inl rfl) rfl (by simp)
  (Or.inr ⟨_, rfl, ⟨rfl, rfl⟩, rfl⟩) (Or.inl ⟨rfl, rfl⟩)

example := C41_exact_d4s (t := ⟨.d4ATMExact, .zero, false⟩) (cnT := full [3, 3] 1) (qo := none)
  (mkModel_isFor_d4s (env := Demo.env) (T := Demo.T) (numbers := full [3, 3] 8) (n := 3) (B := [3])
    ⟨rfl, rfl⟩ (fun _ _ => by show 8 < 104; norm_num) Demo.fits) (Or.inl rfl) rfl (by simp)
  (Or.inr ⟨_, rfl, ⟨rfl, rfl⟩, rfl⟩) (Or.inl ⟨rfl, rfl⟩)

end TadDftd4
