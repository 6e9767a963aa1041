import Verif.Props.C08
import Verif.Props.C09

/-!
# C66: pulling atoms apart never strengthens the two-body dispersion (rational damping)

With fixed C6 coefficients rational damping causes no repulsion at any distance.
-/

open scoped Classical

namespace TadDftd4

open Tensor

section
variable {env : Env} {numbers : Tensor ℕ} {positions positions' c6 r4r2 rvdw : Tensor ℝ} {n c : ℕ}
  {B : Shape} {p : Param} {P : Spec.D4Par}

theorem ratF_antitone {a1 a2 x y r : ℝ} {m : ℕ} (hm : Even m) (hx : 0 < x) (hxy : x ≤ y) :
    ratF a1 a2 m y r ≤ ratF a1 a2 m x r := by
  unfold ratF
  have h0 := hm.pow_nonneg (a1 * √r + a2)
  exact one_div_le_one_div_of_le (by positivity) (by
    have := pow_le_pow_left₀ hx.le hxy m
    linarith)

theorem ratF_strict {a1 a2 x y r : ℝ} {m : ℕ} (hm : Even m) (hm0 : m ≠ 0) (hx : 0 < x) (hxy : x < y) :
    ratF a1 a2 m y r < ratF a1 a2 m x r := by
  unfold ratF
  have h0 := hm.pow_nonneg (a1 * √r + a2)
  exact one_div_lt_one_div_of_lt (by positivity) (by
    have := pow_lt_pow_left₀ hxy hx.le hm0
    linarith)

theorem ratF_nonneg {a1 a2 x r : ℝ} {m : ℕ} (hm : Even m) : 0 ≤ ratF a1 a2 m x r :=
  one_div_nonneg.2 (add_nonneg (hm.pow_nonneg _) (hm.pow_nonneg _))

theorem pairE_antitone {a1 a2 s6 s8 s10 C6 qq x y r : ℝ} (h6 : 0 ≤ s6) (h8 : 0 ≤ s8) (h10 : 0 ≤ s10)
    (hC : 0 ≤ C6) (hq : 0 ≤ qq) (hx : 0 < x) (hxy : x ≤ y) :
    pairE s6 s8 s10 (ratF a1 a2 6) (ratF a1 a2 8) (ratF a1 a2 10) C6 qq y r ≤
      pairE s6 s8 s10 (ratF a1 a2 6) (ratF a1 a2 8) (ratF a1 a2 10) C6 qq x r ∧
    (0 < s6 → 0 < C6 → x < y →
      pairE s6 s8 s10 (ratF a1 a2 6) (ratF a1 a2 8) (ratF a1 a2 10) C6 qq y r <
        pairE s6 s8 s10 (ratF a1 a2 6) (ratF a1 a2 8) (ratF a1 a2 10) C6 qq x r) := by
  have t8 : s8 * (C6 * qq * ratF a1 a2 8 y r) ≤ s8 * (C6 * qq * ratF a1 a2 8 x r) :=
    mul_le_mul_of_nonneg_left (mul_le_mul_of_nonneg_left (ratF_antitone (by decide) hx hxy)
      (by positivity)) h8
  have t10 : s10 * (C6 * qq ^ 2 * 49 / 40 * ratF a1 a2 10 y r) ≤
      s10 * (C6 * qq ^ 2 * 49 / 40 * ratF a1 a2 10 x r) :=
    mul_le_mul_of_nonneg_left (mul_le_mul_of_nonneg_left (ratF_antitone (by decide) hx hxy)
      (by positivity)) h10
  unfold pairE
  constructor
  · have t6 : s6 * (C6 * ratF a1 a2 6 y r) ≤ s6 * (C6 * ratF a1 a2 6 x r) :=
      mul_le_mul_of_nonneg_left (mul_le_mul_of_nonneg_left (ratF_antitone (by decide) hx hxy) hC) h6
    linarith
  · intro g6 gC hlt
    have t6 : s6 * (C6 * ratF a1 a2 6 y r) < s6 * (C6 * ratF a1 a2 6 x r) :=
      mul_lt_mul_of_pos_left (mul_lt_mul_of_pos_left (ratF_strict (by decide) (by norm_num) hx hlt)
        gC) g6
    linarith

theorem pairE_nonneg {a1 a2 s6 s8 s10 C6 qq x r : ℝ} (h6 : 0 ≤ s6) (h8 : 0 ≤ s8) (h10 : 0 ≤ s10)
    (hC : 0 ≤ C6) (hq : 0 ≤ qq) :
    0 ≤ pairE s6 s8 s10 (ratF a1 a2 6) (ratF a1 a2 8) (ratF a1 a2 10) C6 qq x r := by
  have f6 : 0 ≤ ratF a1 a2 6 x r := ratF_nonneg (by decide)
  have f8 : 0 ≤ ratF a1 a2 8 x r := ratF_nonneg (by decide)
  have f10 : 0 ≤ ratF a1 a2 10 x r := ratF_nonneg (by decide)
  unfold pairE
  positivity

/-- Pairs of the second geometry are at most as strongly bound as in the first one. -/
theorem pairEnergy_apart (h6 : 0 ≤ P.s6) (h8 : 0 ≤ P.s8) (h10 : 0 ≤ P.s10)
    (hn : D2Nonneg c6 r4r2 rvdw n B) {b : Idx} (hb : InB B b) {i j : ℕ} (hi : i < n) (hj : j < n)
    (hd : numbers.get (i :: b) ≠ 0 → numbers.get (j :: b) ≠ 0 →
      pairDist positions c b i j ≤ pairDist positions' c b i j) (cut : ℝ) :
    pairEnergy env numbers positions' c6 r4r2 rvdw c .rational cut P.s6 P.s8 P.s10
      (ratF P.a1 P.a2 6) (ratF P.a1 P.a2 8) (ratF P.a1 P.a2 10) b i j ≤
    pairEnergy env numbers positions c6 r4r2 rvdw c .rational cut P.s6 P.s8 P.s10
      (ratF P.a1 P.a2 6) (ratF P.a1 P.a2 8) (ratF P.a1 P.a2 10) b i j := by
  have hqq : 0 ≤ 3 * r4r2.get (i :: b) * r4r2.get (j :: b) :=
    mul_nonneg (mul_nonneg (by norm_num) (hn.r4r2 b hb i hi)) (hn.r4r2 b hb j hj)
  have hC := hn.c6 b hb i hi j hj
  unfold pairEnergy
  by_cases hc' : inCut env numbers positions' c cut b i j
  · have hle : distAt env positions c b i j ≤ distAt env positions' c b i j := by
      rw [distAt_eq_max, distAt_eq_max]
      exact max_le_max_right _ (hd hc'.1.1 hc'.1.2.1)
    have hc : inCut env numbers positions c cut b i j := ⟨hc'.1, hle.trans hc'.2⟩
    rw [if_pos hc', if_pos hc]
    exact (pairE_antitone h6 h8 h10 hC hqq (distAt_pos _ _ _) hle).1
  · rw [if_neg hc']
    split_ifs
    · exact pairE_nonneg h6 h8 h10 hC hqq
    · exact le_rfl

/-- If no distance between real atoms of a system is smaller in the second geometry, then no atom is more
strongly bound there, whatever the cutoff. -/
theorem C66_apart (h : D2Shapes numbers positions c6 r4r2 rvdw n c B)
    (h' : positions'.Ok (c :: n :: B)) (hp : p.Reads P) (h6 : 0 ≤ P.s6) (h8 : 0 ≤ P.s8)
    (h10 : 0 ≤ P.s10) (hn : D2Nonneg c6 r4r2 rvdw n B) (cutoff : Option ℝ) {b : Idx} (hb : InB B b)
    (hd : ∀ i < n, ∀ j < n, numbers.get (i :: b) ≠ 0 → numbers.get (j :: b) ≠ 0 →
      pairDist positions c b i j ≤ pairDist positions' c b i j) {i : ℕ} (hi : i < n) :
    (dispersion2 env numbers positions p c6 r4r2 (some rvdw) .rational cutoff).get (i :: b) ≤
      (dispersion2 env numbers positions' p c6 r4r2 (some rvdw) .rational cutoff).get (i :: b) := by
  have hu := usable_rational (env := env) hp
  have hs10 : S10Is env .rational p P.s10 (ratF P.a1 P.a2 10) := by
    rcases hp.s10 with h | ⟨h, h0⟩
    · exact Or.inr ⟨h, hp.point.2.2 h⟩
    · exact Or.inl ⟨h, h0⟩
  obtain ⟨-, -, -, ge⟩ := dispersion2_eval h hu.extra hp.point.1 hp.point.2.1 hp.s6 (Or.inl hp.s8)
    hs10 cutoff
  obtain ⟨-, -, -, ge'⟩ := dispersion2_eval { h with pos := h' } hu.extra hp.point.1 hp.point.2.1
    hp.s6 (Or.inl hp.s8) hs10 cutoff
  rw [ge b i hb hi, ge' b i hb hi]
  have := Finset.sum_le_sum fun j (hj : j ∈ Finset.range n) => pairEnergy_apart (env := env)
    (numbers := numbers) (P := P) h6 h8 h10 hn hb hi (Finset.mem_range.1 hj)
    (hd i hi j (Finset.mem_range.1 hj)) (cutoff.getD Defaults.disp2Cutoff)
  linarith

/-- If in addition the distance of an atom to a partner within the cutoff grows (and `s6` and the C6
coefficient of the pair are positive), then the atom is less strongly bound. -/
theorem C66_strict (h : D2Shapes numbers positions c6 r4r2 rvdw n c B)
    (h' : positions'.Ok (c :: n :: B)) (hp : p.Reads P) (h6 : 0 < P.s6) (h8 : 0 ≤ P.s8)
    (h10 : 0 ≤ P.s10) (hn : D2Nonneg c6 r4r2 rvdw n B) {cut : ℝ} {b : Idx} (hb : InB B b)
    (hd : ∀ i < n, ∀ j < n, numbers.get (i :: b) ≠ 0 → numbers.get (j :: b) ≠ 0 →
      pairDist positions c b i j ≤ pairDist positions' c b i j) {i j : ℕ} (hi : i < n) (hj : j < n)
    (hij : i ≠ j) (hZi : numbers.get (i :: b) ≠ 0) (hZj : numbers.get (j :: b) ≠ 0)
    (hC : 0 < c6.get (j :: i :: b)) (heps : √env.eps ≤ pairDist positions c b i j)
    (hcut : pairDist positions c b i j ≤ cut)
    (hlt : pairDist positions c b i j < pairDist positions' c b i j) :
    (dispersion2 env numbers positions p c6 r4r2 (some rvdw) .rational (some cut)).get (i :: b) <
      (dispersion2 env numbers positions' p c6 r4r2 (some rvdw) .rational (some cut)).get (i :: b)
      := by
  have hu := usable_rational (env := env) hp
  have hs10 : S10Is env .rational p P.s10 (ratF P.a1 P.a2 10) := by
    rcases hp.s10 with h | ⟨h, h0⟩
    · exact Or.inr ⟨h, hp.point.2.2 h⟩
    · exact Or.inl ⟨h, h0⟩
  obtain ⟨-, -, -, ge⟩ := dispersion2_eval h hu.extra hp.point.1 hp.point.2.1 hp.s6 (Or.inl hp.s8)
    hs10 (some cut)
  obtain ⟨-, -, -, ge'⟩ := dispersion2_eval { h with pos := h' } hu.extra hp.point.1 hp.point.2.1
    hp.s6 (Or.inl hp.s8) hs10 (some cut)
  rw [ge b i hb hi, ge' b i hb hi]
  have hqq : 0 ≤ 3 * r4r2.get (i :: b) * r4r2.get (j :: b) :=
    mul_nonneg (mul_nonneg (by norm_num) (hn.r4r2 b hb i hi)) (hn.r4r2 b hb j hj)
  have e : distAt env positions c b i j = pairDist positions c b i j := by
    rw [distAt_eq_max, max_eq_left heps]
  have e' : distAt env positions' c b i j = pairDist positions' c b i j := by
    rw [distAt_eq_max, max_eq_left (heps.trans hlt.le)]
  have hr : 0 < pairDist positions c b i j := (Real.sqrt_pos.2 env.eps_pos).trans_le heps
  have := Finset.sum_lt_sum (fun j (hj : j ∈ Finset.range n) => pairEnergy_apart (env := env)
    (numbers := numbers) (P := P) h6.le h8 h10 hn hb hi (Finset.mem_range.1 hj)
    (hd i hi j (Finset.mem_range.1 hj)) ((some cut).getD Defaults.disp2Cutoff))
    ⟨j, Finset.mem_range.2 hj, by
      have hin : inCut env numbers positions c cut b i j := ⟨⟨hZi, hZj, hij⟩, by rw [e]; exact hcut⟩
      simp only [Option.getD_some, pairEnergy, if_pos hin, e]
      split_ifs
      · rw [e']
        exact (pairE_antitone h6.le h8 h10 hC.le hqq hr hlt.le).2 h6 hC hlt
      · unfold pairE
        have f6 : 0 < ratF P.a1 P.a2 6 (pairDist positions c b i j) (radAt .rational r4r2 rvdw b i j) :=
          one_div_pos.2 (add_pos_of_pos_of_nonneg (pow_pos hr 6) ((by decide : Even 6).pow_nonneg _))
        have f8 : 0 ≤ ratF P.a1 P.a2 8 (pairDist positions c b i j) (radAt .rational r4r2 rvdw b i j) :=
          ratF_nonneg (by decide)
        have f10 : 0 ≤ ratF P.a1 P.a2 10 (pairDist positions c b i j)
          (radAt .rational r4r2 rvdw b i j) := ratF_nonneg (by decide)
        positivity⟩
  linarith

end

/-! ## A concrete case: two atoms pulled apart from 2 to 3 Bohr -/

namespace Demo

/-- Two atoms with distance `r`. -/
noncomputable def onAxis (r : ℝ) : Tensor ℝ := ⟨none, [3, 2], fun
  | [0, 1] => r
  | _ => 0⟩

theorem onAxis_dist {r : ℝ} (hr : 0 ≤ r) {i j : ℕ} (hi : i < 2) (hj : j < 2) :
    pairDist (onAxis r) 3 [] i j = if i = j then 0 else r := by
  have h : (∑ k ∈ Finset.range 3, ((onAxis r).get [k, i] - (onAxis r).get [k, j]) ^ 2) =
      (if i = j then 0 else r) ^ 2 := by
    interval_cases i <;> interval_cases j <;> simp [Finset.sum_range_succ, onAxis]
  unfold pairDist
  rw [h, Real.sqrt_sq (by split_ifs <;> linarith)]

theorem onAxis_le {i j : ℕ} (hi : i < 2) (hj : j < 2) :
    pairDist (onAxis 2) 3 [] i j ≤ pairDist (onAxis 3) 3 [] i j := by
  rw [onAxis_dist (by norm_num) hi hj, onAxis_dist (by norm_num) hi hj]
  split_ifs <;> norm_num

theorem onAxis_shapes : D2Shapes dimer (onAxis 2) (full [2, 2] 5) (full [2] 2) (full [2, 2] 6) 2 3 [] :=
  ⟨⟨rfl, rfl⟩, ⟨rfl, rfl⟩, ⟨rfl, rfl⟩, ⟨rfl, rfl⟩, ⟨rfl, rfl⟩⟩

theorem onAxis_nonneg : D2Nonneg (full [2, 2] 5) (full [2] 2) (full [2, 2] 6) 2 [] :=
  ⟨fun _ _ _ _ _ _ => by norm_num [full], fun _ _ _ _ => by norm_num [full],
    fun _ _ _ _ _ _ => by norm_num [full]⟩

example : (dispersion2 env dimer (onAxis 2) param (full [2, 2] 5) (full [2] 2)
      (some (full [2, 2] 6)) .rational none).get [0] ≤
    (dispersion2 env dimer (onAxis 3) param (full [2, 2] 5) (full [2] 2)
      (some (full [2, 2] 6)) .rational none).get [0] :=
  C66_apart onAxis_shapes ⟨rfl, rfl⟩ reads (by norm_num [par]) (by norm_num [par])
    (by norm_num [par]) onAxis_nonneg none InB_nil (fun _ hi _ hj _ _ => onAxis_le hi hj)
    (by norm_num)

example : (dispersion2 env dimer (onAxis 2) param (full [2, 2] 5) (full [2] 2)
      (some (full [2, 2] 6)) .rational (some 60)).get [0] <
    (dispersion2 env dimer (onAxis 3) param (full [2, 2] 5) (full [2] 2)
      (some (full [2, 2] 6)) .rational (some 60)).get [0] := by
  have e : pairDist (onAxis 2) 3 [] 0 1 = 2 := by
    rw [onAxis_dist] <;> norm_num
  have e' : pairDist (onAxis 3) 3 [] 0 1 = 3 := by
    rw [onAxis_dist] <;> norm_num
  refine C66_strict (j := 1) onAxis_shapes ⟨rfl, rfl⟩ reads (by norm_num [par]) (by norm_num [par])
    (by norm_num [par]) onAxis_nonneg InB_nil (fun _ hi _ hj _ _ => onAxis_le hi hj)
    (by norm_num) (by norm_num) (by norm_num) (by simp [dimer]) (by simp [dimer]) (by norm_num [full])
    ?_ ?_ ?_
  · rw [e, Real.sqrt_le_left (by norm_num)]
    show (1 : ℝ) / 2 ^ 52 ≤ 2 ^ 2
    norm_num
  · rw [e]; norm_num
  · rw [e, e']; norm_num

end Demo

end TadDftd4
