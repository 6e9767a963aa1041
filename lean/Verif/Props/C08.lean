import Verif.Props.C07

/-!
# C08: two-body dispersion is attractive and grows with the cutoff
-/

open scoped Classical

namespace TadDftd4

open Tensor

/-- All given shape parameters of the damping function are non-negative. -/
def Param.ShapeNonneg (p : Param) : Prop :=
  (∀ x, p.a1 = .val x → 0 ≤ x) ∧ (∀ x, p.a2 = .val x → 0 ≤ x) ∧ (∀ x, p.rs6 = .val x → 0 ≤ x) ∧
  (∀ x, p.rs8 = .val x → 0 ≤ x) ∧ (∀ x, p.bet = .val x → 0 ≤ x)

/-- All given scaling parameters of the two-body term are non-negative. -/
def Param.ScaleNonneg (p : Param) : Prop :=
  (∀ x, p.s6 = .val x → 0 ≤ x) ∧ (∀ x, p.s8 = .val x → 0 ≤ x) ∧ ∀ x, p.s10 = .val x → 0 ≤ x

section
variable {env : Env} {numbers : Tensor ℕ} {positions c6 r4r2 rvdw : Tensor ℝ} {n c : ℕ} {B : Shape}
  {p : Param} {d : Damping}

theorem sdiv_nonneg {x y : ℝ} (hx : 0 ≤ x) (hy : 0 ≤ y) : 0 ≤ env.sdiv x y := by
  unfold Env.sdiv
  split_ifs
  · exact div_nonneg hx env.eps_pos.le
  · exact div_nonneg hx hy

theorem kw_val {v : PVal} {x : ℝ} (h : v.kw none = some x) : v = .val x := by
  cases v <;> simp_all [PVal.kw]

/-- Damping functions take non-negative values. -/
theorem point_nonneg {order : ℕ} {f : ℝ → ℝ → ℝ} (ho : order = 6 ∨ order = 8 ∨ order = 10)
    (hp : d = .rational ∨ p.ShapeNonneg) (hf : d.point env order false p.kw = .ok f) {x r : ℝ}
    (hx : 0 < x) (hr : 0 ≤ r) : 0 ≤ f x r := by
  unfold Damping.point at hf
  have hz : ∀ {f : ℝ → ℝ → ℝ}, (Except.ok (fun _ _ => 0) : Except Err (ℝ → ℝ → ℝ)) = .ok f →
      0 ≤ f x r := by
    intro f hf; cases hf; exact le_rfl
  split at hf
  · exact hz hf
  split at hf
  · exact hz hf
  split at hf
  · exact hz hf
  split at hf
  · exact hz hf
  split at hf
  · cases hf
  have ev : Even order := by rcases ho with rfl | rfl | rfl <;> decide
  unfold Damping.pointF at hf
  cases d with
  | rational =>
    cases h1 : p.kw.a1 <;> cases h2 : p.kw.a2 <;> simp only [h1, h2] at hf <;> cases hf
    exact one_div_nonneg.2 (add_nonneg (ev.pow_nonneg _) (ev.pow_nonneg _))
  | zero =>
    obtain ⟨-, -, p6, p8, -⟩ := hp.resolve_left (by simp)
    cases h1 : p.kw.alp <;> simp only [h1] at hf
    · cases hf
    split at hf
    · cases hf
    · next ho' =>
      cases hrs : (if order = 6 then p.kw.rs6 else if order = 8 then p.kw.rs8 else p.kw.rs9) with
      | none => simp only [hrs] at hf; cases hf
      | some rs =>
        have hrs0 : 0 ≤ rs := by
          split at hrs
          · exact p6 rs (kw_val hrs)
          · split at hrs
            · exact p8 rs (kw_val hrs)
            · omega
        simp only [hrs, Bool.false_eq_true, if_false] at hf
        cases hf
        refine sdiv_nonneg (one_div_nonneg.2 (add_nonneg zero_le_one (mul_nonneg (by norm_num)
          (Real.rpow_nonneg (mul_nonneg hrs0 (sdiv_nonneg hx.le hr)) _)))) (pow_nonneg hx.le _)
  | mzero =>
    obtain ⟨-, -, p6, p8, pb⟩ := hp.resolve_left (by simp)
    cases h1 : p.kw.alp <;> cases h2 : p.kw.bet <;> simp only [h1, h2] at hf <;> try cases hf
    split at hf
    · cases hf
    · cases hrs : (if order = 6 then p.kw.rs6 else p.kw.rs8) with
      | none => simp only [hrs] at hf; cases hf
      | some rs =>
        have hrs0 : 0 ≤ rs := by
          split at hrs
          · exact p6 rs (kw_val hrs)
          · exact p8 rs (kw_val hrs)
        simp only [hrs] at hf
        cases hf
        refine sdiv_nonneg (one_div_nonneg.2 (add_nonneg zero_le_one (mul_nonneg (by norm_num)
          (Real.rpow_nonneg (add_nonneg (div_nonneg hx.le (mul_nonneg hrs0 hr))
            (mul_nonneg (pb _ (kw_val h2)) hr)) _)))) (pow_nonneg hx.le _)
  | op =>
    obtain ⟨p1, p2, -, -, -⟩ := hp.resolve_left (by simp)
    cases h1 : p.kw.a1 <;> cases h2 : p.kw.a2 <;> cases h3 : p.kw.bet <;>
      simp only [h1, h2, h3] at hf <;> try cases hf
    split at hf
    · cases hf
    · cases hf
      have hb : ∀ y : ℝ, 0 ≤ y → ∀ z : ℝ, 0 ≤ y ^ z := fun y hy z => Real.rpow_nonneg hy z
      exact div_nonneg (hb _ hx.le _) (add_nonneg (mul_nonneg (hb _ hx.le _) (pow_nonneg hx.le _))
        (mul_nonneg (hb _ (add_nonneg (mul_nonneg (p1 _ (kw_val h1)) (Real.sqrt_nonneg _))
          (p2 _ (kw_val h2))) _) (pow_nonneg hx.le _)))

/-- Non-negative coefficients and radii of the input of `dispersion2`. -/
structure D2Nonneg (c6 r4r2 rvdw : Tensor ℝ) (n : ℕ) (B : Shape) : Prop where
  c6 : ∀ b, InB B b → ∀ i < n, ∀ j < n, 0 ≤ c6.get (j :: i :: b)
  r4r2 : ∀ b, InB B b → ∀ i < n, 0 ≤ r4r2.get (i :: b)
  rvdw : ∀ b, InB B b → ∀ i < n, ∀ j < n, 0 ≤ rvdw.get (j :: i :: b)

theorem pairEnergy_facts (hu : d.Usable env p) (hn : D2Nonneg c6 r4r2 rvdw n B)
    (hs : p.ScaleNonneg) (hp : d = .rational ∨ p.ShapeNonneg) {f6 f8 f10 : ℝ → ℝ → ℝ} {s6 s8 s10 : ℝ}
    (h6 : d.point env 6 false p.kw = .ok f6) (h8 : d.point env 8 false p.kw = .ok f8)
    (hs6 : p.s6.Is Defaults.s6 s6) (hs8 : p.s8.Is Defaults.s8 s8) (hs10 : S10Is env d p s10 f10)
    {b : Idx} (hb : InB B b) {i j : ℕ} (hi : i < n) (hj : j < n) (cut : ℝ) :
    0 ≤ pairEnergy env numbers positions c6 r4r2 rvdw c d cut s6 s8 s10 f6 f8 f10 b i j := by
  unfold pairEnergy
  split_ifs with hc
  · have hR := distAt_pos (env := env) (positions := positions) (c := c) b i j
    have hrad : 0 ≤ radAt d r4r2 rvdw b i j := by
      unfold radAt
      cases d.radiusType
      · exact mul_nonneg (mul_nonneg (by norm_num) (hn.r4r2 b hb i hi)) (hn.r4r2 b hb j hj)
      · exact hn.rvdw b hb i hi j hj
    have hqq : 0 ≤ 3 * r4r2.get (i :: b) * r4r2.get (j :: b) :=
      mul_nonneg (mul_nonneg (by norm_num) (hn.r4r2 b hb i hi)) (hn.r4r2 b hb j hj)
    have hc6 := hn.c6 b hb i hi j hj
    have g6 : 0 ≤ s6 := by
      rcases hs6 with h | ⟨-, rfl⟩
      · exact hs.1 _ h
      · norm_num [Defaults.s6]
    have g8 : 0 ≤ s8 := by
      rcases hs8 with h | ⟨-, rfl⟩
      · exact hs.2.1 _ h
      · norm_num [Defaults.s8]
    have F6 := point_nonneg (Or.inl rfl) hp h6 hR hrad
    have F8 := point_nonneg (Or.inr (Or.inl rfl)) hp h8 hR hrad
    unfold pairE
    refine add_nonneg (add_nonneg (mul_nonneg g6 (mul_nonneg hc6 F6))
      (mul_nonneg g8 (mul_nonneg (mul_nonneg hc6 hqq) F8))) ?_
    rcases hs10 with ⟨-, rfl⟩ | ⟨h, hf⟩
    · simp
    · have F10 := point_nonneg (Or.inr (Or.inr rfl)) hp hf hR hrad
      exact mul_nonneg (hs.2.2 _ h) (mul_nonneg (div_nonneg (mul_nonneg (mul_nonneg hc6
        (sq_nonneg _)) (by norm_num)) (by norm_num)) F10)
  · exact le_rfl

/-- Every two-body energy is at most zero (rational damping with any `a1`, `a2`, the others with
non-negative shape parameters). -/
theorem C08_attractive (h : D2Shapes numbers positions c6 r4r2 rvdw n c B) (hu : d.Usable env p)
    (hn : D2Nonneg c6 r4r2 rvdw n B) (hs : p.ScaleNonneg) (hp : d = .rational ∨ p.ShapeNonneg)
    (cutoff : Option ℝ) {b : Idx} (hb : InB B b) {i : ℕ} (hi : i < n) :
    (dispersion2 env numbers positions p c6 r4r2 (some rvdw) d cutoff).get (i :: b) ≤ 0 := by
  obtain ⟨f6, f8, f10, s6, s8, s10, h6, h8, hs6, hs8, hs10⟩ := hu.values
  obtain ⟨-, -, -, ge⟩ := dispersion2_eval h hu.extra h6 h8 hs6 hs8 hs10 cutoff
  rw [ge b i hb hi]
  have := Finset.sum_nonneg fun j (hj : j ∈ Finset.range n) =>
    pairEnergy_facts (numbers := numbers) (positions := positions) (c := c) hu hn hs hp h6 h8 hs6 hs8
      hs10 hb hi (Finset.mem_range.1 hj) (cutoff.getD Defaults.disp2Cutoff)
  linarith

/-- A larger cutoff never increases any energy. -/
theorem C08_monotone (h : D2Shapes numbers positions c6 r4r2 rvdw n c B) (hu : d.Usable env p)
    (hn : D2Nonneg c6 r4r2 rvdw n B) (hs : p.ScaleNonneg) (hp : d = .rational ∨ p.ShapeNonneg)
    {cut cut' : ℝ} (hcut : cut ≤ cut') {b : Idx} (hb : InB B b) {i : ℕ} (hi : i < n) :
    (dispersion2 env numbers positions p c6 r4r2 (some rvdw) d (some cut')).get (i :: b) ≤
      (dispersion2 env numbers positions p c6 r4r2 (some rvdw) d (some cut)).get (i :: b) := by
  obtain ⟨f6, f8, f10, s6, s8, s10, h6, h8, hs6, hs8, hs10⟩ := hu.values
  obtain ⟨-, -, -, ge⟩ := dispersion2_eval h hu.extra h6 h8 hs6 hs8 hs10 (some cut)
  obtain ⟨-, -, -, ge'⟩ := dispersion2_eval h hu.extra h6 h8 hs6 hs8 hs10 (some cut')
  rw [ge b i hb hi, ge' b i hb hi]
  have : ∑ j ∈ Finset.range n, pairEnergy env numbers positions c6 r4r2 rvdw c d
      ((some cut).getD Defaults.disp2Cutoff) s6 s8 s10 f6 f8 f10 b i j ≤
      ∑ j ∈ Finset.range n, pairEnergy env numbers positions c6 r4r2 rvdw c d
      ((some cut').getD Defaults.disp2Cutoff) s6 s8 s10 f6 f8 f10 b i j := by
    refine Finset.sum_le_sum fun j hj => ?_
    have hnn := pairEnergy_facts (numbers := numbers) (positions := positions) (c := c) hu hn hs hp
      h6 h8 hs6 hs8 hs10 hb hi (Finset.mem_range.1 hj) cut'
    by_cases hc : inCut env numbers positions c cut b i j
    · have hc' : inCut env numbers positions c cut' b i j := ⟨hc.1, hc.2.trans hcut⟩
      simp only [Option.getD_some, pairEnergy, if_pos hc, if_pos hc']
      exact le_rfl
    · simp only [Option.getD_some]
      rw [pairEnergy, if_neg hc]
      exact hnn
  linarith

end

/-- Water and hydrogen fluoride, rational damping. -/
example : (dispersion2 Demo.env Demo.numbers Demo.positions Demo.param (full [3, 3, 2] 5)
    (full [3, 2] 2) (some (full [3, 3, 2] 6))).get [1, 0] ≤ 0 :=
  C08_attractive (n := 3) (c := 3) (B := [2]) ⟨⟨rfl, rfl⟩, ⟨rfl, rfl⟩, ⟨rfl, rfl⟩, ⟨rfl, rfl⟩,
    ⟨rfl, rfl⟩⟩ (usable_rational Demo.reads) ⟨fun _ _ _ _ _ _ => by norm_num [full],
      fun _ _ _ _ => by norm_num [full], fun _ _ _ _ _ _ => by norm_num [full]⟩
    ⟨by simp [Demo.param], by simp [Demo.param]; norm_num, by simp [Demo.param]⟩ (Or.inl rfl) none
    (by simp [InB]) (by norm_num)

example : (dispersion2 Demo.env Demo.numbers Demo.positions Demo.param (full [3, 3, 2] 5)
      (full [3, 2] 2) (some (full [3, 3, 2] 6)) .rational (some 60)).get [1, 0] ≤
    (dispersion2 Demo.env Demo.numbers Demo.positions Demo.param (full [3, 3, 2] 5)
      (full [3, 2] 2) (some (full [3, 3, 2] 6)) .rational (some 2)).get [1, 0] :=
  C08_monotone (n := 3) (c := 3) (B := [2]) ⟨⟨rfl, rfl⟩, ⟨rfl, rfl⟩, ⟨rfl, rfl⟩, ⟨rfl, rfl⟩,
    ⟨rfl, rfl⟩⟩ (usable_rational Demo.reads) ⟨fun _ _ _ _ _ _ => by norm_num [full],
      fun _ _ _ _ => by norm_num [full], fun _ _ _ _ _ _ => by norm_num [full]⟩
    ⟨by simp [Demo.param], by simp [Demo.param]; norm_num, by simp [Demo.param]⟩ (Or.inl rfl)
    (by norm_num) (by simp [InB]) (by norm_num)

end TadDftd4
