import Verif.Lemmas.Ieee

/-!
# Ranges of intermediate results

`Sound F u e P`: every evaluation of `e` in the format `F` gives a number with the property `P`, and it is
one of the results of the machines of `Model/Rounded.lean`, so neither overflow nor underflow matters.
-/

open scoped Classical

namespace TadDftd4.Rounded

open Fmt

/-- What is known about the sign. -/
inductive Sg
  | any
  | nn
  | pos
deriving DecidableEq

namespace Sg
/-- Numbers with this sign. -/
def Ok : Sg → ℝ → Prop
  | any, _ => True
  | nn, x => 0 ≤ x
  | pos, x => 0 < x

/-- Sign of a product. -/
def mul : Sg → Sg → Sg
  | pos, pos => pos
  | any, _ => any
  | _, any => any
  | _, _ => nn

/-- Sign of a sum of two numbers that are not negative. -/
def add : Sg → Sg → Sg
  | nn, nn => nn
  | any, _ => any
  | _, any => any
  | _, _ => pos

theorem Ok.mul {s t : Sg} {x y : ℝ} (h : s.Ok x) (h' : t.Ok y) : (s.mul t).Ok (x * y) := by
  cases s <;> cases t <;> simp only [Sg.Ok, Sg.mul] at * <;>
    first | trivial | positivity

theorem Ok.div {s t : Sg} {x y : ℝ} (h : s.Ok x) (h' : t.Ok y) : (s.mul t).Ok (x / y) := by
  cases s <;> cases t <;> simp only [Sg.Ok, Sg.mul] at * <;>
    first | trivial | positivity

theorem Ok.add {s t : Sg} {x y : ℝ} (h : s.Ok x) (h' : t.Ok y) : (s.add t).Ok (x + y) := by
  cases s <;> cases t <;> simp only [Sg.Ok, Sg.add] at * <;>
    first | trivial | positivity

theorem Ok.nonneg {s : Sg} {x : ℝ} (h : s.Ok x) (hs : s ≠ any) : 0 ≤ x := by
  cases s
  · exact absurd rfl hs
  · exact h
  · exact le_of_lt h

end Sg

/-- Zero, or of a magnitude between `2^m` and `2^M`. -/
def In (s : Sg) (m M : ℤ) (x : ℝ) : Prop := s.Ok x ∧ (x = 0 ∨ (2 : ℝ) ^ m ≤ |x|) ∧ |x| ≤ (2 : ℝ) ^ M

/-- A multiple of `2^g` of a magnitude of at most `2^M`. -/
def Gr (g M : ℤ) (x : ℝ) : Prop := OnGrid g x ∧ |x| ≤ (2 : ℝ) ^ M

theorem In.mono {s : Sg} {m M m' M' : ℤ} {x : ℝ} (h : In s m M x) (h1 : m' ≤ m) (h2 : M ≤ M') :
    In s m' M' x :=
  ⟨h.1, h.2.1.imp_right (two_zpow_le h1).trans, h.2.2.trans (two_zpow_le h2)⟩

theorem In.nn {s : Sg} {m M : ℤ} {x : ℝ} (h : In s m M x) (hs : s ≠ .any) : In .nn m M x :=
  ⟨h.1.nonneg hs, h.2⟩

theorem In.any {s : Sg} {m M : ℤ} {x : ℝ} (h : In s m M x) : In .any m M x := ⟨trivial, h.2⟩

theorem In.ge {m M : ℤ} {x : ℝ} (h : In .pos m M x) : (2 : ℝ) ^ m ≤ x := by
  have h0 : 0 < x := h.1
  rcases h.2.1 with h1 | h1
  · exact absurd h1 h0.ne'
  · rwa [abs_of_pos h0] at h1

theorem In.le {s : Sg} {m M : ℤ} {x : ℝ} (h : In s m M x) : x ≤ (2 : ℝ) ^ M := (le_abs_self x).trans h.2.2

theorem in_pos {m M : ℤ} {x : ℝ} (h1 : (2 : ℝ) ^ m ≤ x) (h2 : x ≤ (2 : ℝ) ^ M) : In .pos m M x := by
  have h0 : 0 < x := lt_of_lt_of_le (two_zpow_pos m) h1
  exact ⟨h0, Or.inr (by rwa [abs_of_pos h0]), by rwa [abs_of_pos h0]⟩

theorem In.gr {F : Fmt} {s : Sg} {m M : ℤ} {x : ℝ} (h : In s m M x) (hx : F.Num x) :
    Gr (m - F.p + 1) M x := ⟨hx.onGrid h.2.1, h.2.2⟩

theorem Gr.in {g M : ℤ} {x : ℝ} (h : Gr g M x) : In .any g M x := ⟨trivial, h.1.abs_ge, h.2⟩

theorem Gr.mono {g M g' M' : ℤ} {x : ℝ} (h : Gr g M x) (h1 : g' ≤ g) (h2 : M ≤ M') : Gr g' M' x :=
  ⟨h.1.mono h1, h.2.trans (two_zpow_le h2)⟩

theorem abs_add_le_zpow {x y : ℝ} {M : ℤ} (hx : |x| ≤ (2 : ℝ) ^ M) (hy : |y| ≤ (2 : ℝ) ^ M) :
    |x + y| ≤ (2 : ℝ) ^ (M + 1) := by
  rw [zpow_add_one₀ two_ne_zero]
  linarith [abs_add_le x y]

/-- Exponents of normal numbers. -/
structure Range (F : Fmt) (m M : ℤ) : Prop where
  lo : F.emin + F.p - 1 ≤ m
  mid : m ≤ M
  hi : M ≤ F.emax + F.p - 1

section
variable {F : Fmt} {u : ℝ} (hF : F.Ok) (hu : F.unit ≤ u)
include hF hu

omit hF in
theorem Fl.unit {x z : ℝ} (h : Fl F.unit x z) : Fl u x z :=
  le_trans h (mul_le_mul_of_nonneg_right hu (abs_nonneg _))

omit hF hu in
theorem _root_.TadDftd4.Rounded.Fmt.Round.fin {x : ℝ} {r : FP} (h : F.Round (.fin x) r) : F.Rnd x r := h.1 x rfl

theorem round_in {x : ℝ} {r : FP} {s : Sg} {m M : ℤ} (h : F.Round (.fin x) r) (hx : In s m M x)
    (hr : Range F m M) : ∃ z, r = .fin z ∧ F.Num z ∧ Fl u x z ∧ In s m M z := by
  have hp := hF.p
  have hb : |x| ≤ F.big := hx.2.2.trans (hF.zpow_le_big hr.hi)
  obtain ⟨z, rfl, hz⟩ := h.fin.1 hb
  have l1 := hr.lo
  have l2 := hr.mid
  have l3 := hr.hi
  rcases hx.2.1 with h0 | h0
  · have e0 : z = 0 := by rw [hz.eq (h0 ▸ hF.num_zero), h0]
    subst e0
    refine ⟨0, rfl, hz.1, ?_, ?_⟩
    · rw [h0]; simp [Fl]
    · rwa [h0] at hx
  · have hlow := hz.le_abs (hF.num_zpow (by omega) (by omega)) h0
    refine ⟨z, rfl, hz.1, Fl.unit hu (hz.fl hF ((two_zpow_le l1).trans h0) hb), ?_, Or.inr hlow,
      hz.abs_le (hF.num_zpow (by omega) l3) hx.2.2⟩
    have hs := hx.1
    have nn : 0 ≤ x → 0 ≤ z := fun hx0 => hz.ge hF.num_zero hx0
    cases s
    · trivial
    · exact nn hs
    · refine lt_of_le_of_ne (nn (le_of_lt hs)) fun e => ?_
      rw [← e, abs_zero] at hlow
      exact absurd hlow (not_le.2 (two_zpow_pos m))

theorem round_gr {x : ℝ} {r : FP} {g M : ℤ} (h : F.Round (.fin x) r) (hx : Gr g M x)
    (h1 : F.emin ≤ g) (h2 : g ≤ F.emax) (h3 : F.emin ≤ M) (h4 : M ≤ F.emax + F.p - 1) :
    ∃ z, r = .fin z ∧ F.Num z ∧ Fl u x z ∧ Gr g M z := by
  have hb : |x| ≤ F.big := hx.2.trans (hF.zpow_le_big h4)
  obtain ⟨z, rfl, hz⟩ := h.fin.1 hb
  obtain ⟨a, b⟩ := hz.grid hF hx.1 h1 h2 hb
  exact ⟨z, rfl, hz.1, Fl.unit hu b, a, hz.abs_le (hF.num_zpow h3 h4) hx.2⟩

omit hu in
theorem func_in {x : ℝ} {r : FP} {s : Sg} {m M : ℤ} (hu0 : 0 ≤ u) (hu1 : 2 * u ≤ 1)
    (h : F.RoundF u (.fin x) r) (hx : In s m M x) (hr : Range F m (M + 1)) :
    ∃ z, r = .fin z ∧ F.Num z ∧ Fl u x z ∧ In s (m - 1) (M + 1) z := by
  have hf := h.1 x rfl
  have l1 := hr.lo
  have l2 := hr.mid
  have l3 := hr.hi
  rcases hx.2.1 with h0 | h0
  · refine ⟨0, hf.1 h0, hF.num_zero, ?_, ?_⟩
    · rw [h0]; simp [Fl]
    · rw [h0] at hx
      exact hx.mono (by omega) (by omega)
  · have hb : |x| ≤ F.big / 2 := by
      have := hF.zpow_le_big l3
      rw [zpow_add_one₀ two_ne_zero] at this
      linarith [hx.2.2]
    obtain ⟨z, rfl, hz, hfl⟩ := hf.2.1 ((two_zpow_le l1).trans h0) hb
    have hd : |z - x| ≤ |x| / 2 := by
      refine le_trans hfl ?_
      nlinarith [abs_nonneg x]
    refine ⟨z, rfl, hz, hfl, ?_, Or.inr ?_, ?_⟩
    · have hs := hx.1
      have hx0 : 0 < |x| := lt_of_lt_of_le (two_zpow_pos m) h0
      have key : 0 ≤ x → 0 < z := by
        intro hx'
        rw [abs_of_nonneg hx'] at hd hx0
        have := (abs_le.1 hd).1
        linarith
      cases s
      · trivial
      · exact (key hs).le
      · exact key (le_of_lt hs)
    · rw [zpow_sub_one₀ two_ne_zero]
      have := abs_sub_abs_le_abs_sub x z
      rw [abs_sub_comm x z] at this
      linarith
    · rw [zpow_add_one₀ two_ne_zero]
      have := abs_sub_abs_le_abs_sub z x
      linarith [hx.2.2, two_zpow_pos M]

end

/-- Every evaluation in the format is an evaluation without overflow and underflow. -/
def Sound (F : Fmt) (u : ℝ) (e : Ex) (P : ℝ → Prop) : Prop :=
  ∀ r, e.Runs F u r → ∃ z, r = .fin z ∧ F.Num z ∧ e.Rounds u z ∧ P z

namespace Sound
variable {F : Fmt} {u : ℝ} {a b : Ex}

theorem imp {P Q : ℝ → Prop} (h : Sound F u a P) (hPQ : ∀ z, F.Num z → P z → Q z) : Sound F u a Q :=
  fun r hr => let ⟨z, e, h1, h2, h3⟩ := h r hr; ⟨z, e, h1, h2, hPQ z h1 h3⟩

theorem mono {s : Sg} {m M m' M' : ℤ} (h : Sound F u a (In s m M)) (h1 : m' ≤ m) (h2 : M ≤ M') :
    Sound F u a (In s m' M') := h.imp fun _ _ hz => hz.mono h1 h2

theorem const {c : ℝ} {P : ℝ → Prop} (hc : F.Num c) (h : P c) : Sound F u (.const c) P := by
  intro r hr
  cases hr
  exact ⟨c, rfl, hc, .const c, h⟩

theorem inp {x : ℝ} {k : ℕ} {s : Sg} {m M : ℤ} (hs : s ≠ .any) (hx : In s m M x)
    (hk : 1 / 2 ≤ (1 - u) ^ k) : Sound F u (.inp x k) (In s (m - 1) (M + 1)) := by
  intro r hr
  cases hr with
  | @inp _ z _ hn hz =>
    refine ⟨z, rfl, hz, .inp hn, ?_⟩
    have hx0 : 0 ≤ x := hx.1.nonneg hs
    have hp : 0 < (1 - u) ^ k := by linarith
    have hz0 : 0 ≤ z := le_trans (mul_nonneg hp.le hx0) hn.1
    refine ⟨?_, ?_, ?_⟩
    · cases s
      · exact absurd rfl hs
      · exact hz0
      · exact lt_of_lt_of_le (mul_pos hp hx.1) hn.1
    · rcases hx.2.1 with h0 | h0
      · left
        have := hn.2
        rw [h0] at this
        exact le_antisymm (by nlinarith) hz0
      · right
        rw [abs_of_nonneg hx0] at h0
        rw [abs_of_nonneg hz0, zpow_sub_one₀ two_ne_zero]
        nlinarith [hn.1]
    · have := hx.2.2
      rw [abs_of_nonneg hx0] at this
      rw [abs_of_nonneg hz0, zpow_add_one₀ two_ne_zero]
      nlinarith [hn.2]

theorem neg {g M : ℤ} (h : Sound F u a (Gr g M)) : Sound F u (.neg a) (Gr g M) := by
  intro r hr
  cases hr with
  | neg hr =>
    obtain ⟨z, rfl, h1, h2, h3, h4⟩ := h _ hr
    exact ⟨-z, rfl, h1.neg, .neg h2, h3.neg, by rwa [abs_neg]⟩

theorem abs {s : Sg} {m M : ℤ} (h : Sound F u a (In s m M)) : Sound F u (.abs a) (In .nn m M) := by
  intro r hr
  cases hr with
  | abs hr =>
    obtain ⟨z, rfl, h1, h2, h3, h4, h5⟩ := h _ hr
    refine ⟨|z|, rfl, ?_, .abs h2, abs_nonneg z, ?_, by rwa [abs_abs]⟩
    · rcases abs_choice z with e | e <;> rw [e]
      · exact h1
      · exact h1.neg
    · rw [abs_abs, abs_eq_zero]; exact h4

theorem clampMin {s : Sg} {c : ℝ} {m M mc Mc U : ℤ} (h : Sound F u a (In s m M)) (hc : F.Num c)
    (hc' : In .pos mc Mc c) (h1 : M ≤ U) (h2 : Mc ≤ U) : Sound F u (.clampMin a c) (In .pos mc U) := by
  intro r hr
  cases hr with
  | clampMin hr =>
    obtain ⟨z, rfl, h3, h4, h5⟩ := h _ hr
    refine ⟨max z c, rfl, ?_, .clampMin h4, in_pos (hc'.ge.trans (le_max_right _ _)) (max_le
      (h5.le.trans (two_zpow_le h1)) (hc'.le.trans (two_zpow_le h2)))⟩
    rcases max_choice z c with e | e <;> rw [e]
    · exact h3
    · exact hc

theorem sel {c d : Ex} {P Q R : ℝ → Prop} (ha : Sound F u a P) (hb : Sound F u b Q)
    (hc : Sound F u c R) (hd : Sound F u d R) : Sound F u (.sel a b c d) R := by
  intro r hr
  cases hr with
  | sel_le h1 h2 h3 h4 =>
    obtain ⟨x, rfl, -, hx, -⟩ := ha _ h1
    obtain ⟨y, rfl, -, hy, -⟩ := hb _ h2
    obtain ⟨z, rfl, hz, hz', hz''⟩ := hc _ h4
    exact ⟨z, rfl, hz, .sel_le hx hy h3 hz', hz''⟩
  | sel_gt h1 h2 h3 h4 =>
    obtain ⟨x, rfl, -, hx, -⟩ := ha _ h1
    obtain ⟨y, rfl, -, hy, -⟩ := hb _ h2
    obtain ⟨z, rfl, hz, hz', hz''⟩ := hd _ h4
    exact ⟨z, rfl, hz, .sel_gt hx hy (not_le.1 h3) hz', hz''⟩

section
variable (hF : F.Ok) (hu : F.unit ≤ u)
include hF hu

theorem mul {s t : Sg} {m M m' M' : ℤ} (ha : Sound F u a (In s m M)) (hb : Sound F u b (In t m' M'))
    (hr : Range F (m + m') (M + M')) : Sound F u (.mul a b) (In (s.mul t) (m + m') (M + M')) := by
  intro r h
  cases h with
  | mul h1 h2 h3 =>
    obtain ⟨x, rfl, -, hx, ix⟩ := ha _ h1
    obtain ⟨y, rfl, -, hy, iy⟩ := hb _ h2
    have ixy : In (s.mul t) (m + m') (M + M') (x * y) := by
      refine ⟨ix.1.mul iy.1, ?_, ?_⟩
      · rcases ix.2.1 with h0 | h0
        · left; rw [h0, zero_mul]
        · rcases iy.2.1 with h0' | h0'
          · left; rw [h0', mul_zero]
          · right
            rw [abs_mul, zpow_add₀ two_ne_zero]
            exact mul_le_mul h0 h0' (two_zpow_pos _).le (abs_nonneg _)
      · rw [abs_mul, zpow_add₀ two_ne_zero]
        exact mul_le_mul ix.2.2 iy.2.2 (abs_nonneg _) (two_zpow_pos _).le
    obtain ⟨z, rfl, hz, hfl, iz⟩ := round_in hF hu h3 ixy hr
    exact ⟨z, rfl, hz, .mul hx hy hfl, iz⟩

theorem div {s : Sg} {m M m' M' : ℤ} (ha : Sound F u a (In s m M)) (hb : Sound F u b (In .pos m' M'))
    (hr : Range F (m - M') (M - m')) : Sound F u (.div a b) (In (s.mul .pos) (m - M') (M - m')) := by
  intro r h
  cases h with
  | div h1 h2 h3 =>
    obtain ⟨x, rfl, -, hx, ix⟩ := ha _ h1
    obtain ⟨y, rfl, -, hy, iy⟩ := hb _ h2
    have hy0 : 0 < y := iy.1
    have e : (FP.fin x).div (.fin y) = .fin (x / y) := by
      show (if y ≠ 0 then FP.fin (x / y) else _) = _
      rw [if_pos hy0.ne']
    rw [e] at h3
    have ixy : In (s.mul .pos) (m - M') (M - m') (x / y) := by
      refine ⟨ix.1.div iy.1, ?_, ?_⟩
      · rcases ix.2.1 with h0 | h0
        · left; rw [h0, zero_div]
        · right
          rw [abs_div, zpow_sub₀ two_ne_zero, abs_of_pos hy0]
          exact div_le_div₀ (abs_nonneg _) h0 hy0 iy.le
      · rw [abs_div, zpow_sub₀ two_ne_zero, abs_of_pos hy0]
        exact div_le_div₀ (two_zpow_pos _).le ix.2.2 (two_zpow_pos _) iy.ge
    obtain ⟨z, rfl, hz, hfl, iz⟩ := round_in hF hu h3 ixy hr
    exact ⟨z, rfl, hz, .div hx hy hfl, iz⟩

theorem sqrt {s : Sg} {m M m' M' : ℤ} (hs : s ≠ .any) (ha : Sound F u a (In s m' M'))
    (h1 : 2 * m ≤ m') (h2 : M' ≤ 2 * M) (hr : Range F m M) : Sound F u (.sqrt a) (In s m M) := by
  intro r h
  cases h with
  | sqrt h3 h4 =>
    obtain ⟨x, rfl, -, hx, ix⟩ := ha _ h3
    have hx0 : 0 ≤ x := ix.1.nonneg hs
    have e : (FP.fin x).sqrt = .fin √x := by
      show (if 0 ≤ x then FP.fin √x else _) = _
      rw [if_pos hx0]
    rw [e] at h4
    have sq : ∀ k : ℤ, ((2 : ℝ) ^ k) ^ 2 = (2 : ℝ) ^ (2 * k) := by
      intro k; rw [← zpow_natCast, ← zpow_mul]; congr 1; push_cast; ring
    have ixy : In s m M √x := by
      refine ⟨?_, ?_, ?_⟩
      · cases s
        · trivial
        · exact Real.sqrt_nonneg x
        · exact Real.sqrt_pos.2 ix.1
      · rcases ix.2.1 with h0 | h0
        · left; rw [h0, Real.sqrt_zero]
        · right
          rw [abs_of_nonneg (Real.sqrt_nonneg x)]
          refine Real.le_sqrt_of_sq_le ?_
          rw [sq]
          rw [abs_of_nonneg hx0] at h0
          exact (two_zpow_le h1).trans h0
      · rw [abs_of_nonneg (Real.sqrt_nonneg x)]
        refine Real.sqrt_le_iff.2 ⟨(two_zpow_pos _).le, ?_⟩
        rw [sq]
        exact ix.le.trans (two_zpow_le h2)
    obtain ⟨z, rfl, hz, hfl, iz⟩ := round_in hF hu h4 ixy hr
    exact ⟨z, rfl, hz, .sqrt hx hfl, iz⟩

theorem add {s t : Sg} {m M m' M' l U : ℤ} (hs : s ≠ .any) (ht : t ≠ .any)
    (ha : Sound F u a (In s m M)) (hb : Sound F u b (In t m' M')) (h1 : l ≤ m) (h2 : l ≤ m')
    (h3 : M ≤ U) (h4 : M' ≤ U) (hr : Range F l (U + 1)) : Sound F u (.add a b) (In (s.add t) l (U + 1)) := by
  intro r h
  cases h with
  | add h5 h6 h7 =>
    obtain ⟨x, rfl, -, hx, ix⟩ := ha _ h5
    obtain ⟨y, rfl, -, hy, iy⟩ := hb _ h6
    have hx0 := ix.1.nonneg hs
    have hy0 := iy.1.nonneg ht
    have ix' := ix.mono h1 h3
    have iy' := iy.mono h2 h4
    have ixy : In (s.add t) l (U + 1) (x + y) := by
      refine ⟨ix.1.add iy.1, ?_, abs_add_le_zpow ix'.2.2 iy'.2.2⟩
      rw [abs_of_nonneg (add_nonneg hx0 hy0)]
      rcases ix'.2.1 with h0 | h0
      · rcases iy'.2.1 with h0' | h0'
        · left; rw [h0, h0', add_zero]
        · right
          rw [abs_of_nonneg hy0] at h0'
          linarith
      · right
        rw [abs_of_nonneg hx0] at h0
        linarith
    obtain ⟨z, rfl, hz, hfl, iz⟩ := round_in hF hu h7 ixy hr
    exact ⟨z, rfl, hz, .add hx hy hfl, iz⟩

/-- The sum of a number that is not negative and a positive number is at least the latter. -/
theorem add_nn_pos {s : Sg} {m M m' M' U : ℤ} (hs : s ≠ .any) (ha : Sound F u a (In s m M))
    (hb : Sound F u b (In .pos m' M')) (h3 : M ≤ U) (h4 : M' ≤ U) (hr : Range F m' (U + 1)) :
    Sound F u (.add a b) (In .pos m' (U + 1)) := by
  intro r h
  cases h with
  | add h5 h6 h7 =>
    obtain ⟨x, rfl, -, hx, ix⟩ := ha _ h5
    obtain ⟨y, rfl, -, hy, iy⟩ := hb _ h6
    have hx0 := ix.1.nonneg hs
    have hy0 : 0 < y := iy.1
    have hge := iy.ge
    have hup := abs_add_le_zpow (ix.2.2.trans (two_zpow_le h3)) (iy.2.2.trans (two_zpow_le h4))
    obtain ⟨z, rfl, hz, hfl, iz⟩ := round_in hF hu h7 (in_pos (by linarith : (2 : ℝ) ^ m' ≤ x + y)
      ((le_abs_self _).trans hup)) hr
    exact ⟨z, rfl, hz, .add hx hy hfl, iz⟩

/-- As `add_nn_pos`, in the other order. -/
theorem add_pos_nn {s : Sg} {m M m' M' U : ℤ} (hs : s ≠ .any) (hb : Sound F u b (In s m M))
    (ha : Sound F u a (In .pos m' M')) (h3 : M ≤ U) (h4 : M' ≤ U) (hr : Range F m' (U + 1)) :
    Sound F u (.add a b) (In .pos m' (U + 1)) := by
  intro r h
  cases h with
  | add h5 h6 h7 =>
    obtain ⟨y, rfl, -, hy, iy⟩ := ha _ h5
    obtain ⟨x, rfl, -, hx, ix⟩ := hb _ h6
    have hx0 := ix.1.nonneg hs
    have hy0 : 0 < y := iy.1
    have hge := iy.ge
    have hup := abs_add_le_zpow (iy.2.2.trans (two_zpow_le h4)) (ix.2.2.trans (two_zpow_le h3))
    obtain ⟨z, rfl, hz, hfl, iz⟩ := round_in hF hu h7 (in_pos (by linarith : (2 : ℝ) ^ m' ≤ y + x)
      ((le_abs_self _).trans hup)) hr
    exact ⟨z, rfl, hz, .add hy hx hfl, iz⟩

theorem add_gr {g M M' U : ℤ} (ha : Sound F u a (Gr g M)) (hb : Sound F u b (Gr g M'))
    (h1 : F.emin ≤ g) (h2 : g ≤ F.emax) (h3 : M ≤ U) (h4 : M' ≤ U) (h5 : F.emin ≤ U + 1)
    (h6 : U + 1 ≤ F.emax + F.p - 1) : Sound F u (.add a b) (Gr g (U + 1)) := by
  intro r h
  cases h with
  | add h7 h8 h9 =>
    obtain ⟨x, rfl, -, hx, ix⟩ := ha _ h7
    obtain ⟨y, rfl, -, hy, iy⟩ := hb _ h8
    obtain ⟨z, rfl, hz, hfl, iz⟩ := round_gr hF hu (g := g) (M := U + 1) h9 ⟨ix.1.add iy.1,
      abs_add_le_zpow (ix.2.trans (two_zpow_le h3)) (iy.2.trans (two_zpow_le h4))⟩ h1 h2 h5 h6
    exact ⟨z, rfl, hz, .add hx hy hfl, iz⟩

theorem sub_gr {g M M' U : ℤ} (ha : Sound F u a (Gr g M)) (hb : Sound F u b (Gr g M'))
    (h1 : F.emin ≤ g) (h2 : g ≤ F.emax) (h3 : M ≤ U) (h4 : M' ≤ U) (h5 : F.emin ≤ U + 1)
    (h6 : U + 1 ≤ F.emax + F.p - 1) : Sound F u (.sub a b) (Gr g (U + 1)) := by
  intro r h
  cases h with
  | sub h7 h8 h9 =>
    obtain ⟨x, rfl, -, hx, ix⟩ := ha _ h7
    obtain ⟨y, rfl, -, hy, iy⟩ := hb _ h8
    have h9' : F.Round (.fin (x - y)) r := by rw [sub_eq_add_neg]; exact h9
    obtain ⟨z, rfl, hz, hfl, iz⟩ := round_gr hF hu (g := g) (M := U + 1) h9' (by
      rw [sub_eq_add_neg]
      exact ⟨ix.1.add iy.1.neg, abs_add_le_zpow (ix.2.trans (two_zpow_le h3))
        (by rw [abs_neg]; exact iy.2.trans (two_zpow_le h4))⟩) h1 h2 h5 h6
    exact ⟨z, rfl, hz, .sub hx hy hfl, iz⟩

/-- A sum with a positive number is zero or not much smaller than the least value of it. -/
theorem add_pos {s : Sg} {m M m' M' U : ℤ} (ha : Sound F u a (In s m M)) (hb : Sound F u b (In .pos m' M'))
    (h3 : M ≤ U) (h4 : M' ≤ U) (hr : Range F (m' - F.p) (U + 1)) :
    Sound F u (.add a b) (In .any (m' - F.p) (U + 1)) := by
  intro r h
  cases h with
  | add h7 h8 h9 =>
    obtain ⟨x, rfl, nx, hx, ix⟩ := ha _ h7
    obtain ⟨y, rfl, ny, hy, iy⟩ := hb _ h8
    have hp := hF.p
    have ixy : In .any (m' - F.p) (U + 1) (x + y) := by
      refine ⟨trivial, ?_, abs_add_le_zpow (ix.2.2.trans (two_zpow_le h3))
        (iy.2.2.trans (two_zpow_le h4))⟩
      rcases le_or_gt ((2 : ℝ) ^ (m' - 1)) (|x|) with hc | hc
      · have gx := nx.onGrid (Or.inr hc)
        have gy := ny.onGrid (m := m' - 1) (Or.inr ((two_zpow_le (by omega)).trans (iy.ge.trans (le_abs_self y))))
        have := (gx.add gy).mono (g' := m' - F.p) (by omega)
        exact this.abs_ge
      · right
        have h0 := iy.ge
        have e : (2 : ℝ) ^ m' = 2 * (2 : ℝ) ^ (m' - 1) := by
          rw [zpow_sub_one₀ two_ne_zero]; ring
        have : (2 : ℝ) ^ (m' - F.p) ≤ (2 : ℝ) ^ (m' - 1) := two_zpow_le (by omega)
        have h1 := (abs_lt.1 hc).1
        exact (by linarith : (2 : ℝ) ^ (m' - F.p) ≤ x + y).trans (le_abs_self _)
    obtain ⟨z, rfl, hz, hfl, iz⟩ := round_in hF hu h9 ixy hr
    exact ⟨z, rfl, hz, .add hx hy hfl, iz⟩

theorem sumRuns {n : ℕ} {v : Fin n → ℝ} {g M : ℤ} (hv : ∀ i, Gr g M (v i) ∧ F.Num (v i)) {N : ℕ}
    (h1 : F.emin ≤ g) (h2 : g ≤ F.emax) (h3 : F.emin ≤ M) (h4 : M ≤ F.emax) (hN : (N : ℤ) < 2 ^ F.p)
    {A : Multiset (Fin n)} {r : FP} (hA : A.card ≤ N) (h : F.SumRuns (fun i => .fin (v i)) A r) :
    ∃ z, r = .fin z ∧ F.Num z ∧ SumOf u v A z ∧ OnGrid g z ∧ |z| ≤ A.card * (2 : ℝ) ^ M := by
  induction h with
  | one i => exact ⟨v i, rfl, (hv i).2, .one i, (hv i).1.1, by simpa using (hv i).1.2⟩
  | @add A B s t r _ _ h7 ih1 ih2 =>
    rw [Multiset.card_add] at hA
    obtain ⟨x, rfl, -, sx, gx, bx⟩ := ih1 (by omega)
    obtain ⟨y, rfl, -, sy, gy, byy⟩ := ih2 (by omega)
    obtain ⟨c, hc⟩ : ∃ c : ℝ, c = ((A + B).card : ℝ) * (2 : ℝ) ^ M := ⟨_, rfl⟩
    have nc : F.Num c := by
      rw [hc]
      refine ⟨((A + B).card : ℤ), M, ?_, h3, h4, by push_cast; rfl⟩
      rw [abs_of_nonneg (by positivity), Multiset.card_add]
      exact lt_of_le_of_lt (by exact_mod_cast hA) hN
    have hxy : |x + y| ≤ c := by
      rw [hc, Multiset.card_add]
      push_cast
      rw [add_mul]
      linarith [abs_add_le x y]
    have hb : |x + y| ≤ F.big := hxy.trans ((le_abs_self c).trans nc.le_big)
    obtain ⟨z, rfl, hz⟩ := h7.fin.1 hb
    obtain ⟨gz, fz⟩ := hz.grid hF (gx.add gy) h1 h2 hb
    exact ⟨z, rfl, hz.1, .add sx sy (Fl.unit hu fz), gz, by rw [← hc]; exact hz.abs_le nc hxy⟩

theorem sum {n : ℕ} {f : Fin n → Ex} {g M : ℤ} {N : ℕ} (hf : ∀ i, Sound F u (f i) (Gr g M))
    (h1 : F.emin ≤ g) (h2 : g ≤ F.emax) (h3 : F.emin ≤ M) (h4 : M ≤ F.emax) (hN : N < F.p)
    (hn : n ≤ 2 ^ N) : Sound F u (.sum n f) (Gr g (M + N)) := by
  intro r h
  cases h with
  | @sum _ _ v _ h5 h6 =>
    choose w hw using fun i => hf i _ (h5 i)
    have hv : v = fun i => .fin (w i) := funext fun i => (hw i).1
    subst hv
    have hN' : ((2 ^ N : ℕ) : ℤ) < 2 ^ F.p := by
      push_cast; exact pow_lt_pow_right₀ (by norm_num) hN
    obtain ⟨z, rfl, hz, sz, gz, bz⟩ := sumRuns hF hu (N := 2 ^ N)
      (fun i => ⟨(hw i).2.2.2, (hw i).2.1⟩) h1 h2 h3 h4 hN' (by simpa using hn) h6
    refine ⟨z, rfl, hz, .sum (fun i => (hw i).2.2.1) sz, gz, bz.trans ?_⟩
    rw [add_comm, zpow_add₀ two_ne_zero, zpow_natCast]
    refine mul_le_mul_of_nonneg_right ?_ (two_zpow_pos _).le
    have : (Finset.univ.val : Multiset (Fin n)).card = n := by simp
    rw [this]
    exact_mod_cast hn

omit hu in
theorem npow {s : Sg} {m M : ℤ} {k : ℕ} (hu0 : 0 ≤ u) (hu1 : 2 * u ≤ 1) (hs : s ≠ .any) (hk : k ≠ 0)
    (ha : Sound F u a (In s m M)) (hr : Range F (k * m) (k * M + 1)) :
    Sound F u (.npow a k) (In s (k * m - 1) (k * M + 1)) := by
  intro r h
  cases h with
  | npow h1 h2 =>
    obtain ⟨x, rfl, -, hx, ix⟩ := ha _ h1
    have hx0 := ix.1.nonneg hs
    have pw : ∀ j : ℤ, (2 : ℝ) ^ (k * j) = ((2 : ℝ) ^ j) ^ k := by
      intro j; rw [← zpow_natCast, ← zpow_mul, mul_comm]
    have ixy : In s (k * m) (k * M) (x ^ k) := by
      refine ⟨?_, ?_, ?_⟩
      · cases s
        · trivial
        · exact pow_nonneg ix.1 k
        · exact pow_pos ix.1 k
      · rcases ix.2.1 with h0 | h0
        · left; rw [h0, zero_pow hk]
        · right
          rw [abs_pow, pw]
          exact pow_le_pow_left₀ (two_zpow_pos _).le h0 k
      · rw [abs_pow, pw]
        exact pow_le_pow_left₀ (abs_nonneg _) ix.2.2 k
    obtain ⟨z, rfl, hz, hfl, iz⟩ := func_in hF hu0 hu1 h2 ixy hr
    exact ⟨z, rfl, hz, .npow hx hfl, iz⟩

omit hu in
theorem rpow {p q : ℝ} {k α β E : ℕ} (hu0 : 0 ≤ u) (hu1 : 2 * u ≤ 1)
    (ha : Sound F u a (In .pos (-α) β)) (hE : ∀ y, Fl (k * u) (p / q) y → 0 ≤ y ∧ y ≤ E)
    (hr : Range F (-(E * α)) (E * β + 1)) :
    Sound F u (.rpow a p q k) (In .pos (-(E * α) - 1) (E * β + 1)) := by
  intro r h
  cases h with
  | @rpow _ _ _ y _ r' _ h1 hy h2 =>
    obtain ⟨x, rfl, -, hx, ix⟩ := ha _ h1
    obtain ⟨hy0, hyE⟩ := hE y hy
    have hx0 : 0 < x := ix.1
    have e : (FP.fin x).tpow (.fin y) = .fin (x ^ y) := by
      show (if 0 < x then FP.fin (id (x ^ y)) else _) = _
      rw [if_pos hx0]; rfl
    rw [e] at h2
    have pw : ∀ j : ℕ, (2 : ℝ) ^ ((E * j : ℤ)) = ((2 : ℝ) ^ j) ^ (E : ℝ) := by
      intro j
      rw [Real.rpow_natCast, ← pow_mul, mul_comm j E, ← zpow_natCast]; push_cast; rfl
    have ixy : In .pos (-(E * α)) (E * β) (x ^ y) := by
      refine in_pos ?_ ?_
      · have h3 : ((2 : ℝ) ^ α)⁻¹ ≤ x := by
          have := ix.ge
          rwa [zpow_neg, zpow_natCast] at this
        have hb1 : ((2 : ℝ) ^ α)⁻¹ ≤ 1 := inv_le_one_of_one_le₀ (one_le_pow₀ one_le_two)
        have hb0 : 0 < ((2 : ℝ) ^ α)⁻¹ := by positivity
        rw [zpow_neg, pw, ← Real.inv_rpow (by positivity)]
        exact (Real.rpow_le_rpow_of_exponent_ge hb0 hb1 hyE).trans (Real.rpow_le_rpow hb0.le h3 hy0)
      · have h3 : x ≤ (2 : ℝ) ^ β := by
          have := ix.le
          rwa [zpow_natCast] at this
        rw [pw]
        exact (Real.rpow_le_rpow hx0.le h3 hy0).trans
          (Real.rpow_le_rpow_of_exponent_le (one_le_pow₀ one_le_two) hyE)
    obtain ⟨z, rfl, hz, hfl, iz⟩ := func_in hF hu0 hu1 h2 ixy hr
    exact ⟨z, rfl, hz, .rpow hx hy hfl, iz⟩

end

end Sound

end TadDftd4.Rounded
