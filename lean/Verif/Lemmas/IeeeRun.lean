import Verif.Lemmas.IeeeSound
import Verif.Lemmas.Rounded

/-!
# Evaluations in a binary format exist
-/

open scoped Classical

namespace TadDftd4.Rounded

open Fmt

section
variable {F : Fmt} {u : ℝ}

theorem Fmt.Ok.exists_rnd (hF : F.Ok) (x : ℝ) : ∃ r, F.Rnd x r := by
  have hb := hF.big_pos
  rcases lt_or_ge F.big x with h | h
  · exact ⟨.pinf, fun h' => absurd (le_of_abs_le h') (not_le.2 h), fun _ => Or.inr rfl,
      fun h' => absurd h' (by linarith)⟩
  · rcases lt_or_ge x (-F.big) with h' | h'
    · exact ⟨.ninf, fun h'' => absurd (neg_le_of_abs_le h'') (by linarith), fun h'' => absurd h'' (by linarith),
        fun _ => Or.inr rfl⟩
    · obtain ⟨z, hz⟩ := hF.exists_nearest x
      exact ⟨.fin z, fun _ => ⟨z, rfl, hz⟩, fun h'' => absurd h'' (by linarith),
        fun h'' => absurd h'' (by linarith)⟩

theorem Fmt.Ok.exists_round (hF : F.Ok) (s : FP) : ∃ r, F.Round s r := by
  cases s with
  | fin x =>
    obtain ⟨r, hr⟩ := hF.exists_rnd x
    exact ⟨r, ⟨fun y hy => by cases hy; exact hr, fun h => absurd rfl (h x)⟩⟩
  | nan => exact ⟨.nan, ⟨fun y hy => (nomatch hy), fun _ => rfl⟩⟩
  | pinf => exact ⟨.pinf, ⟨fun y hy => (nomatch hy), fun _ => rfl⟩⟩
  | ninf => exact ⟨.ninf, ⟨fun y hy => (nomatch hy), fun _ => rfl⟩⟩

theorem Fmt.Ok.small_le_big (hF : F.Ok) : F.small ≤ F.big / 2 := by
  have hp := hF.p
  have he := hF.e
  have := hF.zpow_le_big (M := F.emin + F.p - 1 + 1) (by omega)
  rw [zpow_add_one₀ two_ne_zero] at this
  unfold Fmt.small
  linarith

theorem Fmt.Ok.exists_func (hF : F.Ok) (hu : F.unit ≤ u) (x : ℝ) : ∃ r, F.Func u x r := by
  have hb := hF.big_pos
  have hsm : 0 < F.small := two_zpow_pos _
  have hsb := hF.small_le_big
  have hp := hF.p
  have he := hF.e
  rcases lt_or_ge (F.big / 2) x with h | h
  · refine ⟨.pinf, fun h' => ?_, fun _ h' => ?_, fun h' => ?_, fun _ => Or.inl rfl, fun h' => ?_⟩
    · linarith
    · linarith [le_abs_self x]
    · linarith [le_abs_self x]
    · linarith
  · rcases lt_or_ge x (-(F.big / 2)) with h' | h'
    · refine ⟨.ninf, fun h' => ?_, fun _ h' => ?_, fun h' => ?_, fun h' => ?_, fun _ => Or.inl rfl⟩
      · linarith
      · linarith [neg_abs_le x]
      · linarith [neg_abs_le x]
      · linarith
    · obtain ⟨z, hz⟩ := hF.exists_nearest x
      have hx : |x| ≤ F.big := (abs_le.2 ⟨h', h⟩).trans (by linarith)
      refine ⟨.fin z, fun h0 => ?_, fun h1 _ => ⟨z, rfl, hz.1, Fl.unit hu (hz.fl hF h1 hx)⟩,
        fun h1 => ⟨z, rfl, hz.1, ?_, ?_⟩, fun h1 => absurd h1 (by linarith), fun h1 => absurd h1 (by linarith)⟩
      · rw [hz.eq (by rw [h0]; exact hF.num_zero), h0]
      · exact hz.abs_le (hF.num_zpow (by omega) (by omega)) h1.le
      · rcases le_total 0 x with h0 | h0
        · exact mul_nonneg h0 (hz.ge hF.num_zero h0)
        · exact mul_nonneg_of_nonpos_of_nonpos h0 (hz.le hF.num_zero h0)

theorem Fmt.Ok.exists_roundF (hF : F.Ok) (hu : F.unit ≤ u) (s : FP) : ∃ r, F.RoundF u s r := by
  cases s with
  | fin x =>
    obtain ⟨r, hr⟩ := hF.exists_func hu x
    exact ⟨r, ⟨fun y hy => by cases hy; exact hr, fun h => absurd rfl (h x)⟩⟩
  | nan => exact ⟨.nan, ⟨fun y hy => (nomatch hy), fun _ => rfl⟩⟩
  | pinf => exact ⟨.pinf, ⟨fun y hy => (nomatch hy), fun _ => rfl⟩⟩
  | ninf => exact ⟨.ninf, ⟨fun y hy => (nomatch hy), fun _ => rfl⟩⟩

/-- Inputs of the expression can be represented. -/
def Ex.Fits (F : Fmt) (u : ℝ) : Ex → Prop
  | .inp x k => ∃ z, F.Num z ∧ Near u k x z
  | .const _ => True
  | .neg a => a.Fits F u
  | .add a b => a.Fits F u ∧ b.Fits F u
  | .sub a b => a.Fits F u ∧ b.Fits F u
  | .mul a b => a.Fits F u ∧ b.Fits F u
  | .div a b => a.Fits F u ∧ b.Fits F u
  | .sqrt a => a.Fits F u
  | .abs a => a.Fits F u
  | .clampMin a _ => a.Fits F u
  | .npow a _ => a.Fits F u
  | .rpow a _ _ _ => a.Fits F u
  | .exp a => a.Fits F u
  | .sum n f => 0 < n ∧ ∀ i, (f i).Fits F u
  | .sel a b x y => a.Fits F u ∧ b.Fits F u ∧ x.Fits F u ∧ y.Fits F u

theorem exists_sumRuns (hF : F.Ok) {n : ℕ} (v : Fin n → FP) (A : Multiset (Fin n)) (hA : A ≠ 0) :
    ∃ r, F.SumRuns v A r := by
  induction A using Multiset.induction_on with
  | empty => exact absurd rfl hA
  | cons i A ih =>
    rcases eq_or_ne A 0 with h | h
    · exact ⟨v i, by rw [h]; exact .one i⟩
    · obtain ⟨t, ht⟩ := ih h
      obtain ⟨r, hr⟩ := hF.exists_round ((v i).add t)
      exact ⟨r, by rw [← Multiset.singleton_add]; exact .add (.one i) ht hr⟩

theorem Ex.Fits.exists_runs (hF : F.Ok) (hu : F.unit ≤ u) (hu0 : 0 ≤ u) :
    ∀ {e : Ex}, e.Fits F u → ∃ r, e.Runs F u r := by
  intro e
  induction e with
  | inp x k => rintro ⟨z, h1, h2⟩; exact ⟨_, .inp h2 h1⟩
  | const c => exact fun _ => ⟨_, .const c⟩
  | neg a ih => intro h; obtain ⟨r, hr⟩ := ih h; exact ⟨_, .neg hr⟩
  | add a b ih1 ih2 =>
    intro h; obtain ⟨r, hr⟩ := ih1 h.1; obtain ⟨s, hs⟩ := ih2 h.2
    obtain ⟨t, ht⟩ := hF.exists_round (r.add s); exact ⟨t, .add hr hs ht⟩
  | sub a b ih1 ih2 =>
    intro h; obtain ⟨r, hr⟩ := ih1 h.1; obtain ⟨s, hs⟩ := ih2 h.2
    obtain ⟨t, ht⟩ := hF.exists_round (r.sub s); exact ⟨t, .sub hr hs ht⟩
  | mul a b ih1 ih2 =>
    intro h; obtain ⟨r, hr⟩ := ih1 h.1; obtain ⟨s, hs⟩ := ih2 h.2
    obtain ⟨t, ht⟩ := hF.exists_round (r.mul s); exact ⟨t, .mul hr hs ht⟩
  | div a b ih1 ih2 =>
    intro h; obtain ⟨r, hr⟩ := ih1 h.1; obtain ⟨s, hs⟩ := ih2 h.2
    obtain ⟨t, ht⟩ := hF.exists_round (r.div s); exact ⟨t, .div hr hs ht⟩
  | sqrt a ih =>
    intro h; obtain ⟨r, hr⟩ := ih h
    obtain ⟨t, ht⟩ := hF.exists_round r.sqrt; exact ⟨t, .sqrt hr ht⟩
  | abs a ih => intro h; obtain ⟨r, hr⟩ := ih h; exact ⟨_, .abs hr⟩
  | clampMin a c ih => intro h; obtain ⟨r, hr⟩ := ih h; exact ⟨_, .clampMin hr⟩
  | npow a k ih =>
    intro h; obtain ⟨r, hr⟩ := ih h
    obtain ⟨t, ht⟩ := hF.exists_roundF hu (r.npow k); exact ⟨t, .npow hr ht⟩
  | rpow a p q k ih =>
    intro h; obtain ⟨r, hr⟩ := ih h
    obtain ⟨t, ht⟩ := hF.exists_roundF hu (r.tpow (.fin (p / q)))
    refine ⟨t, .rpow hr ?_ ht⟩
    unfold Fl
    rw [sub_self, abs_zero]; positivity
  | exp a ih =>
    intro h; obtain ⟨r, hr⟩ := ih h
    obtain ⟨t, ht⟩ := hF.exists_roundF hu r.exp; exact ⟨t, .exp hr ht⟩
  | sum n f ih =>
    intro h
    choose v hv using fun i => ih i (h.2 i)
    obtain ⟨t, ht⟩ := exists_sumRuns hF v Finset.univ.val (by
      intro h0
      have := congrArg Multiset.card h0
      simp at this
      exact absurd this (by have := h.1; omega))
    exact ⟨t, .sum hv ht⟩
  | sel a b x y ih1 ih2 ih3 ih4 =>
    intro h; obtain ⟨r, hr⟩ := ih1 h.1; obtain ⟨s, hs⟩ := ih2 h.2.1
    by_cases hc : fpLe r s
    · obtain ⟨t, ht⟩ := ih3 h.2.2.1; exact ⟨t, .sel_le hr hs hc ht⟩
    · obtain ⟨t, ht⟩ := ih4 h.2.2.2; exact ⟨t, .sel_gt hr hs hc ht⟩

/-- Numbers in the normal range, and zero, can be represented. -/
theorem exists_near (hF : F.Ok) (hu : F.unit ≤ u) (hu1 : u < 1) {s : Sg} {m M : ℤ} {x : ℝ} {k : ℕ}
    (hs : s ≠ .any) (hx : In s m M x) (hr : Range F m M) (hk : 1 ≤ k) :
    ∃ z, F.Num z ∧ Near u k x z := by
  have hu0 : 0 ≤ u := le_trans (two_zpow_pos _).le hu
  obtain ⟨r, hrd⟩ := hF.exists_round (.fin x)
  obtain ⟨z, rfl, hz, hfl, -⟩ := round_in hF hu hrd hx hr
  refine ⟨z, hz, ?_⟩
  exact (Fl.near hu0 hu1 hfl (hx.1.nonneg hs)).mono hu0 hu1 (hx.1.nonneg hs) hk

end

end TadDftd4.Rounded
