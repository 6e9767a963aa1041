import Verif.Lemmas.IeeeEnergy
import Verif.Lemmas.IeeeRun
import Verif.Lemmas.IeeeSingle
import Verif.Lemmas.RoundedEnergy

/-!
# Inputs can be represented
-/

open scoped Classical

namespace TadDftd4.Rounded

open Fmt Ex

/-- If distances, coefficients and `r4r2` can be represented, the energy can be evaluated. -/
theorem Input.fits_of {F : Fmt} {n : ℕ} {u : ℝ} {X : Input n}
    (hd : ∀ i j, X.Pair i j → ∃ z, F.Num z ∧ Near u X.kd (X.d i j) z)
    (hc : ∀ i j, ∃ z, F.Num z ∧ Near u X.kc (X.c6 i j) z)
    (hcn : ∀ i j, ∃ z, F.Num z ∧ Near u X.kc (X.c6n i j) z)
    (hQ : ∀ i, ∃ z, F.Num z ∧ Near u X.kQ (X.Q i) z) (i : Fin n) :
    (X.energy i).Fits F u := by
  have hn : 0 < n := lt_of_le_of_lt (Nat.zero_le _) i.2
  have dist : ∀ i j, X.Pair i j → (X.dist i j).Fits F u := fun i j h => hd i j h
  have qq : ∀ i j, (X.qq i j).Fits F u := fun i j => ⟨⟨trivial, hQ i⟩, hQ j⟩
  have rat : ∀ k i j, X.Pair i j → (X.rational k i j).Fits F u := fun k i j h =>
    ⟨trivial, dist i j h, ⟨trivial, qq i j⟩, trivial⟩
  have damped : ∀ k i j, (X.damped k i j).Fits F u := by
    intro k i j
    unfold Input.damped
    split_ifs with h
    · exact ⟨dist i j h, trivial, rat k i j h, trivial⟩
    · trivial
  have two : (X.two i).Fits F u := by
    unfold Input.two
    have e6 : (sum n fun j => mul (X.coeff6 i j) (X.damped 6 i j)).Fits F u :=
      ⟨hn, fun j => ⟨hc i j, damped 6 i j⟩⟩
    have e8 : (sum n fun j => mul (X.coeff8 i j) (X.damped 8 i j)).Fits F u :=
      ⟨hn, fun j => ⟨⟨hc i j, qq i j⟩, damped 8 i j⟩⟩
    have e10 : (sum n fun j => mul (X.coeff10 i j) (X.damped 10 i j)).Fits F u :=
      ⟨hn, fun j => ⟨⟨⟨⟨hc i j, qq i j⟩, trivial⟩, trivial⟩, damped 10 i j⟩⟩
    cases X.s10
    · exact ⟨trivial, ⟨trivial, e6⟩, trivial, e8⟩
    · exact ⟨trivial, ⟨⟨trivial, e6⟩, trivial, e8⟩, trivial, e10⟩
  have triple : ∀ i j k, (X.triple i j k).Fits F u := by
    intro i j k
    unfold Input.triple
    split_ifs with h
    · obtain ⟨h1, h2, h3, h4, h5, h6⟩ := h
      have ij : (X.d2 i j).Fits F u := dist i j ⟨h1, h2, h4⟩
      have ik : (X.d2 i k).Fits F u := dist i k ⟨h1, h3, h5⟩
      have jk : (X.d2 j k).Fits F u := dist j k ⟨h2, h3, h6⟩
      have r2 : (X.r2 i j k).Fits F u := ⟨⟨ij, ik⟩, jk⟩
      have r3 : (X.r3 i j k).Fits F u := ⟨r2, r2⟩
      have rad : ∀ i j, (X.radius i j).Fits F u := fun i j => ⟨⟨trivial, qq i j⟩, trivial⟩
      have fdamp : (X.fdamp i j k).Fits F u :=
        ⟨trivial, trivial, trivial, trivial, ⟨⟨rad i j, rad i k⟩, rad j k⟩, r2⟩
      have angle : (X.angle i j k).Fits F u := ⟨⟨⟨⟨ij, jk⟩, ik⟩, ⟨ij, jk⟩, ik⟩, ⟨ij, jk⟩, ik⟩
      have c : (mul (const X.cut3) (const X.cut3)).Fits F u := ⟨trivial, trivial⟩
      have ang : (X.ang i j k).Fits F u :=
        ⟨ij, c, ⟨jk, c, ⟨jk, c, ⟨⟨⟨trivial, angle⟩, r2, r3⟩, trivial, r3⟩, trivial⟩, trivial⟩, trivial⟩
      exact ⟨⟨⟨ang, fdamp⟩, trivial⟩, ⟨hcn i j, hcn i k⟩, hcn j k⟩
    · trivial
  exact ⟨⟨trivial, two⟩, ⟨Nat.mul_pos hn hn, fun m => triple _ _ _⟩, trivial⟩

theorem Input.fits64 {n : ℕ} {u : ℝ} {X : Input n} (hu : binary64.unit ≤ u) (hu1 : u < 1)
    (h : X.Moderate u) (hd : 1 ≤ X.kd) (hc : 1 ≤ X.kc) (hQ : 1 ≤ X.kQ) (i : Fin n) :
    (X.energy i).Fits binary64 u :=
  Input.fits_of
    (fun i j hp => exists_near ok64 hu hu1 (by decide) (h.d i j hp)
      (range64 (by norm_num) (by norm_num) (by norm_num)) hd)
    (fun i j => exists_near ok64 hu hu1 (by decide) (h.c6 i j)
      (range64 (by norm_num) (by norm_num) (by norm_num)) hc)
    (fun i j => exists_near ok64 hu hu1 (by decide) (h.c6n i j)
      (range64 (by norm_num) (by norm_num) (by norm_num)) hc)
    (fun i => exists_near ok64 hu hu1 (by decide) (h.Q i)
      (range64 (by norm_num) (by norm_num) (by norm_num)) hQ) i

end TadDftd4.Rounded
