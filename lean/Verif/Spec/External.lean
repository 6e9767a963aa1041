import Verif.Spec.Energy

/-!
# Specification of the external functions

Coordination numbers and electronegativity equilibration charges come from other packages. What the
theorems need to know about them is stated here for one molecule.
-/

namespace TadDftd4.Spec

/-- A coordination number function of one molecule: elements and positions to CN of each atom. -/
abbrev CN := ∀ n : ℕ, (Fin n → ℕ) → (Fin n → E3) → Fin n → ℝ

/-- A charge model of one molecule: cutoff, elements, positions, total charge to partial charges. -/
abbrev EEQ := ∀ n : ℕ, ℝ → (Fin n → ℕ) → (Fin n → E3) → ℝ → Fin n → ℝ

/-- Relabelling the atoms relabels the coordination numbers. -/
def CN.Equivariant (f : CN) : Prop :=
  ∀ n (π : Equiv.Perm (Fin n)) Z pos i, f n (Z ∘ π) (pos ∘ π) i = f n Z pos (π i)

def EEQ.Equivariant (f : EEQ) : Prop :=
  ∀ n (π : Equiv.Perm (Fin n)) c Z pos Q i, f n c (Z ∘ π) (pos ∘ π) Q i = f n c Z pos Q (π i)

/-- Rigid motions (isometries of space) leave the coordination numbers unchanged. -/
def CN.Invariant (f : CN) : Prop :=
  ∀ n (g : E3 ≃ᵢ E3) Z pos i, f n Z (fun k => g (pos k)) i = f n Z pos i

def EEQ.Invariant (f : EEQ) : Prop :=
  ∀ n (g : E3 ≃ᵢ E3) c Z pos Q i, f n c Z (fun k => g (pos k)) Q i = f n c Z pos Q i

/-- Padding atoms (`Z = 0`) appended to a molecule do not change the values of its atoms. -/
def CN.IgnoresPadding (f : CN) : Prop :=
  ∀ n k (Z : Fin (n + k) → ℕ) (pos : Fin (n + k) → E3), (∀ j, Z (Fin.natAdd n j) = 0) →
    ∀ i : Fin n, f (n + k) Z pos (Fin.castAdd k i) =
      f n (Z ∘ Fin.castAdd k) (pos ∘ Fin.castAdd k) i

def EEQ.IgnoresPadding (f : EEQ) : Prop :=
  ∀ n k c (Z : Fin (n + k) → ℕ) (pos : Fin (n + k) → E3) Q, (∀ j, Z (Fin.natAdd n j) = 0) →
    ∀ i : Fin n, f (n + k) c Z pos Q (Fin.castAdd k i) =
      f n c (Z ∘ Fin.castAdd k) (pos ∘ Fin.castAdd k) Q i

end TadDftd4.Spec
