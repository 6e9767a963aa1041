import Verif.Spec.C6

/-!
# Specification: settings of a DFT-D4 calculation with rational damping
-/

namespace TadDftd4.Spec

/-- Parameters of the rational damping function and of the three-body term. -/
structure D4Par where
  s6 : ℝ
  s8 : ℝ
  s10 : ℝ
  s9 : ℝ
  a1 : ℝ
  a2 : ℝ
  alp : ℝ

/-- Settings of DFT-D4: published C6 coefficients, `1/(R^n + R0^n)` with `R0 = a1 √(3 Q_i Q_j) + a2`
for the pairs, `1/(1 + 6 (R0_ij R0_ik R0_jk / (r_ij r_ik r_jk))^(alp/3))` for the triples. -/
noncomputable def d4Settings (C : C6Settings) (ε : ℝ) (P : D4Par) (cut2 cut3 : ℝ) : Settings where
  ε := ε
  c6 := c6 C
  c9x _ _ _ := 0
  f6 r x := 1 / (r ^ 6 + (P.a1 * √x + P.a2) ^ 6)
  f8 r x := 1 / (r ^ 8 + (P.a1 * √x + P.a2) ^ 8)
  f10 r x := 1 / (r ^ 10 + (P.a1 * √x + P.a2) ^ 10)
  f9 R r := 1 / (1 + 6 * (R / r) ^ (P.alp / 3))
  radius := .r4r2
  s6 := P.s6
  s8 := P.s8
  s10 := P.s10
  s9 := P.s9
  a1 := P.a1
  a2 := P.a2
  rs9 := 1
  cut2 := cut2
  cut3 := cut3

/-- Part of a molecule (or a relabelling of it). -/
def Mol.comap {n m : ℕ} (M : Mol n) (f : Fin m → Fin n) : Mol m where
  Z i := M.Z (f i)
  pos i := M.pos (f i)
  cn i := M.cn (f i)
  q i := M.q (f i)
  Q i := M.Q (f i)
  rvdw i j := M.rvdw (f i) (f j)

end TadDftd4.Spec
