import Verif.Lemmas.IeeeSound

/-!
# Energies in double precision

Ranges of all intermediate results of the two-body and three-body energies in `torch.float64`.
-/

open scoped Classical

namespace TadDftd4.Rounded

open Fmt

theorem ok64 : binary64.Ok := ⟨by decide, by decide⟩

theorem unit64 : binary64.unit = (2 : ℝ) ^ (-53 : ℤ) := rfl

theorem range64 {m M : ℤ} (h1 : -1022 ≤ m) (h2 : m ≤ M) (h3 : M ≤ 1023) : Range binary64 m M :=
  ⟨by show (-1074 : ℤ) + (53 : ℕ) - 1 ≤ m; omega, h2, by show M ≤ (971 : ℤ) + (53 : ℕ) - 1; omega⟩

theorem num64_int {m : ℤ} (h : |m| < 2 ^ 53) : binary64.Num m :=
  ⟨m, 0, h, by decide, by decide, by simp⟩

theorem num64 {x : ℝ} (m e : ℤ) (h : |m| < 2 ^ 53) (h1 : -1074 ≤ e) (h2 : e ≤ 971)
    (hx : x = m * (2 : ℝ) ^ e) : binary64.Num x := ⟨m, e, h, h1, h2, hx⟩

/-- Input within the range for which the result is guaranteed. -/
structure Input.Moderate {n : ℕ} (u : ℝ) (X : Input n) : Prop where
  n : n ≤ 2 ^ 20
  d : ∀ i j, X.Pair i j → In .pos (-26) 20 (X.d i j)
  c6 : ∀ i j, In .nn (-250) 60 (X.c6 i j)
  c6n : ∀ i j, In .nn (-250) 60 (X.c6n i j)
  Q : ∀ i, In .nn (-20) 5 (X.Q i)
  s6 : In .nn (-20) 20 X.s6 ∧ binary64.Num X.s6
  s8 : In .nn (-20) 20 X.s8 ∧ binary64.Num X.s8
  s10 : ∀ s, X.s10 = some s → In .nn (-20) 20 s ∧ binary64.Num s
  s9 : In .any (-20) 20 X.s9 ∧ binary64.Num X.s9
  a1 : In .nn (-20) 1 X.a1 ∧ binary64.Num X.a1
  a2 : In .pos (-5) 5 X.a2 ∧ binary64.Num X.a2
  cut2 : binary64.Num X.cut2
  cut3 : In .nn (-20) 20 X.cut3 ∧ binary64.Num X.cut3
  ε : In .pos (-60) 0 X.ε ∧ binary64.Num X.ε
  alp : 0 ≤ X.alp ∧ X.alp / 3 * (1 + u) ≤ 6
  kd : 1 / 2 ≤ (1 - u) ^ X.kd
  kc : 1 / 2 ≤ (1 - u) ^ X.kc
  kQ : 1 / 2 ≤ (1 - u) ^ X.kQ

namespace Input
variable {n : ℕ} {u : ℝ} {X : Input n}

section
variable (hu : binary64.unit ≤ u) (hu0 : 0 ≤ u) (hu1 : 2 * u ≤ 1) (h : X.Moderate u)
include hu h

theorem sound_qq (i j : Fin n) : Sound binary64 u (X.qq i j) (In .nn (-41) 14) := by
  have c3 : Sound binary64 u (.const 3) (In .pos 1 2) :=
    .const (num64_int (m := 3) (by norm_num)) (in_pos (by norm_num) (by norm_num))
  have q : ∀ i, Sound binary64 u (.inp (X.Q i) X.kQ) (In .nn (-21) 6) := fun i =>
    Sound.inp (by decide) (h.Q i) h.kQ
  have m1 := Sound.mul ok64 hu (Sound.mul ok64 hu c3 (q i) (range64 (by norm_num) (by norm_num) (by norm_num)))
    (q j) (range64 (by norm_num) (by norm_num) (by norm_num))
  exact m1.mono (by norm_num) (by norm_num)

omit hu in
theorem sound_a1 : Sound binary64 u (.const X.a1) (In .nn (-20) 1) := .const h.a1.2 h.a1.1
omit hu in
theorem sound_a2 : Sound binary64 u (.const X.a2) (In .pos (-5) 5) := .const h.a2.2 h.a2.1

theorem sound_radius (i j : Fin n) : Sound binary64 u (X.radius i j) (In .pos (-5) 9) := by
  have c := Sound.clampMin (sound_qq hu h i j) h.ε.2 h.ε.1 (U := 14) (by norm_num) (by norm_num)
  have s := Sound.sqrt ok64 hu (m := -30) (M := 7) (by decide) c (by norm_num) (by norm_num)
    (range64 (by norm_num) (by norm_num) (by norm_num))
  have m1 := Sound.mul ok64 hu (sound_a1 h) s (range64 (by norm_num) (by norm_num) (by norm_num))
  exact Sound.add_nn_pos ok64 hu (by decide) m1 (sound_a2 h) (U := 8) (by norm_num) (by norm_num)
    (range64 (by norm_num) (by norm_num) (by norm_num))

theorem sound_bj (i j : Fin n) :
    Sound binary64 u (.add (.mul (.const X.a1) (.sqrt (X.qq i j))) (.const X.a2)) (In .pos (-5) 9) := by
  have s := Sound.sqrt ok64 hu (m := -30) (M := 7) (by decide) (sound_qq hu h i j) (by norm_num) (by norm_num)
    (range64 (by norm_num) (by norm_num) (by norm_num))
  have m1 := Sound.mul ok64 hu (sound_a1 h) s (range64 (by norm_num) (by norm_num) (by norm_num))
  exact Sound.add_nn_pos ok64 hu (by decide) m1 (sound_a2 h) (U := 8) (by norm_num) (by norm_num)
    (range64 (by norm_num) (by norm_num) (by norm_num))

omit hu in
theorem sound_dist {i j : Fin n} (hp : X.Pair i j) : Sound binary64 u (X.dist i j) (In .pos (-27) 21) :=
  Sound.inp (by decide) (h.d i j hp) h.kd

omit hu h in
theorem sound_one : Sound binary64 u (.const 1) (In .pos 0 0) :=
  .const (num64 1 0 (by norm_num) (by norm_num) (by norm_num) (by norm_num)) (in_pos (by norm_num) (by norm_num))

omit hu h in
theorem sound_zero {s : Sg} {m M : ℤ} (hs : s ≠ .pos) : Sound binary64 u (.const 0) (In s m M) := by
  refine .const ok64.num_zero ⟨?_, Or.inl rfl, ?_⟩
  · cases s
    · trivial
    · exact le_rfl
    · exact absurd rfl hs
  · rw [abs_zero]; exact (two_zpow_pos _).le

include hu0 hu1

theorem sound_rational {i j : Fin n} (hp : X.Pair i j) {k : ℕ} (hk : 1 ≤ k) (hk' : k ≤ 10) :
    Sound binary64 u (X.rational k i j) (In .pos (-212) 51) := by
  have d := Sound.npow ok64 hu0 hu1 (k := k) (by decide) (by omega) (sound_dist h hp)
    (range64 (by omega) (by omega) (by omega))
  have b := Sound.npow ok64 hu0 hu1 (k := k) (by decide) (by omega) (sound_bj hu h i j)
    (range64 (by omega) (by omega) (by omega))
  have a := Sound.add_nn_pos ok64 hu (by decide) d b (U := 211) (by omega) (by omega)
    (range64 (by omega) (by omega) (by omega))
  have q := Sound.div ok64 hu sound_one a (range64 (by omega) (by omega) (by omega))
  exact q.mono (by omega) (by omega)

theorem sound_damped (i j : Fin n) {k : ℕ} (hk : 1 ≤ k) (hk' : k ≤ 10) :
    Sound binary64 u (X.damped k i j) (In .nn (-212) 51) := by
  unfold damped
  split_ifs with hp
  · exact Sound.sel (sound_dist h hp) (Sound.const (P := fun _ => True) h.cut2 trivial)
      ((sound_rational hu hu0 hu1 h hp hk hk').imp fun _ _ hz => hz.nn (by decide)) (sound_zero (by decide))
  · exact sound_zero (by decide)

omit hu hu0 hu1 in
theorem sound_c6 (i j : Fin n) : Sound binary64 u (X.coeff6 i j) (In .nn (-251) 61) :=
  Sound.inp (by decide) (h.c6 i j) h.kc

omit hu0 hu1 in
theorem sound_c8 (i j : Fin n) : Sound binary64 u (X.coeff8 i j) (In .nn (-292) 75) :=
  Sound.mul ok64 hu (sound_c6 h i j) (sound_qq hu h i j) (range64 (by norm_num) (by norm_num) (by norm_num))

theorem sound_c10 (i j : Fin n) : Sound binary64 u (X.coeff10 i j) (In .nn (-335) 91) := by
  have s := Sound.npow ok64 hu0 hu1 (k := 2) (by decide) (by decide) (sound_qq hu h i j)
    (range64 (by norm_num) (by norm_num) (by norm_num))
  have m1 := Sound.mul ok64 hu (sound_c6 h i j) s (range64 (by norm_num) (by norm_num) (by norm_num))
  have c49 : Sound binary64 u (.const 49) (In .pos 5 6) :=
    .const (num64_int (m := 49) (by norm_num)) (in_pos (by norm_num) (by norm_num))
  have c40 : Sound binary64 u (.const 40) (In .pos 5 6) :=
    .const (num64_int (m := 40) (by norm_num)) (in_pos (by norm_num) (by norm_num))
  have m2 := Sound.mul ok64 hu m1 c49 (range64 (by norm_num) (by norm_num) (by norm_num))
  have m3 := Sound.div ok64 hu m2 c40 (range64 (by norm_num) (by norm_num) (by norm_num))
  exact m3.mono (by norm_num) (by norm_num)

omit hu0 hu1 in
/-- A scaled sum of contributions of the partners. -/
theorem sound_order {s : ℝ} (hs : In .nn (-20) 20 s ∧ binary64.Num s) {f : Fin n → Ex}
    (hf : ∀ j, Sound binary64 u (f j) (In .nn (-547) 142)) :
    Sound binary64 u (.mul (.const s) (.sum n f)) (In .any (-619) 182) := by
  have g : ∀ j, Sound binary64 u (f j) (Gr (-599) 142) := fun j => (hf j).imp fun z hz hi => hi.gr hz
  have t := Sound.sum ok64 hu g (N := 20) (by decide) (by decide) (by decide) (by decide) (by decide) h.n
  have c : Sound binary64 u (.const s) (In .nn (-20) 20) := .const hs.2 hs.1
  exact Sound.mul ok64 hu c (t.imp fun z _ hz => hz.in)
    (range64 (by norm_num) (by norm_num) (by norm_num))

omit hu hu0 hu1 h in
theorem Sound.gr {a : Ex} {s : Sg} {m M : ℤ} (ha : Sound binary64 u a (In s m M)) :
    Sound binary64 u a (Gr (m - 52) M) := ha.imp fun z hz hi => by
  have := hi.gr hz
  exact this.mono (by show m - 52 ≤ m - (53 : ℕ) + 1; omega) le_rfl

theorem sound_two (i : Fin n) : Sound binary64 u (X.two i) (Gr (-1074) 183) := by
  have e6 := sound_order hu h h.s6 (f := fun j => .mul (X.coeff6 i j) (X.damped 6 i j)) fun j =>
    (Sound.mul ok64 hu (sound_c6 h i j) (sound_damped hu hu0 hu1 h i j (k := 6) (by norm_num) (by norm_num))
      (range64 (by norm_num) (by norm_num) (by norm_num))).mono (by norm_num) (by norm_num)
  have e8 := sound_order hu h h.s8 (f := fun j => .mul (X.coeff8 i j) (X.damped 8 i j)) fun j =>
    (Sound.mul ok64 hu (sound_c8 hu h i j) (sound_damped hu hu0 hu1 h i j (k := 8) (by norm_num) (by norm_num))
      (range64 (by norm_num) (by norm_num) (by norm_num))).mono (by norm_num) (by norm_num)
  have a := Sound.add_gr ok64 hu (Sound.gr e6) (Sound.gr e8) (U := 182) (by decide) (by decide) (by norm_num)
    (by norm_num) (by decide) (by decide)
  have ch : Sound binary64 u (.const (-0.5)) (In .any (-1) (-1)) := by
    refine .const (num64 (-1) (-1) (by norm_num) (by norm_num) (by norm_num) (by norm_num)) ⟨trivial, Or.inr ?_, ?_⟩ <;> norm_num
  unfold two
  cases hs : X.s10 with
  | none =>
    have m := Sound.mul ok64 hu ch (a.imp fun z _ hz => hz.in) (range64 (by norm_num) (by norm_num) (by norm_num))
    exact (Sound.gr m).imp fun z _ hz => hz.mono (by norm_num) (by norm_num)
  | some s =>
    have e10 := sound_order hu h (h.s10 s hs) (f := fun j => .mul (X.coeff10 i j) (X.damped 10 i j)) fun j =>
      (Sound.mul ok64 hu (sound_c10 hu hu0 hu1 h i j)
        (sound_damped hu hu0 hu1 h i j (k := 10) (by norm_num) (by norm_num))
        (range64 (by norm_num) (by norm_num) (by norm_num))).mono (by norm_num) (by norm_num)
    have a' := Sound.add_gr ok64 hu a (Sound.gr e10) (U := 183) (by decide) (by decide) (by norm_num)
      (by norm_num) (by decide) (by decide)
    have m := Sound.mul ok64 hu ch (a'.imp fun z _ hz => hz.in) (range64 (by norm_num) (by norm_num) (by norm_num))
    exact (Sound.gr m).imp fun z _ hz => hz.mono (by norm_num) (by norm_num)

/-! ## Three-body term -/

omit hu0 hu1 in
theorem sound_c9 (i j k : Fin n) : Sound binary64 u (X.c9 i j k) (In .pos (-30) 92) := by
  have c : ∀ i j, Sound binary64 u (.inp (X.c6n i j) X.kc) (In .nn (-251) 61) := fun i j =>
    Sound.inp (by decide) (h.c6n i j) h.kc
  have m := Sound.mul ok64 hu (Sound.mul ok64 hu (c i j) (c i k)
    (range64 (by norm_num) (by norm_num) (by norm_num))) (c j k) (range64 (by norm_num) (by norm_num) (by norm_num))
  have cl := Sound.clampMin (Sound.abs m) h.ε.2 h.ε.1 (U := 183) (by norm_num) (by norm_num)
  exact Sound.sqrt ok64 hu (by decide) cl (by norm_num) (by norm_num)
    (range64 (by norm_num) (by norm_num) (by norm_num))

omit hu in
theorem sound_d2 {i j : Fin n} (hp : X.Pair i j) : Sound binary64 u (X.d2 i j) (In .pos (-55) 43) :=
  (Sound.npow ok64 hu0 hu1 (k := 2) (by decide) (by decide) (sound_dist h hp)
    (range64 (by norm_num) (by norm_num) (by norm_num))).mono (by norm_num) (by norm_num)

omit hu hu0 hu1 h in
theorem Triple.pairs {i j k : Fin n} (ht : X.Triple i j k) : X.Pair i j ∧ X.Pair i k ∧ X.Pair j k :=
  ⟨⟨ht.1, ht.2.1, ht.2.2.2.1⟩, ⟨ht.1, ht.2.2.1, ht.2.2.2.2.1⟩, ⟨ht.2.1, ht.2.2.1, ht.2.2.2.2.2⟩⟩

section
variable {i j k : Fin n} (ht : X.Triple i j k)
include ht

theorem sound_r2 : Sound binary64 u (X.r2 i j k) (In .pos (-165) 129) :=
  (Sound.mul ok64 hu (Sound.mul ok64 hu (sound_d2 hu0 hu1 h ht.pairs.1) (sound_d2 hu0 hu1 h ht.pairs.2.1)
    (range64 (by norm_num) (by norm_num) (by norm_num))) (sound_d2 hu0 hu1 h ht.pairs.2.2)
    (range64 (by norm_num) (by norm_num) (by norm_num))).mono (by norm_num) (by norm_num)

theorem sound_r1 : Sound binary64 u (X.r1 i j k) (In .pos (-83) 65) :=
  Sound.sqrt ok64 hu (by decide) (sound_r2 hu hu0 hu1 h ht) (by norm_num) (by norm_num)
    (range64 (by norm_num) (by norm_num) (by norm_num))

theorem sound_r3 : Sound binary64 u (X.r3 i j k) (In .pos (-248) 194) :=
  Sound.mul ok64 hu (sound_r1 hu hu0 hu1 h ht) (sound_r2 hu hu0 hu1 h ht)
    (range64 (by norm_num) (by norm_num) (by norm_num))

theorem sound_r5 : Sound binary64 u (X.r5 i j k) (In .pos (-413) 323) :=
  Sound.mul ok64 hu (sound_r2 hu hu0 hu1 h ht) (sound_r3 hu hu0 hu1 h ht)
    (range64 (by norm_num) (by norm_num) (by norm_num))

theorem sound_fdamp : Sound binary64 u (X.fdamp i j k) (In .pos (-666) 0) := by
  have r0 := Sound.mul ok64 hu (Sound.mul ok64 hu (sound_radius hu h i j) (sound_radius hu h i k)
    (range64 (by norm_num) (by norm_num) (by norm_num))) (sound_radius hu h j k)
    (range64 (by norm_num) (by norm_num) (by norm_num))
  have q := Sound.div ok64 hu r0 (sound_r1 hu hu0 hu1 h ht) (range64 (by norm_num) (by norm_num) (by norm_num))
  have t := Sound.mul ok64 hu sound_one q (range64 (by norm_num) (by norm_num) (by norm_num))
  have t' : Sound binary64 u _ (In .pos (-((80 : ℕ) : ℤ)) ((110 : ℕ) : ℤ)) :=
    t.mono (by norm_num) (by norm_num)
  have p := Sound.rpow ok64 hu0 hu1 (p := X.alp) (q := 3) (k := 1) (E := 6) t' (by
    intro y hy
    have h0 : 0 ≤ X.alp / 3 := div_nonneg h.alp.1 (by norm_num)
    unfold Fl at hy
    rw [abs_of_nonneg h0] at hy
    obtain ⟨h1, h2⟩ := abs_le.1 hy
    have h3 := h.alp.2
    push_cast at h1 h2 ⊢
    constructor <;> nlinarith) (range64 (by norm_num) (by norm_num) (by norm_num))
  have c6 : Sound binary64 u (.const 6) (In .pos 2 3) :=
    .const (num64_int (m := 6) (by norm_num)) (in_pos (by norm_num) (by norm_num))
  have m := Sound.mul ok64 hu c6 p (range64 (by norm_num) (by norm_num) (by norm_num))
  have a := Sound.add_pos_nn ok64 hu (by decide) m sound_one (U := 664) (by norm_num) (by norm_num)
    (range64 (by norm_num) (by norm_num) (by norm_num))
  have := Sound.div ok64 hu sound_one a (range64 (by norm_num) (by norm_num) (by norm_num))
  exact this.mono (by norm_num) (by norm_num)

theorem sound_angle : Sound binary64 u (X.angle i j k) (In .any (-321) 135) := by
  have x := Sound.gr (sound_d2 hu0 hu1 h ht.pairs.1)
  have y := Sound.gr (sound_d2 hu0 hu1 h ht.pairs.2.1)
  have z := Sound.gr (sound_d2 hu0 hu1 h ht.pairs.2.2)
  have a1 := Sound.sub_gr ok64 hu (Sound.add_gr ok64 hu x z (U := 43) (by decide) (by decide) (by norm_num)
    (by norm_num) (by decide) (by decide)) y (U := 44) (by decide) (by decide) (by norm_num)
    (by norm_num) (by decide) (by decide)
  have a2 := Sound.add_gr ok64 hu (Sound.sub_gr ok64 hu x z (U := 43) (by decide) (by decide) (by norm_num)
    (by norm_num) (by decide) (by decide)) y (U := 44) (by decide) (by decide) (by norm_num)
    (by norm_num) (by decide) (by decide)
  have a3 := Sound.add_gr ok64 hu (Sound.add_gr ok64 hu x.neg z (U := 43) (by decide) (by decide) (by norm_num)
    (by norm_num) (by decide) (by decide)) y (U := 44) (by decide) (by decide) (by norm_num)
    (by norm_num) (by decide) (by decide)
  have m := Sound.mul ok64 hu (Sound.mul ok64 hu (a1.imp fun _ _ h => h.in) (a2.imp fun _ _ h => h.in)
    (range64 (by norm_num) (by norm_num) (by norm_num))) (a3.imp fun _ _ h => h.in)
    (range64 (by norm_num) (by norm_num) (by norm_num))
  exact m.mono (by norm_num) (by norm_num)

theorem sound_ang : Sound binary64 u (X.ang i j k) (In .any (-247) 548) := by
  have c : Sound binary64 u (.const 0.375) (In .pos (-2) (-1)) :=
    .const (num64 3 (-3) (by norm_num) (by norm_num) (by norm_num) (by norm_num))
      (in_pos (by norm_num) (by norm_num))
  have c3 : Sound binary64 u (.const X.cut3) (In .nn (-20) 20) := .const h.cut3.2 h.cut3.1
  have cc := Sound.mul ok64 hu c3 c3 (range64 (by norm_num) (by norm_num) (by norm_num))
  have q := Sound.div ok64 hu (Sound.mul ok64 hu c (sound_angle hu hu0 hu1 h ht)
    (range64 (by norm_num) (by norm_num) (by norm_num))) (sound_r5 hu hu0 hu1 h ht)
    (range64 (by norm_num) (by norm_num) (by norm_num))
  have o := Sound.div ok64 hu sound_one (sound_r3 hu hu0 hu1 h ht)
    (range64 (by norm_num) (by norm_num) (by norm_num))
  have a := Sound.add_pos ok64 hu q o (U := 547) (by norm_num) (by norm_num)
    (range64 (by decide) (by decide) (by norm_num))
  have a' := a.mono (m' := -247) (M' := 548) (by decide) (by norm_num)
  exact Sound.sel (sound_d2 hu0 hu1 h ht.pairs.1) cc (Sound.sel (sound_d2 hu0 hu1 h ht.pairs.2.2) cc
    (Sound.sel (sound_d2 hu0 hu1 h ht.pairs.2.2) cc a' (sound_zero (by decide))) (sound_zero (by decide)))
    (sound_zero (by decide))

end

theorem sound_triple (i j k : Fin n) : Sound binary64 u (X.triple i j k) (In .any (-963) 660) := by
  unfold triple
  split_ifs with ht
  · have c : Sound binary64 u (.const X.s9) (In .any (-20) 20) := .const h.s9.2 h.s9.1
    exact Sound.mul ok64 hu (Sound.mul ok64 hu (Sound.mul ok64 hu (sound_ang hu hu0 hu1 h ht)
      (sound_fdamp hu hu0 hu1 h ht) (range64 (by norm_num) (by norm_num) (by norm_num))) c
      (range64 (by norm_num) (by norm_num) (by norm_num))) (sound_c9 hu h i j k)
      (range64 (by norm_num) (by norm_num) (by norm_num))
  · exact sound_zero (by decide)

theorem sound_three (i : Fin n) : Sound binary64 u (X.three i) (In .any (-1018) 698) := by
  have t := Sound.sum ok64 hu (f := fun m => X.triple i (finProdFinEquiv.symm m).1 (finProdFinEquiv.symm m).2)
    (fun m => Sound.gr (sound_triple hu hu0 hu1 h i _ _)) (N := 40) (by decide) (by decide) (by decide)
    (by decide) (by decide) (by
      calc n * n ≤ 2 ^ 20 * 2 ^ 20 := Nat.mul_le_mul h.n h.n
        _ = 2 ^ 40 := by norm_num)
  have c6 : Sound binary64 u (.const 6) (In .pos 2 3) :=
    .const (num64_int (m := 6) (by norm_num)) (in_pos (by norm_num) (by norm_num))
  have d := Sound.div ok64 hu (t.imp fun _ _ h => h.in) c6 (range64 (by norm_num) (by norm_num) (by norm_num))
  exact d.mono (by norm_num) (by norm_num)

/-- Every evaluation in double precision is one without overflow and underflow. -/
theorem sound_energy (i : Fin n) : Sound binary64 u (X.energy i) fun _ => True := by
  have z : Sound binary64 u (.const 0) (Gr (-1074) 183) :=
    .const ok64.num_zero ⟨OnGrid.zero _, by rw [abs_zero]; exact (two_zpow_pos _).le⟩
  have a := Sound.add_gr ok64 hu z (sound_two hu hu0 hu1 h i) (U := 183) (by decide) (by decide) (by norm_num)
    (by norm_num) (by decide) (by decide)
  have t := (Sound.gr (sound_three hu hu0 hu1 h i)).imp fun _ _ hz =>
    hz.mono (g' := -1074) (M' := 698) (by norm_num) le_rfl
  exact (Sound.add_gr ok64 hu a t (U := 698) (by decide) (by decide) (by norm_num) (by norm_num) (by decide)
    (by decide)).imp fun _ _ _ => trivial

end
end Input

end TadDftd4.Rounded
