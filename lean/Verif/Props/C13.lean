import Verif.Props.C09
import Verif.Props.C11

/-!
# C13: non-interacting fragments are additive
-/

open scoped Classical

namespace TadDftd4

open Tensor

/-- Entry `b'` of the second input consists of the atoms `f 0, ..., f (m-1)` of entry `b` of the
first one. -/
structure Fragment (f : ℕ → ℕ) (m n c : ℕ) (b b' : Idx) (numbers numbers' : Tensor ℕ)
    (positions positions' : Tensor ℝ) : Prop where
  lt : ∀ i < m, f i < n
  inj : ∀ i < m, ∀ j < m, f i = f j → i = j
  num : ∀ i < m, numbers'.get (i :: b') = numbers.get (f i :: b)
  pos : ∀ i < m, ∀ k < c, positions'.get (k :: i :: b') = positions.get (k :: f i :: b)

/-- Every atom outside the fragment is farther than `cut` from every atom of the fragment. Padding can
be anywhere. -/
def FarApart (f : ℕ → ℕ) (m n c : ℕ) (b : Idx) (numbers : Tensor ℕ) (positions : Tensor ℝ) (cut : ℝ) :
    Prop :=
  ∀ i < m, ∀ k < n, (∀ l < m, f l ≠ k) → numbers.get (f i :: b) ≠ 0 → numbers.get (k :: b) ≠ 0 →
    cut < pairDist positions c b (f i) k

theorem sum_fragment {f : ℕ → ℕ} {m n : ℕ} (lt : ∀ i < m, f i < n)
    (inj : ∀ i < m, ∀ j < m, f i = f j → i = j) (g : ℕ → ℝ)
    (h : ∀ k < n, (∀ l < m, f l ≠ k) → g k = 0) :
    ∑ k ∈ Finset.range n, g k = ∑ i ∈ Finset.range m, g (f i) := by
  rw [← Finset.sum_image (s := Finset.range m) (g := f) (f := g) fun i hi j hj e =>
    inj i (Finset.mem_range.1 hi) j (Finset.mem_range.1 hj) e]
  refine (Finset.sum_subset ?_ ?_).symm
  · intro k hk
    obtain ⟨i, hi, rfl⟩ := Finset.mem_image.1 hk
    exact Finset.mem_range.2 (lt i (Finset.mem_range.1 hi))
  · intro k hk hn
    refine h k (Finset.mem_range.1 hk) fun l hl e => hn ?_
    exact Finset.mem_image.2 ⟨l, Finset.mem_range.2 hl, e⟩

section
variable {env : Env} {numbers numbers' : Tensor ℕ}
  {positions positions' c6 c6' r4r2 r4r2' rvdw rvdw' c9 c9' radii radii' : Tensor ℝ}
  {m n c : ℕ} {B B' : Shape} {p : Param} {d : Damping} {f : ℕ → ℕ} {b b' : Idx} {cut s9 alp : ℝ}

theorem Fragment.distAt (h : Fragment f m n c b b' numbers numbers' positions positions') {i j : ℕ}
    (hi : i < m) (hj : j < m) :
    distAt env positions' c b' i j = distAt env positions c b (f i) (f j) := by
  unfold TadDftd4.distAt sqDist
  congr 1
  refine Finset.sum_congr rfl fun k hk => ?_
  rw [h.pos i hi k (Finset.mem_range.1 hk), h.pos j hj k (Finset.mem_range.1 hk)]

theorem FarApart.distAt (h : FarApart f m n c b numbers positions cut) {i k : ℕ} (hi : i < m) (hk : k < n)
    (hn : ∀ l < m, f l ≠ k) (h1 : numbers.get (f i :: b) ≠ 0) (h2 : numbers.get (k :: b) ≠ 0) : cut < distAt env positions c b (f i) k := by
  rw [distAt_eq_max]
  exact lt_max_of_lt_left (h i hi k hk hn h1 h2)

/-- Two-body energies of a fragment that is farther from the rest of the system than the cutoff are
those of the fragment alone, with the same coefficients. -/
theorem C13_two_body (h : D2Shapes numbers positions c6 r4r2 rvdw n c B)
    (h' : D2Shapes numbers' positions' c6' r4r2' rvdw' m c B') (hu : d.Usable env p)
    (hb : InB B b) (hb' : InB B' b') (hf : Fragment f m n c b b' numbers numbers' positions positions')
    (hc6 : ∀ i < m, ∀ j < m, c6'.get (j :: i :: b') = c6.get (f j :: f i :: b))
    (hr4 : ∀ i < m, r4r2'.get (i :: b') = r4r2.get (f i :: b))
    (hrv : ∀ i < m, ∀ j < m, rvdw'.get (j :: i :: b') = rvdw.get (f j :: f i :: b))
    (hfar : FarApart f m n c b numbers positions cut) {i : ℕ} (hi : i < m) :
    (dispersion2 env numbers positions p c6 r4r2 (some rvdw) d (some cut)).get (f i :: b) =
      (dispersion2 env numbers' positions' p c6' r4r2' (some rvdw') d (some cut)).get
        (i :: b') := by
  obtain ⟨f6, f8, f10, s6, s8, s10, h6, h8, hs6, hs8, hs10⟩ := hu.values
  obtain ⟨-, -, -, ge⟩ := dispersion2_eval h hu.extra h6 h8 hs6 hs8 hs10 (some cut)
  obtain ⟨-, -, -, ge'⟩ := dispersion2_eval h' hu.extra h6 h8 hs6 hs8 hs10 (some cut)
  rw [ge b (f i) hb (hf.lt i hi), ge' b' i hb' hi, sum_fragment hf.lt hf.inj]
  · congr 1
    refine Finset.sum_congr rfl fun j hj => ?_
    have hj := Finset.mem_range.1 hj
    unfold pairEnergy inCut pairMask radAt
    rw [hf.distAt hi hj, hf.num i hi, hf.num j hj, hc6 i hi j hj, hr4 i hi, hr4 j hj, hrv i hi j hj]
    refine ite_iff (and_congr_left fun _ => and_congr_right fun _ => and_congr_right fun _ => ?_) rfl
      rfl
    exact not_congr ⟨fun e => hf.inj i hi j hj e, fun e => congrArg f e⟩
  · intro k hk hn
    refine if_neg fun hc => absurd hc.2 (not_le.2 ?_)
    exact hfar.distAt hi hk hn hc.1.1 hc.1.2.1

/-- Three-body energies of a fragment that is farther from the rest of the system than the cutoff
are those of the fragment alone, with the same coefficients. -/
theorem C13_three_body (h : D3Shapes numbers positions c9 radii n B)
    (h' : D3Shapes numbers' positions' c9' radii' m B') {F : ℝ → ℝ → ℝ}
    (hF : d.point env 9 true { alp := some (alp / 3) } = .ok F) (hcut : 0 ≤ cut)
    (hb : InB B b) (hb' : InB B' b') (hf : Fragment f m n 3 b b' numbers numbers' positions positions')
    (hc9 : ∀ i < m, ∀ j < m, ∀ k < m,
      c9'.get (k :: j :: i :: b') = c9.get (f k :: f j :: f i :: b))
    (hr : ∀ i < m, ∀ j < m, radii'.get (j :: i :: b') = radii.get (f j :: f i :: b))
    (hfar : FarApart f m n 3 b numbers positions cut) {i : ℕ} (hi : i < m) :
    (atmDispersion env numbers positions c9 radii cut d s9 alp).get (f i :: b) =
      (atmDispersion env numbers' positions' c9' radii' cut d s9 alp).get (i :: b') := by
  obtain ⟨-, ge⟩ := atmDispersion_eval h.num h.pos h.radii h.c9 hF cut s9
  obtain ⟨-, ge'⟩ := atmDispersion_eval h'.num h'.pos h'.radii h'.c9 hF cut s9
  have hlt : ∀ {i k}, i < m → k < n → (∀ l < m, f l ≠ k) →
      numbers.get (f i :: b) ≠ 0 → numbers.get (k :: b) ≠ 0 → ¬ distAt env positions 3 b (f i) k ^ 2 ≤ cut * cut := by
    intro i k hi hk hn h1 h2 hle
    rw [← sq, sq_le_sq₀ (distAt_pos _ _ _).le hcut] at hle
    exact absurd hle (not_le.2 (hfar.distAt hi hk hn h1 h2))
  rw [ge b (f i) hb (hf.lt i hi), ge' b' i hb' hi, sum_fragment hf.lt hf.inj]
  · congr 1
    refine Finset.sum_congr rfl fun j hj => ?_
    have hj := Finset.mem_range.1 hj
    rw [sum_fragment hf.lt hf.inj]
    · refine Finset.sum_congr rfl fun k hk => ?_
      have hk := Finset.mem_range.1 hk
      have hne : ∀ {i j}, i < m → j < m → (f i ≠ f j ↔ i ≠ j) := fun hi hj =>
        not_congr ⟨fun e => hf.inj _ hi _ hj e, fun e => congrArg f e⟩
      unfold tripleEnergy tripleCut tripleMask
      rw [hf.distAt hi hj, hf.distAt hi hk, hf.distAt hj hk, hf.num i hi, hf.num j hj, hf.num k hk,
        hc9 i hi j hj k hk, hr i hi j hj, hr i hi k hk, hr j hj k hk]
      refine ite_iff (and_congr_left fun _ => ?_) rfl rfl
      rw [hne hi hj, hne hi hk, hne hj hk]
    · intro k hk hn
      refine if_neg fun hc => hlt hj hk hn hc.1.2.1 hc.1.2.2.1 hc.2.2
  · intro k hk hn
    refine Finset.sum_eq_zero fun l _ => if_neg fun hc => hlt hi hk hn hc.1.1 hc.1.2.1 hc.2.1

/-- The energies of `dftd4` of a fragment beyond both cutoffs are those of a calculation of the
fragment alone, if coordination numbers, charges and radii of its atoms are the same in both. -/
theorem C13_dftd4 {T : Tables} {ext : Ext} {charge charge' : Tensor ℝ} {o o' : DftOpts}
    {R : RefCfg} {cn : Spec.CN} {eeq : Spec.EEQ} {P : Spec.D4Par}
    (h : Call env T ext numbers positions charge p o n B R cn eeq P)
    (h' : Call env T ext numbers' positions' charge' p o' m B' R cn eeq P)
    (hcut : o.opts.cutoff = o'.opts.cutoff) (hb : InB B b) (hb' : InB B' b')
    (F : Fin m → Fin n) (hF : Function.Injective F)
    (hsame : system T cn eeq numbers' positions' charge' o'.opts m b' =
      (system T cn eeq numbers positions charge o.opts n b).comap F)
    (hfar : ∀ i k, k ∉ Set.range F → numbers.get ((F i).1 :: b) ≠ 0 → numbers.get (k.1 :: b) ≠ 0 →
      (o.opts.cutoff.getD {}).disp2 < dist (coords positions n b (F i)) (coords positions n b k) ∧
      (o.opts.cutoff.getD {}).disp3 < dist (coords positions n b (F i)) (coords positions n b k)) :
    ∃ e e', dftd4 env T ext numbers positions charge p o = .ok e ∧
      dftd4 env T ext numbers' positions' charge' p o' = .ok e' ∧
      ∀ i : Fin m, e.get ((F i).1 :: b) = e'.get (i.1 :: b') := by
  obtain ⟨e, h1, -, h3⟩ := h.eval
  obtain ⟨e', h1', -, h3'⟩ := h'.eval
  refine ⟨e, e', h1, h1', fun i => ?_⟩
  rw [h3 b hb (F i), h3' b' hb' i, hsame, ← hcut]
  refine (Spec.energy_comap hF (fun k hk => ?_) i).symm
  by_cases hz : numbers.get (k.1 :: b) = 0
  · exact Or.inl hz
  refine Or.inr fun l hl => ?_
  obtain ⟨f2, f3⟩ := hfar l k hk hl hz
  have hr : dist (coords positions n b (F l)) (coords positions n b k) ≤
      (system T cn eeq numbers positions charge o.opts n b).r env.eps (F l) k := by
    unfold Spec.Mol.r Spec.rsqrt
    exact Real.le_sqrt_of_sq_le (le_max_left _ _)
  exact ⟨lt_of_lt_of_le f2 hr, lt_of_lt_of_le f3 hr⟩

end

/-! ## A concrete case: an atom, padding, and a molecule 100 Bohr from the atom, next to the padding -/

namespace Demo

/-- A hydrogen atom, padding, and a hydrogen molecule; the molecule alone. -/
noncomputable def pairPos : Tensor ℝ := ⟨none, [3, 4], fun
  | [0, 1] => 100
  | [0, 2] => 100
  | [0, 3] => 101
  | _ => 0⟩
noncomputable def onePos : Tensor ℝ := ⟨none, [3, 2], fun
  | [0, 0] => 100
  | [0, 1] => 101
  | _ => 0⟩
def pairNum : Tensor ℕ := ⟨none, [4], fun
  | [1] => 0
  | _ => 1⟩

theorem pairNum_le (i : Idx) : pairNum.get i ≤ 1 := by
  show (match i with | [1] => 0 | _ => 1) ≤ 1
  split <;> norm_num

theorem fragment : Fragment (· + 2) 2 4 3 [] [] pairNum dimer pairPos onePos where
  lt i hi := by omega
  inj i _ j _ h := by simpa using h
  num i hi := by interval_cases i <;> rfl
  pos i hi k hk := by
    interval_cases i <;> interval_cases k <;> rfl

theorem farApart : FarApart (· + 2) 2 4 3 [] pairNum pairPos 60 := by
  intro i hi k hk hl _ h0
  have h2 : k < 2 := by
    by_contra h
    exact hl (k - 2) (by omega) (by show k - 2 + 2 = k; omega)
  refine Real.lt_sqrt_of_sq_lt ?_
  have h1 : k = 0 := by
    by_contra h
    have : k = 1 := by omega
    subst this
    exact h0 rfl
  subst h1
  interval_cases i <;> simp [Finset.sum_range_succ, pairPos] <;> norm_num

end Demo

example : (dispersion2 Demo.env Demo.pairNum Demo.pairPos Demo.param (full [4, 4] 5) (full [4] 2)
    (some (full [4, 4] 6)) .rational (some 60)).get [2] =
    (dispersion2 Demo.env Demo.dimer Demo.onePos Demo.param (full [2, 2] 5) (full [2] 2)
    (some (full [2, 2] 6)) .rational (some 60)).get [0] :=
  C13_two_body (n := 4) (m := 2) (c := 3) (B := []) (B' := []) (f := (· + 2)) (i := 0)
    ⟨⟨rfl, rfl⟩, ⟨rfl, rfl⟩, ⟨rfl, rfl⟩, ⟨rfl, rfl⟩, ⟨rfl, rfl⟩⟩
    ⟨⟨rfl, rfl⟩, ⟨rfl, rfl⟩, ⟨rfl, rfl⟩, ⟨rfl, rfl⟩, ⟨rfl, rfl⟩⟩ (usable_rational Demo.reads) InB_nil
    InB_nil Demo.fragment (fun _ _ _ _ => rfl) (fun _ _ => rfl) (fun _ _ _ _ => rfl) Demo.farApart
    (by norm_num)

example : (atmDispersion Demo.env Demo.pairNum Demo.pairPos (full [4, 4, 4] 5) (full [4, 4] 2) 60
    .zero 1 16).get [2] = (atmDispersion Demo.env Demo.dimer Demo.onePos (full [2, 2, 2] 5)
    (full [2, 2] 2) 60 .zero 1 16).get [0] :=
  C13_three_body (n := 4) (m := 2) (B := []) (B' := []) (f := (· + 2)) (i := 0)
    ⟨⟨rfl, rfl⟩, ⟨rfl, rfl⟩, ⟨rfl, rfl⟩, ⟨rfl, rfl⟩⟩ ⟨⟨rfl, rfl⟩, ⟨rfl, rfl⟩, ⟨rfl, rfl⟩, ⟨rfl, rfl⟩⟩
    (point9_zero _) (by norm_num) InB_nil InB_nil Demo.fragment (fun _ _ _ _ _ _ => rfl)
    (fun _ _ _ _ => rfl) Demo.farApart (by norm_num)

namespace Demo

/-- A coordination number with a cutoff. -/
noncomputable def cnCut : Spec.CN := fun _ Z pos i =>
  ∑ j, if Z i ≠ 0 ∧ Z j ≠ 0 ∧ i ≠ j ∧ dist (pos i) (pos j) ≤ 30 then 1 else 0

noncomputable def extCut : Ext := { ext with cnD4 := .ofSpec cnCut }
noncomputable def neutral : Tensor ℝ := ⟨none, [], fun _ => 0⟩

theorem callCut {n : ℕ} (num : Tensor ℕ) (pos : Tensor ℝ) (hn : num.Ok [n]) (hp : pos.Ok [3, n])
    (h1 : ∀ i, num.get i ≤ 1) :
    Call env T extCut num pos neutral param {} n [] .d4 cnCut eeq par where
  keys := keys
  args := {
    num := hn
    pos := hp
    lt i _ := lt_of_le_of_lt (h1 i) (by show 1 < 104; norm_num)
    fits := fits
    charge := ⟨rfl, rfl⟩
    q _ h := by simp at h
    rcov _ h := by simp at h
    r4r2 _ h := by simp at h
    rvdw _ h := by simp at h }
  model := Or.inl ⟨"d4", rfl, keys "d4" (by simp), rfl⟩
  cn := CNFunc.ofSpec_perSystem _ _ _
  eeq := eeqOfSpec_perSystem eeq rfl _
  damping := rfl
  par := reads
  cut3 := by norm_num [Defaults.disp3Cutoff]

theorem pair_dist {i k : Fin 4} (hi : 2 ≤ i.1) (hk : k.1 < 2)
    (h0 : pairNum.get [k.1] ≠ 0) :
    60 < dist (coords pairPos 4 [] i) (coords pairPos 4 [] k) := by
  have h1 : k = 0 := by
    by_contra h
    have : k = 1 := by omega
    subst this
    exact h0 rfl
  subst h1
  rw [EuclideanSpace.dist_eq]
  refine Real.lt_sqrt_of_sq_lt ?_
  fin_cases i <;> simp at hi <;>
    simp [coords, pairPos, Fin.sum_univ_three, Real.dist_eq] <;> norm_num

theorem pair_system : system T cnCut eeq dimer onePos neutral {} 2 [] =
    (system T cnCut eeq pairNum pairPos neutral {} 4 []).comap (Fin.natAdd 2) := by
  have hp : coords onePos 2 [] = coords pairPos 4 [] ∘ Fin.natAdd 2 := by
    funext i
    simp only [coords, Function.comp]
    congr 1
    funext k
    fin_cases i <;> fin_cases k <;> rfl
  have hZ : elements dimer 2 [] = elements pairNum 4 [] ∘ Fin.natAdd 2 := by
    funext i
    fin_cases i <;> rfl
  unfold system Spec.Mol.comap
  simp only [Spec.Mol.mk.injEq]
  refine ⟨hZ, hp, ?_, ?_, by rw [hZ]; rfl, by rw [hZ]; rfl⟩
  · funext i
    unfold cnCut
    rw [hp, hZ, Fin.sum_univ_add (M := ℝ) (a := 2) (b := 2)]
    have h0 : ∀ j : Fin 2, elements pairNum 4 [] (Fin.castAdd 2 j) ≠ 0 →
        ¬ dist (coords pairPos 4 [] (Fin.natAdd 2 i)) (coords pairPos 4 [] (Fin.castAdd 2 j)) ≤ 30 :=
      fun j hz hle => by
        have := pair_dist (i := Fin.natAdd 2 i) (k := Fin.castAdd 2 j) (by simp) j.2 hz
        linarith
    refine Eq.trans ?_ (congrArg (· + _) (Finset.sum_eq_zero fun j _ => if_neg fun h =>
      h0 j h.2.1 h.2.2.2).symm)
    simp only [zero_add]
    refine Finset.sum_congr rfl fun j _ => ite_iff ?_ rfl rfl
    simp only [Function.comp]
    exact and_congr Iff.rfl (and_congr Iff.rfl (and_congr_left fun _ =>
      not_congr (Fin.natAdd_inj 2).symm))
  · funext i
    simp [eeq, neutral]

end Demo

/-- The energies of the molecule do not notice the atom and the padding. -/
example := C13_dftd4 (Demo.callCut Demo.pairNum Demo.pairPos ⟨rfl, rfl⟩ ⟨rfl, rfl⟩ Demo.pairNum_le)
  (Demo.callCut Demo.dimer Demo.onePos ⟨rfl, rfl⟩ ⟨rfl, rfl⟩ fun _ => le_rfl) rfl InB_nil InB_nil
  (Fin.natAdd 2) (fun _ _ h => Fin.natAdd_inj _ |>.1 h) Demo.pair_system (fun i k hk _ h0 => by
    have hk : k.1 < 2 := by
      by_contra h
      exact hk ⟨⟨k.1 - 2, by omega⟩, by ext; simp; omega⟩
    have := Demo.pair_dist (i := Fin.natAdd 2 i) (by simp) hk h0
    constructor
    · show (60 : ℝ) < _
      exact this
    · show (40 : ℝ) < _
      linarith)

end TadDftd4
