import Verif.Lemmas.ParamTensor
import Verif.Lemmas.Broadcast

/-!
# Evaluation with several sets of damping parameters at once

Parameters with further leading dimensions (in the order of PyTorch) enlarge the arrays they are
combined with.
-/

set_option linter.unusedSimpArgs false

open scoped Classical

namespace TadDftd4

open Tensor

theorem Shape.Into.combine {a c F : Shape} (h : Shape.Into a F) (k : Shape.Into c F) :
    Shape.Into (bshape a c) F ∧ bcompat a c := by
  induction F generalizing a c with
  | nil =>
    cases a with
    | nil => exact ⟨by simpa using k, by simp⟩
    | cons a s => exact absurd h (by simp [Shape.Into])
  | cons f F ih =>
    cases a with
    | nil => exact ⟨by simpa using k, by simp⟩
    | cons a s =>
      cases c with
      | nil => exact ⟨by simpa using h, by simp⟩
      | cons c t =>
        obtain ⟨h1, h2⟩ := h
        obtain ⟨k1, k2⟩ := k
        obtain ⟨i1, i2⟩ := ih h2 k2
        rcases h1 with rfl | rfl <;> rcases k1 with rfl | rfl <;> simp [Shape.Into, i1, i2]

/-- Combining a shape that starts with `s` with one that fits `s ++ K`. -/
theorem bshape_prefix {s K K' c : Shape} (h : Shape.Into c (s ++ K)) :
    ∃ K'', bshape (s ++ K') c = s ++ K'' := by
  induction s generalizing c with
  | nil => exact ⟨_, rfl⟩
  | cons a s ih =>
    cases c with
    | nil => exact ⟨K', by simp⟩
    | cons d c =>
      obtain ⟨h1, h2⟩ := h
      obtain ⟨K'', hk⟩ := ih h2
      refine ⟨K'', ?_⟩
      have : bdim a d = a := by rcases h1 with rfl | rfl <;> simp
      simp [this, hk]

theorem Shape.into_append (s K : Shape) : Shape.Into s (s ++ K) := by
  induction s with
  | nil => trivial
  | cons a s ih => exact ⟨Or.inr rfl, ih⟩

theorem InB_append {s K : Shape} {i k : Idx} (hi : InB s i) (hk : InB K k) : InB (s ++ K) (i ++ k) := by
  induction s generalizing i with
  | nil =>
    cases i with
    | nil => exact hk
    | cons a i => exact absurd hi (by simp [InB])
  | cons d s ih =>
    obtain ⟨a, i, rfl, h1, h2⟩ := InB_cases hi
    exact ⟨h1, ih h2⟩

theorem pick_append_left {s : Shape} {i : Idx} (hi : InB s i) (k : Idx) : pick s (i ++ k) = i := by
  induction s generalizing i with
  | nil =>
    cases i with
    | nil => simp
    | cons a i => exact absurd hi (by simp [InB])
  | cons d s ih =>
    obtain ⟨a, i, rfl, h1, h2⟩ := InB_cases hi
    rw [List.cons_append, pick_cons_lt h1, ih h2]

theorem Tensor.Into.map2 {a c : Tensor ℝ} {F : Shape} (h : a.Into F) (k : c.Into F) (φ : ℝ → ℝ → ℝ) :
    (Tensor.map2 φ a c).Into F ∧ ∀ i, (Tensor.map2 φ a c).rd i = φ (a.rd i) (c.rd i) := by
  obtain ⟨h1, h2⟩ := h.shape.combine k.shape
  refine ⟨⟨by simp [h.err, k.err, bErr_eq_none.2 h2], h1⟩, fun i => ?_⟩
  simp [Tensor.rd, pick_pick_left, pick_pick_right h2]

/-- An array for systems with dimensions `s`, possibly repeated for the entries of shape `K`: the entry
used for index `i` of the full shape is `f i`. -/
structure Tensor.Scan (x : Tensor ℝ) (s K : Shape) (f : Idx → ℝ) : Prop where
  into : x.Into (s ++ K)
  pre : ∃ K', x.shape = s ++ K'
  rd : ∀ i, InB (s ++ K) i → x.rd i = f i

section scan
variable {x y a : Tensor ℝ} {s K : Shape} {f g : Idx → ℝ}

theorem Tensor.Ok.scan (h : x.Ok s) (K : Shape) : x.Scan s K x.rd :=
  ⟨⟨h.err, by rw [h.shape]; exact Shape.into_append s K⟩, ⟨[], by rw [h.shape]; simp⟩, fun _ _ => rfl⟩

theorem Tensor.Ok.rd_append (h : x.Ok s) {i : Idx} (hi : InB s i) (k : Idx) :
    x.rd (i ++ k) = x.get i := by rw [Tensor.rd, h.shape, pick_append_left hi]

theorem Tensor.Scan.self (h : x.Scan s K f) : x.Scan s K x.rd := ⟨h.into, h.pre, fun _ _ => rfl⟩

theorem Tensor.Scan.map (h : x.Scan s K f) (φ : ℝ → ℝ) : (x.map φ).Scan s K fun i => φ (f i) :=
  ⟨⟨h.into.err, h.into.shape⟩, h.pre, fun i hi => congrArg φ (h.rd i hi)⟩

theorem Tensor.Scan.parR (h : x.Scan s K f) (ha : a.Into (s ++ K)) (φ : ℝ → ℝ → ℝ) :
    (Tensor.map2 φ x a).Scan s K fun i => φ (f i) (a.rd i) := by
  obtain ⟨h1, h2⟩ := h.into.map2 ha φ
  obtain ⟨K', hK⟩ := h.pre
  refine ⟨h1, ?_, fun i hi => by rw [h2, h.rd i hi]⟩
  rw [map2_shape, hK]
  exact bshape_prefix ha.shape

theorem Tensor.Scan.parL (h : x.Scan s K f) (ha : a.Into (s ++ K)) (φ : ℝ → ℝ → ℝ) :
    (Tensor.map2 φ a x).Scan s K fun i => φ (a.rd i) (f i) := by
  obtain ⟨h1, h2⟩ := ha.map2 h.into φ
  obtain ⟨K', hK⟩ := h.pre
  refine ⟨h1, ?_, fun i hi => by rw [h2, h.rd i hi]⟩
  rw [map2_shape, bshape_comm (ha.shape.combine h.into.shape).2, hK]
  exact bshape_prefix ha.shape

theorem Tensor.Scan.map2 (h : x.Scan s K f) (k : y.Scan s K g) (φ : ℝ → ℝ → ℝ) :
    (Tensor.map2 φ x y).Scan s K fun i => φ (f i) (g i) := by
  have := h.parR k.into φ
  exact ⟨this.into, this.pre, fun i hi => by rw [this.rd i hi, k.rd i hi]⟩

theorem Tensor.Scan.after {α : Type} {x : Tensor α} (h : x.err = none) (k : y.Scan s K g) : (x.after y).Scan s K g :=
  ⟨⟨by simp [h, k.into.err], k.into.shape⟩, k.pre, k.rd⟩

theorem Tensor.Scan.sumLast {n : ℕ} (h : x.Scan (n :: s) K f) :
    x.sumLast.Scan s K fun i => ∑ j ∈ Finset.range n, f (j :: i) := by
  obtain ⟨K', hK⟩ := h.pre
  have hK' : x.shape = n :: (s ++ K') := by simpa using hK
  have hi := h.into.shape
  rw [hK'] at hi
  refine ⟨⟨h.into.err, by simpa [hK'] using hi.2⟩, ⟨K', by simp [hK']⟩, fun i hi => ?_⟩
  rw [Tensor.rd, sumLast_get hK']
  refine Finset.sum_congr rfl fun j hj => ?_
  have hj := Finset.mem_range.1 hj
  rw [← h.rd (j :: i) ⟨hj, hi⟩, Tensor.rd, hK', pick_cons_lt hj]
  simp [hK']

theorem Tensor.Scan.iadd (h : x.Scan s K f) (k : y.Scan s K g)
    (hs : bshape x.shape y.shape = x.shape) : (x.iadd y).Scan s K fun i => f i + g i := by
  have := h.map2 k (· + ·)
  refine ⟨⟨?_, this.into.shape⟩, this.pre, this.rd⟩
  have h1 : (x + y).err = none := this.into.err
  simp [Tensor.iadd, h1, hs]

theorem Tensor.Scan.where_ {c : Tensor Prop} (hc : c.err = none) (hs : c.shape = s)
    (h : x.Scan s K f) (z : ℝ) :
    (Tensor.where_ c x (scalar z)).Scan s K fun i => if c.get (pick s i) then f i else z := by
  obtain ⟨K', hK⟩ := h.pre
  have hi := (Shape.into_append s K').all
  have hsh : (Tensor.where_ c x (scalar z)).shape = x.shape := by
    simp [hs, hK, hi.2.2.1]
  refine ⟨⟨?_, by rw [hsh]; exact h.into.shape⟩, ⟨K', by rw [hsh, hK]⟩, fun i hin => ?_⟩
  · simp [hc, h.into.err, hs, hK, bErr_eq_none.2 hi.1]
  · have e : pick s (pick x.shape i) = pick s i := by
      have := pick_pick_left s (s ++ K') i
      rwa [hi.2.2.1, ← hK] at this
    rw [Tensor.rd, hsh, where_get, hs, e, pick_pick_self, ← h.rd i hin]
    rfl

end scan

section damping
variable {env : Env} {d : Damping} {dist rad : Tensor ℝ} {s K : Shape} {δ ρ : Idx → ℝ}

theorem ratT_scan (hd : dist.Scan s K δ) (hr : rad.Scan s K ρ) {a1 a2 : Tensor ℝ} (h1 : a1.Into (s ++ K))
    (h2 : a2.Into (s ++ K)) (order : ℕ) :
    (ratT a1 a2 order dist rad).Scan s K fun i =>
      ratF (a1.rd i) (a2.rd i) order (δ i) (ρ i) :=
  ((hd.map _).map2 ((((hr.map Real.sqrt).parL h1 _).parR h2 _).map _) _).parL
    (scalar_into _ _) _

theorem zeroT_scan (hd : dist.Scan s K δ) (hr : rad.Scan s K ρ) {rs alp : Tensor ℝ} (h1 : rs.Into (s ++ K))
    (h2 : alp.Into (s ++ K)) :
    (zeroT env rs alp dist rad).Scan s K fun i =>
      zeroF env (rs.rd i) (alp.rd i) (δ i) (ρ i) :=
  (((((hd.map2 hr env.sdiv).parL h1 _).parR h2 _).parL (scalar_into 6 _) _).parL
    (scalar_into 1 _) _).parL (scalar_into _ _) _

theorem mzeroT_scan (hd : dist.Scan s K δ) (hr : rad.Scan s K ρ) {rs alp bet : Tensor ℝ} (h1 : rs.Into (s ++ K))
    (h2 : alp.Into (s ++ K)) (h3 : bet.Into (s ++ K)) :
    (mzeroT rs alp bet dist rad).Scan s K fun i =>
      mzeroF (rs.rd i) (alp.rd i) (bet.rd i) (δ i) (ρ i) :=
  (((((hd.map2 (hr.parL h1 _) _).map2 (hr.parL h3 _) _).parR (h2.map _) _).parL
    (scalar_into 6 _) _).parL (scalar_into 1 _) _).parL (scalar_into _ _) _

theorem opT_scan (hd : dist.Scan s K δ) (hr : rad.Scan s K ρ) {a1 a2 bet : Tensor ℝ} (h1 : a1.Into (s ++ K))
    (h2 : a2.Into (s ++ K)) (h3 : bet.Into (s ++ K)) (order : ℕ) :
    (opT a1 a2 bet order dist rad).Scan s K fun i =>
      opF (a1.rd i) (a2.rd i) (bet.rd i) order (δ i) (ρ i) := by
  have hab := (((hr.map Real.sqrt).parL h1 (· * ·)).parR h2 (· + ·)).parR h3 (fun x y => x ^ y)
  have hrb := hd.parR h3 (fun x y : ℝ => x ^ y)
  have hdo := hd.map (· ^ order)
  exact Tensor.Scan.after hab.into.err (hrb.map2 ((hrb.map2 hdo _).map2 (hab.map2 hdo _) _) _)

theorem damping_fT_scan (hd : dist.Scan s K δ) (hr : rad.Scan s K ρ) (order : ℕ) (od : Bool) (kw : TKw)
    (hkw : ∀ a ∈ d.usesKw kw, ∀ x, a = some x → x.Into (s ++ K)) {f : Idx → ℝ → ℝ → ℝ}
    (hf : ∀ i, d.pointF env order od (kw.rd i) = .ok (f i)) :
    (d.fT env dist rad order od kw).Scan s K fun i => f i (δ i) (ρ i) := by
  cases d with
  | rational =>
    unfold Damping.pointF at hf
    unfold Damping.fT
    rcases h1 : kw.a1 with _ | a1
    · simp [TKw.rd, h1] at hf
    rcases h2 : kw.a2 with _ | a2
    · simp [TKw.rd, h1, h2] at hf
    have := ratT_scan hd hr (hkw _ (by simp [Damping.usesKw, h1]) a1 rfl)
      (hkw (some a2) (by simp [Damping.usesKw, h2]) a2 rfl) order
    have hf' : ∀ i, ratF (a1.rd i) (a2.rd i) order = f i := fun i => by
      simpa [TKw.rd, h1, h2] using hf i
    simpa only [← hf'] using this
  | zero =>
    unfold Damping.pointF at hf
    unfold Damping.fT
    rcases h1 : kw.alp with _ | alp
    · simp [TKw.rd, h1] at hf
    have ha := hkw (some alp) (by simp [Damping.usesKw, h1]) alp rfl
    by_cases ho : order ≠ 6 ∧ order ≠ 8 ∧ order ≠ 9
    · have := hf []
      simp [TKw.rd, h1, ho] at this
    obtain ⟨rs, hrs⟩ : ∃ rs, (if order = 6 then kw.rs6 else if order = 8 then kw.rs8 else kw.rs9) =
        some rs := by
      have := hf []
      by_contra hc
      have hn : (if order = 6 then kw.rs6 else if order = 8 then kw.rs8 else kw.rs9) = none := by
        rcases h : (if order = 6 then kw.rs6 else if order = 8 then kw.rs8 else kw.rs9) with _ | r
        · rfl
        · exact absurd ⟨r, h⟩ hc
      have hn' : (if order = 6 then (kw.rd []).rs6 else if order = 8 then (kw.rd []).rs8
          else (kw.rd []).rs9) = none := by
        have : (if order = 6 then kw.rs6 else if order = 8 then kw.rs8 else kw.rs9).map (·.rd []) =
          none := by rw [hn]; rfl
        rw [← this]
        split_ifs <;> rfl
      have ha' : (kw.rd []).alp = some (alp.rd []) := by simp [TKw.rd, h1]
      simp only [ha', if_neg ho, hn'] at this
      exact absurd this (by simp)
    have hr1 : rs.Into (s ++ K) := hkw (some rs) (by
      rw [← hrs]; simp only [Damping.usesKw]; split_ifs <;> simp) rs rfl
    set alpN := (if order = 8 then alp + scalar 2 else alp) with halpN
    have hA : alpN.Into (s ++ K) ∧ ∀ i, alpN.rd i = if order = 8 then alp.rd i + 2 else alp.rd i := by
      rw [halpN]
      split_ifs
      · exact ha.mapNum _ 2
      · exact ⟨ha, fun _ => rfl⟩
    have hz := zeroT_scan (env := env) hd hr hr1 hA.1
    have hrs' : ∀ i, (if order = 6 then (kw.rd i).rs6 else if order = 8 then (kw.rd i).rs8
        else (kw.rd i).rs9) = some (rs.rd i) := by
      intro i
      have : ((if order = 6 then kw.rs6 else if order = 8 then kw.rs8 else kw.rs9).map (·.rd i)) =
        some (rs.rd i) := by rw [hrs]; rfl
      rw [← this]
      split_ifs <;> rfl
    have halp' : ∀ i, (kw.rd i).alp = some (alp.rd i) := fun i => by simp [TKw.rd, h1]
    simp only [if_neg ho, hrs, ← halpN]
    cases od with
    | true =>
      have hf' : ∀ i, zeroF env (rs.rd i) (alpN.rd i) = f i := fun i => by
        have := hf i
        simp only [halp', if_neg ho, hrs', if_true] at this
        rw [hA.2 i]
        simpa using this
      simpa only [← hf', if_true] using hz
    | false =>
      have hf' : ∀ i, (fun x r => env.sdiv (zeroF env (rs.rd i) (alpN.rd i) x r) (x ^ order)) =
          f i := fun i => by
        have := hf i
        simp only [halp', if_neg ho, hrs', Bool.false_eq_true, if_false] at this
        rw [hA.2 i]
        simpa using this
      simpa only [← hf', Bool.false_eq_true, if_false] using
        hz.map2 (hd.map (· ^ order)) env.sdiv
  | mzero =>
    unfold Damping.pointF at hf
    unfold Damping.fT
    rcases h1 : kw.alp with _ | alp
    · simp [TKw.rd, h1] at hf
    rcases h2 : kw.bet with _ | bet
    · simp [TKw.rd, h1, h2] at hf
    have ha := hkw (some alp) (by simp [Damping.usesKw, h1]) alp rfl
    have hb := hkw (some bet) (by simp [Damping.usesKw, h2]) bet rfl
    by_cases ho : order ≠ 6 ∧ order ≠ 8
    · have := hf []
      simp [TKw.rd, h1, h2, ho] at this
    obtain ⟨rs, hrs⟩ : ∃ rs, (if order = 6 then kw.rs6 else kw.rs8) = some rs := by
      have := hf []
      by_contra hc
      have hn : (if order = 6 then kw.rs6 else kw.rs8) = none := by
        rcases h : (if order = 6 then kw.rs6 else kw.rs8) with _ | r
        · rfl
        · exact absurd ⟨r, h⟩ hc
      have hn' : (if order = 6 then (kw.rd []).rs6 else (kw.rd []).rs8) = none := by
        have : (if order = 6 then kw.rs6 else kw.rs8).map (·.rd []) = none := by rw [hn]; rfl
        rw [← this]
        split_ifs <;> rfl
      have ha' : (kw.rd []).alp = some (alp.rd []) := by simp [TKw.rd, h1]
      have hb' : (kw.rd []).bet = some (bet.rd []) := by simp [TKw.rd, h2]
      simp only [ha', hb', if_neg ho, hn'] at this
      exact absurd this (by simp)
    have hr1 : rs.Into (s ++ K) := hkw (some rs) (by
      rw [← hrs]; simp only [Damping.usesKw]; split_ifs <;> simp) rs rfl
    set alpN := (if order = 8 then alp + scalar 2 else alp) with halpN
    have hA : alpN.Into (s ++ K) ∧ ∀ i, alpN.rd i = if order = 8 then alp.rd i + 2 else alp.rd i := by
      rw [halpN]
      split_ifs
      · exact ha.mapNum _ 2
      · exact ⟨ha, fun _ => rfl⟩
    have hz := mzeroT_scan hd hr hr1 hA.1 hb
    have hrs' : ∀ i, (if order = 6 then (kw.rd i).rs6 else (kw.rd i).rs8) = some (rs.rd i) := by
      intro i
      have : ((if order = 6 then kw.rs6 else kw.rs8).map (·.rd i)) =
        some (rs.rd i) := by rw [hrs]; rfl
      rw [← this]
      split_ifs <;> rfl
    have halp' : ∀ i, (kw.rd i).alp = some (alp.rd i) := fun i => by simp [TKw.rd, h1]
    have hbet' : ∀ i, (kw.rd i).bet = some (bet.rd i) := fun i => by simp [TKw.rd, h2]
    simp only [if_neg ho, hrs, ← halpN]
    have hf' : ∀ i, (fun x r => env.sdiv (mzeroF (rs.rd i) (alpN.rd i) (bet.rd i) x r)
        (x ^ order)) = f i := fun i => by
      have := hf i
      simp only [halp', hbet', if_neg ho, hrs'] at this
      rw [hA.2 i]
      simpa using this
    simpa only [← hf'] using hz.map2 (hd.map (· ^ order)) env.sdiv
  | op =>
    unfold Damping.pointF at hf
    unfold Damping.fT
    rcases h1 : kw.a1 with _ | a1
    · simp [TKw.rd, h1] at hf
    rcases h2 : kw.a2 with _ | a2
    · simp [TKw.rd, h1, h2] at hf
    rcases h3 : kw.bet with _ | bet
    · simp [TKw.rd, h1, h2, h3] at hf
    by_cases ho : order ≠ 6 ∧ order ≠ 8
    · have := hf []
      simp [TKw.rd, h1, h2, h3, ho] at this
    have := opT_scan hd hr (hkw (some a1) (by simp [Damping.usesKw, h1]) a1 rfl)
      (hkw (some a2) (by simp [Damping.usesKw, h2]) a2 rfl)
      (hkw (some bet) (by simp [Damping.usesKw, h3]) bet rfl) order
    have hf' : ∀ i, opF (a1.rd i) (a2.rd i) (bet.rd i) order = f i := fun i => by
      have := hf i
      simp only [TKw.rd, h1, h2, h3, Option.map_some, if_neg ho] at this
      simpa using this
    simp only [if_neg ho]
    simpa only [← hf'] using this

/-- A call of a damping object with parameters that broadcast into the pair (or triple) array uses
for every entry the numbers read there. -/
theorem damping_callT_scan (hd : dist.Scan s K δ) (hr : rad.Scan s K ρ) (order : ℕ) (od : Bool) (kw : TKw)
    (hkw : ∀ a ∈ d.usesKw kw, ∀ x, a = some x → x.Into (s ++ K)) {f : Idx → ℝ → ℝ → ℝ}
    (hf : ∀ i, d.point env order od (kw.rd i) = .ok (f i)) :
    (d.callT env dist rad order od kw).Scan s K fun i => f i (δ i) (ρ i) := by
  have hz : (∀ i, (fun _ _ => (0 : ℝ)) = f i) →
      (zerosLike dist).Scan s K fun i => f i (δ i) (ρ i) := fun h =>
    ⟨⟨hd.into.err, hd.into.shape⟩, hd.pre, fun i _ => by rw [← h]; rfl⟩
  unfold Damping.callT
  unfold Damping.point at hf
  have e6 : ∀ i, ((kw.rd i).s6 = none ∧ (kw.rd i).rs6 = none) ↔ (kw.s6 = none ∧ kw.rs6 = none) :=
    fun i => by simp [TKw.rd]
  have e8 : ∀ i, ((kw.rd i).s8 = none ∧ (kw.rd i).rs8 = none) ↔ (kw.s8 = none ∧ kw.rs8 = none) :=
    fun i => by simp [TKw.rd]
  have e9 : ∀ i, ((kw.rd i).s9 = none ∧ (kw.rd i).rs9 = none) ↔ (kw.s9 = none ∧ kw.rs9 = none) :=
    fun i => by simp [TKw.rd]
  have e10 : ∀ i, (kw.rd i).s10 = none ↔ kw.s10 = none := fun i => by simp [TKw.rd]
  simp only [e6, e8, e9, e10, required_rd] at hf
  split_ifs at hf ⊢ with c1 c2 c3 c4
  · exact hz fun i => by simpa using hf i
  · exact hz fun i => by simpa using hf i
  · exact hz fun i => by simpa using hf i
  · exact hz fun i => by simpa using hf i
  · exact absurd (hf []) (by simp)
  · unfold Damping.checkedFT
    rw [if_neg (by assumption)]
    exact damping_fT_scan hd hr order od kw hkw hf

end damping

section two
variable {env : Env} {numbers : Tensor ℕ} {positions c6 r4r2 rvdw : Tensor ℝ} {n c : ℕ} {B K : Shape}
  {p : TParam} {d : Damping}

theorem tDampT_scan (h : D2Shapes numbers positions c6 r4r2 rvdw n c B) (he : p.extra = [])
    (hk : ∀ a ∈ d.usesKw p.kw, ∀ x, a = some x → x.Into (n :: n :: (B ++ K)))
    {order : ℕ} {f : Idx → ℝ → ℝ → ℝ} (hf : ∀ i, d.point env order false (p.rd i).kw = .ok (f i))
    (cutoff : ℝ) :
    (tDampT env numbers positions p (radii2 d r4r2 (some rvdw)) d cutoff order).Scan (n :: n :: B) K
      (tDampT env numbers positions p (radii2 d r4r2 (some rvdw)) d cutoff order).rd ∧
    ∀ b k i j, InB B b → InB K k → i < n → j < n →
      (tDampT env numbers positions p (radii2 d r4r2 (some rvdw)) d cutoff order).rd
        (j :: i :: (b ++ k)) =
      if inCut env numbers positions c cutoff b i j then
        f (j :: i :: (b ++ k)) (distAt env positions c b i j) (radAt d r4r2 rvdw b i j) else 0 := by
  have hdist := pairDistances_ok (env := env) h.num h.pos
  have hrad := radii2_ok (d := d) h
  have hcall := damping_callT_scan (env := env) (d := d) (hdist.scan K) (hrad.scan K) order false p.kw
    hk (fun i => by rw [TParam.kw_rd]; exact hf i)
  have hsh : (d.callParamT env (pairDistances env numbers positions) (radii2 d r4r2 (some rvdw))
      order p) = (d.callT env (pairDistances env numbers positions) (radii2 d r4r2 (some rvdw))
    order false p.kw) := by simp [Damping.callParamT, he]
  set m := (realPairs numbers).and ((pairDistances env numbers positions).le (scalar cutoff)) with hm
  have hmerr : m.err = none := by
    simp [hm, hdist.err, hdist.shape, realPairs_err h.num.shape, realPairs_shape h.num.shape,
      h.num.err]
  have hmsh : m.shape = n :: n :: B := by
    simp [hm, hdist.err, hdist.shape, realPairs_err h.num.shape, realPairs_shape h.num.shape,
      h.num.err]
  have hw := hcall.where_ hmerr hmsh 0
  rw [← hsh] at hw
  have hw' : (tDampT env numbers positions p (radii2 d r4r2 (some rvdw)) d cutoff order).Scan
    (n :: n :: B) K _ := hw
  refine ⟨hw'.self, fun b k i j hb hk hi hj => ?_⟩
  have hin : InB (n :: n :: B) (j :: i :: b) := ⟨hj, hi, hb⟩
  refine (hw'.rd (j :: i :: (b ++ k)) (InB_append hin hk)).trans ?_
  have e1 : (pairDistances env numbers positions).rd (j :: i :: (b ++ k)) = _ := hdist.rd_append hin k
  have e2 : (radii2 d r4r2 (some rvdw)).rd (j :: i :: (b ++ k)) = _ := hrad.rd_append hin k
  have e3 : pick (n :: n :: B) (j :: i :: (b ++ k)) = j :: i :: b := pick_append_left hin k
  rw [e1, e2, e3, pairDistances_get h.num h.pos hb hi hj, radii2_get h hb hi hj]
  have em : m.get (j :: i :: b) ↔ inCut env numbers positions c cutoff b i j := by
    by_cases hpm : pairMask numbers b i j <;>
    simp [hm, inCut, realPairs_shape h.num.shape, hdist.shape, pick_cons_lt hi, pick_cons_lt hj,
      pick_of_InB hb, pairDistances_get h.num h.pos hb hi hj, hpm]
  simp only [em]
  by_cases hc : inCut env numbers positions c cutoff b i j
  · rw [if_pos hc, if_pos hc, if_pos hc.1]
  · rw [if_neg hc, if_neg hc]

/-- `s6 * e6 + s8 * e8`, `twobody.py:170-180` -/
noncomputable def pairSum (env : Env) (numbers : Tensor ℕ) (positions : Tensor ℝ) (p : TParam)
    (c6 r4r2 rvdw : Tensor ℝ) (d : Damping) (cut : ℝ) : Tensor ℝ :=
  p.s6.tensor Defaults.s6 *
      (c6 * tDampT env numbers positions p (radii2 d r4r2 (some rvdw)) d cut 6).sumLast +
    p.s8.tensor Defaults.s8 *
      (c6 * qqT r4r2 * tDampT env numbers positions p (radii2 d r4r2 (some rvdw)) d cut 8).sumLast

/-- `param["s10"] * e10`, `twobody.py:185-197` -/
noncomputable def pairTen (env : Env) (numbers : Tensor ℕ) (positions : Tensor ℝ) (p : TParam)
    (c6 r4r2 rvdw : Tensor ℝ) (d : Damping) (cut : ℝ) : Tensor ℝ :=
  p.s10.tensor Defaults.s10 * (c6 * (qqT r4r2).map (· ^ 2) * scalar 49 / scalar 40 *
    tDampT env numbers positions p (radii2 d r4r2 (some rvdw)) d cut 10).sumLast

/-- `dispersion2` with parameters that may enlarge the arrays they are combined with: for every entry
the numbers read there are used. The energies of order ten are added in place, so they must not enlarge
the energies of orders six and eight. -/
theorem dispersion2T_scan (h : D2Shapes numbers positions c6 r4r2 rvdw n c B) (he : p.extra = [])
    (hk : ∀ a ∈ d.usesKw p.kw, ∀ x, a = some x → x.Into (n :: n :: (B ++ K)))
    {f6 f8 f10 : Idx → ℝ → ℝ → ℝ} {s6 s8 s10 : Tensor ℝ}
    (hf6 : ∀ i, d.point env 6 false (p.rd i).kw = .ok (f6 i))
    (hf8 : ∀ i, d.point env 8 false (p.rd i).kw = .ok (f8 i))
    (hs6 : p.s6.tensor Defaults.s6 = s6) (hi6 : s6.Into (n :: (B ++ K)))
    (hs8 : p.s8.tensor Defaults.s8 = s8) (hi8 : s8.Into (n :: (B ++ K)))
    (hs10 : TS10Is env d p (n :: (B ++ K)) s10 f10) (cutoff : Option ℝ)
    (hadd : p.s10 ≠ .absent →
      bshape (pairSum env numbers positions p c6 r4r2 rvdw d (cutoff.getD Defaults.disp2Cutoff)).shape
        (pairTen env numbers positions p c6 r4r2 rvdw d (cutoff.getD Defaults.disp2Cutoff)).shape =
      (pairSum env numbers positions p c6 r4r2 rvdw d (cutoff.getD Defaults.disp2Cutoff)).shape) :
    (dispersion2T env numbers positions p c6 r4r2 (some rvdw) d cutoff false).Scan (n :: B) K
      (dispersion2T env numbers positions p c6 r4r2 (some rvdw) d cutoff false).rd ∧
    (dispersion2T env numbers positions p c6 r4r2 (some rvdw) d cutoff false).shape =
      (pairSum env numbers positions p c6 r4r2 rvdw d (cutoff.getD Defaults.disp2Cutoff)).shape ∧
    (∀ b k i, InB B b → InB K k → i < n →
      (dispersion2T env numbers positions p c6 r4r2 (some rvdw) d cutoff false).rd (i :: (b ++ k)) =
      -(1 / 2) * ∑ j ∈ Finset.range n,
        pairEnergy env numbers positions c6 r4r2 rvdw c d (cutoff.getD Defaults.disp2Cutoff)
        (s6.rd (i :: (b ++ k))) (s8.rd (i :: (b ++ k))) (s10.rd (i :: (b ++ k)))
        (f6 (j :: i :: (b ++ k))) (f8 (j :: i :: (b ++ k))) (f10 (j :: i :: (b ++ k))) b i j) := by
  set cut := cutoff.getD Defaults.disp2Cutoff with hcut
  have hdist := pairDistances_ok (env := env) h.num h.pos
  have hrad := radii2_ok (d := d) h
  have hqq := qqT_ok h.r4r2
  obtain ⟨t6s, t6rd⟩ := tDampT_scan h he hk hf6 cut
  obtain ⟨t8s, t8rd⟩ := tDampT_scan h he hk hf8 cut
  have hc8 := (h.c6.scan K).map2 (hqq.scan K) (· * ·)
  have he6 := ((h.c6.scan K).map2 t6s (· * ·)).sumLast
  have he8 := (hc8.map2 t8s (· * ·)).sumLast
  have hed := (he6.parL hi6 (· * ·)).map2 (he8.parL hi8 (· * ·)) (· + ·)
  have h2 : (c6 * qqT r4r2).err = none := hc8.into.err
  have hin : ∀ {b k i}, InB B b → InB K k → i < n → InB (n :: B ++ K) (i :: (b ++ k)) :=
    fun hb hk hi => ⟨hi, InB_append hb hk⟩
  have ec6 : ∀ {b k i j}, InB B b → i < n → j < n → c6.rd (j :: i :: (b ++ k)) = c6.get (j :: i :: b) :=
    fun hb hi hj => h.c6.rd_append (i := _ :: _ :: _) ⟨hj, hi, hb⟩ _
  have eqq : ∀ {b k i j}, InB B b → i < n → j < n → (qqT r4r2).rd (j :: i :: (b ++ k)) =
      3 * r4r2.get (i :: b) * r4r2.get (j :: b) := fun {b k i j} hb hi hj => by
    have : (qqT r4r2).rd (j :: i :: (b ++ k)) = (qqT r4r2).get (j :: i :: b) :=
      hqq.rd_append (i := _ :: _ :: _) ⟨hj, hi, hb⟩ _
    rw [this, qqT_get h.r4r2 hb hi hj]
  rcases hs10 with ⟨h10, rfl⟩ | ⟨h10, hi10, hf10⟩
  · have hres := hed.parL (scalar_into (-0.5) _) (· * ·)
    have e : dispersion2T env numbers positions p c6 r4r2 (some rvdw) d cutoff false =
        (pairDistances env numbers positions).after ((c6 * qqT r4r2).after
          ((radii2 d r4r2 (some rvdw)).after
          ((tDampT env numbers positions p (radii2 d r4r2 (some rvdw)) d cut 6).after
          ((tDampT env numbers positions p (radii2 d r4r2 (some rvdw)) d cut 8).after
          (scalar (-0.5) * (s6 * (c6 * tDampT env numbers positions p (radii2 d r4r2 (some rvdw)) d
            cut 6).sumLast + s8 * (c6 * qqT r4r2 * tDampT env numbers positions p
            (radii2 d r4r2 (some rvdw)) d cut 8).sumLast)))))) := by
      simp [dispersion2T, h10, hs6, hs8, ← hcut]
    have hall := Tensor.Scan.after hdist.err (Tensor.Scan.after h2 (Tensor.Scan.after hrad.err
      (Tensor.Scan.after t6s.into.err (Tensor.Scan.after t8s.into.err hres))))
    rw [e]
    refine ⟨hall.self, ?_, fun b k i hb hk hi => ?_⟩
    · rw [← hs6, ← hs8]
      simp [pairSum]
    · refine (hall.rd _ (hin hb hk hi)).trans ?_
      simp only [scalar_rd, Finset.mul_sum, ← Finset.sum_add_distrib]
      refine Finset.sum_congr rfl fun j hj => ?_
      have hj := Finset.mem_range.1 hj
      rw [t6rd b k i j hb hk hi hj, t8rd b k i j hb hk hi hj, eqq hb hi hj, ec6 hb hi hj, pairEnergy]
      split_ifs
      · simp only [pairE]; norm_num
      · norm_num
  · obtain ⟨t10s, t10rd⟩ := tDampT_scan h he hk hf10 cut
    have hc10 := (((h.c6.scan K).map2 ((hqq.scan K).map (· ^ 2)) (· * ·)).parR (scalar_into 49 _)
      (· * ·)).parR (scalar_into 40 _) (· / ·)
    have he10 := (hc10.map2 t10s (· * ·)).sumLast
    have h10t : p.s10.tensor Defaults.s10 = s10 := by rw [h10]; rfl
    have hten := he10.parL hi10 (· * ·)
    have hia := hed.iadd hten (by
      have := hadd (by rw [h10]; simp)
      rw [pairSum, pairTen, hs6, hs8, h10t] at this
      exact this)
    have hres := hia.parL (scalar_into (-0.5) _) (· * ·)
    have e : dispersion2T env numbers positions p c6 r4r2 (some rvdw) d cutoff false =
        (pairDistances env numbers positions).after ((c6 * qqT r4r2).after
          ((radii2 d r4r2 (some rvdw)).after
          ((tDampT env numbers positions p (radii2 d r4r2 (some rvdw)) d cut 6).after
          ((tDampT env numbers positions p (radii2 d r4r2 (some rvdw)) d cut 8).after
          (scalar (-0.5) * (pairSum env numbers positions p c6 r4r2 rvdw d cut).after
            ((c6 * (qqT r4r2).map (· ^ 2) * scalar 49 / scalar 40).after
            ((tDampT env numbers positions p (radii2 d r4r2 (some rvdw)) d cut 10).after
            ((pairSum env numbers positions p c6 r4r2 rvdw d cut).iadd
              (pairTen env numbers positions p c6 r4r2 rvdw d cut))))))))) := by
      have h10' : (TVal.val s10).tensor Defaults.s10 = s10 := rfl
      simp only [dispersion2T, h10, hs6, hs8, ← hcut, pairSum, pairTen, Bool.false_eq_true, if_false]
    rw [pairSum, pairTen, hs6, hs8, h10t] at e
    have hall := Tensor.Scan.after hdist.err (Tensor.Scan.after h2 (Tensor.Scan.after hrad.err
      (Tensor.Scan.after t6s.into.err (Tensor.Scan.after t8s.into.err
        ((Tensor.Scan.after hed.into.err (Tensor.Scan.after hc10.into.err
          (Tensor.Scan.after t10s.into.err hia))).parL (scalar_into (-0.5) _) (· * ·))))))
    rw [e]
    refine ⟨hall.self, ?_, fun b k i hb hk hi => ?_⟩
    · rw [pairSum, hs6, hs8]
      have := hadd (by rw [h10]; simp)
      rw [pairSum, pairTen, hs6, hs8, h10t] at this
      simpa [Tensor.iadd] using this
    · refine (hall.rd _ (hin hb hk hi)).trans ?_
      simp only [scalar_rd, Finset.mul_sum, ← Finset.sum_add_distrib]
      refine Finset.sum_congr rfl fun j hj => ?_
      have hj := Finset.mem_range.1 hj
      rw [t6rd b k i j hb hk hi hj, t8rd b k i j hb hk hi hj, t10rd b k i j hb hk hi hj, eqq hb hi hj,
        ec6 hb hi hj, pairEnergy]
      split_ifs
      · simp only [pairE]; norm_num
      · norm_num

end two

section three
variable {env : Env} {numbers : Tensor ℕ} {positions c9 radii : Tensor ℝ} {n c : ℕ} {B K : Shape}
  {d : Damping} {ρ : Idx → ℝ}

/-- The radii of the three pairs of a triple. -/
theorem radii3_scan (hr : radii.Scan (n :: n :: B) K ρ) :
    (ijT radii * ikT radii * jkT radii).Scan (n :: n :: n :: B) K
      (ijT radii * ikT radii * jkT radii).rd ∧
    ∀ r i j k, i < n → j < n → k < n → (ijT radii * ikT radii * jkT radii).rd (k :: j :: i :: r) =
      radii.rd (j :: i :: r) * radii.rd (k :: i :: r) * radii.rd (k :: j :: r) := by
  obtain ⟨K', hK⟩ := hr.pre
  have hok : radii.Ok (n :: n :: (B ++ K')) := ⟨hr.into.err, by simpa using hK⟩
  obtain ⟨rij1, rij2⟩ := ijT_ok hok
  obtain ⟨rik1, rik2⟩ := ikT_ok hok
  obtain ⟨rjk1, rjk2⟩ := jkT_ok hok
  have h0 : (ijT radii * ikT radii * jkT radii).Ok (n :: n :: n :: (B ++ K')) := by
    constructor <;> simp [rij1, rij2, rik1, rik2, rjk1, rjk2]
  have hi := hr.into.shape
  rw [hok.shape] at hi
  refine ⟨⟨⟨h0.err, ?_⟩, ⟨K', by simpa using h0.shape⟩, fun _ _ => rfl⟩, fun r i j k hi hj hk => ?_⟩
  · rw [h0.shape]
    exact ⟨Or.inr rfl, Or.inr rfl, Or.inr rfl, hi.2.2⟩
  · have hp : ∀ r, pick (B ++ K') (pick (B ++ K') r) = pick (B ++ K') r := pick_pick_self _
    simp only [Tensor.rd, h0.shape]
    simp [rij2, rik2, rjk2, hok.shape, pick_cons_lt hi, pick_cons_lt hj, pick_cons_lt hk, hp]

theorem atmDampT_scan (hn : numbers.Ok (n :: B)) (hp : positions.Ok (c :: n :: B))
    (hr : radii.Scan (n :: n :: B) K ρ) {alp : Tensor ℝ} (ha : alp.Into (n :: n :: n :: (B ++ K)))
    {f : Idx → ℝ → ℝ → ℝ}
    (hf : ∀ i, Damping.point env .zero 9 true { alp := some (alp.rd i / 3) } = .ok (f i)) :
    (atmDampT env numbers positions radii .zero alp).Scan (n :: n :: n :: B) K
      (atmDampT env numbers positions radii .zero alp).rd ∧
    ∀ b l i j k, InB B b → InB K l → i < n → j < n → k < n → tripleMask numbers b i j k →
      (atmDampT env numbers positions radii .zero alp).rd (k :: j :: i :: (b ++ l)) =
      f (k :: j :: i :: (b ++ l)) (radii.rd (j :: i :: (b ++ l)) * radii.rd (k :: i :: (b ++ l)) *
        radii.rd (k :: j :: (b ++ l)))
      (distAt env positions c b i j * distAt env positions c b i k *
        distAt env positions c b j k) := by
  have hd2 := dist2T_ok (env := env) hn hp
  obtain ⟨ij1, ij2⟩ := ijT_ok hd2
  obtain ⟨ik1, ik2⟩ := ikT_ok hd2
  obtain ⟨jk1, jk2⟩ := jkT_ok hd2
  obtain ⟨h0, h0rd⟩ := radii3_scan hr
  have h1 : (where_ (realTriples numbers) ((ijT (dist2T env numbers positions) *
      ikT (dist2T env numbers positions) * jkT (dist2T env numbers positions)).map Real.sqrt)
      (scalar 1)).Ok (n :: n :: n :: B) := by
    constructor <;> simp [ij1, ij2, ik1, ik2, jk1, jk2, realTriples_err hn.shape,
      realTriples_shape hn.shape, hn.err]
  obtain ⟨hA, hA'⟩ := ha.mapNum (· / ·) 3
  have hcall := damping_callT_scan (env := env) (d := .zero) h0 (h1.scan K) 9 true
    { alp := some (alp / scalar 3) } (by
      intro a hm x hx
      simp only [Damping.usesKw, List.mem_cons, List.not_mem_nil, or_false] at hm
      rcases hm with rfl | rfl | rfl | rfl
      · simp at hx
      · simp at hx
      · cases hx; exact scalar_into _ _
      · cases hx; exact hA) (f := f) (fun i => by
        have hk : TKw.rd { alp := some (alp / scalar 3) } i =
            { alp := some (alp.rd i / 3) } := by
          have e : (alp / scalar 3).rd i = alp.rd i / 3 := hA' i
          simp [TKw.rd, e]
        rw [hk]; exact hf i)
  have hme : (realTriples numbers).err = none := by rw [realTriples_err hn.shape, hn.err]
  have hw : (atmDampT env numbers positions radii .zero alp).Scan (n :: n :: n :: B) K _ :=
    Tensor.Scan.after hme (Tensor.Scan.after h0.into.err (Tensor.Scan.after h1.err
      (hcall.where_ hme (realTriples_shape hn.shape) 0)))
  refine ⟨hw.self, fun b l i j k hb hl hi hj hk hm => ?_⟩
  have hin : InB (n :: n :: n :: B) (k :: j :: i :: b) := ⟨hk, hj, hi, hb⟩
  obtain ⟨m1, m2, m3⟩ := tripleMask_pairs hm
  refine (hw.rd (k :: j :: i :: (b ++ l)) (InB_append hin hl)).trans ?_
  have e3 : pick (n :: n :: n :: B) (k :: j :: i :: (b ++ l)) = k :: j :: i :: b :=
    pick_append_left hin l
  have e1 := h1.rd_append hin l
  rw [e3, if_pos (show (realTriples numbers).get (k :: j :: i :: b) from hm), h0rd _ i j k hi hj hk]
  rw [show k :: j :: i :: (b ++ l) = (k :: j :: i :: b) ++ l from rfl, e1]
  congr 1
  rw [where_get_of_pos]
  · simp [ij2, ik2, jk2, pick_cons_lt hi, pick_cons_lt hj, pick_cons_lt hk, pick_of_InB hb]
    simp [ijT, ikT, jkT, dist2T_get hn hp hb hi hj m1, dist2T_get hn hp hb hi hk m2,
      dist2T_get hn hp hb hj hk m3]
    rw [← mul_pow, ← mul_pow, Real.sqrt_sq]
    exact (mul_pos (mul_pos (distAt_pos _ _ _) (distAt_pos _ _ _)) (distAt_pos _ _ _)).le
  · rw [realTriples_shape hn.shape, pick_of_InB hin]; exact hm

/-- The energy of a triple with given radii of its pairs. -/
noncomputable def tripleEnergyR (env : Env) (numbers : Tensor ℕ) (positions c9 : Tensor ℝ)
    (rad : ℕ → ℕ → ℝ) (c : ℕ) (cutoff s9 : ℝ) (f : ℝ → ℝ → ℝ) (b : Idx) (i j k : ℕ) : ℝ :=
  if tripleCut env numbers positions c cutoff b i j k then
    angF (distAt env positions c b i j) (distAt env positions c b i k)
      (distAt env positions c b j k) *
    f (rad i j * rad i k * rad j k)
      (distAt env positions c b i j * distAt env positions c b i k * distAt env positions c b j k) *
    s9 * c9.get (k :: j :: i :: b)
  else 0

/-- `get_atm_dispersion` with parameters that may enlarge the triple array. -/
theorem atmDispersionT_scan (hn : numbers.Ok (n :: B)) (hp : positions.Ok (c :: n :: B))
    (hr : radii.Scan (n :: n :: B) K ρ) (h9 : c9.Ok (n :: n :: n :: B)) {alp s9 : Tensor ℝ}
    (ha : alp.Into (n :: n :: n :: (B ++ K))) (hs : s9.Into (n :: n :: n :: (B ++ K)))
    {f : Idx → ℝ → ℝ → ℝ}
    (hf : ∀ i, Damping.point env .zero 9 true { alp := some (alp.rd i / 3) } = .ok (f i))
    (cutoff : ℝ) :
    (atmDispersionT env numbers positions c9 radii cutoff .zero s9 alp).Scan (n :: B) K
      (atmDispersionT env numbers positions c9 radii cutoff .zero s9 alp).rd ∧
    ∀ b l i, InB B b → InB K l → i < n →
      (atmDispersionT env numbers positions c9 radii cutoff .zero s9 alp).rd (i :: (b ++ l)) =
      (∑ j ∈ Finset.range n, ∑ k ∈ Finset.range n,
        tripleEnergyR env numbers positions c9 (fun i j => radii.rd (j :: i :: (b ++ l))) c cutoff
          (s9.rd (k :: j :: i :: (b ++ l))) (f (k :: j :: i :: (b ++ l))) b i j k) / 6 := by
  obtain ⟨fs, frd⟩ := atmDampT_scan hn hp hr ha hf
  obtain ⟨aok, aget⟩ := atmAng_eval (env := env) hn hp cutoff
  have hen := ((((aok.scan K).map2 fs (· * ·)).parR hs (· * ·)).map2 (h9.scan K)
    (· * ·)).sumLast.sumLast
  have hres := Tensor.Scan.after fs.into.err (hen.parR (scalar_into 6 _) (· / ·))
  have hres' : (atmDispersionT env numbers positions c9 radii cutoff .zero s9 alp).Scan (n :: B) K _ :=
    hres
  refine ⟨hres'.self, fun b l i hb hl hi => ?_⟩
  refine (hres'.rd (i :: (b ++ l)) ⟨hi, InB_append hb hl⟩).trans ?_
  simp only [scalar_rd]
  congr 1
  refine Finset.sum_congr rfl fun j hj => Finset.sum_congr rfl fun k hk => ?_
  have hj := Finset.mem_range.1 hj
  have hk := Finset.mem_range.1 hk
  have hin : InB (n :: n :: n :: B) (k :: j :: i :: b) := ⟨hk, hj, hi, hb⟩
  have e1 : (atmAng env numbers positions cutoff).rd (k :: j :: i :: (b ++ l)) = _ :=
    aok.rd_append hin l
  have e2 : c9.rd (k :: j :: i :: (b ++ l)) = _ := h9.rd_append hin l
  rw [e1, e2, aget b i j k hb hi hj hk, tripleEnergyR]
  split_ifs with h
  · rw [frd b l i j k hb hl hi hj hk h.1]
  · simp

end three

/-! ### Shapes -/

theorem Shape.Into.trans {a b c : Shape} (h : Shape.Into a b) (k : Shape.Into b c) : Shape.Into a c := by
  induction a generalizing b c with
  | nil => trivial
  | cons x a ih =>
    cases b with
    | nil => exact absurd h (by simp [Shape.Into])
    | cons y b =>
      cases c with
      | nil => exact absurd k (by simp [Shape.Into])
      | cons z c =>
        obtain ⟨h1, h2⟩ := h
        obtain ⟨k1, k2⟩ := k
        refine ⟨?_, ih h2 k2⟩
        rcases h1 with rfl | rfl
        · exact Or.inl rfl
        · exact k1

theorem Shape.Into.antisymm {a b : Shape} (h : Shape.Into a b) (k : Shape.Into b a) : a = b := by
  induction a generalizing b with
  | nil =>
    cases b with
    | nil => rfl
    | cons y b => exact absurd k (by simp [Shape.Into])
  | cons x a ih =>
    cases b with
    | nil => exact absurd h (by simp [Shape.Into])
    | cons y b =>
      obtain ⟨h1, h2⟩ := h
      obtain ⟨k1, k2⟩ := k
      rw [ih h2 k2]
      have : x = y := by
        rcases h1 with rfl | rfl
        · rcases k1 with rfl | rfl <;> rfl
        · rfl
      rw [this]

theorem Shape.into_left (a c : Shape) : Shape.Into a (bshape a c) := by
  induction a generalizing c with
  | nil => trivial
  | cons x a ih =>
    cases c with
    | nil => simpa using Shape.into_self _
    | cons y c =>
      refine ⟨?_, ih c⟩
      unfold bdim
      split_ifs with h
      · exact Or.inl h
      · exact Or.inr rfl

theorem Shape.into_right {a c : Shape} (h : bcompat a c) : Shape.Into c (bshape a c) := by
  rw [bshape_comm h]
  exact Shape.into_left c a

theorem Shape.into_tail {a b : Shape} (h : Shape.Into a b) : Shape.Into a.tail b.tail := by
  cases a with
  | nil => trivial
  | cons x a =>
    cases b with
    | nil => exact absurd h (by simp [Shape.Into])
    | cons y b => exact h.2

/-- No exception has been raised by combining tensors, so the shape of the second fits that of the
result. -/
theorem Tensor.map2_into_right {x y : Tensor ℝ} {φ : ℝ → ℝ → ℝ} (h : (Tensor.map2 φ x y).err = none) :
    Shape.Into y.shape (Tensor.map2 φ x y).shape := by
  refine Shape.into_right (bErr_eq_none.1 ?_)
  rw [map2_err] at h
  exact (orErr_eq_none.1 h).2

/-- An entry with values for all of `F`, and `k` further dimensions. -/
def TVal.Full (v : TVal) (k : ℕ) (F : Shape) : Prop :=
  ∃ x c, v = .val x ∧ c.length = k ∧ x.shape = c ++ F

section fits
variable {env : Env} {numbers : Tensor ℕ} {positions c6 r4r2 rvdw : Tensor ℝ} {n c : ℕ} {B K : Shape}
  {p : TParam} {d : Damping}

/-- Only rational damping has a term of order ten. -/
theorem point10_rational {k : Kw} {f : ℝ → ℝ → ℝ} (h : d.point env 10 false k = .ok f)
    (h10 : k.s10 ≠ none) : d = .rational ∧ k.a1 ≠ none ∧ k.a2 ≠ none := by
  unfold Damping.point at h
  cases d <;> simp [h10, Damping.required, Damping.pointF] at h ⊢
  · by_contra hc
    rcases h1 : k.a1 with _ | a1
    · simp [h1] at h
    rcases h2 : k.a2 with _ | a2
    · simp [h1, h2] at h
    exact hc ⟨by simp [h1], by simp [h2]⟩
  · rcases h1 : k.alp with _ | a1 <;> simp [h1] at h
  · rcases h1 : k.alp with _ | a1 <;> rcases h2 : k.bet with _ | a2 <;> simp [h1, h2] at h
  · rcases h1 : k.a1 with _ | a1 <;> rcases h2 : k.a2 with _ | a2 <;>
      rcases h3 : k.bet with _ | a3 <;> simp [h1, h2, h3] at h

/-- Rational damping with all parameters given. -/
theorem callParamT_rational (he : p.extra = []) {a1 a2 dist rad : Tensor ℝ} (h1 : p.kw.a1 = some a1)
    (h2 : p.kw.a2 = some a2) {order : ℕ}
    (ho : order = 6 ∧ p.kw.s6 ≠ none ∨ order = 10 ∧ p.kw.s10 ≠ none) :
    Damping.callParamT env .rational dist rad order p = ratT a1 a2 order dist rad := by
  rcases ho with ⟨rfl, hs⟩ | ⟨rfl, hs⟩ <;>
  simp [Damping.callParamT, he, Damping.callT, hs, Damping.checkedFT, Damping.requiredT, h1, h2,
    Damping.fT]

theorem ratT_into {a1 a2 dist rad : Tensor ℝ} {order : ℕ} (h : (ratT a1 a2 order dist rad).err = none) :
    Shape.Into a1.shape (ratT a1 a2 order dist rad).shape ∧
    Shape.Into a2.shape (ratT a1 a2 order dist rad).shape := by
  set r := a1 * rad.map Real.sqrt + a2 with hr
  have h1 : (dist.map (· ^ order) + r.map (· ^ order)).err = none := by
    have : (map2 (· / ·) (scalar 1) (dist.map (· ^ order) + r.map (· ^ order))).err = none := h
    simp only [map2_err, orErr_eq_none] at this
    exact this.1.2
  have h2 : r.err = none := by
    have : (map2 (· + ·) (dist.map (· ^ order)) (r.map (· ^ order))).err = none := h1
    simp only [map2_err, orErr_eq_none, map_err] at this
    exact this.1.2
  have i1 : Shape.Into r.shape (ratT a1 a2 order dist rad).shape := by
    have e1 : Shape.Into (r.map (· ^ order)).shape (dist.map (· ^ order) + r.map (· ^ order)).shape :=
      Tensor.map2_into_right h1
    have e2 : (ratT a1 a2 order dist rad).shape = (dist.map (· ^ order) + r.map (· ^ order)).shape := by
      simp [ratT, hr]
    rw [e2]
    exact e1
  have i2 : Shape.Into (a1 * rad.map Real.sqrt).shape r.shape := Shape.into_left _ _
  have i3 : Shape.Into a1.shape (a1 * rad.map Real.sqrt).shape := Shape.into_left _ _
  have i4 : Shape.Into a2.shape r.shape := Tensor.map2_into_right h2
  exact ⟨i3.trans (i2.trans i1), i4.trans i1⟩

/-- With rational damping the shape of the damped distances is the same for all orders, and that of the
parameters fits. -/
theorem tDampT_rational (he : p.extra = []) {a1 a2 radii : Tensor ℝ} (h1 : p.kw.a1 = some a1)
    (h2 : p.kw.a2 = some a2) {order : ℕ}
    (ho : order = 6 ∧ p.kw.s6 ≠ none ∨ order = 10 ∧ p.kw.s10 ≠ none) {cut : ℝ} :
    (tDampT env numbers positions p radii .rational cut order).shape =
      bshape ((realPairs numbers).and ((pairDistances env numbers positions).le (scalar cut))).shape
        (ratT a1 a2 0 (pairDistances env numbers positions) radii).shape ∧
    ((tDampT env numbers positions p radii .rational cut order).err = none →
      Shape.Into a1.shape (tDampT env numbers positions p radii .rational cut order).shape ∧
      Shape.Into a2.shape (tDampT env numbers positions p radii .rational cut order).shape) := by
  have hc := fun dist rad => callParamT_rational (env := env) (dist := dist) (rad := rad) he h1 h2 ho
  have hs : ∀ dist rad, (ratT a1 a2 order dist rad).shape = (ratT a1 a2 0 dist rad).shape :=
    fun _ _ => rfl
  unfold tDampT
  simp only [hc]
  refine ⟨by simp [hs], fun herr => ?_⟩
  rw [where_err] at herr
  simp only [orErr_eq_none] at herr
  obtain ⟨⟨-, e1, -⟩, e2, -⟩ := herr
  obtain ⟨i1, i2⟩ := ratT_into e1
  have : Shape.Into (ratT a1 a2 order (pairDistances env numbers positions) radii).shape
      (where_ ((realPairs numbers).and ((pairDistances env numbers positions).le (scalar cut)))
        (ratT a1 a2 order (pairDistances env numbers positions) radii) (scalar 0)).shape := by
    rw [where_shape, scalar_shape, bshape_nil_right]
    exact Shape.into_right (bErr_eq_none.1 e2)
  exact ⟨i1.trans this, i2.trans this⟩

/-- The energies of orders six and eight, with the shapes of the parameters. -/
theorem pairSum_scan (h : D2Shapes numbers positions c6 r4r2 rvdw n c B) (he : p.extra = [])
    (hk : ∀ a ∈ d.usesKw p.kw, ∀ x, a = some x → x.Into (n :: n :: (B ++ K)))
    {f6 f8 : Idx → ℝ → ℝ → ℝ}
    (hf6 : ∀ i, d.point env 6 false (p.rd i).kw = .ok (f6 i))
    (hf8 : ∀ i, d.point env 8 false (p.rd i).kw = .ok (f8 i))
    (hi6 : (p.s6.tensor Defaults.s6).Into (n :: (B ++ K)))
    (hi8 : (p.s8.tensor Defaults.s8).Into (n :: (B ++ K))) (cut : ℝ) :
    (pairSum env numbers positions p c6 r4r2 rvdw d cut).Scan (n :: B) K
      (pairSum env numbers positions p c6 r4r2 rvdw d cut).rd ∧
    Shape.Into (p.s6.tensor Defaults.s6).shape
      (pairSum env numbers positions p c6 r4r2 rvdw d cut).shape ∧
    Shape.Into (p.s8.tensor Defaults.s8).shape
      (pairSum env numbers positions p c6 r4r2 rvdw d cut).shape ∧
    Shape.Into (tDampT env numbers positions p (radii2 d r4r2 (some rvdw)) d cut 6).shape.tail
      (pairSum env numbers positions p c6 r4r2 rvdw d cut).shape := by
  have hqq := qqT_ok h.r4r2
  obtain ⟨t6s, -⟩ := tDampT_scan h he hk hf6 cut
  obtain ⟨t8s, -⟩ := tDampT_scan h he hk hf8 cut
  have hc6 := (h.c6.scan K).map2 t6s (· * ·)
  have he6 := hc6.sumLast
  have he8 := (((h.c6.scan K).map2 (hqq.scan K) (· * ·)).map2 t8s (· * ·)).sumLast
  have hl := he6.parL hi6 (· * ·)
  have hr := he8.parL hi8 (· * ·)
  have hed := hl.map2 hr (· + ·)
  refine ⟨hed.self, ?_, ?_, ?_⟩
  · exact (Shape.into_left _ _).trans (Shape.into_left _ _)
  · exact (Shape.into_left _ _).trans (Tensor.map2_into_right hed.into.err)
  · have i1 := Shape.into_tail (Tensor.map2_into_right hc6.into.err)
    exact i1.trans ((Tensor.map2_into_right hl.into.err).trans (Shape.into_left _ _))

/-- A shape that holds values for all of `F` fits another: that one holds values for all of `F`, too. -/
theorem into_full {x s K K' cs : Shape} (hx : x = cs ++ K) (hc : cs.length = s.length)
    (h : Shape.Into x (s ++ K')) (h' : Shape.Into K' K) : K' = K := by
  subst hx
  induction s generalizing cs with
  | nil =>
    rw [List.length_eq_zero_iff.1 hc] at h
    exact h'.antisymm h
  | cons a s ih =>
    cases cs with
    | nil => simp at hc
    | cons b cs => exact ih (by simpa using hc) h.2

/-- Which parameters make the energies of orders six and eight have the full shape. -/
def TParam.PairFull (p : TParam) (d : Damping) (F : Shape) : Prop :=
  p.s6.Full 1 F ∨ p.s8.Full 1 F ∨ d = .rational ∧ (p.a1.Full 2 F ∨ p.a2.Full 2 F)

theorem into_append_left {s K K' : Shape} (h : Shape.Into (s ++ K') (s ++ K)) : Shape.Into K' K := by
  induction s with
  | nil => exact h
  | cons a s ih => exact ih h.2

theorem TVal.kw_val {v : TVal} {x : Tensor ℝ} {c : Option (Tensor ℝ)} (h : v = .val x) : v.kw c = some x := by
  rw [h]; rfl

theorem pairSum_full (h : D2Shapes numbers positions c6 r4r2 rvdw n c B) (he : p.extra = [])
    (hk : ∀ a ∈ d.usesKw p.kw, ∀ x, a = some x → x.Into (n :: n :: (B ++ K)))
    {f6 f8 : Idx → ℝ → ℝ → ℝ}
    (hf6 : ∀ i, d.point env 6 false (p.rd i).kw = .ok (f6 i))
    (hf8 : ∀ i, d.point env 8 false (p.rd i).kw = .ok (f8 i))
    (hn6 : p.kw.s6 ≠ none)
    (hi6 : (p.s6.tensor Defaults.s6).Into (n :: (B ++ K)))
    (hi8 : (p.s8.tensor Defaults.s8).Into (n :: (B ++ K))) (cut : ℝ) (hF : p.PairFull d (B ++ K)) :
    (pairSum env numbers positions p c6 r4r2 rvdw d cut).shape = n :: (B ++ K) := by
  obtain ⟨hs, i6, i8, it⟩ := pairSum_scan h he hk hf6 hf8 hi6 hi8 cut
  obtain ⟨K', hK⟩ := hs.pre
  have hin := hs.into.shape
  rw [hK] at hin
  have hKK : Shape.Into (B ++ K') (B ++ K) := by
    have := into_append_left (s := [n]) (K := B ++ K) (K' := B ++ K') hin
    exact this
  have fin : B ++ K' = B ++ K → (pairSum env numbers positions p c6 r4r2 rvdw d cut).shape =
      n :: (B ++ K) := fun e => by rw [hK, List.cons_append, e]
  have t6 := (tDampT_scan h he hk hf6 cut).1
  have at2 : ∀ {x : Tensor ℝ} {cs : Shape}, Shape.Into x.shape
      (tDampT env numbers positions p (radii2 d r4r2 (some rvdw)) d cut 6).shape →
      cs.length = 2 → x.shape = cs ++ (B ++ K) → B ++ K' = B ++ K := by
    intro x cs hx hl hsx
    have i1 := (Shape.into_tail hx).trans it
    rw [hK, hsx] at i1
    match cs, hl with
    | [a, b], _ => exact into_full (s := [n]) (cs := [b]) rfl rfl i1 hKK
  refine fin ?_
  rcases hF with ⟨x, cs, e, hl, hsx⟩ | ⟨x, cs, e, hl, hsx⟩ | ⟨rfl, hF⟩
  · rw [e, hK] at i6
    exact into_full (s := [n]) (cs := cs) hsx hl i6 hKK
  · rw [e, hK] at i8
    exact into_full (s := [n]) (cs := cs) hsx hl i8 hKK
  · have hp := hf6 []
    rw [← TParam.kw_rd] at hp
    obtain ⟨a1, ha1⟩ : ∃ a1, p.kw.a1 = some a1 := by
      rcases h1 : p.kw.a1 with _ | a1
      · unfold Damping.point at hp
        simp [TKw.rd, h1, hn6, Damping.required] at hp
      · exact ⟨a1, rfl⟩
    obtain ⟨a2, ha2⟩ : ∃ a2, p.kw.a2 = some a2 := by
      rcases h1 : p.kw.a2 with _ | a2
      · unfold Damping.point at hp
        simp [TKw.rd, h1, hn6, Damping.required] at hp
      · exact ⟨a2, rfl⟩
    obtain ⟨-, hr⟩ := tDampT_rational (env := env) (numbers := numbers) (positions := positions)
      (radii := radii2 .rational r4r2 (some rvdw)) (cut := cut) he ha1 ha2 (Or.inl ⟨rfl, hn6⟩)
    obtain ⟨r1, r2⟩ := hr t6.into.err
    rcases hF with ⟨x, cs, e, hl, hsx⟩ | ⟨x, cs, e, hl, hsx⟩
    · have e' : p.kw.a1 = some x := TVal.kw_val e
      rw [ha1] at e'
      cases e'
      exact at2 r1 hl hsx
    · have e' : p.kw.a2 = some x := TVal.kw_val e
      rw [ha2] at e'
      cases e'
      exact at2 r2 hl hsx

/-- The energies of order ten do not enlarge those of orders six and eight if `s10` does not, or if
those have the full shape. -/
theorem pairTen_fits (h : D2Shapes numbers positions c6 r4r2 rvdw n c B) (he : p.extra = [])
    (hk : ∀ a ∈ d.usesKw p.kw, ∀ x, a = some x → x.Into (n :: n :: (B ++ K)))
    {f6 f8 f10 : Idx → ℝ → ℝ → ℝ} {s10 : Tensor ℝ}
    (hf6 : ∀ i, d.point env 6 false (p.rd i).kw = .ok (f6 i))
    (hf8 : ∀ i, d.point env 8 false (p.rd i).kw = .ok (f8 i))
    (hf10 : ∀ i, d.point env 10 false (p.rd i).kw = .ok (f10 i))
    (hn6 : p.kw.s6 ≠ none)
    (hi6 : (p.s6.tensor Defaults.s6).Into (n :: (B ++ K)))
    (hi8 : (p.s8.tensor Defaults.s8).Into (n :: (B ++ K)))
    (h10 : p.s10 = .val s10) (hi10 : s10.Into (n :: (B ++ K))) (cut : ℝ)
    (hF : p.PairFull d (B ++ K) ∨ s10.Into (n :: B)) :
    bshape (pairSum env numbers positions p c6 r4r2 rvdw d cut).shape
      (pairTen env numbers positions p c6 r4r2 rvdw d cut).shape =
    (pairSum env numbers positions p c6 r4r2 rvdw d cut).shape := by
  have hqq := qqT_ok h.r4r2
  obtain ⟨hs, i6, i8, it⟩ := pairSum_scan h he hk hf6 hf8 hi6 hi8 cut
  obtain ⟨t10s, -⟩ := tDampT_scan h he hk hf10 cut
  have hc10 := (((h.c6.scan K).map2 ((hqq.scan K).map (· ^ 2)) (· * ·)).parR (scalar_into 49 _)
    (· * ·)).parR (scalar_into 40 _) (· / ·)
  have hten := (hc10.map2 t10s (· * ·)).sumLast.parL hi10 (· * ·)
  have h10t : p.s10.tensor Defaults.s10 = s10 := by rw [h10]; rfl
  have hpt : (pairTen env numbers positions p c6 r4r2 rvdw d cut).Into (n :: (B ++ K)) := by
    rw [pairTen, h10t]; exact hten.into
  rcases hF with hF | hF
  · rw [pairSum_full h he hk hf6 hf8 hn6 hi6 hi8 cut hF]
    exact hpt.shape.all.2.2.2
  have hk10 : p.kw.s10 ≠ none := by rw [show p.kw.s10 = some s10 from TVal.kw_val h10]; simp
  have hp := hf10 []
  rw [← TParam.kw_rd] at hp
  obtain ⟨rfl, n1, n2⟩ := point10_rational hp (by simpa [TKw.rd] using hk10)
  obtain ⟨a1, ha1⟩ : ∃ a1, p.kw.a1 = some a1 := Option.ne_none_iff_exists'.1 (by simpa [TKw.rd] using n1)
  obtain ⟨a2, ha2⟩ : ∃ a2, p.kw.a2 = some a2 := Option.ne_none_iff_exists'.1 (by simpa [TKw.rd] using n2)
  have e6 := (tDampT_rational (env := env) (numbers := numbers) (positions := positions)
    (radii := radii2 .rational r4r2 (some rvdw)) (cut := cut) he ha1 ha2 (Or.inl ⟨rfl, hn6⟩)).1
  have e10 := (tDampT_rational (env := env) (numbers := numbers) (positions := positions)
    (radii := radii2 .rational r4r2 (some rvdw)) (cut := cut) he ha1 ha2 (Or.inr ⟨rfl, hk10⟩)).1
  obtain ⟨K', hK⟩ := hs.pre
  set P := (pairSum env numbers positions p c6 r4r2 rvdw .rational cut).shape with hP
  have hPn : Shape.Into (n :: B) P := by rw [hK]; exact Shape.into_append (n :: B) K'
  have i10 : Shape.Into s10.shape P := hF.shape.trans hPn
  have ht : Shape.Into (tDampT env numbers positions p (radii2 .rational r4r2 (some rvdw)) .rational
      cut 10).shape.tail P := by rw [e10, ← e6]; exact it
  have hcs : (c6 * (qqT r4r2).map (· ^ 2) * scalar 49 / scalar 40).shape = n :: n :: B := by
    simp [h.c6.shape, hqq.shape]
  have hall : Shape.Into (pairTen env numbers positions p c6 r4r2 rvdw .rational cut).shape P := by
    rw [pairTen, h10t]
    refine (Shape.Into.combine i10 ?_).1
    obtain ⟨K2, hK2⟩ := t10s.pre
    have e : (c6 * (qqT r4r2).map (· ^ 2) * scalar 49 / scalar 40 * tDampT env numbers positions p
        (radii2 .rational r4r2 (some rvdw)) .rational cut 10).shape = (tDampT env numbers positions p
        (radii2 .rational r4r2 (some rvdw)) .rational cut 10).shape := by
      rw [mul_shape, hcs, hK2]
      exact (Shape.into_append (n :: n :: B) K2).all.2.2.1
    rw [sumLast_shape, e]
    exact ht
  exact hall.all.2.2.2

end fits

section term
variable {env : Env} {T : Tables} {m : RefModel} {numbers : Tensor ℕ} {positions : Tensor ℝ}
  {R : RefCfg} {n : ℕ} {B K : Shape} {cn q : Idx → ℝ} {r4r2 rvdw : Tensor ℝ} {p : TParam}

/-- The two-body energy with several sets of parameters: for every atom and set that with the numbers
used there. -/
theorem dispersion2T_sets {c6 : Tensor ℝ} {d : Damping}
    (h : D2Shapes numbers positions c6 r4r2 rvdw n 3 B) (hu : ∀ i1 i2 i3, d.Usable env (p.at i1 i2 i3))
    (hd : d.Shapes p (B ++ K)) (h6 : p.s6.Into (n :: (B ++ K))) (h8 : p.s8.Into (n :: (B ++ K)))
    (h10 : p.s10.Into (n :: (B ++ K))) (hF : p.PairFull d (B ++ K) ∨ p.s10.Into (n :: B))
    (cutoff : Option ℝ) :
    (dispersion2T env numbers positions p c6 r4r2 (some rvdw) d cutoff false).Scan (n :: B) K
      (dispersion2T env numbers positions p c6 r4r2 (some rvdw) d cutoff false).rd ∧
    (p.PairFull d (B ++ K) →
      (dispersion2T env numbers positions p c6 r4r2 (some rvdw) d cutoff false).shape =
        n :: (B ++ K)) ∧
    ∀ b k i i3, InB B b → InB K k → i < n →
      (dispersion2T env numbers positions p c6 r4r2 (some rvdw) d cutoff false).rd (i :: (b ++ k)) =
      (dispersion2 env numbers positions (p.at (i :: (b ++ k)) (0 :: 0 :: (b ++ k)) i3) c6 r4r2
        (some rvdw) d cutoff false).get (i :: b) := by
  obtain ⟨t6, r6⟩ := TVal.tensor_into h6 (hu [] [] []).s6 Defaults.s6
  obtain ⟨t8, r8⟩ := TVal.tensor_into h8 (hu [] [] []).s8 Defaults.s8
  choose f6 hf6 using fun i => (hu i i i).f6
  choose f8 hf8 using fun i => (hu i i i).f8
  have hn6 : p.kw.s6 ≠ none := by
    have h0 := (hu [] [] []).s6
    cases hv : p.s6 <;> simp [TParam.at, TParam.kw, TVal.kw, hv, TVal.rd] at h0 ⊢
  obtain ⟨s10, f10, hs10⟩ : ∃ s10 f10, TS10Is env d p (n :: (B ++ K)) s10 f10 := by
    cases hv : p.s10 with
    | absent => exact ⟨scalar 0, fun _ _ _ => 0, Or.inl ⟨hv, rfl⟩⟩
    | none =>
      have h0 : (p.at [] [] []).s10 = .none := by simp [TParam.at, hv, TVal.rd]
      exact ((hu [] [] []).s10 h0).elim
    | val x =>
      choose f10 hf10 using fun i => (hu i i i).f10 (by simp [TParam.at, hv, TVal.rd])
      exact ⟨x, f10, Or.inr ⟨hv, h10 x hv, hf10⟩⟩
  have hk := hd.into n
  obtain ⟨ok, hsh, get⟩ := dispersion2T_scan (K := K) h (hu [] [] []).extra hk hf6 hf8 rfl t6
    rfl t8 hs10 cutoff (by
      intro hne
      rcases hs10 with ⟨a1, -⟩ | ⟨a1, a2, a3⟩
      · exact absurd a1 hne
      · exact pairTen_fits h (hu [] [] []).extra hk hf6 hf8 a3 hn6 t6 t8 a1 a2 _
          (hF.imp_right fun hh => hh _ a1))
  refine ⟨ok, fun hf => hsh.trans (pairSum_full h (hu [] [] []).extra hk hf6 hf8 hn6 t6 t8 _ hf),
    fun b k i i3 hb hkk hi => ?_⟩
  have hpt : ∀ order j, d.point env order false (p.rd (j :: i :: (b ++ k))).kw =
      d.point env order false (p.at (i :: (b ++ k)) (0 :: 0 :: (b ++ k)) i3).kw := fun order j =>
    hd.point order (i :: (b ++ k)) i3 (b ++ k) i j
  have hS10 : S10Is env d (p.at (i :: (b ++ k)) (0 :: 0 :: (b ++ k)) i3) (s10.rd (i :: (b ++ k)))
      (f10 (0 :: i :: (b ++ k))) := by
    rcases hs10 with ⟨a1, a2⟩ | ⟨a1, a2, a3⟩
    · refine Or.inl ⟨by simp [TParam.at, a1, TVal.rd], by rw [a2]; rfl⟩
    · refine Or.inr ⟨by simp [TParam.at, a1, TVal.rd], ?_⟩
      rw [← hpt 10 0]; exact a3 _
  obtain ⟨-, -, -, get'⟩ := dispersion2_eval h (hu (i :: (b ++ k)) (0 :: 0 :: (b ++ k)) i3).extra
    (by rw [← hpt 6 0]; exact hf6 _) (by rw [← hpt 8 0]; exact hf8 _)
    (r6 (i :: (b ++ k))) (r8 (i :: (b ++ k))) hS10 cutoff
  rw [get b k i hb hkk hi, get' b i hb hi]
  congr 1
  refine Finset.sum_congr rfl fun j _ => ?_
  have inj : ∀ {f g : ℝ → ℝ → ℝ}, (Except.ok f : Except Err _) = .ok g → f = g := fun h => by
    simpa using h
  have e6 : f6 (j :: i :: (b ++ k)) = f6 (0 :: i :: (b ++ k)) :=
    inj ((hf6 _).symm.trans ((hpt 6 j).trans ((hpt 6 0).symm.trans (hf6 _))))
  have e8 : f8 (j :: i :: (b ++ k)) = f8 (0 :: i :: (b ++ k)) :=
    inj ((hf8 _).symm.trans ((hpt 8 j).trans ((hpt 8 0).symm.trans (hf8 _))))
  rw [e6, e8]
  rcases hs10 with ⟨a1, a2⟩ | ⟨a1, a2, a3⟩
  · rw [a2]
    unfold pairEnergy pairE
    simp
  · have e10 : f10 (j :: i :: (b ++ k)) = f10 (0 :: i :: (b ++ k)) :=
      inj ((a3 _).symm.trans ((hpt 10 j).trans ((hpt 10 0).symm.trans (a3 _))))
    rw [e10]

/-- Which parameters make the energies of a term have the full shape. -/
def Term.Full (t : Term) (p : TParam) (F : Shape) : Prop :=
  (t.cls = .twoBody ∧ p.PairFull t.damping F) ∨
  (t.cls ≠ .twoBody ∧ (p.s9.Full 3 F ∨ p.alp.Full 3 F))

/-- The shape of the three-body energies. -/
theorem atmDispersionT_into {c9 radii s9 alp : Tensor ℝ} {cutoff : ℝ}
    (h : (atmDispersionT env numbers positions c9 radii cutoff .zero s9 alp).err = none) :
    Shape.Into s9.shape.tail.tail
      (atmDispersionT env numbers positions c9 radii cutoff .zero s9 alp).shape ∧
    Shape.Into alp.shape.tail.tail
      (atmDispersionT env numbers positions c9 radii cutoff .zero s9 alp).shape := by
  set fd := atmDampT env numbers positions radii .zero alp with hfd
  set ang := atmAng env numbers positions cutoff with hang
  have e : atmDispersionT env numbers positions c9 radii cutoff .zero s9 alp =
      fd.after ((ang * fd * s9 * c9).sumLast.sumLast / scalar 6) := rfl
  rw [e] at h ⊢
  have hsh : (fd.after ((ang * fd * s9 * c9).sumLast.sumLast / scalar 6)).shape =
      (ang * fd * s9 * c9).shape.tail.tail := by simp
  rw [hsh]
  rw [after_err, orErr_eq_none] at h
  have h1 : (ang * fd * s9 * c9).err = none := by
    have := h.2
    rw [div_err, orErr_eq_none, orErr_eq_none] at this
    exact this.1.1
  have h2 : (ang * fd * s9).err = none := by
    rw [mul_err, orErr_eq_none, orErr_eq_none] at h1
    exact h1.1.1
  have h3 : (ang * fd).err = none := by
    rw [mul_err, orErr_eq_none, orErr_eq_none] at h2
    exact h2.1.1
  have i1 : Shape.Into (ang * fd * s9).shape (ang * fd * s9 * c9).shape := Shape.into_left _ _
  have i2 : Shape.Into s9.shape (ang * fd * s9).shape := Tensor.map2_into_right h2
  have i3 : Shape.Into (ang * fd).shape (ang * fd * s9).shape := Shape.into_left _ _
  have i4 : Shape.Into fd.shape (ang * fd).shape := Tensor.map2_into_right h3
  refine ⟨Shape.into_tail (Shape.into_tail (i2.trans i1)),
    Shape.into_tail (Shape.into_tail (Shape.Into.trans ?_ (i4.trans (i3.trans i1))))⟩
  set r0 := ijT radii * ikT radii * jkT radii
  set r1 := where_ (realTriples numbers) ((ijT (dist2T env numbers positions) *
      ikT (dist2T env numbers positions) * jkT (dist2T env numbers positions)).map Real.sqrt)
      (scalar 1)
  have ec : Damping.callT env .zero r0 r1 9 true { alp := some (alp / scalar 3) } =
      zeroT env (scalar Defaults.rs9) (alp / scalar 3) r0 r1 := by
    simp [Damping.callT, Damping.checkedFT, Damping.requiredT, Damping.fT]
  have ef : fd = (realTriples numbers).after (r0.after (r1.after (where_ (realTriples numbers)
      (zeroT env (scalar Defaults.rs9) (alp / scalar 3) r0 r1) (scalar 0)))) := by
    rw [hfd, atmDampT, ← ec]
  have hfe := h.1
  rw [ef] at hfe ⊢
  simp only [after_err, orErr_eq_none, where_err] at hfe
  obtain ⟨-, -, -, ⟨-, hz, -⟩, hb, -⟩ := hfe
  simp only [after_shape, where_shape, scalar_shape, bshape_nil_right]
  refine Shape.Into.trans ?_ (Shape.into_right (bErr_eq_none.1 hb))
  have hzs : (zeroT env (scalar Defaults.rs9) (alp / scalar 3) r0 r1).shape =
      (map2 (fun x y : ℝ => x ^ y) (scalar Defaults.rs9 * map2 env.sdiv r0 r1)
        (alp / scalar 3)).shape := by
    simp [zeroT]
  rw [hzs]
  have hze : (map2 (fun x y : ℝ => x ^ y) (scalar Defaults.rs9 * map2 env.sdiv r0 r1)
      (alp / scalar 3)).err = none := by
    simp only [zeroT, div_err, add_err, mul_err, scalar_err, orErr_eq_none] at hz
    exact hz.1.2.1.2.1.2
  have := Tensor.map2_into_right hze
  simpa using this

/-- Every term: the energy of an atom with a set of parameters is that with the numbers used there. -/
theorem term_calculateT_sets {t : Term} {qo : Option (Tensor ℝ)} {cnT : Tensor ℝ} {cutoff : Cutoff}
    (hin : TermInput env T numbers positions m R r4r2 rvdw n B)
    (hc : D4.OptIs (some cnT) n B cn) (hq : D4.OptIs qo n B q) (hs : t.Shapes p n (B ++ K))
    (hF : t.cls = .twoBody → p.PairFull t.damping (B ++ K) ∨ p.s10.Into (n :: B))
    (hu : ∀ i1 i2 i3, t.Usable env R (p.at i1 i2 i3) cutoff) :
    (t.calculateT env T numbers positions p cnT m qo r4r2 rvdw cutoff).Scan (n :: B) K
      (t.calculateT env T numbers positions p cnT m qo r4r2 rvdw cutoff).rd ∧
    (t.Full p (B ++ K) → (t.calculateT env T numbers positions p cnT m qo r4r2 rvdw cutoff).shape =
      n :: (B ++ K)) ∧
    ∀ b k i, InB B b → InB K k → i < n →
      (t.calculateT env T numbers positions p cnT m qo r4r2 rvdw cutoff).rd (i :: (b ++ k)) =
      (t.calculate env T numbers positions
        (p.at (i :: (b ++ k)) (0 :: 0 :: (b ++ k)) (0 :: 0 :: 0 :: (b ++ k))) cnT m qo
        r4r2 rvdw cutoff).get (i :: b) := by
  by_cases ht : t.cls = .twoBody
  · obtain ⟨c6ok, -⟩ := model_c6_eval hin.model hc (termCharges_optIs (t := t) hq)
    have hsh : D2Shapes numbers positions (m.atomicC6 (m.weights env T (some cnT) (t.charges qo)))
        r4r2 rvdw n 3 B := ⟨hin.num, hin.pos, c6ok, hin.r4r2, hin.rvdw⟩
    simp only [Term.calculateT, Term.calculate, ht]
    obtain ⟨h1, h2, h3⟩ := dispersion2T_sets hsh (fun i1 i2 i3 => (hu i1 i2 i3).two ht) (hs.damping ht)
      (hs.s6 ht) (hs.s8 ht) (hs.s10 ht) (hF ht) (some cutoff.disp2)
    refine ⟨h1, fun hf => h2 ?_, fun b k i hb hk hi => h3 b k i _ hb hk hi⟩
    rcases hf with ⟨-, hf⟩ | ⟨hf, -⟩
    · exact hf
    · exact absurd ht hf
  have hdz : t.damping = .zero := (hu [] [] []).zero ht
  obtain ⟨S, hS⟩ := (hu [] [] []).settings (T := T)
  obtain ⟨c9ok, -⟩ := c9_eval (positions := positions) (r4r2 := r4r2) (rvdw := rvdw) hin.model
    ht hc hq hS
  have hrad : (t.radiiT env p r4r2 rvdw).Scan (n :: n :: B) K (t.radiiT env p r4r2 rvdw).rd ∧
      ∀ i1 i3 b k i j, InB B b → InB K k → i < n → j < n →
      (t.radii env (p.at i1 (0 :: 0 :: (b ++ k)) i3) r4r2 rvdw).Ok (n :: n :: B) ∧
      (t.radiiT env p r4r2 rvdw).rd (j :: i :: (b ++ k)) =
        (t.radii env (p.at i1 (0 :: 0 :: (b ++ k)) i3) r4r2 rvdw).get (j :: i :: b) := by
    have i2 : ∀ {v : TVal}, v.PerSystem 2 (B ++ K) → ∀ r i j, v.rd (j :: i :: r) = v.rd (0 :: 0 :: r) :=
      fun h r i j => h.rd (i := [j, i]) (j := [0, 0]) rfl rfl r
    by_cases hx : t.cls = .d3ATM
    · obtain ⟨tr, rr⟩ := TVal.tensor_into ((hs.rs9 hx).into (ds := [n, n]) rfl)
        ((hu [] [] []).rs9 hx) Defaults.rs9
      simp only [Term.radiiT, Term.radii, hx, radiiVDWT, radiiVDW]
      have h1 : (p.rs9.tensor Defaults.rs9 * rvdw).Scan (n :: n :: B) K _ :=
        (hin.rvdw.scan K).parL tr (· * ·)
      refine ⟨h1.self, fun i1 i3 b k i j hb hk hi hj => ?_⟩
      have hij : InB (n :: n :: B) (j :: i :: b) := ⟨hj, hi, hb⟩
      have e : (p.at i1 (0 :: 0 :: (b ++ k)) i3).rs9.tensor Defaults.rs9 =
          scalar ((p.rs9.tensor Defaults.rs9).rd (j :: i :: (b ++ k))) := by
        have := rr (j :: i :: (b ++ k))
        rw [i2 (hs.rs9 hx) (b ++ k) i j] at this
        exact this.tensor
      rw [e]
      have h2 := hin.rvdw.pw.parL (scalar_into ((p.rs9.tensor Defaults.rs9).rd (j :: i :: (b ++ k)))
        (n :: n :: B)) (· * ·)
      refine ⟨h2.ok, (h1.rd (j :: i :: (b ++ k)) (InB_append hij hk)).trans ?_⟩
      have e2 : rvdw.rd (j :: i :: (b ++ k)) = _ := hin.rvdw.rd_append hij k
      rw [e2]
      exact (h2.get (j :: i :: b) hij).symm
    · have hbj : t.cls = .d4ATMApprox ∨ t.cls = .d4ATMExact := by
        cases h : t.cls <;> simp_all
      obtain ⟨t1, r1⟩ := TVal.tensor_into ((hs.a1 hbj).into (ds := [n, n]) rfl)
        ((hu [] [] []).a1 hbj) Defaults.a1
      obtain ⟨t2, r2⟩ := TVal.tensor_into ((hs.a2 hbj).into (ds := [n, n]) rfl)
        ((hu [] [] []).a2 hbj) Defaults.a2
      have e1 : t.radiiT env p r4r2 rvdw = radiiBJT env p r4r2 := by
        rcases hbj with h | h <;> simp [Term.radiiT, h]
      have e2 : ∀ p, t.radii env p r4r2 rvdw = radiiBJ env p r4r2 := by
        intro p
        rcases hbj with h | h <;> simp [Term.radii, h]
      have hqq := qqT_ok hin.r4r2
      have h1 : (radiiBJT env p r4r2).Scan (n :: n :: B) K _ :=
        ((((hqq.scan K).map env.ssqrt).parL t1 (· * ·)).parR t2 (· + ·))
      rw [e1]
      refine ⟨h1.self, fun i1 i3 b k i j hb hk hi hj => ?_⟩
      have hij : InB (n :: n :: B) (j :: i :: b) := ⟨hj, hi, hb⟩
      have e3 : (p.at i1 (0 :: 0 :: (b ++ k)) i3).a1.tensor Defaults.a1 =
          scalar ((p.a1.tensor Defaults.a1).rd (j :: i :: (b ++ k))) := by
        have := r1 (j :: i :: (b ++ k))
        rw [i2 (hs.a1 hbj) (b ++ k) i j] at this
        exact this.tensor
      have e4 : (p.at i1 (0 :: 0 :: (b ++ k)) i3).a2.tensor Defaults.a2 =
          scalar ((p.a2.tensor Defaults.a2).rd (j :: i :: (b ++ k))) := by
        have := r2 (j :: i :: (b ++ k))
        rw [i2 (hs.a2 hbj) (b ++ k) i j] at this
        exact this.tensor
      rw [e2, radiiBJ, e3, e4]
      have h2 := ((hqq.pw.map env.ssqrt).parL (scalar_into ((p.a1.tensor Defaults.a1).rd
        (j :: i :: (b ++ k))) (n :: n :: B)) (· * ·)).parR (scalar_into ((p.a2.tensor Defaults.a2).rd
        (j :: i :: (b ++ k))) (n :: n :: B)) (· + ·)
      refine ⟨h2.ok, (h1.rd (j :: i :: (b ++ k)) (InB_append hij hk)).trans ?_⟩
      have e5 : (qqT r4r2).rd (j :: i :: (b ++ k)) = _ := hqq.rd_append hij k
      rw [e5]
      exact (h2.get (j :: i :: b) hij).symm
  obtain ⟨rok, rget⟩ := hrad
  obtain ⟨s9, hs9, is9, rs9⟩ := TVal.arg_into ((hs.s9 ht).into (ds := [n, n, n]) rfl)
    ((hu [] [] []).s9 ht) Defaults.s9
  obtain ⟨alp, halp, ialp, ralp⟩ := TVal.arg_into ((hs.alp ht).into (ds := [n, n, n]) rfl)
    ((hu [] [] []).alp ht) Defaults.alp
  obtain ⟨aok, aget⟩ := atmDispersionT_scan (env := env) hin.num hin.pos rok c9ok ialp is9
    (fun i => point9_zero (alp.rd i)) cutoff.disp3
  have e : t.calculateT env T numbers positions p cnT m qo r4r2 rvdw cutoff =
      (t.c9 env T m cnT qo).after ((t.radiiT env p r4r2 rvdw).after (atmDispersionT env numbers
        positions (t.c9 env T m cnT qo) (t.radiiT env p r4r2 rvdw) cutoff.disp3 .zero s9 alp)) := by
    have : t.cls ≠ .twoBody := ht
    unfold Term.calculateT
    split
    · contradiction
    · simp only [hs9, halp, hdz]
  rw [e]
  refine ⟨(Tensor.Scan.after c9ok.err (Tensor.Scan.after rok.into.err aok)).self, fun hf => ?_,
    fun b k i hb hk hi => ?_⟩
  · rcases hf with ⟨hf, -⟩ | ⟨-, hf⟩
    · exact absurd hf ht
    obtain ⟨i9, ia⟩ := atmDispersionT_into aok.into.err
    simp only [after_shape]
    obtain ⟨K', hK⟩ := aok.pre
    have hin' := aok.into.shape
    rw [hK] at hin'
    have hKK : Shape.Into (B ++ K') (B ++ K) :=
      into_append_left (s := [n]) (K := B ++ K) (K' := B ++ K') hin'
    have key : ∀ {x : Tensor ℝ} {cs : Shape}, Shape.Into x.shape.tail.tail ((n :: B) ++ K') →
        cs.length = 3 → x.shape = cs ++ (B ++ K) → (n :: B) ++ K' = n :: (B ++ K) := by
      intro x cs hx hl hsx
      rw [hsx] at hx
      match cs, hl with
      | [a, b, c], _ =>
        have e : B ++ K' = B ++ K := into_full (s := [n]) (cs := [c]) rfl rfl hx hKK
        rw [List.cons_append, e]
    rw [hK] at i9 ia ⊢
    rcases hf with ⟨x, cs, e, hl, hsx⟩ | ⟨x, cs, e, hl, hsx⟩
    · have : s9 = x := by rw [e] at hs9; exact (Option.some_injective _ hs9).symm
      exact key (x := s9) i9 hl (by rw [this]; exact hsx)
    · have : alp = x := by rw [e] at halp; exact (Option.some_injective _ halp).symm
      exact key (x := alp) ia hl (by rw [this]; exact hsx)
  set r := b ++ k with hr
  set p' := p.at (i :: r) (0 :: 0 :: r) (0 :: 0 :: 0 :: r) with hp'
  have e' : t.calculate env T numbers positions p' cnT m qo r4r2 rvdw cutoff =
      (t.c9 env T m cnT qo).after ((t.radii env p' r4r2 rvdw).after (atmDispersion env numbers
        positions (t.c9 env T m cnT qo) (t.radii env p' r4r2 rvdw) cutoff.disp3 .zero
        (s9.rd (0 :: 0 :: 0 :: r)) (alp.rd (0 :: 0 :: 0 :: r)))) := by
    have : t.cls ≠ .twoBody := ht
    have h1 : p'.s9.num Defaults.s9 = some (s9.rd (0 :: 0 :: 0 :: r)) := rs9 _
    have h2 : p'.alp.num Defaults.alp = some (alp.rd (0 :: 0 :: 0 :: r)) := ralp _
    unfold Term.calculate
    split
    · contradiction
    · simp only [h1, h2, hdz]
  rw [e']
  have hrd : ((t.c9 env T m cnT qo).after ((t.radiiT env p r4r2 rvdw).after (atmDispersionT env numbers
        positions (t.c9 env T m cnT qo) (t.radiiT env p r4r2 rvdw) cutoff.disp3 .zero s9 alp))).rd
      (i :: r) = (atmDispersionT env numbers positions (t.c9 env T m cnT qo)
        (t.radiiT env p r4r2 rvdw) cutoff.disp3 .zero s9 alp).rd (i :: r) := rfl
  rw [hrd]
  simp only [after_get]
  obtain ⟨-, aget'⟩ := atmDispersion_eval (env := env) hin.num hin.pos
    (rget (i :: r) (0 :: 0 :: 0 :: r) b k i i hb hk hi hi).1 c9ok
    (point9_zero (alp.rd (0 :: 0 :: 0 :: r))) cutoff.disp3 (s9.rd (0 :: 0 :: 0 :: r))
  rw [aget b k i hb hk hi, aget' b i hb hi]
  congr 1
  refine Finset.sum_congr rfl fun j hj => Finset.sum_congr rfl fun l hl => ?_
  have hj := Finset.mem_range.1 hj
  have hl := Finset.mem_range.1 hl
  have g9 : s9.rd (l :: j :: i :: r) = s9.rd (0 :: 0 :: 0 :: r) := by
    have := (hs.s9 ht).rd (i := [l, j, i]) (j := [0, 0, 0]) rfl rfl r
    have h1 := rs9 (l :: j :: i :: r)
    rw [show p.s9.rd (l :: j :: i :: r) = _ from this] at h1
    exact Option.some_injective _ (h1.symm.trans (rs9 _))
  have ga : alp.rd (l :: j :: i :: r) = alp.rd (0 :: 0 :: 0 :: r) := by
    have := (hs.alp ht).rd (i := [l, j, i]) (j := [0, 0, 0]) rfl rfl r
    have h1 := ralp (l :: j :: i :: r)
    rw [show p.alp.rd (l :: j :: i :: r) = _ from this] at h1
    exact Option.some_injective _ (h1.symm.trans (ralp _))
  unfold tripleEnergy tripleEnergyR
  beta_reduce
  rw [g9, ga, (rget (i :: r) (0 :: 0 :: 0 :: r) b k i j hb hk hi hj).2,
    (rget (i :: r) (0 :: 0 :: 0 :: r) b k i l hb hk hi hl).2,
    (rget (i :: r) (0 :: 0 :: 0 :: r) b k j l hb hk hj hl).2]

end term

section whole
variable {env : Env} {T : Tables} {ext : Ext} {d : Disp} {numbers : Tensor ℕ}
  {positions charge : Tensor ℝ} {p : TParam} {o : CalcOpts} {n : ℕ} {B K : Shape} {R : RefCfg}
  {cn : Spec.CN} {eeq : Spec.EEQ}

theorem sumTermsT_sets {m : RefModel} {c q : Idx → ℝ} {r4r2 rvdw : Tensor ℝ} {ts : List Term}
    {qo : Option (Tensor ℝ)} {cnT : Tensor ℝ} {cutoff : Cutoff}
    (hin : TermInput env T numbers positions m R r4r2 rvdw n B)
    (hc : D4.OptIs (some cnT) n B c) (hq : D4.OptIs qo n B q)
    (hs : ∀ t ∈ ts, t.Shapes p n (B ++ K))
    (hF : ∀ t ∈ ts, t.cls = .twoBody → p.PairFull t.damping (B ++ K) ∨ p.s10.Into (n :: B))
    (hu : ∀ t ∈ ts, ∀ i1 i2 i3, t.Usable env R (p.at i1 i2 i3) cutoff) :
    (sumTermsT env T ts numbers positions p cnT m qo r4r2 rvdw cutoff).Scan (n :: B) K
      (sumTermsT env T ts numbers positions p cnT m qo r4r2 rvdw cutoff).rd ∧
    ((∃ t ∈ ts, t.Full p (B ++ K)) →
      (sumTermsT env T ts numbers positions p cnT m qo r4r2 rvdw cutoff).shape = n :: (B ++ K)) ∧
    ∀ b k i, InB B b → InB K k → i < n →
      (sumTermsT env T ts numbers positions p cnT m qo r4r2 rvdw cutoff).rd (i :: (b ++ k)) =
      (sumTerms env T ts numbers positions
        (p.at (i :: (b ++ k)) (0 :: 0 :: (b ++ k)) (0 :: 0 :: 0 :: (b ++ k))) cnT m qo
        r4r2 rvdw cutoff).get (i :: b) := by
  unfold sumTermsT sumTerms
  have key : ∀ (ts : List Term) (e0 : Tensor ℝ) (e1 : ℕ → Idx → Idx → Tensor ℝ),
      e0.Scan (n :: B) K e0.rd →
      (∀ b k i, InB B b → InB K k → i < n →
        (e1 i b k).Ok (n :: B) ∧ e0.rd (i :: (b ++ k)) = (e1 i b k).get (i :: b)) →
      (∀ t ∈ ts, t.Shapes p n (B ++ K)) →
      (∀ t ∈ ts, t.cls = .twoBody → p.PairFull t.damping (B ++ K) ∨ p.s10.Into (n :: B)) →
      (∀ t ∈ ts, ∀ i1 i2 i3, t.Usable env R (p.at i1 i2 i3) cutoff) →
      (ts.foldl (fun energy t => energy + t.calculateT env T numbers positions p cnT m qo r4r2 rvdw
        cutoff) e0).Scan (n :: B) K (ts.foldl (fun energy t => energy +
          t.calculateT env T numbers positions p cnT m qo r4r2 rvdw cutoff) e0).rd ∧
      ((e0.shape = n :: (B ++ K) ∨ ∃ t ∈ ts, t.Full p (B ++ K)) →
        (ts.foldl (fun energy t => energy + t.calculateT env T numbers positions p cnT m qo r4r2 rvdw
          cutoff) e0).shape = n :: (B ++ K)) ∧
      ∀ b k i, InB B b → InB K k → i < n →
      (ts.foldl (fun energy t => energy + t.calculateT env T numbers positions p cnT m qo r4r2 rvdw
        cutoff) e0).rd (i :: (b ++ k)) =
      (ts.foldl (fun energy t => energy + t.calculate env T numbers positions
        (p.at (i :: (b ++ k)) (0 :: 0 :: (b ++ k)) (0 :: 0 :: 0 :: (b ++ k))) cnT m qo r4r2 rvdw cutoff)
        (e1 i b k)).get (i :: b) := by
    intro ts
    induction ts with
    | nil =>
      intro e0 e1 h0 h1 _ _ _
      exact ⟨h0, fun h => by simpa using h, fun b k i hb hk hi => (h1 b k i hb hk hi).2⟩
    | cons t ts ih =>
      intro e0 e1 h0 h1 hs hF hu
      obtain ⟨a1, a2, a3⟩ := term_calculateT_sets hin hc hq (hs t (by simp)) (hF t (by simp))
        (hu t (by simp))
      have hsum : (e0 + t.calculateT env T numbers positions p cnT m qo r4r2 rvdw cutoff).Scan
        (n :: B) K _ := h0.map2 a1 (· + ·)
      obtain ⟨g1, g2, g3⟩ := ih (e0 + t.calculateT env T numbers positions p cnT m qo r4r2 rvdw cutoff)
        (fun i b k => e1 i b k + t.calculate env T numbers positions
        (p.at (i :: (b ++ k)) (0 :: 0 :: (b ++ k)) (0 :: 0 :: 0 :: (b ++ k))) cnT m qo r4r2 rvdw cutoff)
        hsum.self (by
          intro b k i hb hk hi
          obtain ⟨S, hS⟩ := (hu t (by simp) (i :: (b ++ k)) (0 :: 0 :: (b ++ k))
            (0 :: 0 :: 0 :: (b ++ k))).settings (T := T)
          obtain ⟨c1, -⟩ := term_eval hin hc hq hS
          obtain ⟨g1, g2⟩ := h1 b k i hb hk hi
          refine ⟨?_, ?_⟩
          · constructor <;> simp [g1.err, g1.shape, c1.err, c1.shape]
          · have hbi : InB (n :: B) (i :: b) := ⟨hi, hb⟩
            refine (hsum.rd (i :: (b ++ k)) (InB_append hbi hk)).trans ?_
            simp only [add_get, c1.shape, g1.shape, pick_of_InB hbi, g2, a3 b k i hb hk hi])
        (fun t ht => hs t (by simp [ht])) (fun t ht => hF t (by simp [ht]))
        (fun t ht => hu t (by simp [ht]))
      refine ⟨g1, fun hfull => g2 ?_, g3⟩
      rcases hfull with hfull | ⟨t', ht', hfull⟩
      · left
        rw [add_shape, hfull]
        exact a1.into.shape.all.2.2.2
      · rcases List.mem_cons.1 ht' with rfl | ht'
        · left
          rw [add_shape, a2 hfull]
          exact h0.into.shape.all.2.2.1
        · exact Or.inr ⟨t', ht', hfull⟩
  have h0 : (full numbers.shape (0 : ℝ)).Ok (n :: B) := ⟨rfl, hin.num.shape⟩
  obtain ⟨k1, k2, k3⟩ := key ts _ (fun _ _ _ => full numbers.shape 0) (h0.scan K)
    (fun b k i hb hk hi => ⟨h0, rfl⟩) hs hF hu
  exact ⟨k1, fun h => k2 (Or.inr h), k3⟩

/-- `calculate` with several sets of parameters: the energy of every atom with every set is that with
the numbers used there. -/
theorem calculateT_sets {j1 j2 j3 : Idx}
    (h : d.Runs env T ext numbers positions charge (p.at j1 j2 j3) o n B R cn eeq)
    (hs : ∀ t ∈ d.terms, t.Shapes p n (B ++ K))
    (hF : ∀ t ∈ d.terms, t.cls = .twoBody → p.PairFull t.damping (B ++ K) ∨ p.s10.Into (n :: B)) :
    ∃ e, d.calculateT env T ext numbers positions charge p o = .ok e ∧ e.Scan (n :: B) K e.rd ∧
      ((∃ t ∈ d.terms, t.Full p (B ++ K)) → e.shape = n :: (B ++ K)) ∧
      ∀ b k i, InB B b → InB K k → i < n → ∃ e', d.calculate env T ext numbers positions charge
        (p.at (i :: (b ++ k)) (0 :: 0 :: (b ++ k)) (0 :: 0 :: 0 :: (b ++ k))) o = .ok e' ∧
        e.rd (i :: (b ++ k)) = e'.get (i :: b) := by
  obtain ⟨m, qo, c, q, cnT, r4r2, rvdw, hin, hc, hq, h1, h2⟩ := calculate_terms h
  obtain ⟨ok, full, get⟩ := sumTermsT_sets hin hc hq hs hF
    fun t ht i1 i2 i3 => (h.par t ht).at i1 i2 i3
  refine ⟨_, (h2 p).trans (check_ok ok.into.err), ok, full,
    fun b k i hb hk hi => ⟨_, ?_, get b k i hb hk hi⟩⟩
  have hu := fun t ht => (h.par t ht).at (i :: (b ++ k)) (0 :: 0 :: (b ++ k)) (0 :: 0 :: 0 :: (b ++ k))
  obtain ⟨S, hS⟩ := Disp.Runs.settings (T := T) { h with par := hu }
  rw [h1]
  exact check_ok (sumTerms_eval hin hc hq hS).1.err

end whole

end TadDftd4
