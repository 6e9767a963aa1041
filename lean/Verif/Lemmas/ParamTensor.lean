import Verif.Model.ParamTensor
import Verif.Lemmas.Runs

/-!
# Evaluation with damping parameters given as tensors
-/

set_option linter.unusedSimpArgs false

open scoped Classical

namespace TadDftd4

open Tensor

/-- A tensor of shape `s` can be combined with one of shape `t` without changing the shape `t`. -/
def Shape.Into : Shape → Shape → Prop
  | [], _ => True
  | _ :: _, [] => False
  | a :: s, b :: t => (a = 1 ∨ a = b) ∧ Shape.Into s t

theorem Shape.Into.all {s t : Shape} (h : Shape.Into s t) :
    bcompat s t ∧ bcompat t s ∧ bshape s t = t ∧ bshape t s = t := by
  induction s generalizing t with
  | nil => simp
  | cons a s ih =>
    cases t with
    | nil => exact absurd h (by simp [Shape.Into])
    | cons b t =>
      obtain ⟨h1, h2⟩ := h
      obtain ⟨i1, i2, i3, i4⟩ := ih h2
      rcases h1 with rfl | rfl <;> simp [i1, i2, i3, i4]

/-- No exception, and a shape that broadcasts into `t`. -/
structure Tensor.Into (x : Tensor ℝ) (t : Shape) : Prop where
  err : x.err = none
  shape : Shape.Into x.shape t

/-- The entry used for index `i` of the array a tensor is combined with. -/
def Tensor.rd (x : Tensor ℝ) (i : Idx) : ℝ := x.get (pick x.shape i)

theorem Tensor.scalar_into (c : ℝ) (t : Shape) : (scalar c).Into t := ⟨rfl, by simp [Shape.Into]⟩
@[simp] theorem Tensor.scalar_rd (c : ℝ) (i : Idx) : (scalar c).rd i = c := rfl

namespace Tensor.Into
variable {x : Tensor ℝ} {t : Shape} (h : x.Into t)
include h
theorem bl : bErr x.shape t = none := bErr_eq_none.2 h.shape.all.1
theorem br : bErr t x.shape = none := bErr_eq_none.2 h.shape.all.2.1
theorem sl : bshape x.shape t = t := h.shape.all.2.2.1
theorem sr : bshape t x.shape = t := h.shape.all.2.2.2
end Tensor.Into

/-- Result of combining tensors: as if with the parameters used at that index. -/
structure Tensor.Pw (x : Tensor ℝ) (s : Shape) (f : Idx → ℝ) : Prop where
  ok : x.Ok s
  get : ∀ i, InB s i → x.get i = f i

section pw
variable {x y a : Tensor ℝ} {s : Shape} {f g : Idx → ℝ}

theorem Tensor.Ok.pw (h : x.Ok s) : x.Pw s fun i => x.get i := ⟨h, fun _ _ => rfl⟩

theorem Tensor.Pw.map (h : x.Pw s f) (φ : ℝ → ℝ) : (x.map φ).Pw s fun i => φ (f i) :=
  ⟨⟨h.ok.err, h.ok.shape⟩, fun i hi => congrArg φ (h.get i hi)⟩

theorem Tensor.Pw.map2 (h : x.Pw s f) (k : y.Pw s g) (φ : ℝ → ℝ → ℝ) :
    (Tensor.map2 φ x y).Pw s fun i => φ (f i) (g i) := by
  refine ⟨⟨by simp [h.ok.err, k.ok.err, h.ok.shape, k.ok.shape], by simp [h.ok.shape, k.ok.shape]⟩,
    fun i hi => ?_⟩
  simp [h.ok.shape, k.ok.shape, pick_of_InB hi, h.get i hi, k.get i hi]

theorem Tensor.Pw.parL (h : x.Pw s f) (ha : a.Into s) (φ : ℝ → ℝ → ℝ) :
    (Tensor.map2 φ a x).Pw s fun i => φ (a.rd i) (f i) := by
  refine ⟨⟨by simp [h.ok.err, h.ok.shape, ha.err, ha.bl], by simp [h.ok.shape, ha.sl]⟩,
    fun i hi => ?_⟩
  simp [h.ok.shape, pick_of_InB hi, h.get i hi, Tensor.rd]

theorem Tensor.Pw.parR (h : x.Pw s f) (ha : a.Into s) (φ : ℝ → ℝ → ℝ) :
    (Tensor.map2 φ x a).Pw s fun i => φ (f i) (a.rd i) := by
  refine ⟨⟨by simp [h.ok.err, h.ok.shape, ha.err, ha.br], by simp [h.ok.shape, ha.sr]⟩,
    fun i hi => ?_⟩
  simp [h.ok.shape, pick_of_InB hi, h.get i hi, Tensor.rd]

theorem Tensor.Pw.after (h : x.Pw s f) (k : y.Pw s g) : (x.after y).Pw s g :=
  ⟨⟨by simp [h.ok.err, k.ok.err], k.ok.shape⟩, k.get⟩

theorem Tensor.Into.map (ha : a.Into s) (φ : ℝ → ℝ) : (a.map φ).Into s := ⟨ha.err, ha.shape⟩

/-- A tensor combined with a number. -/
theorem Tensor.Into.mapNum (ha : a.Into s) (φ : ℝ → ℝ → ℝ) (c : ℝ) :
    (Tensor.map2 φ a (scalar c)).Into s ∧
      ∀ i, (Tensor.map2 φ a (scalar c)).rd i = φ (a.rd i) c := by
  refine ⟨⟨by simp [ha.err], by simpa using ha.shape⟩, fun i => ?_⟩
  have hp : ∀ (s : Shape) (i : Idx), pick s (pick s i) = pick s i := by
    intro s
    induction s with
    | nil => simp
    | cons d s ih =>
      intro i
      cases i with
      | nil => simp [pick, ih]
      | cons k i => by_cases hd : d = 1 <;> simp [pick, hd, ih]
  simp [Tensor.rd, hp]

end pw

/-- The entry used at an index. -/
def TVal.rd (v : TVal) (i : Idx) : PVal :=
  match v with
  | .absent => .absent
  | .none => .none
  | .val x => .val (x.rd i)

/-- The numbers used at an index, for the keyword arguments. -/
def TKw.rd (kw : TKw) (i : Idx) : Kw where
  a1 := kw.a1.map (·.rd i)
  a2 := kw.a2.map (·.rd i)
  s6 := kw.s6.map (·.rd i)
  rs6 := kw.rs6.map (·.rd i)
  s8 := kw.s8.map (·.rd i)
  rs8 := kw.rs8.map (·.rd i)
  s9 := kw.s9.map (·.rd i)
  rs9 := kw.rs9.map (·.rd i)
  s10 := kw.s10.map (·.rd i)
  alp := kw.alp.map (·.rd i)
  bet := kw.bet.map (·.rd i)

/-- The keyword arguments a damping function uses in arithmetic expressions. -/
def Damping.usesKw (d : Damping) (kw : TKw) : List (Option (Tensor ℝ)) :=
  match d with
  | .rational => [kw.a1, kw.a2]
  | .zero => [kw.rs6, kw.rs8, kw.rs9, kw.alp]
  | .mzero => [kw.rs6, kw.rs8, kw.alp, kw.bet]
  | .op => [kw.a1, kw.a2, kw.bet]

section damping
variable {env : Env} {d : Damping} {dist rad : Tensor ℝ} {s : Shape}

theorem ratT_pw (hd : dist.Ok s) (hr : rad.Ok s) {a1 a2 : Tensor ℝ} (h1 : a1.Into s)
    (h2 : a2.Into s) (order : ℕ) :
    (ratT a1 a2 order dist rad).Pw s fun i =>
      ratF (a1.rd i) (a2.rd i) order (dist.get i) (rad.get i) :=
  ((hd.pw.map _).map2 ((((hr.pw.map Real.sqrt).parL h1 _).parR h2 _).map _) _).parL
    (scalar_into _ _) _

theorem zeroT_pw (hd : dist.Ok s) (hr : rad.Ok s) {rs alp : Tensor ℝ} (h1 : rs.Into s)
    (h2 : alp.Into s) :
    (zeroT env rs alp dist rad).Pw s fun i =>
      zeroF env (rs.rd i) (alp.rd i) (dist.get i) (rad.get i) :=
  (((((hd.pw.map2 hr.pw env.sdiv).parL h1 _).parR h2 _).parL (scalar_into 6 _) _).parL
    (scalar_into 1 _) _).parL (scalar_into _ _) _

theorem mzeroT_pw (hd : dist.Ok s) (hr : rad.Ok s) {rs alp bet : Tensor ℝ} (h1 : rs.Into s)
    (h2 : alp.Into s) (h3 : bet.Into s) :
    (mzeroT rs alp bet dist rad).Pw s fun i =>
      mzeroF (rs.rd i) (alp.rd i) (bet.rd i) (dist.get i) (rad.get i) :=
  (((((hd.pw.map2 (hr.pw.parL h1 _) _).map2 (hr.pw.parL h3 _) _).parR (h2.map _) _).parL
    (scalar_into 6 _) _).parL (scalar_into 1 _) _).parL (scalar_into _ _) _

theorem opT_pw (hd : dist.Ok s) (hr : rad.Ok s) {a1 a2 bet : Tensor ℝ} (h1 : a1.Into s)
    (h2 : a2.Into s) (h3 : bet.Into s) (order : ℕ) :
    (opT a1 a2 bet order dist rad).Pw s fun i =>
      opF (a1.rd i) (a2.rd i) (bet.rd i) order (dist.get i) (rad.get i) := by
  have hab := (((hr.pw.map Real.sqrt).parL h1 (· * ·)).parR h2 (· + ·)).parR h3 (fun x y => x ^ y)
  have hrb := hd.pw.parR h3 (fun x y : ℝ => x ^ y)
  have hdo := hd.pw.map (· ^ order)
  exact hab.after (hrb.map2 ((hrb.map2 hdo _).map2 (hab.map2 hdo _) _) _)

theorem damping_fT_pw (hd : dist.Ok s) (hr : rad.Ok s) (order : ℕ) (od : Bool) (kw : TKw)
    (hkw : ∀ a ∈ d.usesKw kw, ∀ x, a = some x → x.Into s) {f : Idx → ℝ → ℝ → ℝ}
    (hf : ∀ i, d.pointF env order od (kw.rd i) = .ok (f i)) :
    (d.fT env dist rad order od kw).Pw s fun i => f i (dist.get i) (rad.get i) := by
  cases d with
  | rational =>
    unfold Damping.pointF at hf
    unfold Damping.fT
    rcases h1 : kw.a1 with _ | a1
    · simp [TKw.rd, h1] at hf
    rcases h2 : kw.a2 with _ | a2
    · simp [TKw.rd, h1, h2] at hf
    have := ratT_pw hd hr (hkw _ (by simp [Damping.usesKw, h1]) a1 rfl)
      (hkw (some a2) (by simp [Damping.usesKw, h2]) a2 rfl) order
    have hf' : ∀ i, ratF (a1.rd i) (a2.rd i) order = f i := fun i => by
      simpa [TKw.rd, h1, h2] using hf i
    simpa only [← hf'] using this
  | zero =>
    unfold Damping.pointF at hf
    unfold Damping.fT
    rcases h1 : kw.alp with _ | alp
    · simp [TKw.rd, h1] at hf
    have ha := hkw (some alp) (by simp [Damping.usesKw, h1]) alp rfl
    by_cases ho : order ≠ 6 ∧ order ≠ 8 ∧ order ≠ 9
    · have := hf []
      simp [TKw.rd, h1, ho] at this
    obtain ⟨rs, hrs⟩ : ∃ rs, (if order = 6 then kw.rs6 else if order = 8 then kw.rs8 else kw.rs9) =
        some rs := by
      have := hf []
      by_contra hc
      have hn : (if order = 6 then kw.rs6 else if order = 8 then kw.rs8 else kw.rs9) = none := by
        rcases h : (if order = 6 then kw.rs6 else if order = 8 then kw.rs8 else kw.rs9) with _ | r
        · rfl
        · exact absurd ⟨r, h⟩ hc
      have hn' : (if order = 6 then (kw.rd []).rs6 else if order = 8 then (kw.rd []).rs8
          else (kw.rd []).rs9) = none := by
        have : (if order = 6 then kw.rs6 else if order = 8 then kw.rs8 else kw.rs9).map (·.rd []) =
          none := by rw [hn]; rfl
        rw [← this]
        split_ifs <;> rfl
      have ha' : (kw.rd []).alp = some (alp.rd []) := by simp [TKw.rd, h1]
      simp only [ha', if_neg ho, hn'] at this
      exact absurd this (by simp)
    have hr1 : rs.Into s := hkw (some rs) (by
      rw [← hrs]; simp only [Damping.usesKw]; split_ifs <;> simp) rs rfl
    set alpN := (if order = 8 then alp + scalar 2 else alp) with halpN
    have hA : alpN.Into s ∧ ∀ i, alpN.rd i = if order = 8 then alp.rd i + 2 else alp.rd i := by
      rw [halpN]
      split_ifs
      · exact ha.mapNum _ 2
      · exact ⟨ha, fun _ => rfl⟩
    have hz := zeroT_pw (env := env) hd hr hr1 hA.1
    have hrs' : ∀ i, (if order = 6 then (kw.rd i).rs6 else if order = 8 then (kw.rd i).rs8
        else (kw.rd i).rs9) = some (rs.rd i) := by
      intro i
      have : ((if order = 6 then kw.rs6 else if order = 8 then kw.rs8 else kw.rs9).map (·.rd i)) =
        some (rs.rd i) := by rw [hrs]; rfl
      rw [← this]
      split_ifs <;> rfl
    have halp' : ∀ i, (kw.rd i).alp = some (alp.rd i) := fun i => by simp [TKw.rd, h1]
    simp only [if_neg ho, hrs, ← halpN]
    cases od with
    | true =>
      have hf' : ∀ i, zeroF env (rs.rd i) (alpN.rd i) = f i := fun i => by
        have := hf i
        simp only [halp', if_neg ho, hrs', if_true] at this
        rw [hA.2 i]
        simpa using this
      simpa only [← hf', if_true] using hz
    | false =>
      have hf' : ∀ i, (fun x r => env.sdiv (zeroF env (rs.rd i) (alpN.rd i) x r) (x ^ order)) =
          f i := fun i => by
        have := hf i
        simp only [halp', if_neg ho, hrs', Bool.false_eq_true, if_false] at this
        rw [hA.2 i]
        simpa using this
      simpa only [← hf', Bool.false_eq_true, if_false] using
        hz.map2 (hd.pw.map (· ^ order)) env.sdiv
  | mzero =>
    unfold Damping.pointF at hf
    unfold Damping.fT
    rcases h1 : kw.alp with _ | alp
    · simp [TKw.rd, h1] at hf
    rcases h2 : kw.bet with _ | bet
    · simp [TKw.rd, h1, h2] at hf
    have ha := hkw (some alp) (by simp [Damping.usesKw, h1]) alp rfl
    have hb := hkw (some bet) (by simp [Damping.usesKw, h2]) bet rfl
    by_cases ho : order ≠ 6 ∧ order ≠ 8
    · have := hf []
      simp [TKw.rd, h1, h2, ho] at this
    obtain ⟨rs, hrs⟩ : ∃ rs, (if order = 6 then kw.rs6 else kw.rs8) = some rs := by
      have := hf []
      by_contra hc
      have hn : (if order = 6 then kw.rs6 else kw.rs8) = none := by
        rcases h : (if order = 6 then kw.rs6 else kw.rs8) with _ | r
        · rfl
        · exact absurd ⟨r, h⟩ hc
      have hn' : (if order = 6 then (kw.rd []).rs6 else (kw.rd []).rs8) = none := by
        have : (if order = 6 then kw.rs6 else kw.rs8).map (·.rd []) = none := by rw [hn]; rfl
        rw [← this]
        split_ifs <;> rfl
      have ha' : (kw.rd []).alp = some (alp.rd []) := by simp [TKw.rd, h1]
      have hb' : (kw.rd []).bet = some (bet.rd []) := by simp [TKw.rd, h2]
      simp only [ha', hb', if_neg ho, hn'] at this
      exact absurd this (by simp)
    have hr1 : rs.Into s := hkw (some rs) (by
      rw [← hrs]; simp only [Damping.usesKw]; split_ifs <;> simp) rs rfl
    set alpN := (if order = 8 then alp + scalar 2 else alp) with halpN
    have hA : alpN.Into s ∧ ∀ i, alpN.rd i = if order = 8 then alp.rd i + 2 else alp.rd i := by
      rw [halpN]
      split_ifs
      · exact ha.mapNum _ 2
      · exact ⟨ha, fun _ => rfl⟩
    have hz := mzeroT_pw hd hr hr1 hA.1 hb
    have hrs' : ∀ i, (if order = 6 then (kw.rd i).rs6 else (kw.rd i).rs8) = some (rs.rd i) := by
      intro i
      have : ((if order = 6 then kw.rs6 else kw.rs8).map (·.rd i)) =
        some (rs.rd i) := by rw [hrs]; rfl
      rw [← this]
      split_ifs <;> rfl
    have halp' : ∀ i, (kw.rd i).alp = some (alp.rd i) := fun i => by simp [TKw.rd, h1]
    have hbet' : ∀ i, (kw.rd i).bet = some (bet.rd i) := fun i => by simp [TKw.rd, h2]
    simp only [if_neg ho, hrs, ← halpN]
    have hf' : ∀ i, (fun x r => env.sdiv (mzeroF (rs.rd i) (alpN.rd i) (bet.rd i) x r)
        (x ^ order)) = f i := fun i => by
      have := hf i
      simp only [halp', hbet', if_neg ho, hrs'] at this
      rw [hA.2 i]
      simpa using this
    simpa only [← hf'] using hz.map2 (hd.pw.map (· ^ order)) env.sdiv
  | op =>
    unfold Damping.pointF at hf
    unfold Damping.fT
    rcases h1 : kw.a1 with _ | a1
    · simp [TKw.rd, h1] at hf
    rcases h2 : kw.a2 with _ | a2
    · simp [TKw.rd, h1, h2] at hf
    rcases h3 : kw.bet with _ | bet
    · simp [TKw.rd, h1, h2, h3] at hf
    by_cases ho : order ≠ 6 ∧ order ≠ 8
    · have := hf []
      simp [TKw.rd, h1, h2, h3, ho] at this
    have := opT_pw hd hr (hkw (some a1) (by simp [Damping.usesKw, h1]) a1 rfl)
      (hkw (some a2) (by simp [Damping.usesKw, h2]) a2 rfl)
      (hkw (some bet) (by simp [Damping.usesKw, h3]) bet rfl) order
    have hf' : ∀ i, opF (a1.rd i) (a2.rd i) (bet.rd i) order = f i := fun i => by
      have := hf i
      simp only [TKw.rd, h1, h2, h3, Option.map_some, if_neg ho] at this
      simpa using this
    simp only [if_neg ho]
    simpa only [← hf'] using this

theorem required_rd (d : Damping) (order : ℕ) (kw : TKw) (i : Idx) :
    none ∈ d.required order (kw.rd i) ↔ none ∈ d.requiredT order kw := by
  have h : d.required order (kw.rd i) = (d.requiredT order kw).map (Option.map (·.rd i)) := by
    unfold Damping.required Damping.requiredT
    split <;> simp [TKw.rd]
  rw [h]
  simp [List.mem_map, Option.map_eq_none_iff]

/-- A call of a damping object with parameters that broadcast into the pair (or triple) array uses
for every entry the numbers read there. -/
theorem damping_callT_pw (hd : dist.Ok s) (hr : rad.Ok s) (order : ℕ) (od : Bool) (kw : TKw)
    (hkw : ∀ a ∈ d.usesKw kw, ∀ x, a = some x → x.Into s) {f : Idx → ℝ → ℝ → ℝ}
    (hf : ∀ i, d.point env order od (kw.rd i) = .ok (f i)) :
    (d.callT env dist rad order od kw).Pw s fun i => f i (dist.get i) (rad.get i) := by
  have hz : (∀ i, (fun _ _ => (0 : ℝ)) = f i) →
      (zerosLike dist).Pw s fun i => f i (dist.get i) (rad.get i) := fun h =>
    ⟨⟨hd.err, hd.shape⟩, fun i _ => by rw [← h]; rfl⟩
  unfold Damping.callT
  unfold Damping.point at hf
  have e6 : ∀ i, ((kw.rd i).s6 = none ∧ (kw.rd i).rs6 = none) ↔ (kw.s6 = none ∧ kw.rs6 = none) :=
    fun i => by simp [TKw.rd]
  have e8 : ∀ i, ((kw.rd i).s8 = none ∧ (kw.rd i).rs8 = none) ↔ (kw.s8 = none ∧ kw.rs8 = none) :=
    fun i => by simp [TKw.rd]
  have e9 : ∀ i, ((kw.rd i).s9 = none ∧ (kw.rd i).rs9 = none) ↔ (kw.s9 = none ∧ kw.rs9 = none) :=
    fun i => by simp [TKw.rd]
  have e10 : ∀ i, (kw.rd i).s10 = none ↔ kw.s10 = none := fun i => by simp [TKw.rd]
  simp only [e6, e8, e9, e10, required_rd] at hf
  split_ifs at hf ⊢ with c1 c2 c3 c4
  · exact hz fun i => by simpa using hf i
  · exact hz fun i => by simpa using hf i
  · exact hz fun i => by simpa using hf i
  · exact hz fun i => by simpa using hf i
  · exact absurd (hf []) (by simp)
  · unfold Damping.checkedFT
    rw [if_neg (by assumption)]
    exact damping_fT_pw hd hr order od kw hkw hf

end damping

/-- The numbers used at an index. -/
def TParam.rd (p : TParam) (i : Idx) : Param where
  a1 := p.a1.rd i
  a2 := p.a2.rd i
  s6 := p.s6.rd i
  rs6 := p.rs6.rd i
  s8 := p.s8.rd i
  rs8 := p.rs8.rd i
  s9 := p.s9.rd i
  rs9 := p.rs9.rd i
  s10 := p.s10.rd i
  alp := p.alp.rd i
  bet := p.bet.rd i
  doi := p.doi
  extra := p.extra

theorem TVal.kw_rd (v : TVal) (c : Option ℝ) (i : Idx) :
    (v.kw (c.map scalar)).map (·.rd i) = (v.rd i).kw c := by
  cases v <;> cases c <;> rfl

theorem TParam.kw_rd (p : TParam) (i : Idx) : p.kw.rd i = (p.rd i).kw := by
  have h0 : ∀ v : TVal, (v.kw none).map (·.rd i) = (v.rd i).kw none := fun v => v.kw_rd none i
  have h1 : ∀ (v : TVal) (x : ℝ), (v.kw (some (scalar x))).map (·.rd i) = (v.rd i).kw (some x) :=
    fun v x => v.kw_rd (some x) i
  simp only [TKw.rd, TParam.kw, Param.kw, h0, h1]
  rfl

theorem Tensor.Pw.sumLast {x : Tensor ℝ} {n : ℕ} {s : Shape} {f : Idx → ℝ} (h : x.Pw (n :: s) f) :
    x.sumLast.Pw s fun i => ∑ j ∈ Finset.range n, f (j :: i) := by
  refine ⟨⟨h.ok.err, by simp [h.ok.shape]⟩, fun i hi => ?_⟩
  rw [sumLast_get h.ok.shape]
  exact Finset.sum_congr rfl fun j hj => h.get _ ⟨Finset.mem_range.1 hj, hi⟩

theorem Tensor.Pw.iadd {x y : Tensor ℝ} {s : Shape} {f g : Idx → ℝ} (h : x.Pw s f) (k : y.Pw s g) :
    (x.iadd y).Pw s fun i => f i + g i := by
  have := h.map2 k (· + ·)
  refine ⟨⟨?_, this.ok.shape⟩, this.get⟩
  have h1 : (x + y).err = none := this.ok.err
  simp [Tensor.iadd, h1, h.ok.shape, k.ok.shape]

section two
variable {env : Env} {numbers : Tensor ℕ} {positions c6 r4r2 rvdw : Tensor ℝ} {n c : ℕ} {B : Shape}
  {p : TParam} {d : Damping}

theorem tDampT_pw (h : D2Shapes numbers positions c6 r4r2 rvdw n c B) (he : p.extra = [])
    (hk : ∀ a ∈ d.usesKw p.kw, ∀ x, a = some x → x.Into (n :: n :: B))
    {order : ℕ} {f : Idx → ℝ → ℝ → ℝ} (hf : ∀ i, d.point env order false (p.rd i).kw = .ok (f i))
    (cutoff : ℝ) :
    (tDampT env numbers positions p (radii2 d r4r2 (some rvdw)) d cutoff order).Ok (n :: n :: B) ∧
    ∀ b i j, InB B b → i < n → j < n →
      (tDampT env numbers positions p (radii2 d r4r2 (some rvdw)) d cutoff order).get
        (j :: i :: b) =
      if inCut env numbers positions c cutoff b i j then
        f (j :: i :: b) (distAt env positions c b i j) (radAt d r4r2 rvdw b i j) else 0 := by
  have hdist := pairDistances_ok (env := env) h.num h.pos
  have hrad := radii2_ok (d := d) h
  obtain ⟨hok, hget⟩ := damping_callT_pw (env := env) (d := d) hdist hrad order false p.kw hk
    (fun i => by rw [TParam.kw_rd]; exact hf i)
  have hsh : (d.callParamT env (pairDistances env numbers positions) (radii2 d r4r2 (some rvdw))
      order p) = (d.callT env (pairDistances env numbers positions) (radii2 d r4r2 (some rvdw))
    order false p.kw) := by simp [Damping.callParamT, he]
  refine ⟨⟨?_, ?_⟩, ?_⟩
  · simp [tDampT, hsh, hok.err, hok.shape, hdist.err, hdist.shape, realPairs_err h.num.shape,
      realPairs_shape h.num.shape, h.num.err]
  · simp [tDampT, hsh, hok.err, hok.shape, hdist.err, hdist.shape, realPairs_err h.num.shape,
      realPairs_shape h.num.shape, h.num.err]
  · intro b i j hb hi hj
    have hin : InB (n :: n :: B) (j :: i :: b) := ⟨hj, hi, hb⟩
    have hg := hget _ hin
    rw [pairDistances_get h.num h.pos hb hi hj, radii2_get h hb hi hj] at hg
    unfold tDampT
    by_cases hm : pairMask numbers b i j
    · rw [if_pos hm] at hg
      by_cases hc : distAt env positions c b i j ≤ cutoff
      · rw [where_get_of_pos, if_pos ⟨hm, hc⟩, hsh, hok.shape, pick_of_InB hin, hg]
        simp [realPairs_shape h.num.shape, hdist.shape, pick_cons_lt hi, pick_cons_lt hj,
          pick_of_InB hb, pairDistances_get h.num h.pos hb hi hj, hm, hc]
      · rw [where_get_of_neg, if_neg (fun hh => hc hh.2)]
        · simp
        simp [realPairs_shape h.num.shape, hdist.shape, pick_cons_lt hi, pick_cons_lt hj,
          pick_of_InB hb, pairDistances_get h.num h.pos hb hi hj, hm, not_le.1 hc]
    · rw [where_get_of_neg, if_neg (fun hh => hm hh.1)]
      · simp
      simp [realPairs_shape h.num.shape, hdist.shape, pick_cons_lt hi, pick_cons_lt hj,
          pick_of_InB hb, pairDistances_get h.num h.pos hb hi hj, hm]

/-- How the `s10` entry enters. -/
def TS10Is (env : Env) (d : Damping) (p : TParam) (s : Shape) (s10 : Tensor ℝ)
    (f10 : Idx → ℝ → ℝ → ℝ) : Prop :=
  (p.s10 = .absent ∧ s10 = scalar 0) ∨
  (p.s10 = .val s10 ∧ s10.Into s ∧ ∀ i, d.point env 10 false (p.rd i).kw = .ok (f10 i))

/-- `dispersion2` with parameters that broadcast into the arrays they are combined with: for every
pair the numbers read at that pair are used. -/
theorem dispersion2T_eval (h : D2Shapes numbers positions c6 r4r2 rvdw n c B) (he : p.extra = [])
    (hk : ∀ a ∈ d.usesKw p.kw, ∀ x, a = some x → x.Into (n :: n :: B))
    {f6 f8 f10 : Idx → ℝ → ℝ → ℝ} {s6 s8 s10 : Tensor ℝ}
    (hf6 : ∀ i, d.point env 6 false (p.rd i).kw = .ok (f6 i))
    (hf8 : ∀ i, d.point env 8 false (p.rd i).kw = .ok (f8 i))
    (hs6 : p.s6.tensor Defaults.s6 = s6) (hi6 : s6.Into (n :: B))
    (hs8 : p.s8.tensor Defaults.s8 = s8) (hi8 : s8.Into (n :: B))
    (hs10 : TS10Is env d p (n :: B) s10 f10) (cutoff : Option ℝ) :
    (dispersion2T env numbers positions p c6 r4r2 (some rvdw) d cutoff false).Ok (n :: B) ∧
    (∀ b i, InB B b → i < n →
      (dispersion2T env numbers positions p c6 r4r2 (some rvdw) d cutoff false).get (i :: b) =
      -(1 / 2) * ∑ j ∈ Finset.range n,
        pairEnergy env numbers positions c6 r4r2 rvdw c d (cutoff.getD Defaults.disp2Cutoff)
        (s6.rd (i :: b)) (s8.rd (i :: b)) (s10.rd (i :: b)) (f6 (j :: i :: b)) (f8 (j :: i :: b))
        (f10 (j :: i :: b)) b i j) := by
  set cut := cutoff.getD Defaults.disp2Cutoff with hcut
  have hdist := pairDistances_ok (env := env) h.num h.pos
  have hrad := radii2_ok (d := d) h
  have hqq := qqT_ok h.r4r2
  obtain ⟨t6ok, t6get⟩ := tDampT_pw h he hk hf6 cut
  obtain ⟨t8ok, t8get⟩ := tDampT_pw h he hk hf8 cut
  have hc8 := h.c6.pw.map2 hqq.pw (· * ·)
  have he6 := (h.c6.pw.map2 t6ok.pw (· * ·)).sumLast
  have he8 := (hc8.map2 t8ok.pw (· * ·)).sumLast
  have hed := (he6.parL hi6 (· * ·)).map2 (he8.parL hi8 (· * ·)) (· + ·)
  rcases hs10 with ⟨h10, rfl⟩ | ⟨h10, hi10, hf10⟩
  · have hfin := hdist.pw.ok
    have hres := hed.parL (scalar_into (-0.5) _) (· * ·)
    have e : dispersion2T env numbers positions p c6 r4r2 (some rvdw) d cutoff false =
        (pairDistances env numbers positions).after ((c6 * qqT r4r2).after
          ((radii2 d r4r2 (some rvdw)).after
          ((tDampT env numbers positions p (radii2 d r4r2 (some rvdw)) d cut 6).after
          ((tDampT env numbers positions p (radii2 d r4r2 (some rvdw)) d cut 8).after
          (scalar (-0.5) * (s6 * (c6 * tDampT env numbers positions p (radii2 d r4r2 (some rvdw)) d
            cut 6).sumLast + s8 * (c6 * qqT r4r2 * tDampT env numbers positions p
            (radii2 d r4r2 (some rvdw)) d cut 8).sumLast)))))) := by
      simp [dispersion2T, h10, hs6, hs8, ← hcut]
    rw [e]
    refine ⟨⟨?_, hres.ok.shape⟩, fun b i hb hi => ?_⟩
    · have h1 := hres.ok.err
      have h2 : (c6 * qqT r4r2).err = none := hc8.ok.err
      simp only [after_err, hdist.err, h2, hrad.err, t6ok.err, t8ok.err, orErr_none_left]
      exact h1
    · simp only [after_get]
      refine (hres.get (i :: b) ⟨hi, hb⟩).trans ?_
      simp only [scalar_rd, Finset.mul_sum, ← Finset.sum_add_distrib]
      refine Finset.sum_congr rfl fun j hj => ?_
      have hj := Finset.mem_range.1 hj
      rw [t6get b i j hb hi hj, t8get b i j hb hi hj, qqT_get h.r4r2 hb hi hj, pairEnergy]
      split_ifs
      · simp only [pairE]; norm_num
      · norm_num
  · obtain ⟨t10ok, t10get⟩ := tDampT_pw h he hk hf10 cut
    have hc10 := ((h.c6.pw.map2 (hqq.pw.map (· ^ 2)) (· * ·)).parR (scalar_into 49 _)
      (· * ·)).parR (scalar_into 40 _) (· / ·)
    have he10 := (hc10.map2 t10ok.pw (· * ·)).sumLast
    have hia := hed.iadd (he10.parL hi10 (· * ·))
    have hres := hia.parL (scalar_into (-0.5) _) (· * ·)
    have h10t : (TVal.val s10).tensor Defaults.s10 = s10 := rfl
    refine ⟨⟨?_, ?_⟩, fun b i hb hi => ?_⟩
    · have h1 := hia.ok.err
      have h2 : (c6 * qqT r4r2).err = none := hc8.ok.err
      have h3 := hed.ok.err
      have h4 := hc10.ok.err
      simp only [dispersion2T, h10, hs6, hs8, ← hcut, after_err, hdist.err, h2, hrad.err, t6ok.err,
        t8ok.err, orErr_none_left, Bool.false_eq_true, if_false, mul_err, scalar_err, after_shape,
        scalar_shape, bErr_nil_left, orErr_none_right, t10ok.err, h10t]
      exact orErr_eq_none.2 ⟨h3, orErr_eq_none.2 ⟨h4, h1⟩⟩
    · have := hres.ok.shape
      simp only [dispersion2T, h10, hs6, hs8, ← hcut, after_shape, Bool.false_eq_true, if_false,
        h10t]
      exact this
    · have := hres.get (i :: b) ⟨hi, hb⟩
      simp only [dispersion2T, h10, hs6, hs8, ← hcut, after_get, Bool.false_eq_true, if_false,
        h10t]
      refine this.trans ?_
      simp only [scalar_rd, Finset.mul_sum, ← Finset.sum_add_distrib]
      refine Finset.sum_congr rfl fun j hj => ?_
      have hj := Finset.mem_range.1 hj
      rw [t6get b i j hb hi hj, t8get b i j hb hi hj, t10get b i j hb hi hj,
        qqT_get h.r4r2 hb hi hj, pairEnergy]
      split_ifs
      · simp only [pairE]; norm_num
      · norm_num

end two

section three
variable {env : Env} {numbers : Tensor ℕ} {positions c9 radii : Tensor ℝ} {n c : ℕ} {B : Shape}
  {d : Damping}

theorem atmDampT_pw (hn : numbers.Ok (n :: B)) (hp : positions.Ok (c :: n :: B))
    (hr : radii.Ok (n :: n :: B)) {alp : Tensor ℝ} (ha : alp.Into (n :: n :: n :: B))
    {f : Idx → ℝ → ℝ → ℝ}
    (hf : ∀ i, Damping.point env .zero 9 true { alp := some (alp.rd i / 3) } = .ok (f i)) :
    (atmDampT env numbers positions radii .zero alp).Ok (n :: n :: n :: B) ∧
    ∀ b i j k, InB B b → i < n → j < n → k < n → tripleMask numbers b i j k →
      (atmDampT env numbers positions radii .zero alp).get (k :: j :: i :: b) =
      f (k :: j :: i :: b)
        (radii.get (j :: i :: b) * radii.get (k :: i :: b) * radii.get (k :: j :: b))
      (distAt env positions c b i j * distAt env positions c b i k *
        distAt env positions c b j k) := by
  have hd2 := dist2T_ok (env := env) hn hp
  obtain ⟨ij1, ij2⟩ := ijT_ok hd2
  obtain ⟨ik1, ik2⟩ := ikT_ok hd2
  obtain ⟨jk1, jk2⟩ := jkT_ok hd2
  obtain ⟨rij1, rij2⟩ := ijT_ok hr
  obtain ⟨rik1, rik2⟩ := ikT_ok hr
  obtain ⟨rjk1, rjk2⟩ := jkT_ok hr
  have h0 : (ijT radii * ikT radii * jkT radii).Ok (n :: n :: n :: B) := by
    constructor <;> simp [rij1, rij2, rik1, rik2, rjk1, rjk2]
  have h1 : (where_ (realTriples numbers) ((ijT (dist2T env numbers positions) *
      ikT (dist2T env numbers positions) * jkT (dist2T env numbers positions)).map Real.sqrt)
      (scalar 1)).Ok (n :: n :: n :: B) := by
    constructor <;> simp [ij1, ij2, ik1, ik2, jk1, jk2, realTriples_err hn.shape,
      realTriples_shape hn.shape, hn.err]
  obtain ⟨hA, hA'⟩ := ha.mapNum (· / ·) 3
  obtain ⟨hok, hget⟩ := damping_callT_pw (env := env) (d := .zero) h0 h1 9 true
    { alp := some (alp / scalar 3) } (by
      intro a hm x hx
      simp only [Damping.usesKw, List.mem_cons, List.not_mem_nil, or_false] at hm
      rcases hm with rfl | rfl | rfl | rfl
      · simp at hx
      · simp at hx
      · cases hx; exact scalar_into _ _
      · cases hx; exact hA) (f := f) (fun i => by
        have hk : TKw.rd { alp := some (alp / scalar 3) } i =
            { alp := some (alp.rd i / 3) } := by
          have e : (alp / scalar 3).rd i = alp.rd i / 3 := hA' i
          simp [TKw.rd, e]
        rw [hk]; exact hf i)
  refine ⟨⟨?_, ?_⟩, ?_⟩
  · simp only [atmDampT, after_err, h0.err, h1.err]
    rw [where_err]
    simp [hok.err, hok.shape, realTriples_err hn.shape, realTriples_shape hn.shape, hn.err]
  · simp only [atmDampT, after_shape]
    rw [where_shape]
    simp [hok.shape, realTriples_shape hn.shape]
  · intro b i j k hb hi hj hk hm
    have hin : InB (n :: n :: n :: B) (k :: j :: i :: b) := ⟨hk, hj, hi, hb⟩
    obtain ⟨m1, m2, m3⟩ := tripleMask_pairs hm
    have hg := hget _ hin
    simp only [atmDampT, after_get]
    rw [where_get_of_pos, hok.shape, pick_of_InB hin, hg]
    · congr 1
      · simp [rij2, rik2, rjk2, pick_cons_lt hi, pick_cons_lt hj, pick_cons_lt hk, pick_of_InB hb]
      · rw [where_get_of_pos]
        · simp [ij2, ik2, jk2, pick_cons_lt hi, pick_cons_lt hj, pick_cons_lt hk, pick_of_InB hb]
          simp [ijT, ikT, jkT, dist2T_get hn hp hb hi hj m1, dist2T_get hn hp hb hi hk m2,
            dist2T_get hn hp hb hj hk m3]
          rw [← mul_pow, ← mul_pow, Real.sqrt_sq]
          exact (mul_pos (mul_pos (distAt_pos _ _ _) (distAt_pos _ _ _)) (distAt_pos _ _ _)).le
        · rw [realTriples_shape hn.shape, pick_of_InB hin]; exact hm
    · rw [realTriples_shape hn.shape, pick_of_InB hin]; exact hm

/-- `get_atm_dispersion` with parameters that broadcast into the triple array. -/
theorem atmDispersionT_eval (hn : numbers.Ok (n :: B)) (hp : positions.Ok (c :: n :: B))
    (hr : radii.Ok (n :: n :: B)) (h9 : c9.Ok (n :: n :: n :: B)) {alp s9 : Tensor ℝ}
    (ha : alp.Into (n :: n :: n :: B)) (hs : s9.Into (n :: n :: n :: B)) {f : Idx → ℝ → ℝ → ℝ}
    (hf : ∀ i, Damping.point env .zero 9 true { alp := some (alp.rd i / 3) } = .ok (f i))
    (cutoff : ℝ) :
    (atmDispersionT env numbers positions c9 radii cutoff .zero s9 alp).Ok (n :: B) ∧
    ∀ b i, InB B b → i < n →
      (atmDispersionT env numbers positions c9 radii cutoff .zero s9 alp).get (i :: b) =
      (∑ j ∈ Finset.range n, ∑ k ∈ Finset.range n,
        tripleEnergy env numbers positions c9 radii c cutoff (s9.rd (k :: j :: i :: b))
          (f (k :: j :: i :: b)) b i j k) / 6 := by
  obtain ⟨fok, fget⟩ := atmDampT_pw hn hp hr ha hf
  obtain ⟨aok, aget⟩ := atmAng_eval (env := env) hn hp cutoff
  have hen := (((aok.pw.map2 fok.pw (· * ·)).parR hs (· * ·)).map2 h9.pw (· * ·)).sumLast.sumLast
  have hres := hen.parR (scalar_into 6 _) (· / ·)
  refine ⟨⟨?_, hres.ok.shape⟩, fun b i hb hi => ?_⟩
  · simp only [atmDispersionT, after_err, fok.err, orErr_none_left]
    exact hres.ok.err
  · simp only [atmDispersionT, after_get]
    refine (hres.get (i :: b) ⟨hi, hb⟩).trans ?_
    simp only [scalar_rd]
    congr 1
    refine Finset.sum_congr rfl fun j hj => Finset.sum_congr rfl fun k hk => ?_
    have hj := Finset.mem_range.1 hj
    have hk := Finset.mem_range.1 hk
    rw [aget b i j k hb hi hj hk, tripleEnergy]
    split_ifs with h
    · rw [fget b i j k hb hi hj hk h.1]
    · simp

end three

/-- The same keyword arguments are given. -/
structure Kw.Same (k k' : Kw) : Prop where
  a1 : k.a1 = none ↔ k'.a1 = none
  a2 : k.a2 = none ↔ k'.a2 = none
  s6 : k.s6 = none ↔ k'.s6 = none
  rs6 : k.rs6 = none ↔ k'.rs6 = none
  s8 : k.s8 = none ↔ k'.s8 = none
  rs8 : k.rs8 = none ↔ k'.rs8 = none
  s9 : k.s9 = none ↔ k'.s9 = none
  rs9 : k.rs9 = none ↔ k'.rs9 = none
  s10 : k.s10 = none ↔ k'.s10 = none
  alp : k.alp = none ↔ k'.alp = none
  bet : k.bet = none ↔ k'.bet = none

theorem option_same {α : Type} {a b : Option α} (h : a = none ↔ b = none) :
    (a = none ∧ b = none) ∨ ∃ x y, a = some x ∧ b = some y := by
  cases a <;> cases b <;> simp_all

theorem required_same {d : Damping} {order : ℕ} {k k' : Kw} (h : k.Same k') :
    none ∈ d.required order k ↔ none ∈ d.required order k' := by
  obtain ⟨h1, h2, h3, h4, h5, h6, h7, h8, h9, h10, h11⟩ := h
  have e : ∀ a : Option ℝ, none = a ↔ a = none := fun a => eq_comm
  unfold Damping.required
  split <;> simp [e, h1, h2, h4, h6, h8, h10, h11]

theorem pointF_same {env : Env} {d : Damping} {order : ℕ} {od : Bool} {k k' : Kw} (h : k.Same k')
    (hp : ∃ f, d.pointF env order od k = .ok f) : ∃ f, d.pointF env order od k' = .ok f := by
  obtain ⟨h1, h2, h3, h4, h5, h6, h7, h8, h9, h10, h11⟩ := h
  unfold Damping.pointF at hp ⊢
  cases d with
  | rational =>
    rcases option_same h1 with ⟨a, b⟩ | ⟨x, y, a, b⟩ <;>
    rcases option_same h2 with ⟨c, e⟩ | ⟨z, w, c, e⟩ <;> simp [a, b, c, e] at hp ⊢
  | zero =>
    rcases option_same h10 with ⟨a, b⟩ | ⟨x, y, a, b⟩
    · simp [a] at hp
    simp only [a, b] at hp ⊢
    by_cases ho : order ≠ 6 ∧ order ≠ 8 ∧ order ≠ 9
    · simp only [if_pos ho] at hp; simp at hp
    simp only [if_neg ho] at hp ⊢
    have hr : (if order = 6 then k.rs6 else if order = 8 then k.rs8 else k.rs9) = none ↔
        (if order = 6 then k'.rs6 else if order = 8 then k'.rs8 else k'.rs9) = none := by
      split_ifs <;> assumption
    rcases option_same hr with ⟨c, e⟩ | ⟨z, w, c, e⟩
    · simp only [c] at hp; simp at hp
    · simp only [e]
      cases od <;> simp
  | mzero =>
    rcases option_same h10 with ⟨a, b⟩ | ⟨x, y, a, b⟩
    · simp [a] at hp
    rcases option_same h11 with ⟨a', b'⟩ | ⟨x', y', a', b'⟩
    · simp [a, a'] at hp
    simp only [a, b, a', b'] at hp ⊢
    by_cases ho : order ≠ 6 ∧ order ≠ 8
    · simp only [if_pos ho] at hp; simp at hp
    simp only [if_neg ho] at hp ⊢
    have hr : (if order = 6 then k.rs6 else k.rs8) = none ↔
        (if order = 6 then k'.rs6 else k'.rs8) = none := by
      split_ifs <;> assumption
    rcases option_same hr with ⟨c, e⟩ | ⟨z, w, c, e⟩
    · simp only [c] at hp; simp at hp
    · simp only [e]; simp
  | op =>
    rcases option_same h1 with ⟨a, b⟩ | ⟨x, y, a, b⟩ <;>
    rcases option_same h2 with ⟨c, e⟩ | ⟨z, w, c, e⟩ <;>
    rcases option_same h11 with ⟨a', b'⟩ | ⟨x', y', a', b'⟩ <;> simp only [a, b, c, e, a', b'] at hp ⊢
    all_goals try (simp at hp; done)
    by_cases ho : order ≠ 6 ∧ order ≠ 8
    · simp only [if_pos ho] at hp; simp at hp
    · simp [if_neg ho]

/-- Whether a damping function can be evaluated depends on which keywords are given only. -/
theorem point_same {env : Env} {d : Damping} {order : ℕ} {od : Bool} {k k' : Kw} (h : k.Same k')
    (hp : ∃ f, d.point env order od k = .ok f) : ∃ f, d.point env order od k' = .ok f := by
  unfold Damping.point at hp ⊢
  simp only [h.s6, h.rs6, h.s8, h.rs8, h.s9, h.rs9, h.s10, required_same h] at hp
  split_ifs at hp ⊢
  all_goals first
    | exact ⟨_, rfl⟩
    | exact pointF_same h hp
    | simp at hp

/-- The keyword arguments a damping function computes with. -/
def Damping.usesNum (d : Damping) (kw : Kw) : List (Option ℝ) :=
  match d with
  | .rational => [kw.a1, kw.a2]
  | .zero => [kw.rs6, kw.rs8, kw.rs9, kw.alp]
  | .mzero => [kw.rs6, kw.rs8, kw.alp, kw.bet]
  | .op => [kw.a1, kw.a2, kw.bet]

/-- A damping function depends on the keywords it computes with only. -/
theorem point_congr {env : Env} {d : Damping} {order : ℕ} {od : Bool} {k k' : Kw} (h : k.Same k')
    (hu : d.usesNum k = d.usesNum k') : d.point env order od k = d.point env order od k' := by
  unfold Damping.point
  simp only [h.s6, h.rs6, h.s8, h.rs8, h.s9, h.rs9, h.s10, required_same h]
  have : d.pointF env order od k = d.pointF env order od k' := by
    unfold Damping.pointF
    cases d <;> simp only [Damping.usesNum, List.cons.injEq, and_true] at hu
    · obtain ⟨a, b⟩ := hu; simp only [a, b]
    · obtain ⟨a, b, c, e⟩ := hu; simp only [a, b, c, e]
    · obtain ⟨a, b, c, e⟩ := hu; simp only [a, b, c, e]
    · obtain ⟨a, b, c⟩ := hu; simp only [a, b, c]
  rw [this]

/-- The numbers used: `i1` is the index of scaling factors of pair energies (`s6`, `s8`, `s10`), `i2`
that of entries combined with pair arrays, `i3` that of entries combined with triple arrays. -/
def TParam.at (p : TParam) (i1 i2 i3 : Idx) : Param where
  a1 := p.a1.rd i2
  a2 := p.a2.rd i2
  s6 := p.s6.rd i1
  rs6 := p.rs6.rd i2
  s8 := p.s8.rd i1
  rs8 := p.rs8.rd i2
  s9 := p.s9.rd i3
  rs9 := p.rs9.rd i2
  s10 := p.s10.rd i1
  alp := p.alp.rd i3
  bet := p.bet.rd i2
  doi := p.doi
  extra := p.extra

theorem TParam.rd_eq_at (p : TParam) (i : Idx) : p.rd i = p.at i i i := rfl

theorem TVal.rd_kw_none (v : TVal) (c : Option ℝ) (i j : Idx) :
    (v.rd i).kw c = Option.none ↔ (v.rd j).kw c = Option.none := by
  cases v <;> simp [TVal.rd, PVal.kw]

theorem TVal.rd_ne_none {v : TVal} {i j : Idx} (h : v.rd i ≠ .none) : v.rd j ≠ .none := by
  cases v <;> simp_all [TVal.rd]

theorem TVal.rd_ne_absent {v : TVal} {i j : Idx} (h : v.rd i ≠ .absent) : v.rd j ≠ .absent := by
  cases v <;> simp_all [TVal.rd]

theorem TParam.at_same (p : TParam) (i1 i2 i3 j1 j2 j3 : Idx) :
    (p.at i1 i2 i3).kw.Same (p.at j1 j2 j3).kw := by
  constructor <;> exact TVal.rd_kw_none _ _ _ _

theorem Damping.Usable.at {env : Env} {d : Damping} {p : TParam} {i1 i2 i3 : Idx}
    (h : d.Usable env (p.at i1 i2 i3)) (j1 j2 j3 : Idx) : d.Usable env (p.at j1 j2 j3) where
  extra := h.extra
  s6 := TVal.rd_ne_none h.s6
  s8 := TVal.rd_ne_none h.s8
  s10 := TVal.rd_ne_none h.s10
  f6 := point_same (p.at_same _ _ _ _ _ _) h.f6
  f8 := point_same (p.at_same _ _ _ _ _ _) h.f8
  f10 hh := point_same (p.at_same _ _ _ _ _ _) (h.f10 (TVal.rd_ne_absent hh))

theorem Term.Usable.at {env : Env} {R : RefCfg} {t : Term} {c : Cutoff} {p : TParam}
    {i1 i2 i3 : Idx} (h : t.Usable env R (p.at i1 i2 i3) c) (j1 j2 j3 : Idx) :
    t.Usable env R (p.at j1 j2 j3) c where
  two ht := (h.two ht).at _ _ _
  zero := h.zero
  s9 ht := TVal.rd_ne_none (h.s9 ht)
  alp ht := TVal.rd_ne_none (h.alp ht)
  cut3 := h.cut3
  a1 ht := TVal.rd_ne_none (h.a1 ht)
  a2 ht := TVal.rd_ne_none (h.a2 ht)
  rs9 ht := TVal.rd_ne_none (h.rs9 ht)
  exact := h.exact

/-- An entry with one value per system of a batch with shape `B`: a number, a tensor of size one with
at most `k` dimensions, or a tensor of shape `B` followed by `k` dimensions of size one (in the order
of PyTorch). -/
def TVal.PerSystem (v : TVal) (k : ℕ) (B : Shape) : Prop :=
  ∀ x, v = .val x → x.err = Option.none ∧
    ((∃ k' ≤ k, x.shape = List.replicate k' 1) ∨ x.shape = List.replicate k 1 ++ B)

/-- An entry that can be combined with an array of shape `s` without changing that shape. -/
def TVal.Into (v : TVal) (s : Shape) : Prop := ∀ x, v = .val x → x.Into s

theorem Shape.into_self (s : Shape) : Shape.Into s s := by
  induction s with
  | nil => trivial
  | cons a s ih => exact ⟨Or.inr rfl, ih⟩

theorem pick_ones (k : ℕ) (i : Idx) : pick (List.replicate k 1) i = List.replicate k 0 := by
  induction k generalizing i with
  | zero => simp
  | succ k ih => cases i <;> simp [List.replicate_succ, pick, ih]

theorem TVal.PerSystem.into {v : TVal} {k : ℕ} {B : Shape} (h : v.PerSystem k B) {ds : Shape}
    (hd : ds.length = k) : v.Into (ds ++ B) := by
  intro x hx
  obtain ⟨h1, h2⟩ := h x hx
  refine ⟨h1, ?_⟩
  rcases h2 with ⟨k', hk, h2⟩ | h2 <;> rw [h2]
  · clear h2 h
    subst hd
    induction k' generalizing ds with
    | zero => simp [Shape.Into]
    | succ k' ih =>
      cases ds with
      | nil => simp at hk
      | cons a ds => exact ⟨Or.inl rfl, ih (by simpa using hk)⟩
  · clear h2 h
    subst hd
    induction ds with
    | nil => simpa using Shape.into_self B
    | cons a ds ih => exact ⟨Or.inl rfl, ih⟩

theorem TVal.PerSystem.rd {v : TVal} {k : ℕ} {B : Shape} (h : v.PerSystem k B) {i j : Idx}
    (hi : i.length = k) (hj : j.length = k) (b : Idx) : v.rd (i ++ b) = v.rd (j ++ b) := by
  cases v with
  | absent => rfl
  | none => rfl
  | val x =>
    simp only [TVal.rd, Tensor.rd]
    congr 2
    obtain ⟨-, h2⟩ := h x rfl
    rcases h2 with ⟨k', hk, h2⟩ | h2 <;> rw [h2]
    · rw [pick_ones, pick_ones]
    · have : ∀ (k : ℕ) (i : Idx), i.length = k →
          pick (List.replicate k 1 ++ B) (i ++ b) = List.replicate k 0 ++ pick B b := by
        intro k
        induction k with
        | zero => intro i hi; simp [List.length_eq_zero_iff.1 hi]
        | succ k ih =>
          intro i hi
          cases i with
          | nil => simp at hi
          | cons a i => simp [List.replicate_succ, pick, ih i (by simpa using hi)]
      rw [this k i hi, this k j hj]

/-- A number or a tensor of size one: the same entry is used everywhere. -/
theorem TVal.PerSystem.rd_one {v : TVal} {k : ℕ} (h : v.PerSystem k []) (i j : Idx) :
    v.rd i = v.rd j := by
  cases v with
  | absent => rfl
  | none => rfl
  | val x =>
    simp only [TVal.rd, Tensor.rd]
    congr 2
    obtain ⟨-, h2⟩ := h x rfl
    rcases h2 with ⟨k', hk, h2⟩ | h2 <;> rw [h2]
    · rw [pick_ones, pick_ones]
    · rw [List.append_nil, pick_ones, pick_ones]

/-- Shapes of the entries a damping function computes with: one value per system. The exponent `alp`
of zero damping has to be a single value. -/
structure Damping.Shapes (d : Damping) (p : TParam) (B : Shape) : Prop where
  a1 : d = .rational ∨ d = .op → p.a1.PerSystem 2 B
  a2 : d = .rational ∨ d = .op → p.a2.PerSystem 2 B
  rs6 : d = .zero ∨ d = .mzero → p.rs6.PerSystem 2 B
  rs8 : d = .zero ∨ d = .mzero → p.rs8.PerSystem 2 B
  rs9 : d = .zero → p.rs9.PerSystem 2 B
  alp : d = .zero ∨ d = .mzero → p.alp.PerSystem 2 []
  bet : d = .mzero ∨ d = .op → p.bet.PerSystem 2 B

/-- Shapes of the entries a term computes with: one value per system, the scaling factors of pair
energies in any shape that fits the energies. -/
structure Term.Shapes (t : Term) (p : TParam) (n : ℕ) (B : Shape) : Prop where
  s6 : t.cls = .twoBody → p.s6.Into (n :: B)
  s8 : t.cls = .twoBody → p.s8.Into (n :: B)
  s10 : t.cls = .twoBody → p.s10.Into (n :: B)
  damping : t.cls = .twoBody → t.damping.Shapes p B
  s9 : t.cls ≠ .twoBody → p.s9.PerSystem 3 B
  alp : t.cls ≠ .twoBody → p.alp.PerSystem 3 B
  a1 : t.cls = .d4ATMApprox ∨ t.cls = .d4ATMExact → p.a1.PerSystem 2 B
  a2 : t.cls = .d4ATMApprox ∨ t.cls = .d4ATMExact → p.a2.PerSystem 2 B
  rs9 : t.cls = .d3ATM → p.rs9.PerSystem 2 B

theorem TVal.into_kw {v : TVal} {s : Shape} (h : v.Into s) (c : Option ℝ) :
    ∀ x, v.kw (c.map scalar) = some x → x.Into s := by
  intro x hx
  cases v with
  | absent =>
    cases c with
    | none => simp [TVal.kw] at hx
    | some c => simp only [TVal.kw, Option.map_some, Option.some.injEq] at hx
                rw [← hx]; exact scalar_into _ _
  | none => simp [TVal.kw] at hx
  | val y =>
    simp only [TVal.kw, Option.some.injEq] at hx
    rw [← hx]
    exact h y rfl

theorem Damping.Shapes.into {d : Damping} {p : TParam} {B : Shape} (h : d.Shapes p B) (n : ℕ) :
    ∀ a ∈ d.usesKw p.kw, ∀ x, a = some x → x.Into (n :: n :: B) := by
  have i2 : ∀ {v : TVal}, v.PerSystem 2 B → v.Into (n :: n :: B) := fun h =>
    h.into (ds := [n, n]) rfl
  have i3 : ∀ {v : TVal}, v.PerSystem 2 [] → v.Into (n :: n :: B) := by
    intro v h
    refine TVal.PerSystem.into (k := 2) (ds := [n, n]) (B := B) ?_ rfl
    intro x hx
    obtain ⟨h1, h2⟩ := h x hx
    refine ⟨h1, Or.inl ?_⟩
    rcases h2 with h2 | h2
    · exact h2
    · exact ⟨2, le_rfl, by simpa using h2⟩
  have k0 : ∀ {v : TVal} {s : Shape}, v.Into s → ∀ x, v.kw none = some x → x.Into s :=
    fun h => TVal.into_kw h none
  have k1 : ∀ {v : TVal} {s : Shape} {c : ℝ}, v.Into s → ∀ x, v.kw (some (scalar c)) = some x →
    x.Into s := fun {v s c} h => TVal.into_kw h (some c)
  intro a ha
  cases d <;> simp only [Damping.usesKw, List.mem_cons, List.not_mem_nil, or_false] at ha
  · rcases ha with rfl | rfl
    · exact k0 (i2 (h.a1 (Or.inl rfl)))
    · exact k0 (i2 (h.a2 (Or.inl rfl)))
  · rcases ha with rfl | rfl | rfl | rfl
    · exact k0 (i2 (h.rs6 (Or.inl rfl)))
    · exact k0 (i2 (h.rs8 (Or.inl rfl)))
    · exact k1 (i2 (h.rs9 rfl))
    · exact k1 (i3 (h.alp (Or.inl rfl)))
  · rcases ha with rfl | rfl | rfl | rfl
    · exact k0 (i2 (h.rs6 (Or.inr rfl)))
    · exact k0 (i2 (h.rs8 (Or.inr rfl)))
    · exact k1 (i3 (h.alp (Or.inr rfl)))
    · exact k0 (i2 (h.bet (Or.inl rfl)))
  · rcases ha with rfl | rfl | rfl
    · exact k0 (i2 (h.a1 (Or.inr rfl)))
    · exact k0 (i2 (h.a2 (Or.inr rfl)))
    · exact k0 (i2 (h.bet (Or.inr rfl)))

theorem Damping.Shapes.point {env : Env} {d : Damping} {p : TParam} {B : Shape} (h : d.Shapes p B)
    (order : ℕ) (i1 i3 b : Idx) (i j : ℕ) :
    d.point env order false (p.rd (j :: i :: b)).kw =
      d.point env order false (p.at i1 (0 :: 0 :: b) i3).kw := by
  have i2 : ∀ {v : TVal}, v.PerSystem 2 B → v.rd (j :: i :: b) = v.rd (0 :: 0 :: b) := fun h =>
    h.rd (i := [j, i]) (j := [0, 0]) rfl rfl b
  refine point_congr (p.at_same _ _ _ _ _ _) ?_
  cases d <;> simp only [Damping.usesNum, TParam.rd, TParam.at, Param.kw, List.cons.injEq, and_true]
  · rw [i2 (h.a1 (Or.inl rfl)), i2 (h.a2 (Or.inl rfl))]
    exact ⟨rfl, rfl⟩
  · rw [i2 (h.rs6 (Or.inl rfl)), i2 (h.rs8 (Or.inl rfl)), i2 (h.rs9 rfl),
      (h.alp (Or.inl rfl)).rd_one (j :: i :: b) i3]
    exact ⟨rfl, rfl, rfl, rfl⟩
  · rw [i2 (h.rs6 (Or.inr rfl)), i2 (h.rs8 (Or.inr rfl)), i2 (h.bet (Or.inl rfl)),
      (h.alp (Or.inr rfl)).rd_one (j :: i :: b) i3]
    exact ⟨rfl, rfl, rfl, rfl⟩
  · rw [i2 (h.a1 (Or.inr rfl)), i2 (h.a2 (Or.inr rfl)), i2 (h.bet (Or.inr rfl))]
    exact ⟨rfl, rfl, rfl⟩

theorem TVal.tensor_into {v : TVal} {s : Shape} (h : v.Into s) {i : Idx} (hn : v.rd i ≠ .none)
    (c : ℝ) : (v.tensor c).Into s ∧ ∀ j, (v.rd j).Is c ((v.tensor c).rd j) := by
  cases v with
  | absent => exact ⟨scalar_into _ _, fun j => Or.inr ⟨rfl, rfl⟩⟩
  | none => exact absurd rfl hn
  | val x => exact ⟨h x rfl, fun j => Or.inl rfl⟩

theorem TVal.arg_into {v : TVal} {s : Shape} (h : v.Into s) {i : Idx} (hn : v.rd i ≠ .none)
    (c : ℝ) : ∃ x, v.arg c = some x ∧ x.Into s ∧ ∀ j, (v.rd j).num c = some (x.rd j) := by
  cases v with
  | absent => exact ⟨scalar c, rfl, scalar_into _ _, fun j => rfl⟩
  | none => exact absurd rfl hn
  | val x => exact ⟨x, rfl, h x rfl, fun j => rfl⟩

section term
variable {env : Env} {T : Tables} {m : RefModel} {numbers : Tensor ℕ} {positions : Tensor ℝ}
  {R : RefCfg} {n : ℕ} {B : Shape} {cn q : Idx → ℝ} {r4r2 rvdw : Tensor ℝ} {p : TParam}

/-- The two-body energy with tensors as parameters: for every atom that with the numbers used for the
atom. -/
theorem dispersion2T_at {c6 : Tensor ℝ} {d : Damping}
    (h : D2Shapes numbers positions c6 r4r2 rvdw n 3 B) (hu : ∀ i1 i2 i3, d.Usable env (p.at i1 i2 i3))
    (hd : d.Shapes p B) (h6 : p.s6.Into (n :: B)) (h8 : p.s8.Into (n :: B))
    (h10 : p.s10.Into (n :: B)) (cutoff : Option ℝ) (i3 : Idx) :
    (dispersion2T env numbers positions p c6 r4r2 (some rvdw) d cutoff false).Ok (n :: B) ∧
    ∀ b i, InB B b → i < n →
      (dispersion2T env numbers positions p c6 r4r2 (some rvdw) d cutoff false).get (i :: b) =
      (dispersion2 env numbers positions (p.at (i :: b) (0 :: 0 :: b) i3) c6 r4r2 (some rvdw) d
        cutoff false).get (i :: b) := by
  obtain ⟨t6, r6⟩ := TVal.tensor_into h6 (hu [] [] []).s6 Defaults.s6
  obtain ⟨t8, r8⟩ := TVal.tensor_into h8 (hu [] [] []).s8 Defaults.s8
  choose f6 hf6 using fun i => (hu i i i).f6
  choose f8 hf8 using fun i => (hu i i i).f8
  obtain ⟨s10, f10, hs10⟩ : ∃ s10 f10, TS10Is env d p (n :: B) s10 f10 := by
    cases hv : p.s10 with
    | absent => exact ⟨scalar 0, fun _ _ _ => 0, Or.inl ⟨hv, rfl⟩⟩
    | none =>
      have h0 : (p.at [] [] []).s10 = .none := by simp [TParam.at, hv, TVal.rd]
      exact ((hu [] [] []).s10 h0).elim
    | val x =>
      choose f10 hf10 using fun i => (hu i i i).f10 (by simp [TParam.at, hv, TVal.rd])
      exact ⟨x, f10, Or.inr ⟨hv, h10 x hv, hf10⟩⟩
  obtain ⟨ok, get⟩ := dispersion2T_eval h (hu [] [] []).extra (hd.into n) hf6 hf8 rfl t6 rfl t8 hs10
    cutoff
  refine ⟨ok, fun b i hb hi => ?_⟩
  have hpt : ∀ order j, d.point env order false (p.rd (j :: i :: b)).kw =
      d.point env order false (p.at (i :: b) (0 :: 0 :: b) i3).kw := fun order j =>
    hd.point order (i :: b) i3 b i j
  have hS10 : S10Is env d (p.at (i :: b) (0 :: 0 :: b) i3) (s10.rd (i :: b)) (f10 (0 :: i :: b)) := by
    rcases hs10 with ⟨a1, a2⟩ | ⟨a1, a2, a3⟩
    · refine Or.inl ⟨by simp [TParam.at, a1, TVal.rd], by rw [a2]; rfl⟩
    · refine Or.inr ⟨by simp [TParam.at, a1, TVal.rd], ?_⟩
      rw [← hpt 10 0]; exact a3 _
  obtain ⟨-, -, -, get'⟩ := dispersion2_eval h (hu (i :: b) (0 :: 0 :: b) i3).extra
    (by rw [← hpt 6 0]; exact hf6 _) (by rw [← hpt 8 0]; exact hf8 _)
    (r6 (i :: b)) (r8 (i :: b)) hS10 cutoff
  rw [get b i hb hi, get' b i hb hi]
  congr 1
  refine Finset.sum_congr rfl fun j _ => ?_
  have inj : ∀ {f g : ℝ → ℝ → ℝ}, (Except.ok f : Except Err _) = .ok g → f = g := fun h => by
    simpa using h
  have e6 : f6 (j :: i :: b) = f6 (0 :: i :: b) :=
    inj ((hf6 _).symm.trans ((hpt 6 j).trans ((hpt 6 0).symm.trans (hf6 _))))
  have e8 : f8 (j :: i :: b) = f8 (0 :: i :: b) :=
    inj ((hf8 _).symm.trans ((hpt 8 j).trans ((hpt 8 0).symm.trans (hf8 _))))
  rw [e6, e8]
  rcases hs10 with ⟨a1, a2⟩ | ⟨a1, a2, a3⟩
  · rw [a2]
    unfold pairEnergy pairE
    simp
  · have e10 : f10 (j :: i :: b) = f10 (0 :: i :: b) :=
      inj ((a3 _).symm.trans ((hpt 10 j).trans ((hpt 10 0).symm.trans (a3 _))))
    rw [e10]

/-- Every term: the energy of an atom is that with the numbers used for the atom. -/
theorem term_calculateT {t : Term} {qo : Option (Tensor ℝ)} {cnT : Tensor ℝ} {cutoff : Cutoff}
    (hin : TermInput env T numbers positions m R r4r2 rvdw n B)
    (hc : D4.OptIs (some cnT) n B cn) (hq : D4.OptIs qo n B q) (hs : t.Shapes p n B)
    (hu : ∀ i1 i2 i3, t.Usable env R (p.at i1 i2 i3) cutoff) :
    (t.calculateT env T numbers positions p cnT m qo r4r2 rvdw cutoff).Ok (n :: B) ∧
    ∀ b i, InB B b → i < n →
      (t.calculateT env T numbers positions p cnT m qo r4r2 rvdw cutoff).get (i :: b) =
      (t.calculate env T numbers positions (p.at (i :: b) (0 :: 0 :: b) (0 :: 0 :: 0 :: b)) cnT m qo
        r4r2 rvdw cutoff).get (i :: b) := by
  by_cases ht : t.cls = .twoBody
  · obtain ⟨c6ok, -⟩ := model_c6_eval hin.model hc (termCharges_optIs (t := t) hq)
    have hsh : D2Shapes numbers positions (m.atomicC6 (m.weights env T (some cnT) (t.charges qo)))
        r4r2 rvdw n 3 B := ⟨hin.num, hin.pos, c6ok, hin.r4r2, hin.rvdw⟩
    simp only [Term.calculateT, Term.calculate, ht]
    have := fun i3 => dispersion2T_at hsh (fun i1 i2 i3 => (hu i1 i2 i3).two ht) (hs.damping ht)
      (hs.s6 ht) (hs.s8 ht) (hs.s10 ht) (some cutoff.disp2) i3
    exact ⟨(this []).1, fun b i hb hi => (this _).2 b i hb hi⟩
  have hdz : t.damping = .zero := (hu [] [] []).zero ht
  obtain ⟨S, hS⟩ := (hu [] [] []).settings (T := T)
  obtain ⟨c9ok, -⟩ := c9_eval (positions := positions) (r4r2 := r4r2) (rvdw := rvdw) hin.model
    ht hc hq hS
  have hrad : (t.radiiT env p r4r2 rvdw).Ok (n :: n :: B) ∧ ∀ i1 i3 b i j, InB B b → i < n → j < n →
      (t.radii env (p.at i1 (0 :: 0 :: b) i3) r4r2 rvdw).Ok (n :: n :: B) ∧
      (t.radiiT env p r4r2 rvdw).get (j :: i :: b) =
        (t.radii env (p.at i1 (0 :: 0 :: b) i3) r4r2 rvdw).get (j :: i :: b) := by
    have i2 : ∀ {v : TVal}, v.PerSystem 2 B → ∀ b i j, v.rd (j :: i :: b) = v.rd (0 :: 0 :: b) :=
      fun h b i j => h.rd (i := [j, i]) (j := [0, 0]) rfl rfl b
    by_cases hx : t.cls = .d3ATM
    · obtain ⟨tr, rr⟩ := TVal.tensor_into ((hs.rs9 hx).into (ds := [n, n]) rfl)
        ((hu [] [] []).rs9 hx) Defaults.rs9
      simp only [Term.radiiT, Term.radii, hx, radiiVDWT, radiiVDW]
      have h1 := hin.rvdw.pw.parL tr (· * ·)
      refine ⟨h1.ok, fun i1 i3 b i j hb hi hj => ?_⟩
      have e : (p.at i1 (0 :: 0 :: b) i3).rs9.tensor Defaults.rs9 =
          scalar ((p.rs9.tensor Defaults.rs9).rd (j :: i :: b)) := by
        have := rr (j :: i :: b)
        rw [i2 (hs.rs9 hx) b i j] at this
        exact this.tensor
      rw [e]
      have h2 := hin.rvdw.pw.parL (scalar_into ((p.rs9.tensor Defaults.rs9).rd (j :: i :: b))
        (n :: n :: B)) (· * ·)
      exact ⟨h2.ok, (h1.get (j :: i :: b) ⟨hj, hi, hb⟩).trans (h2.get (j :: i :: b) ⟨hj, hi, hb⟩).symm⟩
    · have hbj : t.cls = .d4ATMApprox ∨ t.cls = .d4ATMExact := by
        cases h : t.cls <;> simp_all
      obtain ⟨t1, r1⟩ := TVal.tensor_into ((hs.a1 hbj).into (ds := [n, n]) rfl)
        ((hu [] [] []).a1 hbj) Defaults.a1
      obtain ⟨t2, r2⟩ := TVal.tensor_into ((hs.a2 hbj).into (ds := [n, n]) rfl)
        ((hu [] [] []).a2 hbj) Defaults.a2
      have e1 : t.radiiT env p r4r2 rvdw = radiiBJT env p r4r2 := by
        rcases hbj with h | h <;> simp [Term.radiiT, h]
      have e2 : ∀ p, t.radii env p r4r2 rvdw = radiiBJ env p r4r2 := by
        intro p
        rcases hbj with h | h <;> simp [Term.radii, h]
      have hq := (qqT_ok hin.r4r2).pw.map env.ssqrt
      have h1 := (hq.parL t1 (· * ·)).parR t2 (· + ·)
      rw [e1]
      refine ⟨h1.ok, fun i1 i3 b i j hb hi hj => ?_⟩
      have e3 : (p.at i1 (0 :: 0 :: b) i3).a1.tensor Defaults.a1 =
          scalar ((p.a1.tensor Defaults.a1).rd (j :: i :: b)) := by
        have := r1 (j :: i :: b)
        rw [i2 (hs.a1 hbj) b i j] at this
        exact this.tensor
      have e4 : (p.at i1 (0 :: 0 :: b) i3).a2.tensor Defaults.a2 =
          scalar ((p.a2.tensor Defaults.a2).rd (j :: i :: b)) := by
        have := r2 (j :: i :: b)
        rw [i2 (hs.a2 hbj) b i j] at this
        exact this.tensor
      rw [e2, radiiBJ, e3, e4]
      have h2 := (hq.parL (scalar_into ((p.a1.tensor Defaults.a1).rd (j :: i :: b))
        (n :: n :: B)) (· * ·)).parR (scalar_into ((p.a2.tensor Defaults.a2).rd (j :: i :: b))
        (n :: n :: B)) (· + ·)
      exact ⟨h2.ok, (h1.get (j :: i :: b) ⟨hj, hi, hb⟩).trans (h2.get (j :: i :: b) ⟨hj, hi, hb⟩).symm⟩
  obtain ⟨rok, rget⟩ := hrad
  obtain ⟨s9, hs9, is9, rs9⟩ := TVal.arg_into ((hs.s9 ht).into (ds := [n, n, n]) rfl)
    ((hu [] [] []).s9 ht) Defaults.s9
  obtain ⟨alp, halp, ialp, ralp⟩ := TVal.arg_into ((hs.alp ht).into (ds := [n, n, n]) rfl)
    ((hu [] [] []).alp ht) Defaults.alp
  obtain ⟨aok, aget⟩ := atmDispersionT_eval (env := env) hin.num hin.pos rok c9ok ialp is9
    (fun i => point9_zero (alp.rd i)) cutoff.disp3
  have e : t.calculateT env T numbers positions p cnT m qo r4r2 rvdw cutoff =
      (t.c9 env T m cnT qo).after ((t.radiiT env p r4r2 rvdw).after (atmDispersionT env numbers
        positions (t.c9 env T m cnT qo) (t.radiiT env p r4r2 rvdw) cutoff.disp3 .zero s9 alp)) := by
    have : t.cls ≠ .twoBody := ht
    unfold Term.calculateT
    split
    · contradiction
    · simp only [hs9, halp, hdz]
  rw [e]
  refine ⟨⟨by simp [c9ok.err, rok.err, aok.err], by simp [aok.shape]⟩, fun b i hb hi => ?_⟩
  set p' := p.at (i :: b) (0 :: 0 :: b) (0 :: 0 :: 0 :: b) with hp'
  have e' : t.calculate env T numbers positions p' cnT m qo r4r2 rvdw cutoff =
      (t.c9 env T m cnT qo).after ((t.radii env p' r4r2 rvdw).after (atmDispersion env numbers
        positions (t.c9 env T m cnT qo) (t.radii env p' r4r2 rvdw) cutoff.disp3 .zero
        (s9.rd (0 :: 0 :: 0 :: b)) (alp.rd (0 :: 0 :: 0 :: b)))) := by
    have : t.cls ≠ .twoBody := ht
    have h1 : p'.s9.num Defaults.s9 = some (s9.rd (0 :: 0 :: 0 :: b)) := rs9 _
    have h2 : p'.alp.num Defaults.alp = some (alp.rd (0 :: 0 :: 0 :: b)) := ralp _
    unfold Term.calculate
    split
    · contradiction
    · simp only [h1, h2, hdz]
  rw [e']
  simp only [after_get]
  obtain ⟨-, aget'⟩ := atmDispersion_eval (env := env) hin.num hin.pos
    (rget (i :: b) (0 :: 0 :: 0 :: b) b i i hb hi hi).1 c9ok
    (point9_zero (alp.rd (0 :: 0 :: 0 :: b))) cutoff.disp3 (s9.rd (0 :: 0 :: 0 :: b))
  rw [aget b i hb hi, aget' b i hb hi]
  congr 1
  refine Finset.sum_congr rfl fun j hj => Finset.sum_congr rfl fun k hk => ?_
  have hj := Finset.mem_range.1 hj
  have hk := Finset.mem_range.1 hk
  have g9 : s9.rd (k :: j :: i :: b) = s9.rd (0 :: 0 :: 0 :: b) := by
    have := (hs.s9 ht).rd (i := [k, j, i]) (j := [0, 0, 0]) rfl rfl b
    have h1 := rs9 (k :: j :: i :: b)
    rw [show p.s9.rd (k :: j :: i :: b) = _ from this] at h1
    exact Option.some_injective _ (h1.symm.trans (rs9 _))
  have ga : alp.rd (k :: j :: i :: b) = alp.rd (0 :: 0 :: 0 :: b) := by
    have := (hs.alp ht).rd (i := [k, j, i]) (j := [0, 0, 0]) rfl rfl b
    have h1 := ralp (k :: j :: i :: b)
    rw [show p.alp.rd (k :: j :: i :: b) = _ from this] at h1
    exact Option.some_injective _ (h1.symm.trans (ralp _))
  unfold tripleEnergy
  rw [g9, ga, (rget (i :: b) (0 :: 0 :: 0 :: b) b i j hb hi hj).2,
    (rget (i :: b) (0 :: 0 :: 0 :: b) b i k hb hi hk).2,
    (rget (i :: b) (0 :: 0 :: 0 :: b) b j k hb hj hk).2]

end term

section whole
variable {env : Env} {T : Tables} {ext : Ext} {d : Disp} {numbers : Tensor ℕ}
  {positions charge : Tensor ℝ} {p : TParam} {o : CalcOpts} {n : ℕ} {B : Shape} {R : RefCfg}
  {cn : Spec.CN} {eeq : Spec.EEQ}

theorem sumTermsT_eq {m : RefModel} {c q : Idx → ℝ} {r4r2 rvdw : Tensor ℝ} {ts : List Term}
    {qo : Option (Tensor ℝ)} {cnT : Tensor ℝ} {cutoff : Cutoff}
    (hin : TermInput env T numbers positions m R r4r2 rvdw n B)
    (hc : D4.OptIs (some cnT) n B c) (hq : D4.OptIs qo n B q)
    (hs : ∀ t ∈ ts, t.Shapes p n B) (hu : ∀ t ∈ ts, ∀ i1 i2 i3, t.Usable env R (p.at i1 i2 i3) cutoff) :
    (sumTermsT env T ts numbers positions p cnT m qo r4r2 rvdw cutoff).Ok (n :: B) ∧
    ∀ b i, InB B b → i < n →
      (sumTermsT env T ts numbers positions p cnT m qo r4r2 rvdw cutoff).get (i :: b) =
      (sumTerms env T ts numbers positions (p.at (i :: b) (0 :: 0 :: b) (0 :: 0 :: 0 :: b)) cnT m qo
        r4r2 rvdw cutoff).get (i :: b) := by
  unfold sumTermsT sumTerms
  have key : ∀ (ts : List Term) (e0 : Tensor ℝ) (e1 : ℕ → Idx → Tensor ℝ), e0.Ok (n :: B) →
      (∀ b i, InB B b → i < n → (e1 i b).Ok (n :: B) ∧ e0.get (i :: b) = (e1 i b).get (i :: b)) →
      (∀ t ∈ ts, t.Shapes p n B) → (∀ t ∈ ts, ∀ i1 i2 i3, t.Usable env R (p.at i1 i2 i3) cutoff) →
      (ts.foldl (fun energy t => energy + t.calculateT env T numbers positions p cnT m qo r4r2 rvdw
        cutoff) e0).Ok (n :: B) ∧ ∀ b i, InB B b → i < n →
      (ts.foldl (fun energy t => energy + t.calculateT env T numbers positions p cnT m qo r4r2 rvdw
        cutoff) e0).get (i :: b) =
      (ts.foldl (fun energy t => energy + t.calculate env T numbers positions
        (p.at (i :: b) (0 :: 0 :: b) (0 :: 0 :: 0 :: b)) cnT m qo r4r2 rvdw cutoff)
        (e1 i b)).get (i :: b) := by
    intro ts
    induction ts with
    | nil => intro e0 e1 h0 h1 _ _; exact ⟨h0, fun b i hb hi => (h1 b i hb hi).2⟩
    | cons t ts ih =>
      intro e0 e1 h0 h1 hs hu
      obtain ⟨a1, a2⟩ := term_calculateT hin hc hq (hs t (by simp)) (hu t (by simp))
      refine ih _ (fun i b => e1 i b + t.calculate env T numbers positions
        (p.at (i :: b) (0 :: 0 :: b) (0 :: 0 :: 0 :: b)) cnT m qo r4r2 rvdw cutoff) ?_ ?_
        (fun t ht => hs t (by simp [ht])) (fun t ht => hu t (by simp [ht]))
      · constructor <;> simp [h0.err, h0.shape, a1.err, a1.shape]
      · intro b i hb hi
        obtain ⟨S, hS⟩ := (hu t (by simp) (i :: b) (0 :: 0 :: b) (0 :: 0 :: 0 :: b)).settings (T := T)
        obtain ⟨c1, -⟩ := term_eval hin hc hq hS
        obtain ⟨g1, g2⟩ := h1 b i hb hi
        refine ⟨?_, ?_⟩
        · constructor <;> simp [g1.err, g1.shape, c1.err, c1.shape]
        · have hbi : InB (n :: B) (i :: b) := ⟨hi, hb⟩
          simp only [add_get, h0.shape, a1.shape, c1.shape, g1.shape, pick_of_InB hbi, g2, a2 b i hb hi]
  exact key ts _ (fun _ _ => full numbers.shape 0) ⟨rfl, hin.num.shape⟩
    (fun b i _ _ => ⟨⟨rfl, hin.num.shape⟩, rfl⟩) hs hu

/-- Everything `calculate` does before it evaluates the terms does not involve the parameters. -/
theorem calculate_terms {p₀ : Param} (h : d.Runs env T ext numbers positions charge p₀ o n B R cn eeq) :
    ∃ (m : RefModel) (qo : Option (Tensor ℝ)) (c q : Idx → ℝ) (cnT r4r2 rvdw : Tensor ℝ),
      TermInput env T numbers positions m R r4r2 rvdw n B ∧ D4.OptIs (some cnT) n B c ∧
      D4.OptIs qo n B q ∧
      (∀ p, d.calculate env T ext numbers positions charge p o =
        (sumTerms env T d.terms numbers positions p cnT m qo r4r2 rvdw (o.cutoff.getD {})).check) ∧
      ∀ p, d.calculateT env T ext numbers positions charge p o =
        (sumTermsT env T d.terms numbers positions p cnT m qo r4r2 rvdw (o.cutoff.getD {})).check := by
  obtain ⟨m, hgm, hm⟩ := h.model
  have hv := h.args
  set r4 := o.r4r2.getD (getR4R2 T numbers) with hr4
  set rv := o.rvdw.getD (getRvdw T numbers) with hrv
  have hr4ok : r4.Ok (n :: B) := by
    rw [hr4]
    cases h : o.r4r2 with
    | none => exact getR4R2_ok hv
    | some x => exact hv.r4r2 x h
  have hrvok : rv.Ok (n :: n :: B) := by
    rw [hrv]
    cases h : o.rvdw with
    | none => exact getPair_ok hv.num (AllLt.mono hv.lt hv.fits.ext)
    | some x => exact hv.rvdw x h
  obtain ⟨cok, cget⟩ := h.cn n B numbers positions hv.num hv.lt hv.pos
  have hany : d.terms.any (·.chargeDep) = true ↔ ∃ t ∈ d.terms, t.chargeDep = true := by simp
  obtain ⟨qo, qg, hqo, hqis⟩ : ∃ (qo : Option (Tensor ℝ)) (qg : Idx → ℝ),
      d.charges ext numbers positions charge (o.cutoff.getD {}) o.q = .ok qo ∧
      D4.OptIs qo n B qg := by
    by_cases hdep : ∃ t ∈ d.terms, t.chargeDep = true
    · have hd := hany.2 hdep
      cases hoq : o.q with
      | some x =>
        have hx := hv.q x hoq
        refine ⟨some x, x.get, ?_, Or.inr ⟨x, rfl, hx, rfl⟩⟩
        simp [Disp.charges, hd, hx.shape, hv.num.shape]
      | none =>
        obtain ⟨h1, h2⟩ := h.eeq hdep n B numbers positions charge (o.cutoff.getD {}).cnEeq hv.num
          hv.lt hv.pos hv.charge
        refine ⟨some _, _, ?_, Or.inr ⟨_, rfl, h1, rfl⟩⟩
        simp [Disp.charges, hd, check_ok h1.err, h1.shape, hv.num.shape, bind, Except.bind]
    · have hd : d.terms.any (·.chargeDep) = false := by
        rw [Bool.eq_false_iff]; exact fun h => hdep (hany.1 h)
      rcases h.q with hq | hq
      · refine ⟨none, fun _ => 0, ?_, Or.inl ⟨rfl, rfl⟩⟩
        simp [Disp.charges, hd, hq]
      · exact absurd hq hdep
  refine ⟨m, qo, _, qg, d.cnFn numbers positions d.counting, r4, rv, ⟨hv.num, hv.pos, hm, hr4ok, hrvok⟩,
    Or.inr ⟨_, rfl, cok, rfl⟩, hqis, fun p => ?_, fun p => ?_⟩
  · unfold Disp.calculate
    rw [ensure_ok (by rw [hv.num.shape, hv.pos.shape]; rfl)]
    simp only [bind, Except.bind, hgm]
    rw [ensure_ok (by intro x hx; rw [(hv.rcov x hx).shape, hv.num.shape])]
    simp only [← hr4, ← hrv, check_ok hr4ok.err, check_ok hrvok.err]
    rw [ensure_ok (by rw [hr4ok.shape, hv.num.shape])]
    simp only []
    rw [ensure_ok (by rw [hrvok.shape, hv.num.shape]; rfl)]
    simp only [check_ok cok.err, hqo]
  · unfold Disp.calculateT
    rw [ensure_ok (by rw [hv.num.shape, hv.pos.shape]; rfl)]
    simp only [bind, Except.bind, hgm]
    rw [ensure_ok (by intro x hx; rw [(hv.rcov x hx).shape, hv.num.shape])]
    simp only [← hr4, ← hrv, check_ok hr4ok.err, check_ok hrvok.err]
    rw [ensure_ok (by rw [hr4ok.shape, hv.num.shape])]
    simp only []
    rw [ensure_ok (by rw [hrvok.shape, hv.num.shape]; rfl)]
    simp only [check_ok cok.err, hqo]

/-- `calculate` with tensors as parameters: the energy of every atom is that with the numbers used for
the atom. -/
theorem calculateT_eq {j1 j2 j3 : Idx}
    (h : d.Runs env T ext numbers positions charge (p.at j1 j2 j3) o n B R cn eeq)
    (hs : ∀ t ∈ d.terms, t.Shapes p n B) :
    ∃ e, d.calculateT env T ext numbers positions charge p o = .ok e ∧ e.Ok (n :: B) ∧
      ∀ b i, InB B b → i < n → ∃ e', d.calculate env T ext numbers positions charge
        (p.at (i :: b) (0 :: 0 :: b) (0 :: 0 :: 0 :: b)) o = .ok e' ∧
        e.get (i :: b) = e'.get (i :: b) := by
  obtain ⟨m, qo, c, q, cnT, r4r2, rvdw, hin, hc, hq, h1, h2⟩ := calculate_terms h
  obtain ⟨ok, get⟩ := sumTermsT_eq hin hc hq hs fun t ht i1 i2 i3 => (h.par t ht).at i1 i2 i3
  refine ⟨_, (h2 p).trans (check_ok ok.err), ok, fun b i hb hi => ⟨_, ?_, get b i hb hi⟩⟩
  have hu := fun t ht => (h.par t ht).at (i :: b) (0 :: 0 :: b) (0 :: 0 :: 0 :: b)
  obtain ⟨S, hS⟩ := Disp.Runs.settings (T := T) { h with par := hu }
  rw [h1]
  exact check_ok (sumTerms_eval hin hc hq hS).1.err

end whole

end TadDftd4
