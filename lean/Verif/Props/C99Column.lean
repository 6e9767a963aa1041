import Verif.Props.C99

/-!
# C99: van der Waals radii with a single column

`Disp.calculate` compares all axes but the last of `rvdw` with the atomic numbers (`dispersion/base.py:384`).
-/

open scoped Classical

namespace TadDftd4

open Tensor

/-- The matrix with `n` columns, each equal to the only column of `y`. -/
def Spec.copies (n : ℕ) (y : Tensor ℝ) : Tensor ℝ := ⟨y.err, n :: y.shape.tail, fun i => y.get (0 :: i.tail)⟩

section
variable {env : Env} {T : Tables} {ext : Ext}

theorem map2_copies {γ : Type} (f : ℝ → ℝ → γ) {n : ℕ} {S : Shape} {x y : Tensor ℝ} (hx : x.shape = n :: S)
    (hy : y.shape = 1 :: S) : map2 f x y = map2 f x (Spec.copies n y) := by
  unfold map2 Spec.copies
  simp only [hx, hy, List.tail_cons, Tensor.mk.injEq]
  refine ⟨by simp [bErr], by simp, ?_⟩
  funext i
  cases i with
  | nil => rfl
  | cons k i => simp [pick]

theorem Damping.callParam_copies (d : Damping) {n : ℕ} {S : Shape} {x y : Tensor ℝ} (hx : x.shape = n :: S)
    (hy : y.shape = 1 :: S) (order : ℕ) (p : Param) :
    d.callParam env x y order p = d.callParam env x (Spec.copies n y) order p := by
  unfold Damping.callParam Damping.call Damping.checkedF Damping.f
  simp only [map2_copies _ hx hy]

theorem dispersion2_copies (d : Damping) {numbers : Tensor ℕ} {positions : Tensor ℝ} {n : ℕ} {B : Shape}
    (hn : numbers.Ok (n :: B)) (hp : positions.Ok (3 :: n :: B)) {y : Tensor ℝ} (hy : y.shape = 1 :: n :: B)
    (p : Param) (c6 r4r2 : Tensor ℝ) (cutoff : Option ℝ) :
    dispersion2 env numbers positions p c6 r4r2 (some y) d cutoff =
      dispersion2 env numbers positions p c6 r4r2 (some (Spec.copies n y)) d cutoff := by
  have hd := (pairDistances_ok (env := env) hn hp).shape
  have ht : ∀ cut order, tDamp env numbers positions p (radii2 d r4r2 (some y)) d cut order =
      tDamp env numbers positions p (radii2 d r4r2 (some (Spec.copies n y))) d cut order := by
    intro cut order
    unfold tDamp
    cases d <;> simp only [radii2, Damping.radiusType, Damping.callParam_copies _ hd hy]
  have he : ∀ u : Tensor ℝ, (radii2 d r4r2 (some y)).after u = (radii2 d r4r2 (some (Spec.copies n y))).after u := by
    intro u
    cases d <;> rfl
  unfold dispersion2
  simp only [ht, he]

theorem radiiVDW_copies (p : Param) {n : ℕ} {S : Shape} {y : Tensor ℝ} (hy : y.shape = 1 :: S) :
    radiiVDW p (Spec.copies n y) = Spec.copies n (radiiVDW p y) := by
  have h : ∀ t : Tensor ℝ, t.shape = [] → t * Spec.copies n y = Spec.copies n (t * y) := by
    intro t ht
    change map2 _ _ _ = Spec.copies n (map2 _ _ _)
    unfold map2 Spec.copies
    simp only [ht, hy, List.tail_cons, Tensor.mk.injEq]
    refine ⟨by simp [bErr], by simp, ?_⟩
    funext i
    cases i with
    | nil => simp [pick]
    | cons k i => simp [pick]
  exact h _ (by cases p.rs9 <;> rfl)

theorem r0_copies {n : ℕ} {B : Shape} {y : Tensor ℝ} (hy : y.shape = 1 :: n :: B) :
    ijT (Spec.copies n y) * ikT (Spec.copies n y) * jkT (Spec.copies n y) =
      Spec.copies n (ijT y * ikT y * jkT y) := by
  change map2 _ (map2 _ _ _) _ = Spec.copies n (map2 _ (map2 _ _ _) _)
  unfold map2 Spec.copies
  simp only [ijT, ikT, jkT, unsqueeze, hy, List.tail_cons, Tensor.mk.injEq, insAt]
  refine ⟨by simp [bErr], by simp, ?_⟩
  funext i
  rcases i with _ | ⟨k, _ | ⟨j, _ | ⟨i, b⟩⟩⟩ <;> simp [pick]

theorem map2_copies_left {γ : Type} (f : ℝ → ℝ → γ) {n : ℕ} {S : Shape} {x y : Tensor ℝ} (hx : x.shape = n :: S)
    (hy : y.shape = 1 :: S) : map2 f y x = map2 f (Spec.copies n y) x := by
  unfold map2 Spec.copies
  simp only [hx, hy, List.tail_cons, Tensor.mk.injEq]
  refine ⟨by simp [bErr], by simp, ?_⟩
  funext i
  cases i with
  | nil => rfl
  | cons k i => simp [pick]

theorem atmDamp_copies (d : Damping) {numbers : Tensor ℕ} {positions : Tensor ℝ} {n : ℕ} {B : Shape}
    (hn : numbers.Ok (n :: B)) (hp : positions.Ok (3 :: n :: B)) {y : Tensor ℝ} (hy : y.shape = 1 :: n :: B) (alp : ℝ) :
    atmDamp env numbers positions y d alp = atmDamp env numbers positions (Spec.copies n y) d alp := by
  have h2 := dist2T_ok (env := env) hn hp
  have hr : (ijT y * ikT y * jkT y).shape = 1 :: n :: n :: B := by
    change bshape (bshape (insAt 1 0 y.shape) (insAt 1 1 y.shape)) (insAt 1 2 y.shape) = _
    simp [hy]
  unfold atmDamp
  simp only [r0_copies hy]
  generalize ijT y * ikT y * jkT y = r0 at hr ⊢
  have hs : (where_ (realTriples numbers) ((ijT (dist2T env numbers positions) * ikT (dist2T env numbers positions) *
      jkT (dist2T env numbers positions)).map Real.sqrt) (scalar 1)).shape = n :: n :: n :: B := by
    change bshape (bshape (realTriples numbers).shape (bshape (bshape (ijT _).shape (ikT _).shape) (jkT _).shape)) [] = _
    simp [realTriples_shape hn.shape, (ijT_ok h2).2, (ikT_ok h2).2, (jkT_ok h2).2]
  generalize where_ (realTriples numbers) ((ijT (dist2T env numbers positions) * ikT (dist2T env numbers positions) *
      jkT (dist2T env numbers positions)).map Real.sqrt) (scalar 1) = rr at hs ⊢
  have hc : d.call env r0 rr 9 true { alp := some (alp / 3) } =
      d.call env (Spec.copies n r0) rr 9 true { alp := some (alp / 3) } := by
    unfold Damping.call Damping.checkedF Damping.f
    cases d <;> simp [map2_copies_left _ hs hr]
  rw [hc]
  rfl

/-- **C99**: van der Waals radii with one column instead of one per atom raise no exception: every atom gets its value
for all partners. -/
theorem C99_one_column (d : Disp) {numbers : Tensor ℕ}
    {positions : Tensor ℝ} (charge : Tensor ℝ) (p : Param) (o : CalcOpts) {n : ℕ} {B : Shape}
    (hn : numbers.Ok (n :: B)) (hp : positions.Ok (3 :: n :: B)) {y : Tensor ℝ} (hy : y.Ok (1 :: n :: B)) :
    d.calculate env T ext numbers positions charge p { o with rvdw := some y } =
      d.calculate env T ext numbers positions charge p { o with rvdw := some (Spec.copies n y) } := by
  have ht : ∀ t ∈ d.terms, ∀ cnT m q r4 cut, t.calculate env T numbers positions p cnT m q r4 y cut =
      t.calculate env T numbers positions p cnT m q r4 (Spec.copies n y) cut := by
    intro t ht cnT m q r4 cut
    unfold Term.calculate Term.radii
    cases hc : t.cls with
    | twoBody => exact dispersion2_copies _ hn hp hy.shape p _ r4 _
    | d3ATM =>
      simp only [radiiVDW_copies p hy.shape]
      have hs : (radiiVDW p y).shape = 1 :: n :: B := by
        change bshape (p.rs9.tensor Defaults.rs9).shape y.shape = _
        rw [hy.shape]
        cases p.rs9 <;> rfl
      unfold atmDispersion
      simp only [atmDamp_copies _ hn hp hs]
      rfl
    | _ => simp only
  have hsum : ∀ cnT m q r4 cut, sumTerms env T d.terms numbers positions p cnT m q r4 y cut =
      sumTerms env T d.terms numbers positions p cnT m q r4 (Spec.copies n y) cut := by
    intro cnT m q r4 cut
    unfold sumTerms
    generalize full numbers.shape (0 : ℝ) = z
    revert ht z
    generalize d.terms = l
    intro ht
    induction l with
    | nil => intro z; rfl
    | cons t l ih =>
      intro z
      rw [List.foldl_cons, List.foldl_cons, ht t List.mem_cons_self]
      exact ih (fun s hs => ht s (List.mem_cons_of_mem _ hs)) _
  have he : (Spec.copies n y).err = none := hy.err
  have hs : (Spec.copies n y).shape.tail = y.shape.tail := rfl
  unfold Disp.calculate
  simp only [Option.getD_some, check_ok hy.err, check_ok he, hs, hsum, bind, Except.bind]

theorem C99_one_column_dftd4 {numbers : Tensor ℕ} {positions : Tensor ℝ} (charge : Tensor ℝ) (p : Param) (o : DftOpts)
    {n : ℕ} {B : Shape} (hn : numbers.Ok (n :: B)) (hp : positions.Ok (3 :: n :: B)) {y : Tensor ℝ}
    (hy : y.Ok (1 :: n :: B)) :
    dftd4 env T ext numbers positions charge p { o with opts := { o.opts with rvdw := some y } } =
      dftd4 env T ext numbers positions charge p { o with opts := { o.opts with rvdw := some (Spec.copies n y) } } := by
  unfold dftd4
  cases hnew : Disp.new ext .base o.model none (some (o.cnFunction.getD ext.cnD4)) (some (o.counting.getD ext.erfCount)) with
  | error e => simp [bind, Except.bind]
  | ok d =>
    simp only [bind, Except.bind]
    exact C99_one_column _ charge p o.opts hn hp hy

/-- A term that uses van der Waals radii. -/
def Term.UsesVdw (t : Term) : Prop :=
  t.cls = .twoBody ∧ (t.damping = .zero ∨ t.damping = .mzero) ∨ t.cls = .d3ATM

theorem bErr_columns {n k : ℕ} (h1 : k ≠ 1) (hk : k ≠ n) (hn : n ≠ 1) (s t : Shape) : bErr (n :: s) (k :: t) ≠ none := by
  rw [Ne, bErr_eq_none, bcompat_cons]
  rintro ⟨h | h | h, -⟩
  · exact hk h.symm
  · exact hn h
  · exact h1 h

theorem callParam_columns {d : Damping} (hz : d = .zero ∨ d = .mzero) {p : Param} (hs : p.kw.s6 ≠ none) {x y : Tensor ℝ}
    (hb : bErr x.shape y.shape ≠ none) : (d.callParam env x y 6 p).err ≠ none := by
  have key : ∀ f : ℝ → ℝ → ℝ, (map2 f x y).err ≠ none := fun f h0 => hb (orErr_eq_none.1 h0).2
  have key2 : ∀ (f g : ℝ → ℝ → ℝ) z, (map2 g (map2 f x y) z).err ≠ none :=
    fun f g z h0 => key f (orErr_eq_none.1 (orErr_eq_none.1 h0).1).1
  have hf : ∀ kw, (d.f env x y 6 false kw).err ≠ none := by
    intro kw
    rcases hz with rfl | rfl
    · cases ha : kw.alp with
      | none => simp [Damping.f, ha]
      | some a =>
        cases hr : kw.rs6 with
        | none => simp [Damping.f, ha, hr]
        | some r =>
          have e : Damping.f env .zero x y 6 false kw = map2 env.sdiv (map2 (zeroF env r a) x y) (x.map (· ^ 6)) := by
            simp [Damping.f, ha, hr]
          rw [e]
          exact key2 _ _ _
    · cases ha : kw.alp with
      | none => simp [Damping.f, ha]
      | some a =>
        cases hb : kw.bet with
        | none => simp [Damping.f, ha, hb]
        | some b =>
          cases hr : kw.rs6 with
          | none => simp [Damping.f, ha, hb, hr]
          | some r =>
            have e : Damping.f env .mzero x y 6 false kw = map2 env.sdiv (map2 (mzeroF r a b) x y) (x.map (· ^ 6)) := by
              simp [Damping.f, ha, hb, hr]
            rw [e]
            exact key2 _ _ _
  have hc : (d.call env x y 6 false p.kw).err ≠ none := by
    have e : d.call env x y 6 false p.kw = d.checkedF env x y 6 false p.kw := by simp [Damping.call, hs]
    rw [e, Damping.checkedF]
    split_ifs
    · simp
    · exact hf _
  rw [Damping.callParam]
  split_ifs
  · simp
  · exact hc

/-- **C99**: any other number of columns raises an exception if a term uses the radii. -/
theorem C99_columns {d : Disp} (hd : ∃ t ∈ d.terms, t.UsesVdw) {numbers : Tensor ℕ} {positions : Tensor ℝ}
    (charge : Tensor ℝ) (p : Param) (o : CalcOpts) {n k : ℕ} {B : Shape} (hn : numbers.Ok (n :: B))
    (hp : positions.Ok (3 :: n :: B)) {y : Tensor ℝ} (hy : y.Ok (k :: n :: B)) (h1 : k ≠ 1) (hk : k ≠ n) (hn1 : n ≠ 1) :
    ∃ e, d.calculate env T ext numbers positions charge p { o with rvdw := some y } = .error e := by
  cases hc : d.calculate env T ext numbers positions charge p { o with rvdw := some y } with
  | error e => exact ⟨e, rfl⟩
  | ok e =>
    exfalso
    obtain ⟨m, cnT, q, -, -, -, -, -, hall⟩ := calculate_ok hc
    obtain ⟨t, ht, hu⟩ := hd
    have h := hall t ht
    have hdist := (pairDistances_ok (env := env) hn hp).shape
    rcases hu with ⟨h2, hz⟩ | h3
    · simp only [Term.calculate, h2, dispersion2, after_err, orErr_eq_none, Option.getD_some] at h
      obtain ⟨-, -, -, h6, -, hres⟩ := h
      have h6' : (t.damping.callParam env (pairDistances env numbers positions) y 6 p).err = none := by
        have : radii2 t.damping ((o.r4r2).getD (getR4R2 T numbers)) (some y) = y := by
          rcases hz with h | h <;> rw [h] <;> rfl
        rw [this] at h6
        unfold tDamp at h6
        simp only [where_, orErr_eq_none] at h6
        exact h6.1.2.1
      have hs6 : p.s6 ≠ .none := by
        intro h0
        rw [h0] at hres
        cases h10 : p.s10 <;> simp [h10, PVal.tensor] at hres
      have hk6 : p.kw.s6 ≠ none := by
        cases h0 : p.s6 <;> simp_all [Param.kw, PVal.kw]
      exact callParam_columns hz hk6 (by rw [hdist, hy.shape]; exact bErr_columns h1 hk hn1 _ _) h6'
    · simp only [Term.calculate, h3, Term.radii] at h
      have hr : (radiiVDW p y).shape = k :: n :: B := by
        change bshape (p.rs9.tensor Defaults.rs9).shape y.shape = _
        rw [hy.shape]
        cases p.rs9 <;> rfl
      have hbad : (ijT (radiiVDW p y) * ikT (radiiVDW p y) * jkT (radiiVDW p y)).err ≠ none := by
        intro h0
        have h4 := (orErr_eq_none.1 h0).2
        change bErr (bshape (insAt 1 0 (radiiVDW p y).shape) (insAt 1 1 (radiiVDW p y).shape))
          (insAt 1 2 (radiiVDW p y).shape) = none at h4
        rw [bErr_eq_none] at h4
        simp [hr, dimOk] at h4
        omega
      split at h
      · simp only [after_err, orErr_eq_none, atmDispersion, atmDamp] at h
        exact hbad h.2.2.1.2.1
      · simp [orErr_eq_none] at h

/-- **C99**: the exception of `dispersion2` with zero damping for a wrong number of columns is RuntimeError (PyTorch cannot
broadcast the shapes). -/
theorem C99_columns_runtime {numbers : Tensor ℕ} {positions c6 r4r2 y : Tensor ℝ} {p : Param} {n k : ℕ} {B : Shape}
    (hn : numbers.Ok (n :: B)) (hp : positions.Ok (3 :: n :: B)) (h6 : c6.Ok (n :: n :: B)) (hr : r4r2.Ok (n :: B))
    (hy : y.Ok (k :: n :: B)) (h1 : k ≠ 1) (hk : k ≠ n) (hn1 : n ≠ 1) (hx : p.extra = []) (hs : p.s6 ≠ .none)
    {rs alp : ℝ} (hrs : p.rs6 = .val rs) (halp : p.alp = .val alp) (cutoff : Option ℝ) :
    (dispersion2 env numbers positions p c6 r4r2 (some y) .zero cutoff).err = some .runtime := by
  have hdist := pairDistances_ok (env := env) hn hp
  have hq : (qqT r4r2).err = none ∧ (qqT r4r2).shape = n :: n :: B := by
    simp [qqT, hr.err, hr.shape, bErr]
  have hc8 : (c6 * qqT r4r2).err = none := by
    simp [h6.err, h6.shape, hq.1, hq.2]
  have hs6 : p.kw.s6 ≠ none := by
    cases h0 : p.s6 <;> simp_all [Param.kw, PVal.kw]
  have ht : (tDamp env numbers positions p y .zero (cutoff.getD Defaults.disp2Cutoff) 6).err = some .runtime := by
    have hcall : (Damping.callParam env .zero (pairDistances env numbers positions) y 6 p).err = some .runtime := by
      have e : Damping.callParam env .zero (pairDistances env numbers positions) y 6 p =
          map2 env.sdiv (map2 (zeroF env rs alp) (pairDistances env numbers positions) y)
            ((pairDistances env numbers positions).map (· ^ 6)) := by
        have ha : p.kw.alp = some alp := by simp [Param.kw, PVal.kw, halp]
        have hb : p.kw.rs6 = some rs := by simp [Param.kw, PVal.kw, hrs]
        simp [Damping.callParam, hx, Damping.call, hs6, Damping.checkedF, Damping.required, Damping.f, ha, hb]
      have hb : bErr (n :: n :: B) (k :: n :: B) = some .runtime := by
        have := bErr_columns h1 hk hn1 (n :: B) (n :: B)
        unfold bErr at this ⊢
        split_ifs at this ⊢ <;> simp_all
      rw [e]
      simp [map2, hdist.err, hdist.shape, hy.err, hy.shape, hb]
    have hm : ((realPairs numbers).and ((pairDistances env numbers positions).le (scalar (cutoff.getD Defaults.disp2Cutoff)))).err
        = none := by
      simp [Tensor.and, Tensor.le, map2, realPairs_err hn.shape, realPairs_shape hn.shape, hn.err, hdist.err, hdist.shape]
    unfold tDamp
    simp only [where_, hm, hcall, orErr_none_left, orErr_some_left]
  have hrad : radii2 .zero r4r2 (some y) = y := rfl
  unfold dispersion2
  simp only [after_err, hdist.err, hc8, hrad, hy.err, ht, orErr_none_left, orErr_some_left]

/-- **C99**: the same for `get_atm_dispersion`, with every damping function. -/
theorem C99_columns_runtime_atm {numbers : Tensor ℕ} {positions c9 y : Tensor ℝ} {n k : ℕ} {B : Shape}
    (hn : numbers.Ok (n :: B)) (hy : y.Ok (k :: n :: B)) (h1 : k ≠ 1) (hk : k ≠ n) (hn1 : n ≠ 1) (cutoff s9 alp : ℝ)
    (d : Damping) : (atmDispersion env numbers positions c9 y cutoff d s9 alp).err = some .runtime := by
  have hm : (realTriples numbers).err = none := by
    rw [realTriples_err hn.shape, hn.err]
  have hb : bErr (k :: k :: n :: B) (k :: n :: 1 :: B) = some .runtime := by
    have h : bErr (k :: k :: n :: B) (k :: n :: 1 :: B) ≠ none := by
      rw [Ne, bErr_eq_none, bcompat_cons, bcompat_cons]
      rintro ⟨-, h | h | h, -⟩
      exacts [hk h, h1 h, hn1 h]
    unfold bErr at h ⊢
    split_ifs at h ⊢ <;> simp_all
  have hr : (ijT y * ikT y * jkT y).err = some .runtime := by
    have hs : (ijT y * ikT y).err = none ∧ (ijT y * ikT y).shape = k :: k :: n :: B := by
      simp [ijT, ikT, hy.err, hy.shape, bErr]
    have hj : (jkT y).err = none ∧ (jkT y).shape = k :: n :: 1 :: B := by
      simp [jkT, hy.err, hy.shape]
    change orErr (orErr (ijT y * ikT y).err (jkT y).err) (bErr (ijT y * ikT y).shape (jkT y).shape) = _
    rw [hs.1, hs.2, hj.1, hj.2, hb]
    rfl
  simp only [atmDispersion, atmDamp, after_err, hm, hr, orErr_none_left, orErr_some_left]

/-- Claim: objects whose two-body term has zero damping, i.e. uses van der Waals radii, reject radii that do not have one
column per atom. -/
def Spec.ColumnsChecked (env : Env) (T : Tables) (ext : Ext) : Prop :=
  ∀ (d : Disp) (numbers : Tensor ℕ) (positions charge y : Tensor ℝ) (p : Param) (o : CalcOpts) (n k : ℕ) (B : Shape),
    (∃ t ∈ d.terms, t.cls = .twoBody ∧ t.damping = .zero) →
    numbers.Ok (n :: B) → positions.Ok (3 :: n :: B) → y.Ok (k :: n :: B) → k ≠ n →
    ∃ e, d.calculate env T ext numbers positions charge p { o with rvdw := some y } = .error e

end

namespace Demo

/-- Zero damping with one radius per atom: the result is that of the full matrix. -/
example := C99_one_column_dftd4 (env := env) (T := T) (ext := ext) (numbers := numbers) (positions := positions) charge
  paramAll { damping := .zero } (n := 3) (B := [2]) ⟨rfl, rfl⟩ ⟨rfl, rfl⟩ (y := full [1, 3, 2] 4) ⟨rfl, rfl⟩

/-- All classes, also those of D3 whose three-body term uses the radii. -/
example (cls : DispClass) := C99_one_column (env := env) (T := T) (ext := ext) (dispOf cls) (numbers := numbers)
  (positions := positions) charge paramAll {} (n := 3) (B := [2]) ⟨rfl, rfl⟩ ⟨rfl, rfl⟩ (y := full [1, 3, 2] 4) ⟨rfl, rfl⟩

/-- Two columns for three atoms. -/
example := C99_columns (env := env) (T := T) (ext := ext) (d := dispOf .d3Zero) ⟨_, List.mem_cons_self, Or.inl ⟨rfl, Or.inl rfl⟩⟩
  (numbers := numbers) (positions := positions) charge paramAll {} (n := 3) (k := 2) (B := [2]) ⟨rfl, rfl⟩ ⟨rfl, rfl⟩
  (y := full [2, 3, 2] 4) ⟨rfl, rfl⟩ (by simp) (by simp) (by simp)

/-- The same for `dispersion2`. -/
example := C99_columns_runtime (env := env) (numbers := numbers) (positions := positions) (c6 := full [3, 3, 2] 6)
  (r4r2 := full [3, 2] 2) (y := full [2, 3, 2] 4) (p := paramAll) (n := 3) (k := 2) (B := [2]) ⟨rfl, rfl⟩ ⟨rfl, rfl⟩
  ⟨rfl, rfl⟩ ⟨rfl, rfl⟩ ⟨rfl, rfl⟩ (by simp) (by simp) (by simp) rfl (by simp [paramAll]) rfl rfl none

/-- The same for `get_atm_dispersion`. -/
example := C99_columns_runtime_atm (env := env) (numbers := numbers) (positions := positions) (c9 := full [3, 3, 3, 2] 6)
  (y := full [2, 3, 2] 4) (n := 3) (k := 2) (B := [2]) ⟨rfl, rfl⟩ ⟨rfl, rfl⟩ (by simp) (by simp) (by simp) 40 1 16 .zero

/-- A two-body term with zero damping. -/
noncomputable def dispZero : Disp := { dispOf .d4 with terms := [⟨.twoBody, .zero, true⟩] }

end Demo

/-- **C99**, the claim that the number of columns is checked is false: a batch of two molecules with three atoms each. -/
theorem C99_columns_false : ¬ Spec.ColumnsChecked Demo.env Demo.T Demo.ext := by
  intro h
  let y : Tensor ℝ := full [1, 3, 2] 4
  have hr := Demo.dispOf_runs .d4 Demo.validArgs
  have hz : Damping.Usable Demo.env .zero Demo.paramAll := by
    constructor <;> simp [Damping.point, Damping.required, Damping.pointF, Param.kw, PVal.kw, Demo.paramAll]
  have hv : Demo.dispZero.Runs Demo.env Demo.T Demo.ext Demo.numbers Demo.positions Demo.charge Demo.paramAll
      { rvdw := some (Spec.copies 3 y) } 3 [2] .d4 Demo.cn Demo.eeq :=
    { args := { Demo.validArgs with
        rvdw := fun x h => by
          obtain rfl := Option.some.inj h
          exact ⟨rfl, rfl⟩ }
      model := hr.model
      cn := hr.cn
      eeq := fun _ => eeqOfSpec_perSystem Demo.eeq rfl _
      q := Or.inl rfl
      par := fun t ht => by
        have ht' : t = ⟨.twoBody, .zero, true⟩ := by simpa [Demo.dispZero] using ht
        subst ht'
        exact ⟨fun _ => hz, by simp, by simp [Demo.paramAll], by simp [Demo.paramAll], by simp, by simp [Demo.paramAll],
          by simp [Demo.paramAll], by simp [Demo.paramAll], by simp⟩ }
  obtain ⟨S, hS⟩ := hv.settings
  obtain ⟨e, he, -⟩ := hv.eval hS
  obtain ⟨e', he'⟩ := h Demo.dispZero Demo.numbers Demo.positions Demo.charge y Demo.paramAll {} 3 1 [2]
    ⟨_, List.mem_cons_self, rfl, rfl⟩ ⟨rfl, rfl⟩ ⟨rfl, rfl⟩ ⟨rfl, rfl⟩ (by simp)
  rw [C99_one_column Demo.dispZero Demo.charge Demo.paramAll {} (n := 3) (B := [2]) ⟨rfl, rfl⟩
    ⟨rfl, rfl⟩ ⟨rfl, rfl⟩] at he'
  exact absurd (he.symm.trans he') (by simp)

end TadDftd4
