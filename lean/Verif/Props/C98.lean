import Verif.Model.NumberCharge
import Verif.Lemmas.IeeeSingle
import Verif.Lemmas.IeeeEnergy
import Verif.Props.C33
import Verif.Props.C60
import Verif.Props.C87
import Verif.Props.C04

/-!
# C98: a total charge given as a number is the charge used
-/

open scoped Classical

namespace TadDftd4

open Tensor Rounded

section
variable {env : Env} {T : Tables} {ext : Ext} {v : Conv} {d : Disp} {numbers : Tensor ℕ} {positions : Tensor ℝ}
  {p : Param} {o : DftOpts} {n : ℕ} {R : RefCfg} {cn : Spec.CN} {eeq : Spec.EEQ} {P : Spec.D4Par}

theorem Conv.Ok.eq (hv : v.Ok) {F : Fmt} {x : ℝ} (hF : F.Usual) (hx : F.Num x) : v.rd F x = x :=
  (hv.nearest F x hF hx.le_big).eq hx

theorem Rounded.usual32 : binary32.Usual := Or.inl rfl
theorem Rounded.usual64 : binary64.Usual := Or.inr rfl

theorem Rounded.num64_of_num32 {x : ℝ} (h : binary32.Num x) : binary64.Num x := by
  obtain ⟨m, e, h1, h2, h3, rfl⟩ := h
  refine ⟨m, e, h1.trans ?_, ?_, ?_, rfl⟩
  · show (2 : ℤ) ^ 24 < 2 ^ 53
    norm_num
  · exact le_trans (by decide : (-1074 : ℤ) ≤ -149) h2
  · exact le_trans h3 (by decide : (104 : ℤ) ≤ 971)

theorem Rounded.num32_int {k : ℤ} (h : |k| ≤ 2 ^ 24) : binary32.Num k := by
  rcases h.lt_or_eq with h | h
  · exact num32 k 0 h (by norm_num) (by norm_num) (by simp)
  · rcases abs_eq (by norm_num : (0 : ℤ) ≤ 2 ^ 24) |>.1 h with h | h
    · exact num32 1 24 (by norm_num) (by norm_num) (by norm_num) (by rw [h]; norm_num)
    · exact num32 (-1) 24 (by norm_num) (by norm_num) (by norm_num) (by rw [h]; norm_num)

/-- The charge that reaches the charge model from `dftd4`. -/
theorem dftd4N_eq (c : ChargeArg) : dftd4N env T ext v numbers positions c p o =
    dftd4 env T ext numbers positions (v.typed (.tensor (v.plain c))) p o := rfl

theorem Conv.typed_plain_float (x : ℝ) :
    v.typed (.tensor (v.plain (.float x))) = scalar (v.rd v.own (v.rd v.default x)) := rfl

theorem Conv.typed_plain_int (k : ℤ) : v.typed (.tensor (v.plain (.int k))) = scalar (v.rd v.own k) := rfl

theorem Rounded.Fmt.Usual.num {F : Fmt} (h : F.Usual) {x : ℝ} (hx : binary32.Num x) : F.Num x := by
  rcases h with rfl | rfl
  · exact hx
  · exact num64_of_num32 hx

/-- **C98**: whole charges, written as `1` or `1.0`, are used as they are by all three functions. -/
theorem C98_integer (hv : v.Ok) {k : ℤ} (hk : |k| ≤ 2 ^ 24) (co : CalcOpts)
    (cut : Option Cutoff) :
    (dftd4N env T ext v numbers positions (.int k) p o = dftd4 env T ext numbers positions (scalar k) p o ∧
      d.calculateN env T ext v numbers positions (.int k) p co =
        d.calculate env T ext numbers positions (scalar k) p co ∧
      getPropertiesN env T ext v numbers positions (some (.int k)) cut =
        getProperties env T ext numbers positions (some (scalar k)) cut) ∧
    (dftd4N env T ext v numbers positions (.float k) p o = dftd4 env T ext numbers positions (scalar k) p o ∧
      d.calculateN env T ext v numbers positions (.float k) p co =
        d.calculate env T ext numbers positions (scalar k) p co ∧
      getPropertiesN env T ext v numbers positions (some (.float k)) cut =
        getProperties env T ext numbers positions (some (scalar k)) cut) := by
  have h1 : v.rd v.own (k : ℝ) = k := hv.eq hv.own (hv.own.num (num32_int hk))
  have h2 : v.rd v.default (k : ℝ) = k := hv.eq hv.default (hv.default.num (num32_int hk))
  have e1 : v.typed (.int k) = scalar (k : ℝ) := by show scalar (v.rd v.own k) = _; rw [h1]
  have e2 : v.typed (.float k) = scalar (k : ℝ) := by show scalar (v.rd v.own k) = _; rw [h1]
  refine ⟨⟨?_, ?_, ?_⟩, ?_, ?_, ?_⟩
  · rw [dftd4N_eq, Conv.typed_plain_int, h1]
  · unfold Disp.calculateN; rw [e1]
  · unfold getPropertiesN; rw [Option.map_some, e1]
  · rw [dftd4N_eq, Conv.typed_plain_float, h2, h1]
  · unfold Disp.calculateN; rw [e2]
  · unfold getPropertiesN; rw [Option.map_some, e2]

/-- **C98**: `Disp` objects and `get_properties` use any number of the dtype of the positions as it is, in particular
every Python float if the positions have double precision. -/
theorem C98_objects (hv : v.Ok) {x : ℝ} (hx : v.own.Num x) (co : CalcOpts) (cut : Option Cutoff) :
    d.calculateN env T ext v numbers positions (.float x) p co =
        d.calculate env T ext numbers positions (scalar x) p co ∧
      getPropertiesN env T ext v numbers positions (some (.float x)) cut =
        getProperties env T ext numbers positions (some (scalar x)) cut := by
  have e2 : v.typed (.float x) = scalar x := by show scalar (v.rd v.own x) = _; rw [hv.eq hv.own hx]
  constructor
  · unfold Disp.calculateN; rw [e2]
  · unfold getPropertiesN; rw [Option.map_some, e2]

/-- **C98**: tensors of the dtype of the positions are used as they are. -/
theorem C98_tensor (hv : v.Ok) {t : Tensor ℝ} (ht : ∀ i, v.own.Num (t.get i)) (co : CalcOpts) (cut : Option Cutoff) :
    dftd4N env T ext v numbers positions (.tensor t) p o = dftd4 env T ext numbers positions t p o ∧
    d.calculateN env T ext v numbers positions (.tensor t) p co = d.calculate env T ext numbers positions t p co ∧
    getPropertiesN env T ext v numbers positions (some (.tensor t)) cut =
      getProperties env T ext numbers positions (some t) cut := by
  have e : v.typed (.tensor t) = t := by
    cases t with
    | mk err shape get =>
      show (⟨err, shape, _⟩ : Tensor ℝ) = ⟨err, shape, get⟩
      congr 1
      funext i
      exact hv.eq hv.own (ht i)
  refine ⟨?_, ?_, ?_⟩
  · rw [dftd4N_eq]
    show dftd4 env T ext numbers positions (v.typed (.tensor t)) p o = _
    rw [e]
  · unfold Disp.calculateN; rw [e]
  · unfold getPropertiesN; rw [Option.map_some, e]

/-- **C98** for `dftd4`, as far as it is true: a number of the default dtype (single precision, if not changed) that is
also one of the dtype of the positions. Missing: other Python floats, see `C98_number_false`. -/
theorem C98_dftd4_partial (hv : v.Ok) {x : ℝ} (hx : v.default.Num x) (hx' : v.own.Num x) :
    dftd4N env T ext v numbers positions (.float x) p o = dftd4 env T ext numbers positions (scalar x) p o := by
  rw [dftd4N_eq, Conv.typed_plain_float, hv.eq hv.default hx, hv.eq hv.own hx']

/-- **C98**: with default settings and positions in double precision, the error of the energies is below a constant times
the precision of single precision numbers (`L`: how much atomic charges respond to the total charge). -/
theorem C98_error (hT : T.Physical R.rq) (hga : 0 ≤ R.ga) (hgc : 0 < R.gc) (ha1 : 0 ≤ P.a1) (ha2 : 0 ≤ P.a2)
    {δ : ℝ} (hδ : √env.eps ≤ δ) :
    ∃ K : ℝ, ∀ (v : Conv) (ext : Ext) (n : ℕ) (numbers : Tensor ℕ) (positions : Tensor ℝ) (x L : ℝ) (p : Param)
      (o : DftOpts) (cn : Spec.CN) (eeq : Spec.EEQ), v.Ok → v.default = binary32 → v.own = binary64 →
      Call env T ext numbers positions (scalar x) p o n [] R cn eeq P → o.opts.q = none → o.opts.r4r2 = none →
      Spec.Spaced δ (elements numbers n []) (coords positions n []) → 0 ≤ L →
      (∀ Q Q' i, |eeq n (o.opts.cutoff.getD {}).cnEeq (elements numbers n []) (coords positions n []) Q i -
        eeq n (o.opts.cutoff.getD {}).cnEeq (elements numbers n []) (coords positions n []) Q' i| ≤ L * |Q - Q'|) →
      (∀ Q, |Q - x| ≤ |x| / 2 ^ 24 → Spec.ChargesOk env T n (elements numbers n [])
        (eeq n (o.opts.cutoff.getD {}).cnEeq (elements numbers n []) (coords positions n []) Q)) →
      binary32.small ≤ |x| → |x| ≤ binary32.big →
      ∃ e e', dftd4 env T ext numbers positions (scalar x) p o = .ok e ∧
        dftd4N env T ext v numbers positions (.float x) p o = .ok e' ∧
        ∀ i < n, |e'.get [i] - e.get [i]| ≤ K * (L * (|x| / 2 ^ 24)) := by
  obtain ⟨K, hK⟩ := C87_uniform (δ := δ) hT hga hgc ha1 ha2 hδ
  refine ⟨K, fun v ext n numbers positions x L p o cn eeq hv hd ho h hq hr hs hL hlip hok hx1 hx2 => ?_⟩
  set y := v.rd binary32 x with hy
  have hn : binary32.Nearest x y := hv.nearest binary32 x usual32 hx2
  have hfl : |y - x| ≤ |x| / 2 ^ 24 := by
    have := hn.fl ok32 hx1 hx2
    unfold Fl Fmt.unit at this
    have e : (2 : ℝ) ^ (-(binary32.p : ℤ)) = 1 / 2 ^ 24 := by
      show (2 : ℝ) ^ (-((24 : ℕ) : ℤ)) = _
      rw [zpow_neg, zpow_natCast, one_div]
    rw [e] at this
    linarith
  have hN : dftd4N env T ext v numbers positions (.float x) p o =
      dftd4 env T ext numbers positions (scalar y) p o := by
    rw [dftd4N_eq, Conv.typed_plain_float, hd, ← hy, ho, hv.eq usual64 (num64_of_num32 hn.1)]
  obtain ⟨q1, q2⟩ := h.eeq n [] numbers positions (scalar x) (o.opts.cutoff.getD {}).cnEeq h.args.num h.args.lt
    h.args.pos ⟨rfl, rfl⟩
  obtain ⟨r1, r2⟩ := h.eeq n [] numbers positions (scalar y) (o.opts.cutoff.getD {}).cnEeq h.args.num h.args.lt
    h.args.pos ⟨rfl, rfl⟩
  obtain ⟨e, e', h1, h2, h3⟩ := hK ext n [] numbers positions (scalar x)
    (ext.eeq numbers positions (scalar x) (o.opts.cutoff.getD {}).cnEeq)
    (ext.eeq numbers positions (scalar y) (o.opts.cutoff.getD {}).cnEeq) p o cn eeq h hr q1 r1
  refine ⟨e, e', ?_, ?_, ?_⟩
  · rw [← C33_explicit_dftd4 hq q1.err (scalar x)]; exact h1
  · rw [hN, ← C33_explicit_dftd4 hq r1.err (scalar x)]; exact h2
  · have a : (fun i : Fin n => (ext.eeq numbers positions (scalar x) (o.opts.cutoff.getD {}).cnEeq).get (i.1 :: [])) =
        eeq n (o.opts.cutoff.getD {}).cnEeq (elements numbers n []) (coords positions n []) x := by
      funext i; exact q2 [] trivial i
    have b : (fun i : Fin n => (ext.eeq numbers positions (scalar y) (o.opts.cutoff.getD {}).cnEeq).get (i.1 :: [])) =
        eeq n (o.opts.cutoff.getD {}).cnEeq (elements numbers n []) (coords positions n []) y := by
      funext i; exact r2 [] trivial i
    refine h3 [] trivial hs ?_ ?_ (L * (|x| / 2 ^ 24)) (by positivity) fun j _ => ?_
    · rw [a]; exact hok x (by rw [sub_self, abs_zero]; positivity)
    · rw [b]; exact hok y hfl
    · rw [q2 [] trivial j, r2 [] trivial j]
      exact (hlip y x j).trans (mul_le_mul_of_nonneg_left hfl hL)

end

/-! ## The number 0.1 -/

/-- The Python number `0.1`. -/
noncomputable def pyTenth : ℝ := 3602879701896397 / 2 ^ 55

theorem pyTenth_num : binary64.Num pyTenth := by
  refine ⟨3602879701896397, -55, ?_, by decide, by decide, ?_⟩
  · show |(3602879701896397 : ℤ)| < 2 ^ 53
    norm_num
  · unfold pyTenth
    norm_num

theorem pyTenth_not : ¬ binary32.Num pyTenth := by
  intro h
  obtain ⟨k, hk⟩ := h.onGrid (m := -4) (Or.inr (by
    unfold pyTenth
    rw [abs_of_pos (by norm_num)]
    norm_num))
  have e : (-4 : ℤ) - (binary32.p : ℤ) + 1 = -27 := by decide
  rw [e] at hk
  unfold pyTenth at hk
  have h2 : (3602879701896397 : ℝ) = k * 2 ^ 28 := by
    have e2 : (2 : ℝ) ^ (-27 : ℤ) = 2 ^ 28 / 2 ^ 55 := by norm_num
    rw [e2] at hk
    field_simp at hk
    linarith
  have h3 : (3602879701896397 : ℤ) = k * 2 ^ 28 := by exact_mod_cast h2
  omega

theorem pyTenth_big : |pyTenth| ≤ binary32.big := by
  have h : |pyTenth| ≤ 2 ^ (0 : ℤ) := by
    unfold pyTenth
    rw [abs_of_pos (by norm_num)]
    norm_num
  exact h.trans (ok32.zpow_le_big (by decide))

namespace Demo

theorem callHF_scalar (x : ℝ) : Call env T ext numbersHF positionsHF (scalar x) param {} 2 [] .d4 cn eeq par :=
  { callHF with args := { callHF.args with charge := ⟨rfl, rfl⟩ } }

/-- A larger total charge of hydrogen fluoride: less dispersion energy. -/
theorem charge_strict {x y : ℝ} (hx : 0 < x) (hxy : x < y) :
    ∃ e e', dftd4 env T ext numbersHF positionsHF (scalar x) param = .ok e ∧
      dftd4 env T ext numbersHF positionsHF (scalar y) param = .ok e' ∧ e.get [0] < e'.get [0] := by
  have key : ∀ x, (∀ i : Fin 2, (ext.eeq numbersHF positionsHF (scalar x) (({} : Cutoff)).cnEeq).get [i.1] = x / 2) := by
    intro x i
    rw [((callHF_scalar x).eeq 2 [] numbersHF positionsHF (scalar x) _ callHF.args.num callHF.args.lt callHF.args.pos
      ⟨rfl, rfl⟩).2 [] trivial i]
    fin_cases i <;> simp [eeq, Fin.sum_univ_two, elements, numbersHF, scalar] <;> norm_num
  have q1 := ((callHF_scalar x).eeq 2 [] numbersHF positionsHF (scalar x) (({} : Cutoff)).cnEeq callHF.args.num
    callHF.args.lt callHF.args.pos ⟨rfl, rfl⟩).1
  have r1 := ((callHF_scalar y).eeq 2 [] numbersHF positionsHF (scalar y) (({} : Cutoff)).cnEeq callHF.args.num
    callHF.args.lt callHF.args.pos ⟨rfl, rfl⟩).1
  have hz : ∀ i : Fin 2, (1 : ℝ) ≤ x / 2 + T.zeff (numbersHF.get [i.1]) := by
    intro i
    have : (1 : ℝ) ≤ T.zeff (numbersHF.get [i.1]) := by
      fin_cases i
      · show (1 : ℝ) ≤ ((9 : ℕ) : ℝ)
        norm_num
      · show (1 : ℝ) ≤ ((1 : ℕ) : ℝ)
        norm_num
    linarith
  have heps : env.eps < 1 := by
    show (1 : ℝ) / 2 ^ 52 < 1
    norm_num
  obtain ⟨e, e', h1, h2, h3⟩ := C60_strict (a := (0 : Fin 2)) (j := (1 : Fin 2)) (b := []) (callHF_scalar x) q1 r1 physical
    (by norm_num [RefCfg.d4]) (by norm_num [RefCfg.d4])
    (by norm_num [par]) (by norm_num [par]) (by norm_num [par]) trivial rfl
    (fun i h => (shipped_r4r2_pos (nExt := 119) (gam := gam) (zeff := zeff) (vdw := fun _ _ => 3)
      (Nat.pos_of_ne_zero h) ((callHF.args.Z_lt (cn := cn) (eeq := eeq) (b := []) trivial i).trans_le (by
        show (104 : ℕ) ≤ _
        norm_num))).le)
    (fun i _ => by rw [key, key]; linarith)
    (fun i h => Or.inr (by rw [key]; linarith [hz i])) (by decide) (by decide) (by decide)
    (shipped_polarizable (Z := 9) (by norm_num) (by norm_num) (by norm_num))
    (shipped_polarizable (Z := 1) (by norm_num) (by norm_num) (by norm_num))
    (by rw [key, key]; linarith) (by rw [key]; linarith [hz 0]) (by
      have hd : dist (coords positionsHF 2 [] 0) (coords positionsHF 2 [] 1) ≤ 60 := by
        rw [EuclideanSpace.dist_eq, Real.sqrt_le_left (by norm_num)]
        simp [coords, positionsHF, Fin.sum_univ_three, Real.dist_eq]
        norm_num
      show √(max (dist (coords positionsHF 2 [] 0) (coords positionsHF 2 [] 1) ^ 2) (1 / 2 ^ 52)) ≤ 60
      rw [Real.sqrt_le_left (by norm_num)]
      exact max_le (pow_le_pow_left₀ dist_nonneg hd 2) (by norm_num))
  refine ⟨e, e', ?_, ?_, h3⟩
  · rw [← C33_explicit_dftd4 (o := {}) rfl q1.err (scalar x)]; exact h1
  · rw [← C33_explicit_dftd4 (o := {}) rfl r1.err (scalar x)]; exact h2

end Demo

/-- **C98** is false for `dftd4`: positions in double precision and the default dtype left at single precision, hydrogen
fluoride with total charge `0.1` given as a Python float. `dftd4` has another energy than for the tensor of double
precision with the same value. -/
theorem C98_number_false {v : Conv} (hv : v.Ok) (hd : v.default = binary32) (ho : v.own = binary64) :
    binary64.Num pyTenth ∧
    ∃ e e', dftd4 Demo.env Demo.T Demo.ext Demo.numbersHF Demo.positionsHF (scalar pyTenth) Demo.param = .ok e ∧
      dftd4N Demo.env Demo.T Demo.ext v Demo.numbersHF Demo.positionsHF (.float pyTenth) Demo.param = .ok e' ∧
      e.get [0] ≠ e'.get [0] := by
  refine ⟨pyTenth_num, ?_⟩
  have hn : binary32.Nearest pyTenth (v.rd binary32 pyTenth) := hv.nearest _ _ usual32 pyTenth_big
  have hN : dftd4N Demo.env Demo.T Demo.ext v Demo.numbersHF Demo.positionsHF (.float pyTenth) Demo.param =
      dftd4 Demo.env Demo.T Demo.ext Demo.numbersHF Demo.positionsHF (scalar (v.rd binary32 pyTenth)) Demo.param := by
    rw [dftd4N_eq, Conv.typed_plain_float, hd, ho, hv.eq usual64 (num64_of_num32 hn.1)]
  have hne : v.rd binary32 pyTenth ≠ pyTenth := fun h => pyTenth_not (h ▸ hn.1)
  have hpos : 0 < pyTenth := by unfold pyTenth; norm_num
  have hpos' : 0 < v.rd binary32 pyTenth := by
    have h16 : binary32.Num (1 / 16) := num32 1 (-4) (by norm_num) (by norm_num) (by norm_num) (by norm_num)
    have := hn.ge h16 (by unfold pyTenth; norm_num)
    linarith
  rw [hN]
  rcases lt_or_gt_of_ne hne with h | h
  · obtain ⟨e, e', h1, h2, h3⟩ := Demo.charge_strict hpos' h
    exact ⟨e', e, h2, h1, h3.ne'⟩
  · obtain ⟨e, e', h1, h2, h3⟩ := Demo.charge_strict hpos h
    exact ⟨e, e', h1, h2, h3.ne⟩

/-! ## Examples -/

namespace Demo

/-- Rounding to nearest. -/
noncomputable def conv (a b : Fmt) : Conv where
  default := a
  own := b
  rd F x := if h : ∃ z, F.Nearest x z then h.choose else x

theorem conv_ok {a b : Fmt} (ha : a.Usual) (hb : b.Usual) : (conv a b).Ok where
  default := ha
  own := hb
  nearest F x hF _ := by
    have h : ∃ z, F.Nearest x z := by
      rcases hF with rfl | rfl
      · exact ok32.exists_nearest x
      · exact ok64.exists_nearest x
    show F.Nearest x (if h : ∃ z, F.Nearest x z then h.choose else x)
    rw [dif_pos h]
    exact h.choose_spec

/-- A cation: `charge=1`. -/
example : dftd4N env T ext (conv binary32 binary64) numbersHF positionsHF (.int 1) param =
    dftd4 env T ext numbersHF positionsHF (scalar ((1 : ℤ) : ℝ)) param :=
  (C98_integer (d := ⟨[], ext.cnD4, none, .key "d4", {}⟩) (conv_ok usual32 usual64) (k := 1) (by norm_num) {} none).1.1

/-- `get_properties(numbers, positions, 0.1)` in double precision. -/
example : getPropertiesN env T ext (conv binary32 binary64) numbersHF positionsHF (some (.float pyTenth)) none =
    getProperties env T ext numbersHF positionsHF (some (scalar pyTenth)) none :=
  (C98_objects (d := ⟨[], ext.cnD4, none, .key "d4", {}⟩) (p := param) (conv_ok usual32 usual64) pyTenth_num {} none).2

/-- A tensor of charges. -/
example : dftd4N env T ext (conv binary32 binary64) numbers positions (.tensor charge) param =
    dftd4 env T ext numbers positions charge param :=
  (C98_tensor (d := ⟨[], ext.cnD4, none, .key "d4", {}⟩) (conv_ok usual32 usual64)
    (fun _ => num64_of_num32 (num32 1 0 (by norm_num) (by norm_num) (by norm_num) (by norm_num [charge]))) {} none).1

/-- `charge=0.5` is exact in both dtypes. -/
example : dftd4N env T ext (conv binary32 binary64) numbersHF positionsHF (.float (1 / 2)) param =
    dftd4 env T ext numbersHF positionsHF (scalar (1 / 2)) param := by
  have h : binary32.Num (1 / 2) := num32 1 (-1) (by norm_num) (by norm_num) (by norm_num) (by norm_num)
  exact C98_dftd4_partial (conv_ok usual32 usual64) h (num64_of_num32 h)

/-- After `torch.set_default_dtype(torch.float64)` also `charge=0.1`. -/
example : dftd4N env T ext (conv binary64 binary64) numbersHF positionsHF (.float pyTenth) param =
    dftd4 env T ext numbersHF positionsHF (scalar pyTenth) param :=
  C98_dftd4_partial (conv_ok usual64 usual64) pyTenth_num pyTenth_num

example : ∃ e e', dftd4 env T ext numbersHF positionsHF (scalar pyTenth) param = .ok e ∧
    dftd4N env T ext (conv binary32 binary64) numbersHF positionsHF (.float pyTenth) param = .ok e' ∧
    e.get [0] ≠ e'.get [0] :=
  (C98_number_false (conv_ok usual32 usual64) rfl rfl).2

/-- Hydrogen fluoride with total charge 0.1. -/
example : ∃ K e e', dftd4 env T ext numbersHF positionsHF (scalar pyTenth) param = .ok e ∧
    dftd4N env T ext (conv binary32 binary64) numbersHF positionsHF (.float pyTenth) param = .ok e' ∧
    ∀ i < 2, |e'.get [i] - e.get [i]| ≤ K * (1 * (|pyTenth| / 2 ^ 24)) := by
  obtain ⟨K, hK⟩ := C98_error (P := par) (env := env) (R := .d4) (T := T) (δ := 1) physical (by norm_num [RefCfg.d4])
    (by norm_num [RefCfg.d4]) (by norm_num [par]) (by norm_num [par]) (Real.sqrt_le_one.2 (by
      show (1 : ℝ) / 2 ^ 52 ≤ 1
      norm_num))
  have hval : ∀ c Q (i : Fin 2), eeq 2 c (elements numbersHF 2 []) (coords positionsHF 2 []) Q i = Q / 2 := by
    intro c Q i
    fin_cases i <;> simp [eeq, Fin.sum_univ_two, elements, numbersHF] <;> norm_num
  refine ⟨K, hK (conv binary32 binary64) ext 2 numbersHF positionsHF pyTenth 1 param {} cn eeq
    (conv_ok usual32 usual64) rfl rfl (callHF_scalar _) rfl rfl ?_ zero_le_one ?_ ?_ ?_ pyTenth_big⟩
  · intro i j hij _ _
    have h1 : (1 : ℝ) ≤ dist (coords positionsHF 2 [] 0) (coords positionsHF 2 [] 1) := by
      rw [EuclideanSpace.dist_eq]
      refine Real.le_sqrt_of_sq_le ?_
      simp [coords, positionsHF, Fin.sum_univ_three, Real.dist_eq]
      norm_num
    fin_cases i <;> fin_cases j
    · exact absurd rfl hij
    · exact h1
    · exact h1.trans (dist_comm _ _).le
    · exact absurd rfl hij
  · intro Q Q' i
    rw [hval, hval, ← sub_div, abs_div, abs_of_pos (two_pos : (0 : ℝ) < 2), one_mul]
    linarith [abs_nonneg (Q - Q')]
  · intro Q hQ i _
    right
    rw [hval]
    have hp : |pyTenth| ≤ 1 := by
      unfold pyTenth
      rw [abs_of_pos (by norm_num)]
      norm_num
    have h0 : -1 ≤ Q := by
      have h1 := (abs_le.1 hQ).1
      have h2 : 0 < pyTenth := by unfold pyTenth; norm_num
      have h3 : |pyTenth| / 2 ^ 24 ≤ 1 := by
        rw [div_le_one (by norm_num)]
        exact hp.trans (by norm_num)
      linarith
    have : (1 : ℝ) ≤ T.zeff (elements numbersHF 2 [] i) := by
      fin_cases i
      · show (1 : ℝ) ≤ ((9 : ℕ) : ℝ)
        norm_num
      · show (1 : ℝ) ≤ ((1 : ℕ) : ℝ)
        norm_num
    show (1 : ℝ) / 2 ^ 52 ≤ _
    have h5 : (1 : ℝ) / 2 ^ 52 ≤ 1 / 2 := by norm_num
    linarith
  · unfold Fmt.small
    have e : binary32.emin + (binary32.p : ℤ) - 1 = -126 := by decide
    rw [e]
    refine (Fmt.two_zpow_le (by norm_num : (-126 : ℤ) ≤ -4)).trans ?_
    unfold pyTenth
    rw [abs_of_pos (by norm_num)]
    norm_num

end Demo

end TadDftd4
