import Verif.Props.C17
import Verif.Lemmas.Calc

/-!
# C39: shapes of the D4S helpers in batches

The documentation promises shape `(..., nat, 23)` for `get_weighted_pols`, `(..., nat)` for
`get_polarizabilities`, and `D4SDebug` for any batch. All three are false; the theorems give the
exact set of shapes for which each works.
-/

set_option linter.unusedSimpArgs false

open scoped Classical

namespace TadDftd4

open Tensor

/-! ## Statements of the documentation -/

/-- `get_weighted_pols` of D4S has shape `(..., nat, 23)`. -/
def D4SWeightedPolsShape (env : Env) (T : Tables) : Prop :=
  ∀ (numbers : Tensor ℕ) (n : ℕ) (B : Shape), numbers.Ok (n :: B) → numbers.AllLt T.nZ →
    let m := mkModel env T .d4s numbers
    (m.weightedPols env T (m.weights env T none none)).Ok (nfreq :: n :: B)

/-- `get_polarizabilities` of D4S has shape `(..., nat)`. -/
def D4SStaticPolsShape (env : Env) (T : Tables) : Prop :=
  ∀ (numbers : Tensor ℕ) (n : ℕ) (B : Shape), numbers.Ok (n :: B) → numbers.AllLt T.nZ →
    let m := mkModel env T .d4s numbers
    (polarizabilities env T m (m.weights env T none none)).Ok (n :: B)

/-- `D4SDebug` computes weights for every batch. -/
def D4SDebugBatches (env : Env) (T : Tables) : Prop :=
  ∀ (numbers : Tensor ℕ) (n : ℕ) (B : Shape), numbers.Ok (n :: B) → numbers.AllLt T.nZ →
    let m := mkModel env T .d4sDebug numbers
    (m.weights env T none none).Ok (nref :: n :: n :: B)

section
variable {env : Env} {T : Tables} {m : RefModel} {numbers : Tensor ℕ} {n : ℕ} {B : Shape}
  {gw : Tensor ℝ}

/-! ## What holds -/

theorem D4S.pairs_ok (h : m.Good T n B) (hg : gw.Ok (nref :: n :: n :: B)) :
    (einsum [⟨[Lbl.r, Lbl.n, Lbl.m], true, gw⟩, ⟨[Lbl.w, Lbl.r, Lbl.n], true,
      getAlpha env T m.numbers m.ga m.gc m.refCharges⟩] [Lbl.w, Lbl.m]).Ok (nfreq :: n :: B) := by
  have ha := getAlpha_ok (env := env) (ga := m.ga) (gc := m.gc) h.num h.fits h.known h.lim
  constructor <;>
  simp [einsum, Operand.dims, Operand.rankOk, Operand.batch, ha.err, ha.shape, hg.err, hg.shape,
    lblOk, lblDim, bcompats, bshapes]

theorem D4S.natT_ok' (h : m.numbers.Ok (n :: B)) : (D4S.natT m.numbers).Ok (1 :: B) := by
  have hs : ((realAtoms m.numbers).map (fun p => if p then (1 : ℝ) else 0)).shape = n :: B := by
    simp [h.shape]
  exact ⟨by simp [D4S.natT, h.err], by rw [D4S.natT, sumLastKeep_shape hs]⟩

/-- Dividing a tensor of shape `(..., a)` by one of shape `(...)` (the same batch) keeps the shape
only if every batch axis, from the last to the first, has size one or the size of the axis after
it. -/
theorem shifted_iff (a : ℕ) (B : Shape) : (bcompat (a :: B) B ∧ bshape (a :: B) B = a :: B) ↔
    List.IsChain (fun x y => y = 1 ∨ y = x) (a :: B) := by
  induction B generalizing a with
  | nil => simp [bcompat, bshape]
  | cons k B ih =>
    rw [List.isChain_cons_cons, ← ih]
    have hd : (dimOk a k ∧ bdim a k = a) ↔ (k = 1 ∨ k = a) := by
      unfold dimOk bdim
      by_cases ha : a = 1
      · subst ha; simp
      · simp only [ha, if_false, and_true, false_or]; tauto
    rw [← hd]
    simp only [bcompat, bshape, List.cons.injEq]
    tauto

/-- `get_weighted_pols` returns the documented shape exactly if every batch axis has size one or the
size of the next axis (the last batch axis: the number of atoms). -/
theorem C39_weighted_pols_iff (h : m.Good T n B) (hg : gw.Ok (nref :: n :: n :: B)) :
    (D4S.weightedPols env T m gw).Ok (nfreq :: n :: B) ↔
      List.IsChain (fun x y => y = 1 ∨ y = x) (n :: B) := by
  have h1 := D4S.pairs_ok (env := env) h hg
  have h2 := D4S.natT_ok' h.num
  rw [← shifted_iff]
  constructor
  · intro hok
    have he := hok.err
    have hs := hok.shape
    simp [D4S.weightedPols, h1.err, h1.shape, h2.err, h2.shape, bErr, bcompat, bshape] at he hs
    exact ⟨he, hs⟩
  · rintro ⟨hc, hs⟩
    constructor <;>
    simp [D4S.weightedPols, h1.err, h1.shape, h2.err, h2.shape, bErr, bcompat, bshape, hc, hs]

/-- Single systems have the documented shape. -/
theorem C39_weighted_pols_single (h : m.Good T n []) (hg : gw.Ok [nref, n, n]) :
    (D4S.weightedPols env T m gw).Ok [nfreq, n] :=
  (C39_weighted_pols_iff h hg).2 (List.isChain_singleton n)

/-- A batch of `n` systems of `n` atoms is accepted, but the polarizability in row `k` of every
system is divided by the number of atoms of system `k`. -/
theorem C39_square_batch (h : m.Good T n [n]) (hg : gw.Ok [nref, n, n, n]) {k s w : ℕ} (hk : k < n)
    (hs : s < n) (hw : w < nfreq) : (D4S.weightedPols env T m gw).get [w, k, s] =
      (∑ i ∈ Finset.range n, polOf env T m.ga m.gc m.refCharges (m.numbers.get [i, s])
        (fun r => gw.get [r, i, k, s]) w) /
        ∑ i ∈ Finset.range n, if m.numbers.get [i, k] ≠ 0 then (1 : ℝ) else 0 := by
  have ha := getAlpha_ok (env := env) (ga := m.ga) (gc := m.gc) h.num h.fits h.known h.lim
  have hin := D4S.pairs_ok (env := env) h hg
  have hn := D4S.natT_ok' h.num
  simp only [D4S.weightedPols, div_get, hin.shape, hn.shape, pick_cons_lt hw, pick_cons_lt hk,
    pick_one, pick_of_InB (show InB [nfreq, n, n] [w, k, s] from ⟨hw, hk, hs, InB_nil⟩)]
  rw [show pick [] [s] = [] from rfl]
  have hsh : ((realAtoms m.numbers).map (fun p => if p then (1 : ℝ) else 0)).shape = [n, n] := by
    simp [h.shape]
  have hnum : (D4S.natT m.numbers).get [0, k] =
      ∑ i ∈ Finset.range n, if m.numbers.get [i, k] ≠ 0 then (1 : ℝ) else 0 := by
    rw [D4S.natT, sumLastKeep_get hsh]
    exact Finset.sum_congr rfl fun i _ => ite_iff Iff.rfl rfl rfl
  rw [hnum]
  congr 1
  simp [einsum, Operand.dims, Operand.rankOk, Operand.batch, ha.shape, hg.shape, lblDim, contracted,
    sumOver, lblSet, bindOut, polOf]
  rw [Finset.sum_comm]
  refine Finset.sum_congr rfl fun i hi => Finset.sum_congr rfl fun r hr => ?_
  have hi := Finset.mem_range.1 hi
  have hr := Finset.mem_range.1 hr
  simp [pick_cons_lt hi, pick_cons_lt hr, pick_cons_lt hk, pick_cons_lt hw, pick_cons_lt hs,
    getAlpha_get h.num h.fits h.known h.lim (show InB [n] [s] from ⟨hs, InB_nil⟩) hi hr hw]

/-- `get_polarizabilities` never returns the documented shape for D4S, for no batch shape: the
result has one axis too many. -/
theorem C39_static_never (h : m.Good T n B) (hg : gw.Ok (nref :: n :: n :: B)) :
    ¬ (polarizabilities env T m gw).Ok (n :: B) := by
  intro hok
  have hs := hok.shape
  have ha := getAlpha_ok (env := env) (ga := m.ga) (gc := m.gc) h.num h.fits h.known h.lim
  have hl := congrArg List.length hs
  have hlen : ∀ s t : Shape, (bshape s t).length = max s.length t.length := by
    intro s
    induction s with
    | nil => intro t; simp [bshape]
    | cons a s ih =>
      intro t
      cases t with
      | nil => simp [bshape]
      | cons b t => simp [bshape, ih]
  simp [polarizabilities, selectLast, einsum, Operand.dims, Operand.batch, ha.shape, hg.shape,
    lblDim, bshapes, hlen] at hl

/-! ## `D4SDebug` -/

/-- The constant weighting factors of shape `(s, s)` act like ones of shape `(..., nat, nat)` if
`s` is one or the number of atoms. -/
theorem D4S.arg_const {s : ℕ} {w : ℝ} (h : m.Good T n B) {cn : Tensor ℝ} (hc : cn.Ok (n :: B))
    (hw : m.wf = full [s, s] w) (hs : s = 1 ∨ s = n) :
    D4S.arg T m cn = D4S.arg T { m with wf := full (n :: n :: B) w } cn := by
  have hd : D4S.dcn T { m with wf := full (n :: n :: B) w } cn = D4S.dcn T m cn := rfl
  have hok := D4S.dcn_ok (T := T) h hc
  have e1 : ∀ x : Tensor ℝ, x.Ok (nref :: n :: n :: B) →
      einsum [⟨[Lbl.r, Lbl.n, Lbl.m], true, -x⟩, ⟨[Lbl.r, Lbl.n, Lbl.m], true, x⟩,
        ⟨[Lbl.m, Lbl.n], true, full [s, s] w⟩] [Lbl.r, Lbl.n, Lbl.m] =
      einsum [⟨[Lbl.r, Lbl.n, Lbl.m], true, -x⟩, ⟨[Lbl.r, Lbl.n, Lbl.m], true, x⟩,
        ⟨[Lbl.m, Lbl.n], true, full (n :: n :: B) w⟩] [Lbl.r, Lbl.n, Lbl.m] := by
    intro x hx
    rcases hs with rfl | rfl <;>
    simp [einsum, Operand.dims, Operand.rankOk, Operand.batch, hx.err, hx.shape, lblOk, lblDim,
      bcompats, bshapes, contracted, sumOver]
  unfold D4S.arg
  rw [hd, hw]
  exact e1 _ hok

theorem D4S.weights_const {s : ℕ} {w : ℝ} (h : m.Good T n B) {co qo : Option (Tensor ℝ)}
    {cg : Idx → ℝ} (hc : D4.OptIs co n B cg) (hw : m.wf = full [s, s] w) (hs : s = 1 ∨ s = n) :
    D4S.weights env T m co qo =
      D4S.weights env T { m with wf := full (n :: n :: B) w } co qo := by
  have hcn : (co.getD (full m.numbers.shape 0)).Ok (n :: B) := by
    rcases hc with ⟨rfl, _⟩ | ⟨t, rfl, ht, _⟩
    · exact ⟨rfl, h.num.shape⟩
    · exact ht
  have e := D4S.arg_const (T := T) h hcn hw hs
  have et : D4S.tmp env T m (co.getD (full m.numbers.shape 0)) =
      D4S.tmp env T { m with wf := full (n :: n :: B) w } (co.getD (full m.numbers.shape 0)) := by
    unfold D4S.tmp; rw [e]; rfl
  have ep : D4S.powT env T m (co.getD (full m.numbers.shape 0)) =
      D4S.powT env T { m with wf := full (n :: n :: B) w } (co.getD (full m.numbers.shape 0)) := by
    funext i; unfold D4S.powT; rw [et]
  have ee : D4S.expw env T m (co.getD (full m.numbers.shape 0)) =
      D4S.expw env T { m with wf := full (n :: n :: B) w } (co.getD (full m.numbers.shape 0)) := by
    unfold D4S.expw D4S.refcPow1 D4S.refcPow3; rw [et, ep]; rfl
  have en : D4S.norm env T m (co.getD (full m.numbers.shape 0)) =
      D4S.norm env T { m with wf := full (n :: n :: B) w } (co.getD (full m.numbers.shape 0)) := by
    unfold D4S.norm; rw [ee]; rfl
  have eg : D4S.gw env T m (co.getD (full m.numbers.shape 0)) =
      D4S.gw env T { m with wf := full (n :: n :: B) w } (co.getD (full m.numbers.shape 0)) := by
    unfold D4S.gw D4S.gwTemp; rw [ee, en]; rfl
  unfold D4S.weights
  simp only []
  rw [eg]
  rfl

/-- The weighting factors of `D4SDebug`: a square matrix of the size of the first axis. -/
theorem debug_wf (hn : numbers.Ok (n :: B)) : getWf T .d4sDebug numbers =
    full [(n :: B).getLast (by simp), (n :: B).getLast (by simp)] 6 := by
  simp [getWf, hn.shape, List.getLast?_eq_some_getLast, wfDefault]

/-- `D4SDebug` gives the weights of D4S with constant factors if the first axis of `numbers` (the
first batch axis, or the atoms of a single system) has size one or the number of atoms. -/
theorem C39_debug {ga gc : ℝ} {rq : String} {co qo : Option (Tensor ℝ)} {cg qg : Idx → ℝ}
    (h : (mkModel env T .d4sDebug numbers ga gc none rq).Good T n B)
    (hs : (n :: B).getLast (by simp) = 1 ∨ (n :: B).getLast (by simp) = n)
    (hc : D4.OptIs co n B cg) (hq : D4.OptIs qo n B qg) :
    ((mkModel env T .d4sDebug numbers ga gc none rq).weights env T co qo).Ok
        (nref :: n :: n :: B) ∧
    (mkModel env T .d4sDebug numbers ga gc none rq).weights env T co qo =
      (mkModel env T .d4s numbers ga gc (some (full (n :: n :: B) 6)) rq).weights env T co qo := by
  have e : (mkModel env T .d4sDebug numbers ga gc none rq).weights env T co qo =
      (mkModel env T .d4s numbers ga gc (some (full (n :: n :: B) 6)) rq).weights env T co qo := by
    show D4S.weights env T _ co qo = D4S.weights env T _ co qo
    rw [D4S.weights_const h hc (debug_wf (T := T) h.num) hs]
    rfl
  refine ⟨?_, e⟩
  rw [e]
  exact D4S.weights_ok (m := mkModel env T .d4s numbers ga gc (some (full (n :: n :: B) 6)) rq)
    ⟨h.num, h.fits, h.known, h.lim⟩ ⟨rfl, rfl⟩ hc hq

/-- In all other batches of systems with two or more atoms `D4SDebug` raises an error. -/
theorem C39_debug_error {ga gc : ℝ} {rq : String} {co qo : Option (Tensor ℝ)} {cg qg : Idx → ℝ}
    (h : (mkModel env T .d4sDebug numbers ga gc none rq).Good T n B) (hn : 2 ≤ n)
    (hs : ¬ ((n :: B).getLast (by simp) = 1 ∨ (n :: B).getLast (by simp) = n))
    (hc : D4.OptIs co n B cg) (hq : D4.OptIs qo n B qg) :
    ((mkModel env T .d4sDebug numbers ga gc none rq).weights env T co qo).err = some .runtime := by
  set m := mkModel env T .d4sDebug numbers ga gc none rq with hm
  have hwf : m.wf = full [(n :: B).getLast (by simp), (n :: B).getLast (by simp)] 6 :=
    debug_wf (T := T) h.num
  generalize (n :: B).getLast (by simp) = s at hs hwf
  have hcn : (co.getD (full m.numbers.shape 0)).Ok (n :: B) := by
    rcases hc with ⟨rfl, _⟩ | ⟨t, rfl, ht, _⟩
    · exact ⟨rfl, h.num.shape⟩
    · exact ht
  have hqn : (qo.getD (full m.numbers.shape 0)).Ok (n :: B) := by
    rcases hq with ⟨rfl, _⟩ | ⟨t, rfl, ht, _⟩
    · exact ⟨rfl, h.num.shape⟩
    · exact ht
  have hd := D4S.dcn_ok (T := T) h hcn
  have h1 : n ≠ 1 := by omega
  have harg : (D4S.arg T m (co.getD (full m.numbers.shape 0))).err = some .runtime := by
    unfold D4S.arg
    rw [hwf]
    push_neg at hs
    simp [einsum, Operand.dims, Operand.rankOk, Operand.batch, hd.err, hd.shape, lblOk, lblDim,
      bdim, h1, hs.1, hs.2]
  have hmask := D4S.mask_ok (T := T) h
  have hrefc := D4S.refc_ok (T := T) h
  have hz := D4S.zeta_ok (env := env) h hqn
  have htmp : (D4S.tmp env T m (co.getD (full m.numbers.shape 0))).err = some .runtime := by
    simp [D4S.tmp, hmask.err, harg]
  have hpow : ∀ i, (D4S.powT env T m (co.getD (full m.numbers.shape 0)) i).err =
      some .runtime := fun i => by simp [D4S.powT, htmp]
  have hexpw : (D4S.expw env T m (co.getD (full m.numbers.shape 0))).err = some .runtime := by
    simp [D4S.expw, D4S.refcPow1, D4S.refcPow3, hmask.err, hrefc.err, htmp, hpow]
  have hgt : (D4S.gwTemp env T m (co.getD (full m.numbers.shape 0))).err = some .runtime := by
    simp [D4S.gwTemp, hexpw]
  have hg : (D4S.gw env T m (co.getD (full m.numbers.shape 0))).err = some .runtime := by
    simp [D4S.gw, hgt]
  show (D4S.weights env T m co qo).err = _
  simp [D4S.weights, hz.err, hg]

/-! ## The documentation is wrong -/

/-- Two copies of an `n`-atomic helium cluster. -/
def heBatch (n k : ℕ) : Tensor ℕ := full [n, k] 2

theorem shipped_good {env : Env} {nExt : ℕ} {gam zeff : ℕ → ℝ} {vdw : ℕ → ℕ → ℝ}
    (hE : ExtTables nExt gam zeff) {kind : ModelKind} {n k : ℕ} :
    (mkModel env (shipped nExt gam zeff vdw) kind (heBatch n k)).Good (shipped nExt gam zeff vdw) n
      [k] :=
  ⟨⟨rfl, rfl⟩, shipped_fits hE, Or.inl rfl, fun _ _ => show 2 < 104 by norm_num⟩

theorem C39_weighted_pols_false {env : Env} {nExt : ℕ} {gam zeff : ℕ → ℝ} {vdw : ℕ → ℕ → ℝ}
    (hE : ExtTables nExt gam zeff) : ¬ D4SWeightedPolsShape env (shipped nExt gam zeff vdw) := by
  intro hall
  have hlt : (heBatch 3 2).AllLt (shipped nExt gam zeff vdw).nZ := fun _ _ =>
    show 2 < 104 by norm_num
  have hg := shipped_good (env := env) (vdw := vdw) hE (kind := .d4s) (n := 3) (k := 2)
  have hw := D4S.weights_ok (env := env) hg
    (getPair_ok (n := 3) (B := [2]) ⟨rfl, rfl⟩ (AllLt.mono hlt (shipped_fits hE).pair))
    (Or.inl ⟨rfl, rfl⟩) (Or.inl ⟨rfl, rfl⟩)
  have := (C39_weighted_pols_iff hg hw).1 (hall (heBatch 3 2) 3 [2] ⟨rfl, rfl⟩ hlt)
  simp at this

theorem C39_static_false {env : Env} {nExt : ℕ} {gam zeff : ℕ → ℝ} {vdw : ℕ → ℕ → ℝ}
    (hE : ExtTables nExt gam zeff) : ¬ D4SStaticPolsShape env (shipped nExt gam zeff vdw) := by
  intro hall
  have hlt : (heBatch 3 2).AllLt (shipped nExt gam zeff vdw).nZ := fun _ _ =>
    show 2 < 104 by norm_num
  have hg := shipped_good (env := env) (vdw := vdw) hE (kind := .d4s) (n := 3) (k := 2)
  have hw := D4S.weights_ok (env := env) hg
    (getPair_ok (n := 3) (B := [2]) ⟨rfl, rfl⟩ (AllLt.mono hlt (shipped_fits hE).pair))
    (Or.inl ⟨rfl, rfl⟩) (Or.inl ⟨rfl, rfl⟩)
  exact C39_static_never hg hw (hall (heBatch 3 2) 3 [2] ⟨rfl, rfl⟩ hlt)

theorem C39_debug_false {env : Env} {nExt : ℕ} {gam zeff : ℕ → ℝ} {vdw : ℕ → ℕ → ℝ}
    (hE : ExtTables nExt gam zeff) : ¬ D4SDebugBatches env (shipped nExt gam zeff vdw) := by
  intro hall
  have hlt : (heBatch 3 2).AllLt (shipped nExt gam zeff vdw).nZ := fun _ _ =>
    show 2 < 104 by norm_num
  have h1 := C39_debug_error (n := 3) (B := [2]) (co := none) (qo := none)
    (shipped_good (env := env) (vdw := vdw) hE (kind := .d4sDebug)) (by norm_num) (by simp)
    (Or.inl ⟨rfl, rfl⟩) (Or.inl ⟨rfl, rfl⟩)
  have h2 := (hall (heBatch 3 2) 3 [2] ⟨rfl, rfl⟩ hlt).err
  rw [h1] at h2
  simp at h2

end

/-! ## Instances -/

/-- A batch of three systems of three atoms and one of two systems of three atoms. -/
example : List.IsChain (fun x y => y = 1 ∨ y = x) [3, 3] ∧
    ¬ List.IsChain (fun x y => y = 1 ∨ y = x) [3, 2] := by simp

example : (mkModel Demo.env Demo.T .d4sDebug (heBatch 3 3)).weights Demo.env Demo.T none none =
    (mkModel Demo.env Demo.T .d4s (heBatch 3 3) gaDefault gcDefault
      (some (full [3, 3, 3] 6))).weights Demo.env Demo.T none none :=
  (C39_debug (n := 3) (B := [3]) (shipped_good Demo.extTables) (by simp) (Or.inl ⟨rfl, rfl⟩)
    (Or.inl ⟨rfl, rfl⟩)).2

example : ((mkModel Demo.env Demo.T .d4sDebug Demo.numbers).weights Demo.env Demo.T none none).err =
    some .runtime :=
  C39_debug_error (n := 3) (B := [2]) ⟨⟨rfl, rfl⟩, Demo.fits, Or.inl rfl,
    fun i _ => Demo.numbers_lt i⟩ (by norm_num) (by simp) (Or.inl ⟨rfl, rfl⟩) (Or.inl ⟨rfl, rfl⟩)

/-- Three systems of three helium atoms. -/
example := C39_square_batch (env := Demo.env) (n := 3) (gw := full [nref, 3, 3, 3] 1) (k := 1) (s := 2)
  (w := 5) (shipped_good (env := Demo.env) (kind := .d4s) (n := 3) (k := 3) Demo.extTables
    (vdw := fun _ _ => 3)) ⟨rfl, rfl⟩ (by norm_num) (by norm_num) (by norm_num)

/-- Two systems of three helium atoms. -/
example := C39_static_never (env := Demo.env) (n := 3) (B := [2]) (gw := full [nref, 3, 3, 2] 1)
  (shipped_good (env := Demo.env) (kind := .d4s) (n := 3) (k := 2) Demo.extTables
    (vdw := fun _ _ => 3)) ⟨rfl, rfl⟩

example : ¬ (D4S.weightedPols Demo.env Demo.T (mkModel Demo.env Demo.T .d4s (heBatch 3 2))
    (full [nref, 3, 3, 2] 1)).Ok [nfreq, 3, 2] := fun h => by
  have := (C39_weighted_pols_iff (n := 3) (B := [2]) (shipped_good Demo.extTables) ⟨rfl, rfl⟩).1 h
  simp at this

example := C39_weighted_pols_single (env := Demo.env) Demo.waterS_good Demo.waterS_weights

end TadDftd4
